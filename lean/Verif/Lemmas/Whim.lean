import Verif.Spec.Whim
import Verif.Lemmas.Storms
import Verif.Model.Tended
import Verif.Lemmas.Sockets
import Verif.Model.Noisy

/-! # Connections that answer as they like -/

namespace Binate

open Spec RSocketMachine

/-- What is needed of a model: frames are only added, and a connection is asked only when it is handed one.
`good` answers are those after which there is a step. -/
structure Asks {ι A S : Type} (step : (ι → List Frame → Frame → A) → S → S → Prop)
    (wire : S → ι → List Frame) (good : A → Prop) (Inv : S → Prop) : Prop where
  keeps : ∀ {tr s s'}, Inv s → step tr s s' → Inv s'
  grows : ∀ {tr s s'}, Inv s → step tr s s' → ∀ i, (wire s i).length ≤ (wire s' i).length
  same : ∀ {tr tr' s s'}, Inv s → step tr s s' →
    (∀ i f, (wire s i).length < (wire s' i).length → good (tr i (wire s i) f) →
      tr' i (wire s i) f = tr i (wire s i) f) → step tr' s s'

section
variable {ι A S : Type} {step : (ι → List Frame → Frame → A) → S → S → Prop} {wire : S → ι → List Frame}
  {good : A → Prop} {Inv : S → Prop}

theorem whim_grows (h : Asks step wire good Inv) {σ : Nat → S} (h0 : Inv (σ 0))
    (hf : Follows (Whim step) σ) : (∀ n, Inv (σ n)) ∧
    ∀ i {n k}, n ≤ k → (wire (σ n) i).length ≤ (wire (σ k) i).length := by
  have inv : ∀ n, Inv (σ n) := by
    intro n
    induction n with
    | zero => exact h0
    | succ n ih =>
      rcases hf n with ⟨tr, hs⟩ | e
      · exact h.keeps ih hs
      · rw [e]; exact ih
  refine ⟨inv, fun i n k hk => ?_⟩
  induction k, hk using Nat.le_induction with
  | base => exact Nat.le_refl _
  | succ k _ ih =>
    rcases hf k with ⟨tr, hs⟩ | e
    · exact Nat.le_trans ih (h.grows (inv k) hs i)
    · rw [e]; exact ih

open Classical in
/-- One function for all the answers in an execution. -/
theorem whim_one (h : Asks step wire good Inv) {σ : Nat → S} (h0 : Inv (σ 0))
    (hf : Follows (Whim step) σ) {d : A} (hd : good d) :
    ∃ tr, (∀ i l f, good (tr i l f)) ∧ WithConn step σ tr := by
  obtain ⟨inv, mono⟩ := whim_grows h h0 hf
  have : Nonempty (ι → List Frame → Frame → A) := ⟨fun _ _ _ => d⟩
  let asked (i : ι) (len n : Nat) : Prop :=
    (wire (σ n) i).length = len ∧ len < (wire (σ (n + 1)) i).length
  have once : ∀ {i len n k}, asked i len n → asked i len k → n = k := by
    intro i len n k hn hk
    rcases Nat.lt_trichotomy n k with hlt | e | hlt
    · have h1 := hn.2
      have h2 := mono i (show n + 1 ≤ k from hlt)
      have h3 := hk.1
      omega
    · exact e
    · have h1 := hk.2
      have h2 := mono i (show k + 1 ≤ n from hlt)
      have h3 := hn.1
      omega
  let conn (n : Nat) : ι → List Frame → Frame → A :=
    if hs : ∃ tr, step tr (σ n) (σ (n + 1)) then hs.choose else fun _ _ _ => d
  let raw : ι → List Frame → Frame → A := fun i l f =>
    if hn : ∃ n, asked i l.length n then conn hn.choose i l f else d
  let tr : ι → List Frame → Frame → A := fun i l f => if good (raw i l f) then raw i l f else d
  refine ⟨tr, fun i l f => ?_, fun n => ?_, fun act ha n hn => ?_⟩
  · show good (if good (raw i l f) then raw i l f else d)
    split
    · assumption
    · exact hd
  · rcases hf n with hs | e
    · left
      have hc : conn n = hs.choose := dif_pos hs
      refine h.same (inv n) hs.choose_spec fun i f hlt hg => ?_
      have hn : ∃ k, asked i (wire (σ n) i).length k := ⟨n, rfl, hlt⟩
      have hr : raw i (wire (σ n) i) f = hs.choose i (wire (σ n) i) f := by
        show (if hn : ∃ n', asked i (wire (σ n) i).length n' then conn hn.choose i (wire (σ n) i) f else d) = _
        rw [dif_pos hn, once hn.choose_spec ⟨rfl, hlt⟩, hc]
      show (if good (raw i (wire (σ n) i) f) then raw i (wire (σ n) i) f else d) = _
      rw [hr, if_pos hg]
    · exact .inr e
  · exact ha n fun k hk =>
      have ⟨s, hs, hact⟩ := hn k hk
      ⟨s, ⟨tr, hs⟩, hact⟩

end

section
variable {A S : Type} {step : (List Frame → Frame → A) → S → S → Prop} {wire : S → List Frame}
  {good : A → Prop} {Inv : S → Prop}

/-- The same for one connection. -/
theorem whim_single
    (keeps : ∀ {tr s s'}, Inv s → step tr s s' → Inv s')
    (grows : ∀ {tr s s'}, Inv s → step tr s s' → (wire s).length ≤ (wire s').length)
    (same : ∀ {tr tr' s s'}, Inv s → step tr s s' →
      (∀ f, (wire s).length < (wire s').length → good (tr (wire s) f) → tr' (wire s) f = tr (wire s) f) →
      step tr' s s')
    {σ : Nat → S} (h0 : Inv (σ 0)) (hf : Follows (Whim step) σ) {d : A} (hd : good d) :
    ∃ tr, (∀ l f, good (tr l f)) ∧ WithConn step σ tr := by
  have h : Asks (fun tr : Unit → List Frame → Frame → A => step (tr ())) (fun s _ => wire s) good Inv :=
    ⟨keeps, fun i hs _ => grows i hs, fun {tr tr' s s'} i hs e => same i hs fun f => e () f⟩
  obtain ⟨tr, h1, h2, h3⟩ := whim_one h h0 (fun n => (hf n).imp (fun ⟨tr, hs⟩ => ⟨fun _ => tr, hs⟩) id) hd
  exact ⟨tr (), h1 (), h2, fun act ha n hn => ha n fun k hk =>
    have ⟨s, hs, hact⟩ := hn k hk
    ⟨s, ⟨tr (), hs⟩, hact⟩⟩

end

/-- What is reached is reached in an execution, which then pauses for ever. -/
theorem reached_follows {S : Type} {step : S → S → Prop} {a b : S} (h : Reached step a b) :
    ∃ σ N, σ 0 = a ∧ Follows step σ ∧ ∀ n, N ≤ n → σ n = b := by
  induction h with
  | here => exact ⟨fun _ => a, 0, rfl, fun _ => .inr rfl, fun _ _ => rfl⟩
  | @next s s' _ hs ih =>
    obtain ⟨σ, N, h0, hf, hN⟩ := ih
    refine ⟨fun n => if n ≤ N then σ n else s', N + 1, by simpa using h0, fun n => ?_, fun n hn => ?_⟩
    · by_cases h1 : n + 1 ≤ N
      · have h2 : n ≤ N := Nat.le_of_succ_le h1
        simpa only [if_pos h1, if_pos h2] using hf n
      · by_cases h2 : n ≤ N
        · have e : n = N := by omega
          left
          simpa only [if_neg h1, if_pos h2, hN n (by omega)] using hs
        · right
          simp only [if_neg h1, if_neg h2]
    · have h1 : ¬ n ≤ N := by omega
      exact if_neg h1

/-! ## One machine -/

section
variable {dbg : Bool}

theorem length_lt_snoc (l : List Frame) (f : Frame) : l.length < (l ++ [f]).length := by
  rw [List.length_append]
  exact Nat.lt_succ_self _

theorem conc_grows {tr : Transport} {s s' : Conc} (h : ConcStep dbg tr s s') :
    s.wire.length ≤ s'.wire.length := by
  cases h <;> first | exact Nat.le_refl _ | exact Nat.le_of_lt (length_lt_snoc _ _)

theorem conc_same {tr tr' : Transport} {s s' : Conc} (h : ConcStep dbg tr s s')
    (e : ∀ f, s.wire.length < s'.wire.length → True → tr' s.wire f = tr s.wire f) :
    ConcStep dbg tr' s s' := by
  have lt : ∀ f, s.wire.length < (s.wire ++ [f]).length := length_lt_snoc _
  cases h with
  | call p => exact .call s p
  | fetch i p h1 => exact .fetch s i p h1
  | checkUsed i p sid h1 h2 => exact .checkUsed s i p sid h1 h2
  | checkFree i p sid h1 h2 => exact .checkFree s i p sid h1 h2
  | sendOne i p sid f h1 h2 =>
    rw [← e (.requestFnf f) (lt _) trivial]
    exact .sendOne s i p sid f h1 h2
  | sendChunk i p sid idx n c c' q f h1 h2 h3 h4 =>
    exact .sendChunk s i p sid idx n c c' q f h1 h2 h3 (by rw [e _ (lt _) trivial]; exact h4)
  | sendChunkErr i p sid idx n c c' q f er h1 h2 h3 h4 =>
    exact .sendChunkErr s i p sid idx n c c' q f er h1 h2 h3 (by rw [e _ (lt _) trivial]; exact h4)
  | finish i p sid idx n c c' h1 h2 => exact .finish s i p sid idx n c c' h1 h2
  | push md =>
    rw [← e _ (lt _) trivial]
    exact .push s md
  | env r => exact .env s r

theorem wild_grows {tr : WildTransport} {s s' : WildConc} (h : WildStep dbg tr s s') :
    s.wire.length ≤ s'.wire.length := by
  cases h <;> first | exact Nat.le_refl _ | exact Nat.le_of_lt (length_lt_snoc _ _)

theorem wild_same {tr tr' : WildTransport} {s s' : WildConc} (h : WildStep dbg tr s s')
    (e : ∀ f, s.wire.length < s'.wire.length → tr s.wire f ≠ .diverge → tr' s.wire f = tr s.wire f) :
    WildStep dbg tr' s s' := by
  have lt : ∀ f, s.wire.length < (s.wire ++ [f]).length := length_lt_snoc _
  cases h with
  | call p => exact .call s p
  | fetch i p h1 => exact .fetch s i p h1
  | checkUsed i p sid h1 h2 => exact .checkUsed s i p sid h1 h2
  | checkFree i p sid h1 h2 => exact .checkFree s i p sid h1 h2
  | sendOne i p sid f r h1 h2 h3 =>
    exact .sendOne s i p sid f r h1 h2 (by rw [e _ (lt _) (by rw [h3]; nofun)]; exact h3)
  | sendOnePanic i p sid f r h1 h2 h3 =>
    exact .sendOnePanic s i p sid f r h1 h2 (by rw [e _ (lt _) (by rw [h3]; nofun)]; exact h3)
  | sendChunk i p sid idx n c c' q f h1 h2 h3 h4 =>
    exact .sendChunk s i p sid idx n c c' q f h1 h2 h3 (by rw [e _ (lt _) (by rw [h4]; nofun)]; exact h4)
  | sendChunkErr i p sid idx n c c' q f er h1 h2 h3 h4 =>
    exact .sendChunkErr s i p sid idx n c c' q f er h1 h2 h3
      (by rw [e _ (lt _) (by rw [h4]; nofun)]; exact h4)
  | sendChunkPanic i p sid idx n c c' q f er h1 h2 h3 h4 =>
    exact .sendChunkPanic s i p sid idx n c c' q f er h1 h2 h3
      (by rw [e _ (lt _) (by rw [h4]; nofun)]; exact h4)
  | finish i p sid idx n c c' h1 h2 => exact .finish s i p sid idx n c c' h1 h2
  | push md r h1 => exact .push s md r (by rw [e _ (lt _) (by rw [h1]; nofun)]; exact h1)
  | pushPanic md r h1 => exact .pushPanic s md r (by rw [e _ (lt _) (by rw [h1]; nofun)]; exact h1)
  | env r => exact .env s r

theorem system_grows {tr : Transport} {s s' : System} (h : System.Step dbg tr s s') :
    s.conc.wire.length ≤ s'.conc.wire.length := by
  cases h with
  | request c new _ hc _ => exact conc_grows hc
  | _ => exact Nat.le_refl _

theorem system_same {tr tr' : Transport} {s s' : System} (h : System.Step dbg tr s s')
    (e : ∀ f, s.conc.wire.length < s'.conc.wire.length → True → tr' s.conc.wire f = tr s.conc.wire f) :
    System.Step dbg tr' s s' := by
  cases h with
  | request c new h0 hc hn => exact .request s c new h0 (conc_same hc e) hn
  | time now h1 => exact .time s now h1
  | close h1 => exact .close s h1
  | wakeEarly h1 h2 h3 => exact .wakeEarly s h1 h2 h3
  | wakeLate h1 h2 h3 => exact .wakeLate s h1 h2 h3
  | dogCloses h1 => exact .dogCloses s h1
  | status st h1 => exact .status s st h1
  | statusEnd h1 => exact .statusEnd s h1
  | clone h1 => exact .clone s h1
  | drop h1 h2 => exact .drop s h1 h2

theorem hosted_grows {tr : Transport} {h h' : Hosted} (hs : Hosted.Step dbg tr h h') :
    h.sys.conc.wire.length ≤ h'.sys.conc.wire.length := by
  cases hs with
  | run s hs _ => exact system_grows hs
  | _ => exact Nat.le_refl _

theorem hosted_same {tr tr' : Transport} {h h' : Hosted} (hs : Hosted.Step dbg tr h h')
    (e : ∀ f, h.sys.conc.wire.length < h'.sys.conc.wire.length → True →
      tr' h.sys.conc.wire f = tr h.sys.conc.wire f) : Hosted.Step dbg tr' h h' := by
  cases hs with
  | run s hs h1 => exact .run h s (system_same hs e) h1
  | shutdown => exact .shutdown h
  | dropDog h1 h2 h3 => exact .dropDog h h1 h2 h3
  | dropListener h1 h2 => exact .dropListener h h1 h2

theorem noisy_grows {tr : Transport} {h h' : Noisy} (hs : Noisy.Step dbg tr h h') :
    h.sys.conc.wire.length ≤ h'.sys.conc.wire.length := by
  cases hs with
  | run s hs _ => exact system_grows hs
  | _ => exact Nat.le_refl _

theorem noisy_same {tr tr' : Transport} {h h' : Noisy} (hs : Noisy.Step dbg tr h h')
    (e : ∀ f, h.sys.conc.wire.length < h'.sys.conc.wire.length → True →
      tr' h.sys.conc.wire f = tr h.sys.conc.wire f) : Noisy.Step dbg tr' h h' := by
  cases hs with
  | run s hs h1 => exact .run h s (system_same hs e) h1
  | dogPanics h1 h2 h3 h4 => exact .dogPanics h h1 h2 h3 h4
  | listenerPanics st h1 h2 => exact .listenerPanics h st h1 h2

theorem wildSystem_grows {tr : WildTransport} {s s' : WildSystem} (h : WildSystem.Step dbg tr s s') :
    s.conc.wire.length ≤ s'.conc.wire.length := by
  cases h with
  | request c new _ hc _ => exact wild_grows hc
  | _ => exact Nat.le_refl _

theorem wildSystem_same {tr tr' : WildTransport} {s s' : WildSystem} (h : WildSystem.Step dbg tr s s')
    (e : ∀ f, s.conc.wire.length < s'.conc.wire.length → tr s.conc.wire f ≠ .diverge →
      tr' s.conc.wire f = tr s.conc.wire f) : WildSystem.Step dbg tr' s s' := by
  cases h with
  | request c new h0 hc hn => exact .request s c new h0 (wild_same hc e) hn
  | time now h1 => exact .time s now h1
  | close h1 => exact .close s h1
  | closePanics h1 => exact .closePanics s h1
  | wakeEarly h1 h2 h3 => exact .wakeEarly s h1 h2 h3
  | wakeLate h1 h2 h3 => exact .wakeLate s h1 h2 h3
  | dogCloses h1 => exact .dogCloses s h1
  | dogPanics h1 => exact .dogPanics s h1
  | status st h1 => exact .status s st h1
  | statusEnd h1 => exact .statusEnd s h1
  | statusPanics h1 => exact .statusPanics s h1
  | clone h1 => exact .clone s h1
  | drop h1 h2 => exact .drop s h1 h2

theorem storm_grows {tr : WildTransport} {h h' : Storm} (hs : Storm.Step dbg tr h h') :
    h.sys.conc.wire.length ≤ h'.sys.conc.wire.length := by
  cases hs with
  | run s hs _ => exact wildSystem_grows hs
  | _ => exact Nat.le_refl _

theorem storm_same {tr tr' : WildTransport} {h h' : Storm} (hs : Storm.Step dbg tr h h')
    (e : ∀ f, h.sys.conc.wire.length < h'.sys.conc.wire.length → tr h.sys.conc.wire f ≠ .diverge →
      tr' h.sys.conc.wire f = tr h.sys.conc.wire f) : Storm.Step dbg tr' h h' := by
  cases hs with
  | run s hs h1 => exact .run h s (wildSystem_same hs e) h1
  | shutdown => exact .shutdown h
  | dropDog h1 h2 h3 => exact .dropDog h h1 h2 h3
  | dropListener h1 h2 => exact .dropListener h h1 h2
  | dogPanics h1 h2 h3 h4 => exact .dogPanics h h1 h2 h3 h4
  | listenerPanics st h1 h2 => exact .listenerPanics h st h1 h2

theorem tended_grows {H : Type} {tr : WildTransport} {a b : Tended H} (hs : Tended.Step dbg tr a b) :
    a.storm.sys.conc.wire.length ≤ b.storm.sys.conc.wire.length := by
  cases hs with
  | machine h hs _ => exact storm_grows hs
  | machinePanics h hs _ _ _ => exact storm_grows hs
  | letGo h1 => exact Nat.le_refl _
  | letGoPanics h1 h2 => exact Nat.le_refl _
  | handler e l h1 h2 => exact Nat.le_refl _

theorem tended_same {H : Type} {tr tr' : WildTransport} {a b : Tended H} (hs : Tended.Step dbg tr a b)
    (e : ∀ f, a.storm.sys.conc.wire.length < b.storm.sys.conc.wire.length →
      tr a.storm.sys.conc.wire f ≠ .diverge →
      tr' a.storm.sys.conc.wire f = tr a.storm.sys.conc.wire f) : Tended.Step dbg tr' a b := by
  cases hs with
  | machine h hs h1 => exact .machine a h (storm_same hs e) h1
  | machinePanics h hs h1 h2 h3 => exact .machinePanics a h (storm_same hs e) h1 h2 h3
  | letGo h1 => exact .letGo a h1
  | letGoPanics h1 h2 => exact .letGoPanics a h1 h2
  | handler _ _ h1 h2 => exact .handler a _ _ h1 h2

end

/-! ## Any number of sockets -/

/-- No frames are at addresses that are not in use. -/
def FreshWires (m : Memory) : Prop := ∀ a, m.next ≤ a → m.wire a = []

/-- A connection in use is handed a frame, or none is. -/
def WiresGrow (m m' : Memory) : Prop :=
  m.next ≤ m'.next ∧ ∀ a, m'.wire a = m.wire a ∨ a < m.next ∧ ∃ f, m'.wire a = m.wire a ++ [f]

theorem WiresGrow.refl (m : Memory) : WiresGrow m m := ⟨Nat.le_refl _, fun _ => .inl rfl⟩

theorem WiresGrow.fresh {m m' : Memory} (h : WiresGrow m m') (hf : FreshWires m) : FreshWires m' := by
  intro a ha
  have hn : m.next ≤ a := Nat.le_trans h.1 ha
  rcases h.2 a with e | ⟨hlt, _⟩
  · rw [e]; exact hf a hn
  · omega

theorem WiresGrow.length {m m' : Memory} (h : WiresGrow m m') (a : Nat) :
    (m.wire a).length ≤ (m'.wire a).length := by
  rcases h.2 a with e | ⟨_, f, e⟩ <;> rw [e]
  exact Nat.le_of_lt (length_lt_snoc _ _)

theorem wiresGrow_hand {m : Memory} {a : Nat} (ha : a < m.next) (f : Frame) :
    WiresGrow m { m with wire := put m.wire a (m.wire a ++ [f]) } := by
  refine ⟨Nat.le_refl _, fun b => ?_⟩
  by_cases e : b = a
  · subst e
    exact .inr ⟨ha, f, by simp [put]⟩
  · exact .inl (by simp [put, e])

theorem wiresGrow_alloc {m : Memory} (hf : FreshWires m) (role : Role) : WiresGrow m (m.alloc role) := by
  refine ⟨Nat.le_add_right _ _, fun b => .inl ?_⟩
  by_cases e : b = m.next + 1
  · subst e
    rw [hf _ (Nat.le_succ _)]
    simp [Memory.alloc, put]
  · simp [Memory.alloc, put, e]

section
variable {dbg : Bool}

theorem world_wires {trs : Nat → Transport} {w w' : World} (inv : WorldInv w) (hf : FreshWires w.memory)
    (h : WorldStep dbg trs w w') : WiresGrow w.memory w'.memory := by
  have live : ∀ {i : Nat} {h : Handle}, w.handles[i]? = some (some h) → h.connection < w.memory.next :=
    fun hi => (inv.lt _ (inv.live _ (List.mem_of_getElem? hi))).2.1
  have calls : ∀ {j : Nat} {h : Handle} {c : Call}, w.calls[j]? = some (h, c) →
      h.connection < w.memory.next :=
    fun hj => (inv.lt _ (inv.calls _ (List.mem_of_getElem? hj))).2.1
  cases h with
  | new role chunk timeout now => exact wiresGrow_alloc hf role
  | sendOne j h p sid f hj _ => exact wiresGrow_hand (calls hj) _
  | sendChunk j h p sid idx n c c' q f hj _ _ _ => exact wiresGrow_hand (calls hj) _
  | sendChunkErr j h p sid idx n c c' q f e hj _ _ _ => exact wiresGrow_hand (calls hj) _
  | push i h md hi => exact wiresGrow_hand (live hi) _
  | _ => exact ⟨Nat.le_refl _, fun _ => .inl rfl⟩

theorem length_lt_put (wire : Nat → List Frame) (a : Nat) (f : Frame) :
    (wire a).length < (put wire a (wire a ++ [f]) a).length := by
  simp [put]

theorem world_same {trs trs' : Nat → Transport} {w w' : World} (h : WorldStep dbg trs w w')
    (e : ∀ a f, (w.memory.wire a).length < (w'.memory.wire a).length → True →
      trs' a (w.memory.wire a) f = trs a (w.memory.wire a) f) : WorldStep dbg trs' w w' := by
  have lt := length_lt_put w.memory.wire
  cases h with
  | new role chunk timeout now => exact .new w role chunk timeout now
  | clone i h hi => exact .clone w i h hi
  | drop i h hi => exact .drop w i h hi
  | call i h p hi => exact .call w i h p hi
  | fetch j h p hj => exact .fetch w j h p hj
  | checkUsed j h p sid hj h1 => exact .checkUsed w j h p sid hj h1
  | checkFree j h p sid hj h1 => exact .checkFree w j h p sid hj h1
  | sendOne j h p sid f hj h1 =>
    rw [← e h.connection (.requestFnf f) (lt _ _) trivial]
    exact .sendOne w j h p sid f hj h1
  | sendChunk j h p sid idx n c c' q f hj h1 h2 h3 =>
    exact .sendChunk w j h p sid idx n c c' q f hj h1 h2 (by rw [e _ _ (lt _ _) trivial]; exact h3)
  | sendChunkErr j h p sid idx n c c' q f er hj h1 h2 h3 =>
    exact .sendChunkErr w j h p sid idx n c c' q f er hj h1 h2 (by rw [e _ _ (lt _ _) trivial]; exact h3)
  | finish j h p sid idx n c c' hj h1 => exact .finish w j h p sid idx n c c' hj h1
  | push i h md hi =>
    rw [← e h.connection _ (lt _ _) trivial]
    exact .push w i h md hi
  | env a r => exact .env w a r

theorem wildWorld_wires {trs : Nat → WildTransport} {w w' : WildWorld} (inv : WildInv w)
    (h : WildWorldStep dbg trs w w') : WiresGrow w.memory w'.memory := by
  have live : ∀ {i : Nat} {h : Handle}, w.handles[i]? = some (some h) → h.connection < w.memory.next :=
    fun hi => (inv.world.lt _ (inv.live hi)).2.1
  have calls : ∀ {j : Nat} {h : Handle} {c : Call}, w.calls[j]? = some (h, c) →
      h.connection < w.memory.next :=
    fun hj => (inv.world.lt _ (inv.world.calls _ (List.mem_of_getElem? hj))).2.1
  cases h with
  | sendOne j h p sid f r hj _ _ => exact wiresGrow_hand (calls hj) _
  | sendOnePanic j h p sid f r hj _ _ => exact wiresGrow_hand (calls hj) _
  | sendChunk j h p sid idx n c c' q f hj _ _ _ => exact wiresGrow_hand (calls hj) _
  | sendChunkErr j h p sid idx n c c' q f e hj _ _ _ => exact wiresGrow_hand (calls hj) _
  | sendChunkPanic j h p sid idx n c c' q f e hj _ _ _ => exact wiresGrow_hand (calls hj) _
  | push i h md r hi _ => exact wiresGrow_hand (live hi) _
  | pushPanic i h md r hi _ => exact wiresGrow_hand (live hi) _
  | _ => exact ⟨Nat.le_refl _, fun _ => .inl rfl⟩

theorem wildWorld_same {trs trs' : Nat → WildTransport} {w w' : WildWorld} (h : WildWorldStep dbg trs w w')
    (e : ∀ a f, (w.memory.wire a).length < (w'.memory.wire a).length →
      trs a (w.memory.wire a) f ≠ .diverge → trs' a (w.memory.wire a) f = trs a (w.memory.wire a) f) :
    WildWorldStep dbg trs' w w' := by
  have lt := length_lt_put w.memory.wire
  cases h with
  | call i h p hi => exact .call w i h p hi
  | fetch j h p hj => exact .fetch w j h p hj
  | checkUsed j h p sid hj h1 => exact .checkUsed w j h p sid hj h1
  | checkFree j h p sid hj h1 => exact .checkFree w j h p sid hj h1
  | sendOne j h p sid f r hj h1 h2 =>
    exact .sendOne w j h p sid f r hj h1 (by rw [e _ _ (lt _ _) (by rw [h2]; nofun)]; exact h2)
  | sendOnePanic j h p sid f r hj h1 h2 =>
    exact .sendOnePanic w j h p sid f r hj h1 (by rw [e _ _ (lt _ _) (by rw [h2]; nofun)]; exact h2)
  | sendChunk j h p sid idx n c c' q f hj h1 h2 h3 =>
    exact .sendChunk w j h p sid idx n c c' q f hj h1 h2
      (by rw [e _ _ (lt _ _) (by rw [h3]; nofun)]; exact h3)
  | sendChunkErr j h p sid idx n c c' q f er hj h1 h2 h3 =>
    exact .sendChunkErr w j h p sid idx n c c' q f er hj h1 h2
      (by rw [e _ _ (lt _ _) (by rw [h3]; nofun)]; exact h3)
  | sendChunkPanic j h p sid idx n c c' q f er hj h1 h2 h3 =>
    exact .sendChunkPanic w j h p sid idx n c c' q f er hj h1 h2
      (by rw [e _ _ (lt _ _) (by rw [h3]; nofun)]; exact h3)
  | finish j h p sid idx n c c' hj h1 => exact .finish w j h p sid idx n c c' hj h1
  | push i h md r hi h1 =>
    exact .push w i h md r hi (by rw [e _ _ (lt _ _) (by rw [h1]; nofun)]; exact h1)
  | pushPanic i h md r hi h1 =>
    exact .pushPanic w i h md r hi (by rw [e _ _ (lt _ _) (by rw [h1]; nofun)]; exact h1)
  | env i h r hi => exact .env w i h r hi

theorem sockets_wires {trs : Nat → Transport} {t t' : Sockets} (inv : WorldInv t.world)
    (hf : FreshWires t.world.memory) (h : SocketsStep dbg trs t t') :
    WiresGrow t.world.memory t'.world.memory := by
  cases h with
  | new role timeout created _ => exact wiresGrow_alloc hf role
  | request w hw _ _ => exact world_wires inv hf hw
  | _ => exact .refl _

theorem sockets_same {trs trs' : Nat → Transport} {t t' : Sockets} (h : SocketsStep dbg trs t t')
    (e : ∀ a f, (t.world.memory.wire a).length < (t'.world.memory.wire a).length → True →
      trs' a (t.world.memory.wire a) f = trs a (t.world.memory.wire a) f) : SocketsStep dbg trs' t t' := by
  cases h with
  | time now h1 => exact .time t now h1
  | new role timeout created h1 => exact .new t role timeout created h1
  | clone i h h1 => exact .clone t i h h1
  | drop i h h1 h2 => exact .drop t i h h1 h2
  | request w hw h1 h2 => exact .request t w (world_same hw e) h1 h2
  | close i h h1 => exact .close t i h h1
  | wakeEarly g h1 h2 h3 h4 => exact .wakeEarly t g h1 h2 h3 h4
  | wakeLate g h1 h2 h3 h4 => exact .wakeLate t g h1 h2 h3 h4
  | dogCloses g h1 h2 => exact .dogCloses t g h1 h2
  | status g st h1 h2 => exact .status t g st h1 h2
  | statusEnd g h1 h2 => exact .statusEnd t g h1 h2

theorem storms_wires {trs : Nat → WildTransport} {t t' : Storms} (inv : WildInv t.world)
    (hf : FreshWires t.world.memory) (h : Storms.Step dbg trs t t') :
    WiresGrow t.world.memory t'.world.memory := by
  cases h with
  | new role timeout created r _ => exact wiresGrow_alloc hf role
  | request w hw => exact wildWorld_wires inv hw
  | _ => exact .refl _

theorem storms_same {trs trs' : Nat → WildTransport} {t t' : Storms} (h : Storms.Step dbg trs t t')
    (e : ∀ a f, (t.world.memory.wire a).length < (t'.world.memory.wire a).length →
      trs a (t.world.memory.wire a) f ≠ .diverge →
      trs' a (t.world.memory.wire a) f = trs a (t.world.memory.wire a) f) : Storms.Step dbg trs' t t' := by
  cases h with
  | time now h1 => exact .time t now h1
  | shutdown r => exact .shutdown t r
  | new role timeout created r h1 => exact .new t role timeout created r h1
  | clone i h h1 => exact .clone t i h h1
  | drop i h h1 h2 => exact .drop t i h h1 h2
  | request w hw => exact .request t w (wildWorld_same hw e)
  | close i h h1 => exact .close t i h h1
  | closePanics i h h1 => exact .closePanics t i h h1
  | wakeEarly g h1 h2 h3 h4 h5 => exact .wakeEarly t g h1 h2 h3 h4 h5
  | wakeLate g h1 h2 h3 h4 h5 => exact .wakeLate t g h1 h2 h3 h4 h5
  | dogLogPanics g h1 h2 h3 h4 h5 => exact .dogLogPanics t g h1 h2 h3 h4 h5
  | dogCloses g h1 h2 h3 => exact .dogCloses t g h1 h2 h3
  | dogPanics g h1 h2 h3 => exact .dogPanics t g h1 h2 h3
  | dropDog g h1 h2 h3 h4 => exact .dropDog t g h1 h2 h3 h4
  | status g st h1 h2 => exact .status t g st h1 h2
  | statusEnd g h1 h2 => exact .statusEnd t g h1 h2
  | statusPanics g h1 h2 => exact .statusPanics t g h1 h2
  | listenerLogPanics g st h1 h2 h3 => exact .listenerLogPanics t g st h1 h2 h3
  | dropListener g h1 h2 h3 => exact .dropListener t g h1 h2 h3

theorem worldInv_init : WorldInv World.init :=
  worldInv (dbg := false) (trs := fun _ _ _ => .ok ()) .init

theorem sockets_asks : Asks (SocketsStep dbg) (fun t => t.world.memory.wire) (fun _ => True)
    (fun t => WorldInv t.world ∧ FreshWires t.world.memory) where
  keeps i h := ⟨(sockets_world i.1 h).1, (sockets_wires i.1 i.2 h).fresh i.2⟩
  grows i h := (sockets_wires i.1 i.2 h).length
  same _ h e := sockets_same h e

theorem storms_asks : Asks (Storms.Step dbg) (fun t => t.world.memory.wire) (· ≠ Outcome.diverge)
    (fun t => WildInv t.world ∧ FreshWires t.world.memory) where
  keeps i h := ⟨(storms_world i.1 h).1, (storms_wires i.1 i.2 h).fresh i.2⟩
  grows i h := (storms_wires i.1 i.2 h).length
  same _ h e := storms_same h e

end

end Binate

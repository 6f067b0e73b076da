import Verif.Spec.Session
import Verif.Lemmas.Peer

/-! # Conforming frames -/

namespace Binate

open Spec RSocketMachine

theorem run_append (role : Role) (s : Session) (a b : List Frame) :
    s.run role (a ++ b) = (s.run role a).bind fun s' => s'.run role b := by
  induction a generalizing s with
  | nil => rfl
  | cons f a ih =>
    show (s.next role f).bind _ = ((s.next role f).bind _).bind _
    cases s.next role f with
    | none => rfl
    | some s' => exact ih s'

theorem run_one (role : Role) (s : Session) (f : Frame) : s.run role [f] = s.next role f := by
  show (s.next role f).bind _ = _
  cases s.next role f <;> rfl

/-- The connection is open and nothing else has happened. -/
def opened : Session := { greeted := true, phase := fun _ => .unused }

theorem run_greeting {role : Role} {g : List Frame} (h : Greeting role g) :
    (Session.start role).run role g = some opened := by
  cases role with
  | client => rcases h with ⟨v, rfl⟩ | ⟨v, rfl⟩ <;> rfl
  | server => rw [show g = [] from h]; rfl

/-- The frames are requests on ids of this side or 0, and METADATA_PUSH frames. -/
def OwnKinds (role : Role) (l : List Frame) : Prop :=
  ∀ f ∈ l, (∃ v, f = .requestFnf v ∧ v.streamId.toNat < 2 ^ 31 ∧
      v.streamId.toNat % 2 = sideParity role) ∨ ∃ md, f = .metadataPush md

/-- A request with the FOLLOWS flag was sent on the stream. -/
def CutOff (l : List Frame) (id : Nat) : Prop :=
  ∃ v, Frame.requestFnf v ∈ l ∧ v.streamId.toNat = id ∧ follows v.flags = true

/-- What is remembered of such frames. -/
structure Remembers (l : List Frame) (s : Session) : Prop where
  greeted : s.greeted = true
  cut : ∀ id, CutOff l id → s.phase id = .cutFnf
  rest : ∀ id, ¬ CutOff l id → s.phase id = .unused

/-- The condition under which such frames are allowed. -/
def Clean (l : List Frame) : Prop := 0 ∉ streamIds l ∧ NoneAfterFollows l

theorem streamIds_snoc (l : List Frame) (f : Frame) :
    streamIds (l ++ [f]) = streamIds l ++ streamIds [f] := List.filterMap_append

theorem clean_snoc {l : List Frame} {f : Frame} : Clean (l ++ [f]) ↔
    Clean l ∧ 0 ∉ streamIds [f] ∧ ∀ sid, onStream sid f = true → ∀ g ∈ l, onStream sid g = true →
      followsOf g = some false := by
  constructor
  · rintro ⟨h1, h2⟩
    rw [streamIds_snoc, List.mem_append, not_or] at h1
    refine ⟨⟨h1.1, fun a g b e => h2 a g (b ++ [f]) ?_⟩, h1.2, h2 l f [] rfl⟩
    rw [e, List.append_assoc]
    rfl
  · rintro ⟨⟨h1, h2⟩, h3, h4⟩
    refine ⟨?_, fun a g b e => ?_⟩
    · rw [streamIds_snoc, List.mem_append, not_or]
      exact ⟨h1, h3⟩
    · rcases List.eq_nil_or_concat b with rfl | ⟨b', x, rfl⟩
      · obtain ⟨e1, e2⟩ := List.append_inj' e rfl
        injection e2 with e2
        subst e1 e2
        exact h4
      · refine h2 a g b' ?_
        have e' : l ++ [f] = (a ++ g :: b') ++ [x] := by rw [e, List.concat_eq_append, List.append_assoc]; rfl
        exact (List.append_inj' e' rfl).1

theorem ownId_iff {role : Role} {id : Nat} (h1 : id < 2 ^ 31) (h2 : id % 2 = sideParity role) :
    ownId role id = true ↔ id ≠ 0 := by
  unfold ownId
  rw [decide_eq_true h1, h2, beq_self_eq_true, Bool.and_true, Bool.and_true, bne_iff_ne]

theorem followsOf_false {v : RequestFnfFrame} :
    followsOf (.requestFnf v) = some false ↔ ¬ follows v.flags = true := by
  show some (follows v.flags) = some false ↔ _
  rw [Option.some.injEq]
  exact Bool.eq_false_iff

theorem onStream_iff {sid : U32} {f : Frame} :
    onStream sid f = true ↔ ∃ v, f = .requestFnf v ∧ v.streamId = sid := by
  constructor
  · intro h
    cases f with
    | requestFnf v => exact ⟨v, rfl, beq_iff_eq.1 h⟩
    | _ => cases h
  · rintro ⟨v, rfl, rfl⟩
    exact beq_self_eq_true _

/-- Such frames are allowed exactly if they are clean. -/
theorem run_opened {role : Role} {l : List Frame} (h : OwnKinds role l) :
    (Clean l → ∃ s, opened.run role l = some s ∧ Remembers l s) ∧
    (¬ Clean l → opened.run role l = none) := by
  induction l using List.reverseRecOn with
  | nil =>
    refine ⟨fun _ => ⟨opened, rfl, rfl, ?_, fun _ _ => rfl⟩, fun hn => absurd ⟨?_, ?_⟩ hn⟩
    · rintro id ⟨v, hv, -⟩
      cases hv
    · exact List.not_mem_nil
    · intro a f b e
      cases a <;> cases e
  | append_singleton l f ih =>
    obtain ⟨i1, i2⟩ := ih fun g hg => h g (List.mem_append_left _ hg)
    rw [run_append, clean_snoc]
    by_cases hc : Clean l
    case neg =>
      rw [i2 hc]
      exact ⟨fun hn => absurd hn.1 hc, fun _ => rfl⟩
    obtain ⟨s, r, rem⟩ := i1 hc
    rw [r]
    show (_ → ∃ s', s.run role [f] = some s' ∧ _) ∧ (_ → s.run role [f] = none)
    have hn : s.next role f = s.after role f := if_pos rem.greeted
    rw [run_one, hn]
    clear hn
    rcases h f (List.mem_append_right _ List.mem_cons_self) with ⟨v, rfl, h1, h2⟩ | ⟨md, rfl⟩
    · have hid := ownId_iff h1 h2
      have hz : 0 ∉ streamIds [.requestFnf v] ↔ v.streamId.toNat ≠ 0 := by
        show 0 ∉ [v.streamId.toNat] ↔ _
        rw [List.mem_singleton]
        exact ⟨fun h e => h e.symm, fun h e => h e.symm⟩
      have hcut : (∀ sid, onStream sid (.requestFnf v) = true → ∀ g ∈ l, onStream sid g = true →
          followsOf g = some false) ↔ ¬ CutOff l v.streamId.toNat := by
        constructor
        · rintro hall ⟨w, hw, e, hf⟩
          have := hall v.streamId (beq_self_eq_true _) _ hw
            (onStream_iff.2 ⟨w, rfl, BitVec.eq_of_toNat_eq e⟩)
          exact followsOf_false.1 this hf
        · intro hn sid hs g hg hgs
          obtain ⟨v', e, rfl⟩ := onStream_iff.1 hs
          cases e
          obtain ⟨w, rfl, e⟩ := onStream_iff.1 hgs
          exact followsOf_false.2 fun hf => hn ⟨w, hg, congrArg _ e, hf⟩
      rw [hz, hcut]
      show (_ → ∃ s', s.request role _ _ = some s' ∧ _) ∧ (_ → s.request role _ _ = none)
      unfold Session.request
      constructor
      · rintro ⟨-, hne, hnc⟩
        rw [if_pos ⟨hid.2 hne, rem.rest _ hnc⟩]
        refine ⟨_, rfl, rem.greeted, fun id hcut' => ?_, fun id hn => ?_⟩
        · obtain ⟨w, hw, e, hf⟩ := hcut'
          show (if id = v.streamId.toNat then _ else _) = _
          rcases List.mem_append.1 hw with hw | hw
          · have hne' : id ≠ v.streamId.toNat := fun e' => hnc ⟨w, hw, e.trans e', hf⟩
            rw [if_neg hne']
            exact rem.cut id ⟨w, hw, e, hf⟩
          · cases List.mem_singleton.1 hw
            rw [if_pos e.symm, if_pos hf]
        · show (if id = v.streamId.toNat then _ else _) = _
          by_cases e : id = v.streamId.toNat
          · rw [if_pos e]
            refine if_neg fun hf => hn ⟨v, List.mem_append_right _ List.mem_cons_self, e.symm, hf⟩
          · rw [if_neg e]
            refine rem.rest id fun ⟨w, hw, e', hf⟩ => hn ⟨w, List.mem_append_left _ hw, e', hf⟩
      · intro hn
        refine if_neg fun ⟨ho, hu⟩ => hn ⟨hc, hid.1 ho, fun hcut' => ?_⟩
        rw [rem.cut _ hcut'] at hu
        cases hu
    · show (_ → ∃ s', some s = some s' ∧ _) ∧ (_ → some s = none)
      refine ⟨fun _ => ⟨s, rfl, rem.greeted, fun id => ?_, fun id hn => ?_⟩, fun hn => absurd ⟨hc, ?_, ?_⟩ hn⟩
      · rintro ⟨w, hw, e, hf⟩
        rcases List.mem_append.1 hw with hw | hw
        · exact rem.cut id ⟨w, hw, e, hf⟩
        · cases List.mem_singleton.1 hw
      · exact rem.rest id fun ⟨w, hw, e', hf⟩ => hn ⟨w, List.mem_append_left _ hw, e', hf⟩
      · exact List.not_mem_nil
      · intro sid hs
        cases hs

theorem conforms_iff {role : Role} {g l : List Frame} (hg : Greeting role g) (h : OwnKinds role l) :
    Conforms role (g ++ l) ↔ Clean l := by
  unfold Conforms
  rw [run_append, run_greeting hg]
  show (∃ s, opened.run role l = some s) ↔ _
  constructor
  · rintro ⟨s, hs⟩
    by_cases hc : Clean l
    · exact hc
    · rw [(run_opened h).2 hc] at hs
      cases hs
  · intro hc
    obtain ⟨s, hs, -⟩ := (run_opened h).1 hc
    exact ⟨s, hs⟩

/-- What a machine sends is of this kind. -/
theorem wire_own {dbg : Bool} {tr : Transport} {m0 : RSocketMachine} {s : Conc} {role : Role}
    (h : ConcReachable dbg tr m0 s) (hp : m0.streamId.word.toNat % 2 = sideParity role) :
    OwnKinds role s.wire := by
  intro f hf
  obtain ⟨log, inv⟩ := ownInv h
  rw [← inv.acc.frames] at hf
  obtain ⟨x, hx, rfl⟩ := List.mem_map.1 hf
  cases ho : x.owner with
  | none =>
    obtain ⟨md, e⟩ := (inv.acc.pushes x hx).1 ho
    exact .inr ⟨_, e⟩
  | some i =>
    left
    have hlt := inv.lt x hx i ho
    have hi : s.calls[i]? = some s.calls[i] := List.getElem?_eq_getElem hlt
    generalize s.calls[i] = c at hi
    have hmem : x ∈ sentBy i log := List.mem_filter.2 ⟨hx, beq_iff_eq.2 ho⟩
    cases hs : callId c with
    | none => rw [own_nil (inv.call i c hi) hs] at hmem; cases hmem
    | some sid =>
      have hm := (own_prefix (inv.call i c hi) hs).subset (List.mem_map_of_mem hmem)
      by_cases h0 : m0.chunkPayload = some 0
      · exfalso
        have hc := inv.call i c hi
        rw [h0] at hc
        cases c with
        | probing => cases hs
        | panicked => cases hs
        | checking => rw [show sentBy i log = [] from hc] at hmem; cases hmem
        | sendingOne => exact absurd hc.1 nofun
        | sending =>
          obtain ⟨size, e, hpos, -⟩ := hc
          cases e
          exact absurd hpos (Nat.lt_irrefl 0)
        | done p x r => cases r <;> exact hc.1 rfl
      obtain ⟨parts, e1, -, -, -⟩ := callFrames_parts sid m0.chunkPayload (callPayload c) h0
      rw [e1] at hm
      obtain ⟨e, he, hfe⟩ := List.mem_map.1 hm
      exact ⟨_, hfe.symm, (inv.ids i c sid hi hs).1, (inv.ids i c sid hi hs).2.trans hp⟩

end Binate

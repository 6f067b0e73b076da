import Verif.Spec.StreamId

/-! # Helper lemmas on stream id allocation -/

namespace Binate

open Spec StreamIdProvider

/-- The provider after `n` draws. -/
def after (p : StreamIdProvider) (n : Nat) : StreamIdProvider :=
  ⟨BitVec.ofNat 32 (p.word.toNat + 2 * n)⟩

theorem after_zero (p : StreamIdProvider) : after p 0 = p := by
  rcases p with ⟨w⟩
  simp [after]

theorem draw_after (p : StreamIdProvider) (n : Nat) :
    ((after p n).draw).1.toNat = idAt p.word.toNat n ∧ ((after p n).draw).2 = after p (n + 1) := by
  constructor
  · show (BitVec.ofNat 32 (p.word.toNat + 2 * n) &&& STREAM_ID_MASK).toNat = _
    rw [BitVec.toNat_and, show STREAM_ID_MASK.toNat = 2 ^ 31 - 1 from rfl,
      Nat.and_two_pow_sub_one_eq_mod, BitVec.toNat_ofNat, idAt]
    omega
  · show StreamIdProvider.mk _ = StreamIdProvider.mk _
    rw [StreamIdProvider.mk.injEq]
    apply BitVec.eq_of_toNat_eq
    simp only [after, BitVec.toNat_add, BitVec.toNat_ofNat]
    omega

theorem idAt_lt (w n : Nat) : idAt w n < 2 ^ 31 := Nat.mod_lt _ (by omega)

theorem idAt_parity (w n : Nat) : idAt w n % 2 = w % 2 := by unfold idAt; omega

theorem idAt_inj {w i j : Nat} (h : idAt w i = idAt w j) (hi : i < 2 ^ 30) (hj : j < 2 ^ 30) :
    i = j := by unfold idAt at h; omega

theorem idAt_period (w n : Nat) : idAt w (n + 2 ^ 30) = idAt w n := by unfold idAt; omega

/-- The counter and the drawn ids of every reachable state. -/
structure DrawInv (p : StreamIdProvider) (s : Sys) : Prop where
  word : s.provider = after p s.drawn.length
  drawn : ∀ x ∈ s.drawn, ∃ n, n < s.drawn.length ∧ x.toNat = idAt p.word.toNat n
  checking : ∀ t x, s.pc t = .checking x → x ∈ s.drawn
  returned : ∀ e ∈ s.returned, e.2.1 ∈ s.drawn ∧ e.2.2 e.2.1 = false

theorem setPc_pc (s : Sys) (t t' : Nat) (pc : PC) :
    (s.setPc t pc).pc t' = if t' = t then pc else s.pc t' := rfl

theorem drawInv {p : StreamIdProvider} {s : Sys} (h : Reachable p s) : DrawInv p s := by
  induction h with
  | init store =>
    exact ⟨(after_zero p).symm, fun x hx => (List.not_mem_nil hx).elim,
      fun t x hx => (nomatch hx), fun e he => (List.not_mem_nil he).elim⟩
  | @step s s' _ hs ih =>
    cases hs with
    | call t hi =>
      refine ⟨ih.word, ih.drawn, fun t' x hx => ?_, ih.returned⟩
      rw [setPc_pc] at hx
      split at hx
      · cases hx
      · exact ih.checking t' x hx
    | fetch t hi =>
      have hd := draw_after p s.drawn.length
      rw [← ih.word] at hd
      refine ⟨hd.2, ?_, ?_, fun e he => ⟨List.mem_cons_of_mem _ (ih.returned e he).1,
        (ih.returned e he).2⟩⟩
      · intro x hx
        rcases List.mem_cons.1 hx with rfl | hx
        · exact ⟨s.drawn.length, Nat.lt_succ_self _, hd.1⟩
        · obtain ⟨n, h1, h2⟩ := ih.drawn x hx
          exact ⟨n, Nat.lt_succ_of_lt h1, h2⟩
      · intro t' x hx
        change (s.setPc t _).pc t' = _ at hx
        rw [setPc_pc] at hx
        split at hx
        · cases hx; exact List.mem_cons_self ..
        · exact List.mem_cons_of_mem _ (ih.checking t' x hx)
    | checkFree t sid hi hf =>
      refine ⟨ih.word, ih.drawn, fun t' x hx => ?_, fun e he => ?_⟩
      · change (s.setPc t _).pc t' = _ at hx
        rw [setPc_pc] at hx
        split at hx
        · cases hx
        · exact ih.checking t' x hx
      · rcases List.mem_cons.1 he with rfl | he
        · exact ⟨ih.checking t sid hi, hf⟩
        · exact ih.returned e he
    | checkUsed t sid hi hf =>
      refine ⟨ih.word, ih.drawn, fun t' x hx => ?_, ih.returned⟩
      rw [setPc_pc] at hx
      split at hx
      · cases hx
      · exact ih.checking t' x hx
    | env store' => exact ⟨ih.word, ih.drawn, ih.checking, ih.returned⟩

/-- Ownership of drawn ids: at most one thread or return per id. -/
structure UniqueInv (s : Sys) : Prop where
  returned : (returnedIds s).Nodup
  checking : ∀ t x, s.pc t = .checking x → x ∉ returnedIds s
  threads : ∀ t t' x, s.pc t = .checking x → s.pc t' = .checking x → t = t'

theorem uniqueInv {p : StreamIdProvider} {s : Sys} (h : Reachable p s)
    (hn : s.drawn.length ≤ 2 ^ 30) : UniqueInv s := by
  induction h with
  | init store => exact ⟨List.nodup_nil, fun t x hx => (nomatch hx), fun t t' x hx => (nomatch hx)⟩
  | @step s s' hr hs ih =>
    have di := drawInv hr
    cases hs with
    | call t hi =>
      obtain ⟨h1, h2, h3⟩ := ih hn
      refine ⟨h1, fun t' x hx => ?_, fun a b x ha hb => ?_⟩
      · rw [setPc_pc] at hx
        split at hx
        · cases hx
        · exact h2 t' x hx
      · rw [setPc_pc] at ha hb
        split at ha
        · cases ha
        · split at hb
          · cases hb
          · exact h3 a b x ha hb
    | fetch t hi =>
      have hn' : s.drawn.length + 1 ≤ 2 ^ 30 := hn
      obtain ⟨h1, h2, h3⟩ := ih (by omega)
      have hd := (draw_after p s.drawn.length).1
      rw [← di.word] at hd
      have fresh : s.provider.draw.1 ∉ s.drawn := by
        intro hm
        obtain ⟨n, k1, k2⟩ := di.drawn _ hm
        have := idAt_inj (hd.symm.trans k2) (by omega) (by omega)
        omega
      refine ⟨h1, fun t' x hx => ?_, fun a b x ha hb => ?_⟩
      · change (s.setPc t _).pc t' = _ at hx
        rw [setPc_pc] at hx
        split at hx
        · cases hx
          intro hm
          obtain ⟨e, he, hx⟩ := List.mem_map.1 hm
          exact fresh (hx ▸ (di.returned e he).1)
        · exact h2 t' x hx
      · change (s.setPc t _).pc a = _ at ha
        change (s.setPc t _).pc b = _ at hb
        rw [setPc_pc] at ha hb
        split at ha
        · next ea =>
          split at hb
          · next eb => rw [ea, eb]
          · cases ha; exact absurd (di.checking b _ hb) fresh
        · split at hb
          · cases hb; exact absurd (di.checking a _ ha) fresh
          · exact h3 a b x ha hb
    | checkFree t sid hi hf =>
      obtain ⟨h1, h2, h3⟩ := ih hn
      refine ⟨List.nodup_cons.2 ⟨h2 t sid hi, h1⟩, fun t' x hx => ?_, fun a b x ha hb => ?_⟩
      · change (s.setPc t _).pc t' = _ at hx
        rw [setPc_pc] at hx
        split at hx
        · cases hx
        · next ne =>
          intro hm
          rcases List.mem_cons.1 hm with e | hm
          · rw [e] at hx; exact ne (h3 t' t sid hx hi)
          · exact h2 t' x hx hm
      · change (s.setPc t _).pc a = _ at ha
        change (s.setPc t _).pc b = _ at hb
        rw [setPc_pc] at ha hb
        split at ha
        · cases ha
        · split at hb
          · cases hb
          · exact h3 a b x ha hb
    | checkUsed t sid hi hf =>
      obtain ⟨h1, h2, h3⟩ := ih hn
      refine ⟨h1, fun t' x hx => ?_, fun a b x ha hb => ?_⟩
      · rw [setPc_pc] at hx
        split at hx
        · cases hx
        · exact h2 t' x hx
      · rw [setPc_pc] at ha hb
        split at ha
        · cases ha
        · split at hb
          · cases hb
          · exact h3 a b x ha hb
    | env store' =>
      obtain ⟨h1, h2, h3⟩ := ih hn
      exact ⟨h1, h2, h3⟩

/-- One thread calling `n` times on an empty store. -/
theorem solo_run (p : StreamIdProvider) (n : Nat) :
    ∃ s, Reachable p s ∧ s.drawn.length = n ∧ (∀ t, s.pc t = .idle) ∧
      (∀ x, s.store x = false) ∧ (returnedIds s).map BitVec.toNat =
        ((List.range n).map (idAt p.word.toNat)).reverse := by
  induction n with
  | zero => exact ⟨_, .init (fun _ => false), rfl, fun _ => rfl, fun _ => rfl, rfl⟩
  | succ n ih =>
    obtain ⟨s, hr, hn, hi, hst, hret⟩ := ih
    have h1 := Reachable.step hr (.call s 0 (hi 0))
    have h2 := Reachable.step h1 (.fetch _ 0 (by rw [setPc_pc]; rfl))
    have h3 := Reachable.step h2 (.checkFree _ 0 s.provider.draw.1 (by
      rfl) (hst _))
    refine ⟨_, h3, congrArg (· + 1) hn, fun t => ?_, hst, ?_⟩
    · show (Sys.setPc _ 0 _).pc t = _
      rw [setPc_pc]
      split
      · rfl
      · next ht =>
        show (Sys.setPc _ 0 _).pc t = _
        rw [setPc_pc, if_neg ht, setPc_pc, if_neg ht]
        exact hi t
    · show s.provider.draw.1.toNat :: (returnedIds s).map BitVec.toNat = _
      rw [hret, List.range_succ, List.map_append, List.reverse_append]
      have hw := (drawInv hr).word
      rw [hw, hn, (draw_after p n).1]
      rfl

/-- What `nextStreamId` returns: the first free id in counter order. -/
theorem nextStreamId_iff (store : Store) (p : StreamIdProvider) (fuel : Nat) (k0 : Nat) (x : U32)
    (q : StreamIdProvider) :
    nextStreamId store fuel (after p k0) = .ok (x, q) ↔
      ∃ k, k0 ≤ k ∧ k < k0 + fuel ∧ x.toNat = idAt p.word.toNat k ∧ store x = false ∧
        (∀ j, k0 ≤ j → j < k → inUse store (idAt p.word.toNat j) = true) ∧ q = after p (k + 1) := by
  induction fuel generalizing k0 with
  | zero =>
    constructor
    · intro h; cases h
    · rintro ⟨k, h1, h2, -⟩; omega
  | succ fuel ih =>
    have hd := draw_after p k0
    have e : nextStreamId store (fuel + 1) (after p k0) =
        if !store (after p k0).draw.1 then .ok ((after p k0).draw.1, (after p k0).draw.2)
        else nextStreamId store fuel (after p k0).draw.2 := rfl
    have hu : inUse store (idAt p.word.toNat k0) = store (after p k0).draw.1 := by
      rw [inUse, ← hd.1, BitVec.ofNat_toNat, BitVec.setWidth_eq]
    rw [e]
    cases hs : store (after p k0).draw.1 with
    | false =>
      rw [Bool.not_false, if_pos rfl]
      constructor
      · intro h
        cases h
        exact ⟨k0, Nat.le_refl _, by omega, hd.1, hs, fun j h1 h2 => absurd h2 (by omega), hd.2⟩
      · rintro ⟨k, h1, h2, h3, h4, h5, h6⟩
        have : k = k0 := by
          by_cases hk : k0 < k
          · have := h5 k0 (Nat.le_refl _) hk
            rw [hu, hs] at this; cases this
          · omega
        subst this
        rw [h6, ← hd.2, BitVec.eq_of_toNat_eq (h3.trans hd.1.symm)]
    | true =>
      rw [Bool.not_true, if_neg (by decide), hd.2, ih]
      constructor
      · rintro ⟨k, h1, h2, h3, h4, h5, h6⟩
        refine ⟨k, by omega, by omega, h3, h4, fun j j1 j2 => ?_, h6⟩
        by_cases hj : j = k0
        · rw [hj, hu, hs]
        · exact h5 j (by omega) j2
      · rintro ⟨k, h1, h2, h3, h4, h5, h6⟩
        refine ⟨k, ?_, by omega, h3, h4, fun j j1 j2 => h5 j (by omega) j2, h6⟩
        by_cases hk : k = k0
        · subst hk
          rw [BitVec.eq_of_toNat_eq (h3.trans hd.1.symm), hs] at h4; cases h4
        · omega

theorem nextStreamId_cases (store : Store) (p : StreamIdProvider) (fuel : Nat) :
    (∃ r, nextStreamId store fuel p = .ok r) ∨ nextStreamId store fuel p = .diverge := by
  induction fuel generalizing p with
  | zero => exact .inr rfl
  | succ fuel ih =>
    have e : nextStreamId store (fuel + 1) p =
        if !store p.draw.1 then .ok (p.draw.1, p.draw.2)
        else nextStreamId store fuel p.draw.2 := rfl
    rw [e]
    split
    · exact .inl ⟨_, rfl⟩
    · exact ih _

/-- Pigeonhole: among the first `keys.length + 1` ids one is not in `keys`. -/
theorem exists_free {w : Nat} {keys : List U32} (h : keys.length < 2 ^ 30) :
    ∃ k, k ≤ keys.length ∧ BitVec.ofNat 32 (idAt w k) ∉ keys := by
  apply Classical.byContradiction
  intro hn
  have hall : ∀ k, k ≤ keys.length → BitVec.ofNat 32 (idAt w k) ∈ keys := by
    intro k hk
    apply Classical.byContradiction
    intro hm
    exact hn ⟨k, hk, hm⟩
  let l := (List.range (keys.length + 1)).map fun k => BitVec.ofNat 32 (idAt w k)
  have hnd : l.Nodup := by
    rw [List.nodup_iff_pairwise_ne, List.pairwise_map]
    apply List.Pairwise.imp_of_mem (R := fun a b => a < b) _ List.pairwise_lt_range
    intro a b ha hb hab he
    have ha := List.mem_range.1 ha
    have hb := List.mem_range.1 hb
    have h1 := congrArg BitVec.toNat he
    rw [BitVec.toNat_ofNat, BitVec.toNat_ofNat, Nat.mod_eq_of_lt
      (Nat.lt_trans (idAt_lt w a) (by omega)), Nat.mod_eq_of_lt
      (Nat.lt_trans (idAt_lt w b) (by omega))] at h1
    have := idAt_inj h1 (by omega) (by omega)
    omega
  have hsub : l ⊆ keys := by
    intro x hx
    obtain ⟨k, hk, rfl⟩ := List.mem_map.1 hx
    exact hall k (by have := List.mem_range.1 hk; omega)
  have := List.Nodup.length_le_of_subset hnd hsub
  rw [List.length_map, List.length_range] at this
  omega

/-! ## Failed checks -/

theorem exec_reachable {p : StreamIdProvider} {P : Store → Prop} {s : Sys} {rej : List (Nat × U32)}
    (h : Exec p P s rej) : Reachable p s := by
  induction h with
  | init store _ => exact .init store
  | step _ hs _ _ ih => exact .step ih hs
  | reject _ hs _ _ _ ih => exact .step ih hs

theorem exec_store {p : StreamIdProvider} {P : Store → Prop} {s : Sys} {rej : List (Nat × U32)}
    (h : Exec p P s rej) : P s.store := by
  cases h with
  | init store hp => exact hp
  | step _ _ hp _ => exact hp
  | reject _ _ hp _ _ => exact hp

/-- Only a check on a present key sends a thread back. -/
theorem reject_inv {s s' : Sys} (hs : Step s s') {t : Nat} {sid : U32} (h1 : s.pc t = .checking sid)
    (h2 : s'.pc t = .probing) : s.store sid = true ∧ s' = s.setPc t .probing := by
  cases hs with
  | call u hi =>
    rw [setPc_pc] at h2
    split at h2
    · next e => rw [e, hi] at h1; cases h1
    · rw [h1] at h2; cases h2
  | fetch u hi =>
    change (s.setPc u _).pc t = _ at h2
    rw [setPc_pc] at h2
    split at h2
    · cases h2
    · rw [h1] at h2; cases h2
  | checkFree u x hi hf =>
    change (s.setPc u _).pc t = _ at h2
    rw [setPc_pc] at h2
    split at h2
    · cases h2
    · rw [h1] at h2; cases h2
  | checkUsed u x hi hf =>
    rw [setPc_pc] at h2
    split at h2
    · next e =>
      subst e
      rw [hi] at h1
      cases h1
      exact ⟨hf, rfl⟩
    · rw [h1] at h2; cases h2
  | env store' =>
    change s.pc t = _ at h2
    rw [h1] at h2
    cases h2

/-- A thread that is checking after a step that was not its `fetch_add` was so before. -/
theorem checking_inv {s s' : Sys} (hs : Step s s') {t : Nat} {x : U32} (h : s'.pc t = .checking x) :
    s.pc t = .checking x ∨ (s'.drawn = x :: s.drawn ∧ x = s.provider.draw.1) := by
  cases hs with
  | call u hi =>
    rw [setPc_pc] at h
    split at h
    · cases h
    · exact .inl h
  | fetch u hi =>
    change (s.setPc u _).pc t = _ at h
    rw [setPc_pc] at h
    split at h
    · cases h; exact .inr ⟨rfl, rfl⟩
    · exact .inl h
  | checkFree u x hi hf =>
    change (s.setPc u _).pc t = _ at h
    rw [setPc_pc] at h
    split at h
    · cases h
    · exact .inl h
  | checkUsed u x hi hf =>
    rw [setPc_pc] at h
    split at h
    · cases h
    · exact .inl h
  | env store' => exact .inl h

theorem drawn_mono {s s' : Sys} (hs : Step s s') :
    s'.drawn = s.drawn ∨ s'.drawn = s.provider.draw.1 :: s.drawn := by
  cases hs with
  | fetch t hi => exact .inr rfl
  | _ => exact .inl rfl

/-- Every failed check is on a key of the store at that time; no id fails twice. -/
structure RejInv (P : Store → Prop) (s : Sys) (rej : List (Nat × U32)) : Prop where
  drawn : ∀ e ∈ rej, e.2 ∈ s.drawn
  nodup : (rej.map (·.2)).Nodup
  checking : ∀ t x, s.pc t = .checking x → x ∉ rej.map (·.2)
  key : ∀ e ∈ rej, ∃ store, P store ∧ store e.2 = true

theorem rejInv {p : StreamIdProvider} {P : Store → Prop} {s : Sys} {rej : List (Nat × U32)}
    (h : Exec p P s rej) (hn : s.drawn.length ≤ 2 ^ 30) : RejInv P s rej := by
  induction h with
  | init store hp =>
    exact ⟨fun e he => (nomatch he), List.nodup_nil, fun t x hx => (nomatch hx), fun e he => (nomatch he)⟩
  | @step s s' rej hx hs hp hne ih =>
    have hlen : s.drawn.length ≤ 2 ^ 30 := by
      rcases drawn_mono hs with e | e <;> rw [e] at hn
      · exact hn
      · exact Nat.le_of_succ_le hn
    have inv := ih hlen
    refine ⟨fun e he => ?_, inv.nodup, fun t x ht hm => ?_, inv.key⟩
    · rcases drawn_mono hs with e' | e' <;> rw [e']
      · exact inv.drawn e he
      · exact List.mem_cons_of_mem _ (inv.drawn e he)
    · rcases checking_inv hs ht with h | ⟨h, hd⟩
      · exact inv.checking t x h hm
      · obtain ⟨e, he, hxe⟩ := List.mem_map.1 hm
        have di := drawInv (exec_reachable hx)
        obtain ⟨n, k1, k2⟩ := di.drawn _ (hxe ▸ inv.drawn e he)
        have hdn := (draw_after p s.drawn.length).1
        rw [← di.word, ← hd] at hdn
        rw [h, List.length_cons] at hn
        have := idAt_inj (hdn.symm.trans k2) (by omega) (by omega)
        omega
  | @reject s s' rej t sid hx hs hp h1 h2 ih =>
    obtain ⟨hk, rfl⟩ := reject_inv hs h1 h2
    have inv := ih hn
    have di := drawInv (exec_reachable hx)
    have ui := uniqueInv (exec_reachable hx) hn
    refine ⟨fun e he => ?_, ?_, fun t' x ht hm => ?_, fun e he => ?_⟩
    · rcases List.mem_cons.1 he with rfl | he
      · exact di.checking t sid h1
      · exact inv.drawn e he
    · exact List.nodup_cons.2 ⟨inv.checking t sid h1, inv.nodup⟩
    · rw [setPc_pc] at ht
      split at ht
      · cases ht
      · next ne =>
        rcases List.mem_cons.1 hm with e | hm
        · rw [e] at ht; exact ne (ui.threads t' t sid ht h1)
        · exact inv.checking t' x ht hm
    · rcases List.mem_cons.1 he with rfl | he
      · exact ⟨s.store, exec_store hx, hk⟩
      · exact inv.key e he

theorem countP_update {ts : List Nat} (hn : ts.Nodup) {t : Nat} {f g : Nat → Bool}
    (h : ∀ u, u ≠ t → f u = g u) (ht : t ∈ ts) :
    ts.countP f + (g t).toNat = ts.countP g + (f t).toNat := by
  induction ts with
  | nil => cases ht
  | cons a ts ih =>
    obtain ⟨ha, hn⟩ := List.nodup_cons.1 hn
    rw [List.countP_cons, List.countP_cons]
    by_cases e : t = a
    · subst e
      have : ts.countP f = ts.countP g := by
        apply List.countP_congr
        intro u hu
        rw [h u (by rintro rfl; exact ha hu)]
      rw [this]
      cases f t <;> cases g t <;> simp
    · have := ih hn ((List.mem_cons.1 ht).resolve_left e)
      rw [h a (fun x => e x.symm)]
      omega

/-- Every draw has been returned, has failed, or is being checked. -/
theorem accounting {p : StreamIdProvider} {P : Store → Prop} {s : Sys} {rej : List (Nat × U32)}
    (h : Exec p P s rej) : ∀ (ts : List Nat), ts.Nodup → (∀ t, isChecking (s.pc t) = true → t ∈ ts) →
      s.drawn.length = s.returned.length + rej.length + ts.countP (fun t => isChecking (s.pc t)) := by
  induction h with
  | init store hp =>
    intro ts _ _
    show 0 = 0 + 0 + ts.countP (fun _ => false)
    rw [List.countP_false]
    rfl
  | @step s s' rej hx hs hp hne ih =>
    intro ts hnd hcov
    -- all steps change the program counter of one thread `t`
    have main : ∀ (t : Nat) (f : PC), s'.pc = (s.setPc t f).pc →
        s'.drawn.length + (isChecking (s.pc t)).toNat + s.returned.length =
          s.drawn.length + s'.returned.length + (isChecking f).toNat →
        s'.drawn.length = s'.returned.length + rej.length +
          ts.countP (fun t => isChecking (s'.pc t)) := by
      intro t f hpc hlen
      have hpct : s'.pc t = f := by rw [hpc, setPc_pc, if_pos rfl]
      have hpco : ∀ u, u ≠ t → s'.pc u = s.pc u := by
        intro u hu; rw [hpc, setPc_pc, if_neg hu]
      by_cases ht : t ∈ ts
      · have h1 := ih ts hnd (fun u hu => by
          by_cases e : u = t
          · rw [e]; exact ht
          · exact hcov u (by rw [hpco u e]; exact hu))
        have h2 := countP_update (f := fun u => isChecking (s'.pc u))
          (g := fun u => isChecking (s.pc u)) hnd (t := t) (fun u hu => by rw [hpco u hu]) ht
        simp only [hpct] at h2
        omega
      · have hf : isChecking f = false := by
          cases hf : isChecking f with
          | false => rfl
          | true => exact absurd (hcov t (by rw [hpct]; exact hf)) ht
        have h1 := ih (t :: ts) (List.nodup_cons.2 ⟨ht, hnd⟩) (fun u hu => by
          by_cases e : u = t
          · rw [e]; exact List.mem_cons_self ..
          · exact List.mem_cons_of_mem _ (hcov u (by rw [hpco u e]; exact hu)))
        have h2 : ts.countP (fun u => isChecking (s'.pc u)) =
            ts.countP (fun u => isChecking (s.pc u)) := by
          apply List.countP_congr
          intro u hu
          rw [hpco u (by rintro rfl; exact ht hu)]
        rw [List.countP_cons] at h1
        rw [hf] at hlen
        rw [h2]
        cases hc : isChecking (s.pc t) <;> rw [hc] at hlen h1 <;> simp at hlen h1 <;> omega
    cases hs with
    | call t hi => exact main t .probing rfl (by rw [hi]; rfl)
    | fetch t hi =>
      refine main t _ rfl ?_
      rw [hi]
      show s.drawn.length + 1 + 0 + s.returned.length = s.drawn.length + s.returned.length + 1
      omega
    | checkFree t x hi hf =>
      refine main t _ rfl ?_
      rw [hi]
      show s.drawn.length + 1 + s.returned.length = s.drawn.length + (s.returned.length + 1) + 0
      omega
    | checkUsed t x hi hf => exact absurd (by rw [setPc_pc, if_pos rfl]) (hne t x hi)
    | env store' => exact ih ts hnd hcov
  | @reject s s' rej t sid hx hs hp h1 h2 ih =>
    obtain ⟨hk, rfl⟩ := reject_inv hs h1 h2
    intro ts hnd hcov
    have hpco : ∀ u, u ≠ t → (s.setPc t .probing).pc u = s.pc u := by
      intro u hu; rw [setPc_pc, if_neg hu]
    show s.drawn.length = s.returned.length + (rej.length + 1) + _
    by_cases ht : t ∈ ts
    · have h3 := ih ts hnd (fun u hu => by
        by_cases e : u = t
        · rw [e]; exact ht
        · exact hcov u (by rw [hpco u e]; exact hu))
      have h4 := countP_update (f := fun u => isChecking ((s.setPc t .probing).pc u))
        (g := fun u => isChecking (s.pc u)) hnd (t := t) (fun u hu => by rw [hpco u hu]) ht
      simp only [h2, h1] at h4
      change _ + 1 = _ + 0 at h4
      omega
    · have h3 := ih (t :: ts) (List.nodup_cons.2 ⟨ht, hnd⟩) (fun u hu => by
        by_cases e : u = t
        · rw [e]; exact List.mem_cons_self ..
        · exact List.mem_cons_of_mem _ (hcov u (by rw [hpco u e]; exact hu)))
      have h4 : ts.countP (fun u => isChecking ((s.setPc t .probing).pc u)) =
          ts.countP (fun u => isChecking (s.pc u)) := by
        apply List.countP_congr
        intro u hu
        rw [hpco u (by rintro rfl; exact ht hu)]
      rw [List.countP_cons, h1] at h3
      change _ = _ + (_ + 1) at h3
      rw [h4]
      omega

/-! ## A store that does not change -/

/-- The same for one id. -/
theorem accounting_id {p : StreamIdProvider} {P : Store → Prop} {s : Sys} {rej : List (Nat × U32)}
    (h : Exec p P s rej) (x : U32) : ∀ (ts : List Nat), ts.Nodup →
      (∀ t, s.pc t = .checking x → t ∈ ts) →
      s.drawn.count x = (returnedIds s).count x + (rej.map (·.2)).count x +
        ts.countP (fun t => decide (s.pc t = .checking x)) := by
  induction h with
  | init store hp =>
    intro ts _ _
    show 0 = 0 + 0 + ts.countP (fun _ => false)
    rw [List.countP_false]
    rfl
  | @step s s' rej hx hs hp hne ih =>
    intro ts hnd hcov
    have main : ∀ (t : Nat) (f : PC), s'.pc = (s.setPc t f).pc →
        s'.drawn.count x + (decide (s.pc t = .checking x)).toNat + (returnedIds s).count x =
          s.drawn.count x + (returnedIds s').count x + (decide (f = .checking x)).toNat →
        s'.drawn.count x = (returnedIds s').count x + (rej.map (·.2)).count x +
          ts.countP (fun t => decide (s'.pc t = .checking x)) := by
      intro t f hpc hlen
      have hpct : s'.pc t = f := by rw [hpc, setPc_pc, if_pos rfl]
      have hpco : ∀ u, u ≠ t → s'.pc u = s.pc u := by
        intro u hu; rw [hpc, setPc_pc, if_neg hu]
      by_cases ht : t ∈ ts
      · have h1 := ih ts hnd (fun u hu => by
          by_cases e : u = t
          · rw [e]; exact ht
          · exact hcov u (by rw [hpco u e]; exact hu))
        have h2 := countP_update (f := fun u => decide (s'.pc u = .checking x))
          (g := fun u => decide (s.pc u = .checking x)) hnd (t := t)
          (fun u hu => by rw [hpco u hu]) ht
        simp only [hpct] at h2
        omega
      · have hf : f ≠ .checking x := fun hf => ht (hcov t (hpct.trans hf))
        have h1 := ih (t :: ts) (List.nodup_cons.2 ⟨ht, hnd⟩) (fun u hu => by
          by_cases e : u = t
          · rw [e]; exact List.mem_cons_self ..
          · exact List.mem_cons_of_mem _ (hcov u (by rw [hpco u e]; exact hu)))
        have h2 : ts.countP (fun u => decide (s'.pc u = .checking x)) =
            ts.countP (fun u => decide (s.pc u = .checking x)) := by
          apply List.countP_congr
          intro u hu
          rw [hpco u (by rintro rfl; exact ht hu)]
        rw [List.countP_cons] at h1
        rw [decide_eq_false hf] at hlen
        rw [h2]
        by_cases hc : s.pc t = .checking x <;> simp [hc] at hlen h1 <;> omega
    cases hs with
    | call t hi =>
      refine main t .probing rfl ?_
      rw [hi, decide_eq_false (by nofun), decide_eq_false (by nofun)]
      rfl
    | fetch t hi =>
      refine main t _ rfl ?_
      rw [hi, decide_eq_false (by nofun)]
      show (s.provider.draw.1 :: s.drawn).count x + 0 + _ = _ + (returnedIds s).count x + _
      rw [List.count_cons]
      by_cases e : s.provider.draw.1 = x
      · simp [e]; omega
      · simp [e]
    | checkFree t y hi hf =>
      refine main t _ rfl ?_
      rw [hi, decide_eq_false (p := PC.idle = _) (by nofun)]
      show s.drawn.count x + _ + _ = s.drawn.count x + (y :: returnedIds s).count x + 0
      rw [List.count_cons]
      by_cases e : y = x
      · simp [e]; omega
      · simp [e]
    | checkUsed t x hi hf => exact absurd (by rw [setPc_pc, if_pos rfl]) (hne t x hi)
    | env store' => exact ih ts hnd hcov
  | @reject s s' rej t sid hx hs hp h1 h2 ih =>
    obtain ⟨hk, rfl⟩ := reject_inv hs h1 h2
    intro ts hnd hcov
    have hpco : ∀ u, u ≠ t → (s.setPc t .probing).pc u = s.pc u := by
      intro u hu; rw [setPc_pc, if_neg hu]
    show s.drawn.count x = (returnedIds s).count x + (sid :: rej.map (·.2)).count x + _
    rw [List.count_cons]
    by_cases ht : t ∈ ts
    · have h3 := ih ts hnd (fun u hu => by
        by_cases e : u = t
        · rw [e]; exact ht
        · exact hcov u (by rw [hpco u e]; exact hu))
      have h4 := countP_update (f := fun u => decide ((s.setPc t .probing).pc u = .checking x))
        (g := fun u => decide (s.pc u = .checking x)) hnd (t := t)
        (fun u hu => by rw [hpco u hu]) ht
      simp only [h2, h1] at h4
      by_cases e : sid = x <;> simp [e] at h4 ⊢ <;> omega
    · have h3 := ih (t :: ts) (List.nodup_cons.2 ⟨ht, hnd⟩) (fun u hu => by
        by_cases e : u = t
        · rw [e]; exact List.mem_cons_self ..
        · exact List.mem_cons_of_mem _ (hcov u (by rw [hpco u e]; exact hu)))
      have h4 : ts.countP (fun u => decide ((s.setPc t .probing).pc u = .checking x)) =
          ts.countP (fun u => decide (s.pc u = .checking x)) := by
        apply List.countP_congr
        intro u hu
        rw [hpco u (by rintro rfl; exact ht hu)]
      rw [List.countP_cons, h1] at h3
      rw [h4]
      by_cases e : sid = x <;> simp [e] at h3 ⊢ <;> omega

/-- The drawn ids are the first ids in counter order. -/
theorem drawn_eq {p : StreamIdProvider} {s : Sys} (h : Reachable p s) :
    s.drawn = ((List.range s.drawn.length).map fun n => BitVec.ofNat 32 (idAt p.word.toNat n)).reverse := by
  induction h with
  | init store => rfl
  | @step s s' hr hs ih =>
    rcases drawn_mono hs with e | e
    · rw [e]; exact ih
    · rw [e, List.length_cons, List.range_succ, List.map_append, List.reverse_append]
      show _ = BitVec.ofNat 32 (idAt p.word.toNat s.drawn.length) :: _
      rw [← ih]
      congr 1
      rw [← (draw_after p s.drawn.length).1, ← (drawInv hr).word, BitVec.ofNat_toNat,
        BitVec.setWidth_eq]

/-- While the latest id drawn is in use, some call is under way. -/
theorem head_used {p : StreamIdProvider} {store : Store} {s : Sys} {rej : List (Nat × U32)}
    (h : Exec p (· = store) s rej) {x : U32} (hx : s.drawn.head? = some x) (hu : store x = true) :
    ∃ t, s.pc t = .probing ∨ s.pc t = .checking x := by
  have keep : ∀ {s s' : Sys}, s.store = store → Step s s' → s'.store = store →
      (∀ x, s.drawn.head? = some x → store x = true →
        ∃ t, s.pc t = .probing ∨ s.pc t = .checking x) →
      ∀ x, s'.drawn.head? = some x → store x = true →
        ∃ t, s'.pc t = .probing ∨ s'.pc t = .checking x := by
    intro s s' hst hs hst' ih x hx hu
    cases hs with
    | call t hi => exact ⟨t, .inl (by rw [setPc_pc, if_pos rfl])⟩
    | fetch t hi =>
      cases hx
      exact ⟨t, .inr (by show (s.setPc t _).pc t = _; rw [setPc_pc, if_pos rfl])⟩
    | checkFree t y hi hf =>
      obtain ⟨u, hw⟩ := ih x hx hu
      have hne : u ≠ t := by
        rintro rfl
        rw [hi] at hw
        rcases hw with e | e
        · cases e
        · cases e
          rw [hst, hu] at hf
          cases hf
      refine ⟨u, ?_⟩
      show (s.setPc t _).pc u = _ ∨ (s.setPc t _).pc u = _
      rw [setPc_pc, if_neg hne]
      exact hw
    | checkUsed t y hi hf => exact ⟨t, .inl (by rw [setPc_pc, if_pos rfl])⟩
    | env store' => exact ih x hx hu
  induction h generalizing x with
  | init store _ => cases hx
  | step hx' hs hp _ ih => exact keep (exec_store hx') hs hp (fun x a b => ih a b) x hx hu
  | reject hx' hs hp _ _ ih => exact keep (exec_store hx') hs hp (fun x a b => ih a b) x hx hu

/-- Every failed check was on a key that is in use. -/
theorem rej_used {p : StreamIdProvider} {store : Store} {s : Sys} {rej : List (Nat × U32)}
    (h : Exec p (· = store) s rej) : ∀ e ∈ rej, store e.2 = true := by
  induction h with
  | init store _ => exact fun e he => (nomatch he)
  | step _ _ _ _ ih => exact ih
  | reject hx hs _ h1 h2 ih =>
    intro e he
    rcases List.mem_cons.1 he with rfl | he
    · rw [← exec_store hx]
      exact (reject_inv hs h1 h2).1
    · exact ih e he

theorem ret_free {p : StreamIdProvider} {store : Store} {s : Sys} {rej : List (Nat × U32)}
    (h : Exec p (· = store) s rej) : ∀ x ∈ returnedIds s, store x = false := by
  have keep : ∀ {s s' : Sys}, s.store = store → Step s s' →
      (∀ x ∈ returnedIds s, store x = false) → ∀ x ∈ returnedIds s', store x = false := by
    intro s s' hst hs ih
    cases hs with
    | checkFree t y hi hf =>
      intro x hx
      rcases List.mem_cons.1 hx with rfl | hx
      · rw [← hst]; exact hf
      · exact ih x hx
    | _ => exact ih
  induction h with
  | init store _ => exact fun e he => (nomatch he)
  | step hx hs _ _ ih => exact keep (exec_store hx) hs ih
  | reject hx hs _ _ _ ih => exact keep (exec_store hx) hs ih

/-- When no call is under way, the free ones among the drawn ids have been returned. -/
theorem quiescent_perm {p : StreamIdProvider} {store : Store} {s : Sys} {rej : List (Nat × U32)}
    (h : Exec p (· = store) s rej) (hq : ∀ t, s.pc t = .idle) :
    (returnedIds s).Perm (s.drawn.filter fun x => !store x) := by
  rw [List.perm_iff_count]
  intro x
  have ha := accounting_id h x [] List.nodup_nil (fun t ht => by rw [hq] at ht; cases ht)
  rw [List.countP_nil] at ha
  cases hx : store x with
  | false =>
    have : (rej.map (·.2)).count x = 0 := by
      apply List.count_eq_zero_of_not_mem
      intro hm
      obtain ⟨e, he, rfl⟩ := List.mem_map.1 hm
      rw [rej_used h e he] at hx
      cases hx
    rw [List.count_filter (by rw [hx]; rfl)]
    omega
  | true =>
    have h1 : (returnedIds s).count x = 0 := by
      apply List.count_eq_zero_of_not_mem
      intro hm
      rw [ret_free h x hm] at hx
      cases hx
    rw [h1, eq_comm]
    apply List.count_eq_zero_of_not_mem
    intro hm
    have := (List.mem_filter.1 hm).2
    rw [hx] at this
    cases this

/-- One caller alone gets the free ids in counter order. -/
theorem alone_prefix (p : StreamIdProvider) (store : Store) (n : Nat) :
    ∃ k, k ≤ n ∧ Alone store p ((((List.range n).map fun n =>
        BitVec.ofNat 32 (idAt p.word.toNat n)).reverse).filter fun x => !store x) (after p k) ∧
      (∀ j, k ≤ j → j < n → inUse store (idAt p.word.toNat j) = true) := by
  induction n with
  | zero =>
    refine ⟨0, Nat.le_refl _, ?_, fun j h1 h2 => absurd h2 (by omega)⟩
    rw [after_zero]
    exact .none
  | succ n ih =>
    obtain ⟨k, h1, h2, h3⟩ := ih
    rw [List.range_succ, List.map_append, List.reverse_append]
    show ∃ k', k' ≤ n + 1 ∧ Alone store p ((BitVec.ofNat 32 (idAt p.word.toNat n) :: _).filter _) _ ∧ _
    cases hs : store (BitVec.ofNat 32 (idAt p.word.toNat n)) with
    | false =>
      refine ⟨n + 1, Nat.le_refl _, ?_, fun j h1 h2 => absurd h2 (by omega)⟩
      rw [List.filter_cons_of_pos (by rw [hs]; rfl)]
      refine .next h2 (fuel := n + 1 - k) ((nextStreamId_iff store p _ k _ _).2
        ⟨n, h1, by omega, ?_, hs, h3, rfl⟩)
      rw [BitVec.toNat_ofNat, Nat.mod_eq_of_lt (Nat.lt_trans (idAt_lt _ n) (by omega))]
    | true =>
      refine ⟨k, by omega, ?_, fun j j1 j2 => ?_⟩
      · rw [List.filter_cons_of_neg (by rw [hs]; nofun)]
        exact h2
      · by_cases e : j = n
        · rw [e]; exact hs
        · exact h3 j j1 (by omega)

theorem nextStreamId_fuel {store : Store} {p : StreamIdProvider} {f g : Nat}
    {a b : U32 × StreamIdProvider} (h1 : nextStreamId store f p = .ok a)
    (h2 : nextStreamId store g p = .ok b) : a = b := by
  induction f generalizing p g with
  | zero => cases h1
  | succ f ih =>
    cases g with
    | zero => cases h2
    | succ g =>
      have e : ∀ n, nextStreamId store (n + 1) p =
        if !store p.draw.1 then .ok (p.draw.1, p.draw.2)
        else nextStreamId store n p.draw.2 := fun _ => rfl
      rw [e] at h1 h2
      split at h1
      · next hc =>
        rw [if_pos hc] at h2
        cases h1; cases h2; rfl
      · next hc =>
        rw [if_neg hc] at h2
        exact ih h1 h2

theorem alone_unique {store : Store} {p : StreamIdProvider} {as bs : List U32}
    {q r : StreamIdProvider} (h1 : Alone store p as q) (h2 : Alone store p bs r)
    (hl : as.length = bs.length) : as = bs ∧ q = r := by
  induction h1 generalizing bs r with
  | none =>
    cases h2 with
    | none => exact ⟨rfl, rfl⟩
    | next _ _ => cases hl
  | @next ids q' q fuel x ha hn ih =>
    cases h2 with
    | none => cases hl
    | next hb hm =>
      obtain ⟨rfl, rfl⟩ := ih hb (Nat.succ.inj hl)
      cases nextStreamId_fuel hn hm
      exact ⟨rfl, rfl⟩

theorem exists_minimal {P : Nat → Prop} (h : ∃ n, P n) : ∃ n, P n ∧ ∀ j, j < n → ¬ P j := by
  obtain ⟨n, hn⟩ := h
  induction n using Nat.strongRecOn with
  | ind n ih =>
    by_cases e : ∃ j, j < n ∧ P j
    · obtain ⟨j, h1, h2⟩ := e
      exact ih j h1 h2
    · exact ⟨n, hn, fun j h1 h2 => e ⟨j, h1, h2⟩⟩

end Binate

import Verif.Lemmas.Segments
import Verif.Spec.Work

/-! # Decoding from a recording buffer -/

namespace Binate

open Spec

variable {β : Type} {α γ : Type}

theorem copies_append (l m : List BufCall) : copies (l ++ m) = copies l ++ copies m := by
  induction l with
  | nil => rfl
  | cons c l ih => cases c <;> simp [copies, ih]

theorem advanced_append (l m : List BufCall) : advanced (l ++ m) = advanced l + advanced m := by
  induction l with
  | nil => simp [advanced]
  | cons c l ih => cases c <;> simp [advanced, ih]; omega

theorem advances_append (l m : List BufCall) : advances (l ++ m) = advances l + advances m := by
  induction l with
  | nil => simp [advances]
  | cons c l ih => cases c <;> simp [advances, ih]; omega

/-- `l'` is `l` and then calls that advanced by `n` bytes, at least one each time, and that copied
`s`. -/
def Spends (l l' : List BufCall) (n : Nat) (s : List Bytes) : Prop :=
  ∃ m, l' = l ++ m ∧ advanced m = n ∧ copies m = s ∧ advances m ≤ advanced m

theorem Spends.refl (l : List BufCall) : Spends l l 0 [] :=
  ⟨[], by simp, rfl, rfl, Nat.le_refl 0⟩

theorem Spends.trans {l l' l'' : List BufCall} {n n' : Nat} {s s' : List Bytes}
    (h : Spends l l' n s) (h' : Spends l' l'' n' s') : Spends l l'' (n + n') (s ++ s') := by
  obtain ⟨m, rfl, hn, hs, ha⟩ := h
  obtain ⟨m', rfl, hn', hs', ha'⟩ := h'
  refine ⟨m ++ m', by simp, by rw [advanced_append, hn, hn'], by rw [copies_append, hs, hs'], ?_⟩
  rw [advanced_append, advances_append]; omega

/-- The decoder `d'` on a recording buffer does what `d` does on the buffer, and in doing so spends
what `P` says on success and what `E` says on an error. -/
def Runs (d' : Dec (Recorded β) α) (d : Dec β α) (P : α → Nat → List Bytes → Prop)
    (E : Nat → Nat → Prop) : Prop :=
  ∀ b l, match d b with
    | .ok v b' => ∃ l' n s, d' ⟨b, l⟩ = .ok v ⟨b', l'⟩ ∧ Spends l l' n s ∧ P v n s
    | .err e b' => ∃ l' n s, d' ⟨b, l⟩ = .err e ⟨b', l'⟩ ∧ Spends l l' n s ∧ E n s.length
    | .panic m => d' ⟨b, l⟩ = .panic m
    | .diverge => d' ⟨b, l⟩ = .diverge

theorem Runs.bind {d' : Dec (Recorded β) α} {d : Dec β α} {k' : α → Dec (Recorded β) γ}
    {k : α → Dec β γ} {P₁ : α → Nat → List Bytes → Prop} {P : γ → Nat → List Bytes → Prop}
    {E : Nat → Nat → Prop} (h : Runs d' d P₁ E)
    (hk : ∀ v n s, P₁ v n s → Runs (k' v) (k v) (fun w n' s' => P w (n + n') (s ++ s'))
      (fun n' c => E (n + n') (s.length + c))) :
    Runs (d' >>= k') (d >>= k) P E := by
  intro b l
  have h := h b l
  rw [Dec.bind_apply]
  cases hd : d b with
  | ok v b' =>
    rw [hd] at h
    obtain ⟨l', n, s, hd', hs, hP⟩ := h
    have hk := hk v n s hP b' l'
    simp only [Dec.bind_apply, hd']
    cases hkb : k v b' with
    | ok w b'' =>
      rw [hkb] at hk
      obtain ⟨l'', n', s', hk', hs', hP'⟩ := hk
      exact ⟨l'', _, _, hk', hs.trans hs', hP'⟩
    | err e b'' =>
      rw [hkb] at hk
      obtain ⟨l'', n', s', hk', hs', hE⟩ := hk
      exact ⟨l'', _, _, hk', hs.trans hs', by rw [List.length_append]; exact hE⟩
    | panic m => rw [hkb] at hk; exact hk
    | diverge => rw [hkb] at hk; exact hk
  | err e b' =>
    rw [hd] at h
    obtain ⟨l', n, s, hd', hs, hE⟩ := h
    exact ⟨l', n, s, by rw [Dec.bind_apply, hd'], hs, hE⟩
  | panic m => rw [hd] at h; show _ = _; rw [Dec.bind_apply, h]
  | diverge => rw [hd] at h; show _ = _; rw [Dec.bind_apply, h]

theorem Runs.mono {d' : Dec (Recorded β) α} {d : Dec β α} {P Q : α → Nat → List Bytes → Prop}
    {E F : Nat → Nat → Prop} (h : Runs d' d P E) (hP : ∀ v n s, P v n s → Q v n s)
    (hE : ∀ n c, E n c → F n c) : Runs d' d Q F := by
  intro b l
  have h := h b l
  cases hd : d b with
  | ok v b' =>
    rw [hd] at h
    obtain ⟨l', n, s, hd', hs, hp⟩ := h
    exact ⟨l', n, s, hd', hs, hP _ _ _ hp⟩
  | err e b' =>
    rw [hd] at h
    obtain ⟨l', n, s, hd', hs, he⟩ := h
    exact ⟨l', n, s, hd', hs, hE _ _ he⟩
  | panic m => rw [hd] at h; exact h
  | diverge => rw [hd] at h; exact h

theorem Runs.pure {v : α} {P : α → Nat → List Bytes → Prop} {E : Nat → Nat → Prop}
    (h : P v 0 []) : Runs (β := β) (Pure.pure v) (Pure.pure v) P E :=
  fun _ l => ⟨l, 0, [], rfl, .refl l, h⟩

theorem Runs.fail {e : DecodeError} {P : α → Nat → List Bytes → Prop} {E : Nat → Nat → Prop}
    (h : E 0 0) : Runs (β := β) (Dec.fail e) (Dec.fail e) P E :=
  fun _ l => ⟨l, 0, [], rfl, .refl l, h⟩

theorem Runs.panic {m : String} {P : α → Nat → List Bytes → Prop} {E : Nat → Nat → Prop} :
    Runs (β := β) (Dec.panic m) (Dec.panic m) P E :=
  fun _ _ => rfl

/-- A method of the recording buffer that does what `f` does and spends what `P` says. -/
def Does (f' : Recorded β → Outcome (α × Recorded β)) (f : β → Outcome (α × β))
    (P : α → Nat → List Bytes → Prop) : Prop :=
  ∀ b l, match f b with
    | .ok (v, b') => ∃ l' n s, f' ⟨b, l⟩ = .ok (v, ⟨b', l'⟩) ∧ Spends l l' n s ∧ P v n s
    | .panic m => f' ⟨b, l⟩ = .panic m
    | .diverge => f' ⟨b, l⟩ = .diverge

theorem Does.runs {f' : Recorded β → Outcome (α × Recorded β)} {f : β → Outcome (α × β)}
    {P : α → Nat → List Bytes → Prop} {E : Nat → Nat → Prop} (h : Does f' f P) :
    Runs (Dec.lift f') (Dec.lift f) P E := by
  intro b l
  have h := h b l
  cases hf : f b with
  | ok p =>
    obtain ⟨v, b'⟩ := p
    rw [hf] at h
    obtain ⟨l', n, s, hf', hs, hp⟩ := h
    have : Dec.lift f b = .ok v b' := by rw [Dec.lift, hf]
    rw [this]
    exact ⟨l', n, s, by rw [Dec.lift, hf'], hs, hp⟩
  | panic m =>
    rw [hf] at h
    have : Dec.lift f b = .panic m := by rw [Dec.lift, hf]
    rw [this]
    show _ = _
    rw [Dec.lift, h]
  | diverge =>
    rw [hf] at h
    have : Dec.lift f b = .diverge := by rw [Dec.lift, hf]
    rw [this]
    show _ = _
    rw [Dec.lift, h]

theorem Does.map {f' : Recorded β → Outcome (α × Recorded β)} {f : β → Outcome (α × β)}
    {k : Nat} (h : Does f' f (fun _ n s => n = k ∧ s = [])) (g : α → γ) :
    Does (fun b => f' b >>= fun p => .ok (g p.1, p.2)) (fun b => f b >>= fun p => .ok (g p.1, p.2))
      (fun _ n s => n = k ∧ s = []) := by
  intro b l
  have h := h b l
  simp only
  cases hf : f b with
  | ok p =>
    obtain ⟨v, b'⟩ := p
    rw [hf] at h
    obtain ⟨l', n, s, hf', hs, hp⟩ := h
    exact ⟨l', n, s, by rw [hf']; rfl, hs, hp⟩
  | panic m => rw [hf] at h; show _ = _; simp only [h, Outcome.panic_bind]
  | diverge => rw [hf] at h; show _ = _; simp only [h, Outcome.diverge_bind]

variable [Buf β]

theorem runs_remaining {P : Nat → Nat → List Bytes → Prop} {E : Nat → Nat → Prop}
    (h : ∀ v, P v 0 []) : Runs (β := β) remainingD remainingD P E :=
  fun _ l => ⟨l, 0, [], rfl, .refl l, h _⟩

theorem runs_incomplete (len : Nat) {P : Unit → Nat → List Bytes → Prop} {E : Nat → Nat → Prop}
    (h : P () 0 []) (hE : E 0 0) :
    Runs (β := β) (incompleteIfLessThan len) (incompleteIfLessThan len) P E := by
  intro b l
  by_cases hb : BufCore.remaining b < len
  · have h1 : (incompleteIfLessThan len : Dec β Unit) b = .err .inComplete b := if_pos hb
    rw [h1]
    exact ⟨l, 0, [], if_pos hb, .refl l, hE⟩
  · have h1 : (incompleteIfLessThan len : Dec β Unit) b = .ok () b := if_neg hb
    rw [h1]
    exact ⟨l, 0, [], if_neg hb, .refl l, h⟩

theorem advance_recorded (b : β) (l : List BufCall) (n : Nat) :
    BufCore.advance (⟨b, l⟩ : Recorded β) n =
      (BufCore.advance b n >>= fun b' => .ok ⟨b', l ++ [.advance n]⟩) := rfl

theorem spends_advance (l : List BufCall) {n : Nat} (h : 0 < n) :
    Spends l (l ++ [.advance n]) n [] :=
  ⟨[.advance n], rfl, by simp [advanced], rfl, by simp [advances, advanced]; omega⟩

theorem does_copyLoop (fuel : Nat) : ∀ need acc, Does (β := β)
    (fun b => BufCore.copyLoop fuel need b acc) (fun b => BufCore.copyLoop fuel need b acc)
    (fun _ n s => n = need ∧ s = []) := by
  induction fuel with
  | zero =>
    intro need acc b l
    cases need with
    | zero => exact ⟨l, 0, [], rfl, .refl l, rfl, rfl⟩
    | succ k => exact rfl
  | succ fuel ih =>
    intro need acc b l
    cases need with
    | zero => exact ⟨l, 0, [], rfl, .refl l, rfl, rfl⟩
    | succ need =>
      simp only [BufCore.copyLoop, advance_recorded]
      have hch : BufCore.chunk (⟨b, l⟩ : Recorded β) = BufCore.chunk b := rfl
      rw [hch]
      by_cases h0 : min (BufCore.chunk b).length (need + 1) = 0
      · rw [if_pos h0, if_pos h0]
      · rw [if_neg h0, if_neg h0]
        cases ha : BufCore.advance b (min (BufCore.chunk b).length (need + 1)) with
        | panic m => rfl
        | diverge => rfl
        | ok b₁ =>
          simp only [Outcome.ok_bind]
          have hi := ih (need + 1 - min (BufCore.chunk b).length (need + 1))
            (acc ++ (BufCore.chunk b).take (min (BufCore.chunk b).length (need + 1))) b₁
            (l ++ [.advance (min (BufCore.chunk b).length (need + 1))])
          simp only at hi
          cases hc : BufCore.copyLoop fuel (need + 1 - min (BufCore.chunk b).length (need + 1)) b₁
              (acc ++ (BufCore.chunk b).take (min (BufCore.chunk b).length (need + 1))) with
          | panic m => rw [hc] at hi; exact hi
          | diverge => rw [hc] at hi; exact hi
          | ok p =>
            obtain ⟨v, b'⟩ := p
            rw [hc] at hi
            obtain ⟨l', n, s, h1, h2, h3, h4⟩ := hi
            exact ⟨l', _, _, h1, (spends_advance l (by omega)).trans h2, by omega, by simp [h4]⟩

theorem does_getArray {k : Nat} (hk : 0 < k) :
    Does (β := β) (BufCore.getArray k) (BufCore.getArray k) (fun _ n s => n = k ∧ s = []) := by
  intro b l
  have hch : BufCore.chunk (⟨b, l⟩ : Recorded β) = BufCore.chunk b := rfl
  have hrm : BufCore.remaining (⟨b, l⟩ : Recorded β) = BufCore.remaining b := rfl
  simp only [BufCore.getArray, advance_recorded, hch]
  by_cases h : k ≤ (BufCore.chunk b).length
  · rw [if_pos h, if_pos h]
    cases ha : BufCore.advance b k with
    | panic m => rfl
    | diverge => rfl
    | ok b₁ => exact ⟨_, k, [], rfl, spends_advance l hk, rfl, rfl⟩
  · rw [if_neg h, if_neg h]
    simp only [BufCore.copyToSlice, hrm]
    by_cases hr : k ≤ BufCore.remaining b
    · simp only [hr, decide_true, Outcome.assert_true, Outcome.ok_bind]
      exact does_copyLoop k k [] b l
    · simp only [hr, decide_false, Outcome.assert_false, Outcome.panic_bind]

theorem does_getU16 : Does (β := β) BufCore.getU16 BufCore.getU16 (fun _ n s => n = 2 ∧ s = []) :=
  (does_getArray (by omega)).map BufCore.beU16

theorem does_getU32 : Does (β := β) BufCore.getU32 BufCore.getU32 (fun _ n s => n = 4 ∧ s = []) :=
  (does_getArray (by omega)).map BufCore.beU32

theorem does_getU64 : Does (β := β) BufCore.getU64 BufCore.getU64 (fun _ n s => n = 8 ∧ s = []) :=
  (does_getArray (by omega)).map BufCore.beU64

theorem does_getU8 : Does (β := β) BufCore.getU8 BufCore.getU8 (fun _ n s => n = 1 ∧ s = []) := by
  intro b l
  have hch : BufCore.chunk (⟨b, l⟩ : Recorded β) = BufCore.chunk b := rfl
  have hrm : BufCore.remaining (⟨b, l⟩ : Recorded β) = BufCore.remaining b := rfl
  simp only [BufCore.getU8, hch, hrm, advance_recorded]
  by_cases hr : 1 ≤ BufCore.remaining b
  · simp only [hr, decide_true, Outcome.assert_true, Outcome.ok_bind]
    cases BufCore.chunk b with
    | nil => rfl
    | cons x xs =>
      simp only
      cases ha : BufCore.advance b 1 with
      | panic m => rfl
      | diverge => rfl
      | ok b₁ => exact ⟨_, 1, [], rfl, spends_advance l (by omega), rfl, rfl⟩
  · simp only [hr, decide_false, Outcome.assert_false, Outcome.panic_bind]

theorem does_copy (k : Nat) : Does (β := β) (fun b => Buf.copyToBytes b k)
    (fun b => Buf.copyToBytes b k) (fun v n s => n = 0 ∧ s = [v]) := by
  intro b l
  have h : Buf.copyToBytes (⟨b, l⟩ : Recorded β) k =
    (Buf.copyToBytes b k >>= fun p => .ok (p.1, ⟨p.2, l ++ [.copy k p.1]⟩)) := rfl
  simp only [h]
  cases hc : Buf.copyToBytes b k with
  | panic m => rfl
  | diverge => rfl
  | ok p => exact ⟨_, 0, [p.1], rfl, ⟨[.copy k p.1], rfl, rfl, rfl, Nat.le_refl 0⟩, rfl, rfl⟩

section

variable {E : Nat → Nat → Prop}

/-- Reading `k` bytes of numbers and nothing else. -/
def ReadsNumber (k : Nat) (d' : Dec (Recorded β) α) (d : Dec β α) : Prop :=
  ∀ (E : Nat → Nat → Prop), E 0 0 → Runs d' d (fun _ n s => n = k ∧ s = []) E

theorem ReadsNumber.of {k len : Nat} {f' : Recorded β → Outcome (α × Recorded β)}
    {f : β → Outcome (α × β)} (h : Does f' f (fun _ n s => n = k ∧ s = [])) (g : α → γ) :
    ReadsNumber k (incompleteIfLessThan len >>= fun _ => Dec.lift f' >>= fun v => Pure.pure (g v))
      (incompleteIfLessThan len >>= fun _ => Dec.lift f >>= fun v => Pure.pure (g v)) := by
  intro E hE
  refine (runs_incomplete len (P := fun _ n s => n = 0 ∧ s = []) ⟨rfl, rfl⟩ hE).bind ?_
  rintro _ _ _ ⟨rfl, rfl⟩
  refine h.runs.bind ?_
  rintro _ _ _ ⟨rfl, rfl⟩
  exact .pure (by simp)

theorem ReadsNumber.of' {k len : Nat} {f' : Recorded β → Outcome (α × Recorded β)}
    {f : β → Outcome (α × β)} (h : Does f' f (fun _ n s => n = k ∧ s = [])) :
    ReadsNumber k (incompleteIfLessThan len >>= fun _ => Dec.lift f')
      (incompleteIfLessThan len >>= fun _ => Dec.lift f) := by
  intro E hE
  refine (runs_incomplete len (P := fun _ n s => n = 0 ∧ s = []) ⟨rfl, rfl⟩ hE).bind ?_
  rintro _ _ _ ⟨rfl, rfl⟩
  exact h.runs.mono (by simp) (fun _ _ h => h)

theorem reads_streamId : ReadsNumber (β := β) 4 eatStreamId eatStreamId := .of does_getU32 _
theorem reads_u31 : ReadsNumber (β := β) 4 eatU31 eatU31 := .of does_getU32 _
theorem reads_u63 : ReadsNumber (β := β) 8 eatU63 eatU63 := .of does_getU64 _
theorem reads_u32 : ReadsNumber (β := β) 4 eatU32 eatU32 := .of' does_getU32
theorem reads_u16 : ReadsNumber (β := β) 2 eatU16 eatU16 := .of' does_getU16
theorem reads_u8 : ReadsNumber (β := β) 1 eatU8 eatU8 := .of' does_getU8

theorem reads_version : ReadsNumber (β := β) 4 eatVersion eatVersion := by
  intro E hE
  refine (runs_incomplete 4 (P := fun _ n s => n = 0 ∧ s = []) ⟨rfl, rfl⟩ hE).bind ?_
  rintro _ _ _ ⟨rfl, rfl⟩
  refine does_getU16.runs.bind ?_
  rintro _ _ _ ⟨rfl, rfl⟩
  refine does_getU16.runs.bind ?_
  rintro _ _ _ ⟨rfl, rfl⟩
  exact .pure (by simp)

theorem runs_flags (hE : E 0 0) (hE' : E 2 0) :
    Runs (β := β) eatFlags eatFlags (fun _ n s => n = 2 ∧ s = []) E := by
  refine (runs_incomplete 2 (P := fun _ n s => n = 0 ∧ s = []) ⟨rfl, rfl⟩ hE).bind ?_
  rintro _ _ _ ⟨rfl, rfl⟩
  refine does_getU16.runs.bind ?_
  rintro v _ _ ⟨rfl, rfl⟩
  simp only
  cases FrameType.fromBits v with
  | none => exact .fail (by simpa using hE')
  | some ft => exact .pure (by simp)

theorem runs_u24 (hE : E 0 0) (hE' : E 1 0) :
    Runs (β := β) eatU24 eatU24 (fun _ n s => n = 3 ∧ s = []) E := by
  refine (reads_u8 _ hE).bind ?_
  rintro _ _ _ ⟨rfl, rfl⟩
  refine (reads_u16 _ (by simpa using hE')).bind ?_
  rintro _ _ _ ⟨rfl, rfl⟩
  exact .pure (by simp)

theorem runs_bytes (k : Nat) (hE : E 0 0) :
    Runs (β := β) (eatBytes k) (eatBytes k) (fun v n s => n = 0 ∧ s = [v]) E := by
  refine (runs_incomplete k (P := fun _ n s => n = 0 ∧ s = []) ⟨rfl, rfl⟩ hE).bind ?_
  rintro _ _ _ ⟨rfl, rfl⟩
  exact (does_copy k).runs.mono (by simp) (fun _ _ h => h)

/-- Taking all that remains does not fail. -/
theorem eatAll {δ : Type} [Buf δ] (b : δ) : (eatBytes (BufCore.remaining b) : Dec δ Bytes) b =
    (Dec.lift fun b' => Buf.copyToBytes b' (BufCore.remaining b)) b := by
  rw [eatBytes, Dec.bind_apply, incompleteIfLessThan, if_neg (by omega)]

theorem runs_all : Runs (β := β) (remainingD >>= fun n => eatBytes n)
    (remainingD >>= fun n => eatBytes n) (fun v n s => n = 0 ∧ s = [v]) E := by
  intro b l
  have h1 : (remainingD >>= fun n => eatBytes n : Dec β Bytes) b =
      eatBytes (BufCore.remaining b) b := rfl
  have h2 : (remainingD >>= fun n => eatBytes n : Dec (Recorded β) Bytes) ⟨b, l⟩ =
      eatBytes (BufCore.remaining (⟨b, l⟩ : Recorded β)) ⟨b, l⟩ := rfl
  rw [h1, h2, eatAll, eatAll]
  exact (does_copy _).runs b l

theorem eatRest_apply {δ : Type} [Buf δ] (b : δ) : (eatRest : Dec δ (Option Bytes)) b =
    if BufCore.remaining b = 0 then .ok none b
    else ((remainingD >>= fun n => eatBytes n) >>= fun s => pure (some s) : Dec δ _) b := by
  rw [eatRest, Dec.bind_apply, remainingD]
  simp only
  cases h : BufCore.remaining b with
  | zero => rfl
  | succ k =>
    rw [if_neg (by omega)]
    show (eatBytes (k + 1) >>= fun s => pure (some s) : Dec δ _) b =
      (eatBytes (BufCore.remaining b) >>= fun s => pure (some s) : Dec δ _) b
    rw [h]

theorem runs_rest : Runs (β := β) eatRest eatRest (fun v n s => n = 0 ∧ s = v.toList) E := by
  intro b l
  rw [eatRest_apply, eatRest_apply]
  have hrm : BufCore.remaining (⟨b, l⟩ : Recorded β) = BufCore.remaining b := rfl
  rw [hrm]
  by_cases h0 : BufCore.remaining b = 0
  · simp only [if_pos h0]
    exact ⟨l, 0, [], rfl, .refl l, rfl, rfl⟩
  · simp only [if_neg h0]
    have : Runs (β := β) ((remainingD >>= fun n => eatBytes n) >>= fun s => pure (some s))
        ((remainingD >>= fun n => eatBytes n) >>= fun s => pure (some s))
        (fun v n s => n = 0 ∧ s = v.toList) E := by
      refine runs_all.bind ?_
      rintro _ _ _ ⟨rfl, rfl⟩
      exact .pure (by simp)
    exact this b l

theorem runs_payload (hE : E 0 0) (hE1 : E 1 0) (hE3 : E 3 0) :
    Runs (β := β) (eatPayload true) (eatPayload true)
      (fun p n s => n = 3 ∧ s = payloadFields p) E := by
  refine Runs.bind (P₁ := fun _ n s => n = 3 ∧ s = []) ?_ ?_
  · refine (runs_u24 hE hE1).bind ?_
    rintro _ _ _ ⟨rfl, rfl⟩
    exact .pure (by simp)
  · rintro len _ _ ⟨rfl, rfl⟩
    refine Runs.bind (P₁ := fun m n s => n = 0 ∧ s = m.toList) ?_ ?_
    · rw [eatMetadata, eatMetadata]
      split
      · refine (runs_bytes len (by simpa using hE3)).bind ?_
        rintro _ _ _ ⟨rfl, rfl⟩
        exact .pure (by simp)
      · exact .pure (by simp)
    · rintro m _ s ⟨rfl, hs⟩
      refine runs_rest.bind ?_
      rintro d _ _ ⟨rfl, rfl⟩
      refine .pure ⟨rfl, ?_⟩
      rw [hs]
      simp [payloadFields, Payload.new]

theorem runs_token (flags : Flags) (hE : E 0 0) (hE2 : E 2 0) :
    Runs (β := β) (eatResumeToken flags) (eatResumeToken flags)
      (fun t n s => n = (if t.isSome then 2 else 0) ∧ s = t.toList) E := by
  rw [eatResumeToken, eatResumeToken]
  split
  · refine (reads_u16 _ hE).bind ?_
    rintro len _ _ ⟨rfl, rfl⟩
    refine (runs_bytes _ (by simpa using hE2)).bind ?_
    rintro _ _ _ ⟨rfl, rfl⟩
    exact .pure (by simp)
  · exact .pure (by simp)

/-- What a failing call of `decode` may have spent. -/
def AtMost (a c : Nat) : Nat → Nat → Prop := fun n m => n ≤ a ∧ m ≤ c

theorem runs_setup (id : U32) (flags : Flags) :
    Runs (β := β) (SetupFrame.decode id flags) (SetupFrame.decode id flags)
      (fun f n s => 6 + n = overhead (.setup f) ∧ s = fields (.setup f)) (AtMost 19 3) := by
  refine (reads_version _ (by simp [AtMost])).bind ?_
  rintro _ _ _ ⟨rfl, rfl⟩
  refine (reads_u31 _ (by simp [AtMost])).bind ?_
  rintro _ _ _ ⟨rfl, rfl⟩
  refine (reads_u31 _ (by simp [AtMost])).bind ?_
  rintro _ _ _ ⟨rfl, rfl⟩
  refine (runs_token flags (by simp [AtMost]) (by simp [AtMost])).bind ?_
  rintro t n s ⟨hn, rfl⟩
  have ht : n ≤ 2 ∧ t.toList.length ≤ 1 := by
    rw [hn]; cases t <;> simp
  refine (reads_u8 _ (by simp [AtMost]; omega)).bind ?_
  rintro _ _ _ ⟨rfl, rfl⟩
  refine (runs_bytes _ (by simp [AtMost]; omega)).bind ?_
  rintro _ _ _ ⟨rfl, rfl⟩
  refine (reads_u8 _ (by simp [AtMost]; omega)).bind ?_
  rintro _ _ _ ⟨rfl, rfl⟩
  refine (runs_bytes _ (by simp [AtMost]; omega)).bind ?_
  rintro _ _ _ ⟨rfl, rfl⟩
  refine (runs_payload (by simp [AtMost]; omega) (by simp [AtMost]; omega)
    (by simp [AtMost]; omega)).bind ?_
  rintro _ _ _ ⟨rfl, rfl⟩
  refine .pure ?_
  cases t <;> simp [overhead, fields, hn]

theorem runs_lease (id : U32) (flags : Flags) :
    Runs (β := β) (LeaseFrame.decode id flags) (LeaseFrame.decode id flags)
      (fun f n s => 6 + n = overhead (.lease f) ∧ s = fields (.lease f)) (AtMost 19 3) := by
  rw [LeaseFrame.decode, LeaseFrame.decode]
  split
  · exact .fail (by simp [AtMost])
  refine (reads_u31 _ (by simp [AtMost])).bind ?_
  rintro _ _ _ ⟨rfl, rfl⟩
  refine (reads_u31 _ (by simp [AtMost])).bind ?_
  rintro _ _ _ ⟨rfl, rfl⟩
  refine runs_rest.bind ?_
  rintro _ _ _ ⟨rfl, rfl⟩
  exact .pure (by simp [overhead, fields])

theorem runs_keepalive (id : U32) (flags : Flags) :
    Runs (β := β) (KeepaliveFrame.decode id flags) (KeepaliveFrame.decode id flags)
      (fun f n s => 6 + n = overhead (.keepalive f) ∧ s = fields (.keepalive f)) (AtMost 19 3) := by
  rw [KeepaliveFrame.decode, KeepaliveFrame.decode]
  split
  · exact .fail (by simp [AtMost])
  refine (reads_u63 _ (by simp [AtMost])).bind ?_
  rintro _ _ _ ⟨rfl, rfl⟩
  refine runs_rest.bind ?_
  rintro _ _ _ ⟨rfl, rfl⟩
  exact .pure (by simp [overhead, fields])

theorem runs_requestResponse (id : U32) (flags : Flags) :
    Runs (β := β) (RequestResponseFrame.decode id flags) (RequestResponseFrame.decode id flags)
      (fun f n s => 6 + n = overhead (.requestResponse f) ∧ s = fields (.requestResponse f))
      (AtMost 19 3) := by
  refine (runs_payload (by simp [AtMost]) (by simp [AtMost]) (by simp [AtMost])).bind ?_
  rintro _ _ _ ⟨rfl, rfl⟩
  exact .pure (by simp [overhead, fields])

theorem runs_requestFnf (id : U32) (flags : Flags) :
    Runs (β := β) (RequestFnfFrame.decode id flags) (RequestFnfFrame.decode id flags)
      (fun f n s => 6 + n = overhead (.requestFnf f) ∧ s = fields (.requestFnf f))
      (AtMost 19 3) := by
  refine (runs_payload (by simp [AtMost]) (by simp [AtMost]) (by simp [AtMost])).bind ?_
  rintro _ _ _ ⟨rfl, rfl⟩
  exact .pure (by simp [overhead, fields])

theorem runs_payloadFrame (id : U32) (flags : Flags) :
    Runs (β := β) (PayloadFrame.decode id flags) (PayloadFrame.decode id flags)
      (fun f n s => 6 + n = overhead (.payload f) ∧ s = fields (.payload f))
      (AtMost 19 3) := by
  refine (runs_payload (by simp [AtMost]) (by simp [AtMost]) (by simp [AtMost])).bind ?_
  rintro _ _ _ ⟨rfl, rfl⟩
  exact .pure (by simp [overhead, fields])

theorem runs_requestStream (id : U32) (flags : Flags) :
    Runs (β := β) (RequestStreamFrame.decode id flags) (RequestStreamFrame.decode id flags)
      (fun f n s => 6 + n = overhead (.requestStream f) ∧ s = fields (.requestStream f))
      (AtMost 19 3) := by
  refine (reads_u31 _ (by simp [AtMost])).bind ?_
  rintro _ _ _ ⟨rfl, rfl⟩
  refine (runs_payload (by simp [AtMost]) (by simp [AtMost]) (by simp [AtMost])).bind ?_
  rintro _ _ _ ⟨rfl, rfl⟩
  exact .pure (by simp [overhead, fields])

theorem runs_requestChannel (id : U32) (flags : Flags) :
    Runs (β := β) (RequestChannelFrame.decode id flags) (RequestChannelFrame.decode id flags)
      (fun f n s => 6 + n = overhead (.requestChannel f) ∧ s = fields (.requestChannel f))
      (AtMost 19 3) := by
  refine (reads_u31 _ (by simp [AtMost])).bind ?_
  rintro _ _ _ ⟨rfl, rfl⟩
  refine (runs_payload (by simp [AtMost]) (by simp [AtMost]) (by simp [AtMost])).bind ?_
  rintro _ _ _ ⟨rfl, rfl⟩
  exact .pure (by simp [overhead, fields])

theorem runs_requestN (id : U32) (flags : Flags) :
    Runs (β := β) (RequestNFrame.decode id flags) (RequestNFrame.decode id flags)
      (fun f n s => 6 + n = overhead (.requestN f) ∧ s = fields (.requestN f)) (AtMost 19 3) := by
  refine (reads_u31 _ (by simp [AtMost])).bind ?_
  rintro _ _ _ ⟨rfl, rfl⟩
  exact .pure (by simp [overhead, fields])

theorem runs_cancel (id : U32) (flags : Flags) :
    Runs (β := β) (CancelFrame.decode id flags) (CancelFrame.decode id flags)
      (fun f n s => 6 + n = overhead (.cancel f) ∧ s = fields (.cancel f)) (AtMost 19 3) :=
  .pure (by simp [overhead, fields])

theorem runs_error (id : U32) (flags : Flags) :
    Runs (β := β) (ErrorFrame.decode id flags) (ErrorFrame.decode id flags)
      (fun f n s => 6 + n = overhead (.error f) ∧ s = fields (.error f)) (AtMost 19 3) := by
  refine (reads_u32 _ (by simp [AtMost])).bind ?_
  rintro code _ _ ⟨rfl, rfl⟩
  cases ErrorFrame.validateStreamId id code with
  | some e => exact .fail (by simp [AtMost])
  | none =>
    refine runs_rest.bind ?_
    rintro _ _ _ ⟨rfl, rfl⟩
    exact .pure (by simp [overhead, fields])

theorem runs_metadataPush (id : U32) (flags : Flags) :
    Runs (β := β) (MetadataPushFrame.decode id flags) (MetadataPushFrame.decode id flags)
      (fun f n s => 6 + n = overhead (.metadataPush f) ∧ s = fields (.metadataPush f))
      (AtMost 19 3) := by
  have : Runs (β := β) ((remainingD >>= fun n => eatBytes n) >>= fun m => pure (⟨m⟩ : MetadataPushFrame))
      ((remainingD >>= fun n => eatBytes n) >>= fun m => pure (⟨m⟩ : MetadataPushFrame))
      (fun f n s => 6 + n = overhead (.metadataPush f) ∧ s = fields (.metadataPush f))
      (AtMost 19 3) := by
    refine runs_all.bind ?_
    rintro _ _ _ ⟨rfl, rfl⟩
    exact .pure (by simp [overhead, fields])
  exact this

theorem runs_resume (id : U32) (flags : Flags) :
    Runs (β := β) (ResumeFrame.decode id flags) (ResumeFrame.decode id flags)
      (fun f n s => 6 + n = overhead (.resume f) ∧ s = fields (.resume f)) (AtMost 19 3) := by
  refine (reads_version _ (by simp [AtMost])).bind ?_
  rintro _ _ _ ⟨rfl, rfl⟩
  refine (reads_u16 _ (by simp [AtMost])).bind ?_
  rintro _ _ _ ⟨rfl, rfl⟩
  refine (runs_bytes _ (by simp [AtMost])).bind ?_
  rintro _ _ _ ⟨rfl, rfl⟩
  refine (reads_u63 _ (by simp [AtMost])).bind ?_
  rintro _ _ _ ⟨rfl, rfl⟩
  refine (reads_u63 _ (by simp [AtMost])).bind ?_
  rintro _ _ _ ⟨rfl, rfl⟩
  exact .pure (by simp [overhead, fields])

theorem runs_resumeOk (id : U32) (flags : Flags) :
    Runs (β := β) (ResumeOkFrame.decode id flags) (ResumeOkFrame.decode id flags)
      (fun f n s => 6 + n = overhead (.resumeOk f) ∧ s = fields (.resumeOk f)) (AtMost 19 3) := by
  refine (reads_u63 _ (by simp [AtMost])).bind ?_
  rintro _ _ _ ⟨rfl, rfl⟩
  exact .pure (by simp [overhead, fields])

omit [Buf β] in
theorem Runs.frame {d' : Dec (Recorded β) α} {d : Dec β α} {mk : α → Frame}
    (h : Runs d' d (fun f n s => 6 + n = overhead (mk f) ∧ s = fields (mk f)) (AtMost 19 3)) :
    Runs (d' >>= fun f => Pure.pure (mk f)) (d >>= fun f => Pure.pure (mk f))
      (fun f n s => 6 + n = overhead f ∧ s = fields f) (AtMost 19 3) := by
  refine h.bind ?_
  rintro f n s ⟨hn, hs⟩
  exact .pure (by simpa using ⟨hn, hs⟩)

theorem runs_decode : Runs (β := β) Frame.decode Frame.decode
    (fun f n s => n = overhead f ∧ s = fields f) (AtMost 25 3) := by
  refine (runs_remaining (P := fun _ n s => n = 0 ∧ s = []) (fun _ => ⟨rfl, rfl⟩)).bind ?_
  rintro r _ _ ⟨rfl, rfl⟩
  split
  · exact .fail (by simp [AtMost])
  refine (reads_streamId _ (by simp [AtMost])).bind ?_
  rintro id _ _ ⟨rfl, rfl⟩
  refine (runs_flags (by simp [AtMost]) (by simp [AtMost])).bind ?_
  rintro ⟨ft, flags⟩ _ _ ⟨rfl, rfl⟩
  have key : ∀ {d' : Dec (Recorded β) Frame} {d : Dec β Frame} {c : Bool}, Runs d' d
      (fun f n s => 6 + n = overhead f ∧ s = fields f) (AtMost 19 3) →
      Runs (if c then Dec.fail (.invalidStreamId "0" id) else d')
        (if c then Dec.fail (.invalidStreamId "0" id) else d) (fun w n' s' => 0 + (4 + (2 + n')) = overhead w ∧ [] ++ ([] ++ ([] ++ s')) = fields w)
        (fun n' c => AtMost 25 3 (0 + (4 + (2 + n'))) (([] : List Bytes).length +
          (([] : List Bytes).length + (([] : List Bytes).length + c)))) := by
    intro d' d c h
    cases c
    · exact h.mono (fun v n s ⟨h1, h2⟩ => ⟨by omega, by simpa using h2⟩)
        (fun n c ⟨h1, h2⟩ => ⟨by omega, by simpa using h2⟩)
    · exact .fail (by simp [AtMost])
  cases ft
  · exact key (runs_setup id flags).frame
  · exact key (runs_lease id flags).frame
  · exact key (runs_keepalive id flags).frame
  · exact key (runs_requestResponse id flags).frame
  · exact key (runs_requestFnf id flags).frame
  · exact key (runs_requestStream id flags).frame
  · exact key (runs_requestChannel id flags).frame
  · exact key (runs_requestN id flags).frame
  · exact key (runs_cancel id flags).frame
  · exact key (runs_payloadFrame id flags).frame
  · exact key (runs_error id flags).frame
  · exact key (runs_metadataPush id flags).frame
  · exact key (runs_resume id flags).frame
  · exact key (runs_resumeOk id flags).frame
  · exact key .panic

end

/-! ## The bytes of the buffer are accounted for -/

/-- The bytes that the calls took from the buffer. -/
def taken (l : List BufCall) : Nat := advanced l + ((copies l).map List.length).sum

theorem taken_append (l m : List BufCall) : taken (l ++ m) = taken l + taken m := by
  simp [taken, advanced_append, copies_append]; omega

/-- A recording buffer keeps the contract if the buffer does; what was taken and what is left make
up what there was. -/
@[instance_reducible] def lawfulRecorded (β : Type) [Buf β] [inst : LawfulBuf β] (total : Nat) :
    LawfulBuf (Recorded β) where
  Valid r := Valid r.buf ∧ taken r.calls + (bytes r.buf).length = total
  bytes r := bytes r.buf
  remaining_eq h := inst.remaining_eq h.1
  chunk_prefix h := inst.chunk_prefix h.1
  chunk_ne h := inst.chunk_ne h.1
  advance_ok := by
    rintro ⟨b, l⟩ n ⟨hv, ht⟩ hn
    obtain ⟨b', h1, h2, h3⟩ := inst.advance_ok hv hn
    refine ⟨⟨b', l ++ [.advance n]⟩, ?_, ⟨h2, ?_⟩, h3⟩
    · show (BufCore.advance b n >>= _) = _
      rw [h1]; rfl
    · show taken (l ++ [.advance n]) + (bytes b').length = total
      have ht : taken l + (bytes b).length = total := ht
      have hn : n ≤ (bytes b).length := hn
      rw [taken_append, h3, List.length_drop]
      simp [taken, advanced, copies] at ht ⊢
      omega
  advance_over := by
    rintro ⟨b, l⟩ n ⟨hv, ht⟩ hn
    obtain ⟨m, h1⟩ := inst.advance_over hv hn
    refine ⟨m, ?_⟩
    show (BufCore.advance b n >>= _) = _
    rw [h1]; rfl
  copy_ok := by
    rintro ⟨b, l⟩ n ⟨hv, ht⟩ hn
    obtain ⟨b', h1, h2, h3⟩ := inst.copy_ok hv hn
    refine ⟨⟨b', l ++ [.copy n ((bytes b).take n)]⟩, ?_, ⟨h2, ?_⟩, h3⟩
    · show (Buf.copyToBytes b n >>= _) = _
      rw [h1]; rfl
    · show taken (l ++ [.copy n ((bytes b).take n)]) + (bytes b').length = total
      have ht : taken l + (bytes b).length = total := ht
      have hn : n ≤ (bytes b).length := hn
      rw [taken_append, h3, List.length_drop]
      simp [taken, advanced, copies] at ht ⊢
      omega
  copy_over := by
    rintro ⟨b, l⟩ n ⟨hv, ht⟩ hn
    obtain ⟨m, h1⟩ := inst.copy_over hv hn
    refine ⟨m, ?_⟩
    show (Buf.copyToBytes b n >>= _) = _
    rw [h1]; rfl

theorem recorded_total [LawfulBuf β] {b : β} (hb : Valid b) {f : Frame} {r : Recorded β}
    (h : (Frame.decode : Dec (Recorded β) Frame) ⟨b, []⟩ = .ok f r) :
    taken r.calls + (bytes r.buf).length = (bytes b).length := by
  letI := lawfulRecorded β (bytes b).length
  have hv : Valid (⟨b, []⟩ : Recorded β) := ⟨hb, by simp [taken, advanced, copies]⟩
  have hs := sim_decode (β := Recorded β) ⟨b, []⟩ hv
  rw [h] at hs
  revert hs
  generalize (Frame.decode : Dec Bytes Frame) _ = r'
  intro hs
  cases r' with
  | ok f' s' => exact hs.2.1.2
  | err e s' => exact hs.elim
  | panic m => exact hs.elim
  | diverge => exact hs.elim

end Binate

import Verif.Model.Debug
import Verif.Lemmas.Text

/-! # Helper lemmas on `Debug` texts

`Reads P d`: the text `d a` can be told from what follows, if that is a text in `P`. -/

namespace Binate

/-- Equal texts with the same kind of rest come from equal values. -/
def Reads {α : Type} (P : Text → Prop) (d : α → Text) : Prop :=
  ∀ a b s t, P s → P t → d a ++ s = d b ++ t → a = b ∧ s = t

/-- What can follow a value: a comma, a space or a closing parenthesis. -/
def Stop (s : Text) : Prop := ∃ c r, s = c :: r ∧ (c = ',' ∨ c = ' ' ∨ c = ')')

/-- What follows a set of flags: a comma. -/
def Comma (s : Text) : Prop := ∃ r, s = ',' :: r

theorem stop_comma (s : Text) : Stop (", ".toList ++ s) := ⟨',', ' ' :: s, rfl, .inl rfl⟩
theorem stop_brace (s : Text) : Stop (" }".toList ++ s) := ⟨' ', '}' :: s, rfl, .inr (.inl rfl)⟩
theorem stop_paren (s : Text) : Stop (")".toList ++ s) := ⟨')', s, rfl, .inr (.inr rfl)⟩
theorem comma_comma (s : Text) : Comma (", ".toList ++ s) := ⟨' ' :: s, rfl⟩

theorem Reads.any {α : Type} {d : α → Text} (h : Reads (fun _ => True) d) : Reads Stop d :=
  fun a b s t _ _ e => h a b s t trivial trivial e

/-- The longest part without a stop character. -/
theorem split_unique {p : Char → Bool} {x y s t : Text} (hx : ∀ c ∈ x, p c = true)
    (hy : ∀ c ∈ y, p c = true) (hs : ∃ c r, s = c :: r ∧ p c = false)
    (ht : ∃ c r, t = c :: r ∧ p c = false) (h : x ++ s = y ++ t) : x = y ∧ s = t := by
  induction x generalizing y with
  | nil =>
    cases y with
    | nil => exact ⟨rfl, h⟩
    | cons c y =>
      obtain ⟨c', r, rfl, hc⟩ := hs
      obtain ⟨rfl, -⟩ := List.cons.inj h
      rw [hy _ (List.mem_cons_self ..)] at hc
      cases hc
  | cons c x ih =>
    cases y with
    | nil =>
      obtain ⟨c', r, rfl, hc⟩ := ht
      obtain ⟨rfl, -⟩ := List.cons.inj h
      rw [hx _ (List.mem_cons_self ..)] at hc
      cases hc
    | cons c' y =>
      obtain ⟨rfl, h'⟩ := List.cons.inj h
      obtain ⟨rfl, rfl⟩ := ih (fun c hc => hx c (List.mem_cons_of_mem _ hc))
        (fun c hc => hy c (List.mem_cons_of_mem _ hc)) h'
      exact ⟨rfl, rfl⟩

theorem reads_nat : Reads Stop debugNat := by
  intro a b s t hs ht h
  have stop : ∀ {s : Text}, Stop s → ∃ c r, s = c :: r ∧ c.isDigit = false := by
    rintro _ ⟨c, r, rfl, rfl | rfl | rfl⟩ <;> exact ⟨_, _, rfl, rfl⟩
  obtain ⟨h1, h2⟩ := split_unique (p := Char.isDigit)
    (fun c hc => Nat.isDigit_of_mem_toDigits (by decide) (by decide) hc)
    (fun c hc => Nat.isDigit_of_mem_toDigits (by decide) (by decide) hc) (stop hs) (stop ht) h
  exact ⟨toDigits_inj (by decide) (by decide) h1, h2⟩

theorem reads_num {w : Nat} : Reads Stop (fun x : BitVec w => debugNat x.toNat) := by
  intro a b s t hs ht h
  obtain ⟨h1, h2⟩ := reads_nat _ _ s t hs ht h
  exact ⟨BitVec.eq_of_toNat_eq h1, h2⟩

theorem reads_bool : Reads Stop debugBool := by
  intro a b s t _ _ h
  cases a <;> cases b
  · exact ⟨rfl, List.append_cancel_left h⟩
  · exact absurd (List.cons.inj (show 'f' :: _ = 't' :: _ from h)).1 (by decide)
  · exact absurd (List.cons.inj (show 't' :: _ = 'f' :: _ from h)).1 (by decide)
  · exact ⟨rfl, List.append_cancel_left h⟩

theorem reads_option {α : Type} {d : α → Text} (hd : Reads Stop d) :
    Reads (fun _ => True) (debugOption d) := by
  intro a b s t _ _ h
  cases a with
  | none =>
    cases b with
    | none => exact ⟨rfl, List.append_cancel_left h⟩
    | some y => exact absurd (List.cons.inj (show 'N' :: _ = 'S' :: _ from h)).1 (by decide)
  | some x =>
    cases b with
    | none => exact absurd (List.cons.inj (show 'S' :: _ = 'N' :: _ from h)).1 (by decide)
    | some y =>
      simp only [debugOption, List.append_assoc] at h
      obtain ⟨rfl, h'⟩ := hd _ _ _ _ (stop_paren _) (stop_paren _) (List.append_cancel_left h)
      exact ⟨rfl, List.append_cancel_left h'⟩

/-! ## Byte strings -/

/-- How long the text of a byte is, judged by its first two characters. -/
def byteTextLen : Text → Nat
  | '\\' :: 'x' :: _ => 4
  | '\\' :: _ => 2
  | _ => 1

/-- The byte that a text stands for. -/
def byteOfText : Text → Nat
  | ['\\', 'n'] => 10
  | ['\\', 'r'] => 13
  | ['\\', 't'] => 9
  | ['\\', '0'] => 0
  | ['\\', c] => c.toNat
  | ['\\', 'x', a, b] =>
    (if a.isDigit then a.toNat - 48 else a.toNat - 87) * 16 +
      (if b.isDigit then b.toNat - 48 else b.toNat - 87)
  | [c] => c.toNat
  | _ => 0

theorem byteOfText_debug (b : U8) : byteOfText (debugByte b) = b.toNat := by
  have h : ∀ n < 256, byteOfText (debugByte (BitVec.ofNat 8 n)) = n := by decide +kernel
  have := h b.toNat b.isLt
  rwa [BitVec.ofNat_toNat, BitVec.setWidth_eq] at this

theorem byteText_shape (b : U8) :
    (∃ c, debugByte b = [c] ∧ c ≠ '\\' ∧ c ≠ '"') ∨
      (∃ c, debugByte b = ['\\', c] ∧ c ≠ 'x') ∨ ∃ c d, debugByte b = ['\\', 'x', c, d] := by
  have h : ∀ n < 256, (debugByte (BitVec.ofNat 8 n)).length = byteTextLen (debugByte (BitVec.ofNat 8 n)) ∧
      (debugByte (BitVec.ofNat 8 n)).head? ≠ some '"' ∧
      ((debugByte (BitVec.ofNat 8 n)).length = 1 → (debugByte (BitVec.ofNat 8 n)).head? ≠ some '\\') ∧
      (debugByte (BitVec.ofNat 8 n)).length ≤ 4 ∧ (debugByte (BitVec.ofNat 8 n)).length ≠ 3 := by
    decide +kernel
  have := h b.toNat b.isLt
  rw [BitVec.ofNat_toNat, BitVec.setWidth_eq] at this
  revert this
  generalize debugByte b = x
  rintro ⟨h1, h2, h3, h4, h5⟩
  match x with
  | [] => exact absurd h1 (by decide)
  | [c] => exact .inl ⟨c, rfl, fun h => h3 rfl (by rw [h]; rfl), fun h => h2 (by rw [h]; rfl)⟩
  | [a, c] =>
    by_cases ha : a = '\\'
    · subst ha
      by_cases hc : c = 'x'
      · subst hc
        exact absurd h1 (by decide)
      · exact .inr (.inl ⟨c, rfl, hc⟩)
    · exfalso
      unfold byteTextLen at h1
      split at h1
      · rename_i e; exact ha (List.cons.inj e).1
      · rename_i e; exact ha (List.cons.inj e).1
      · exact absurd h1 (by simp)
  | [_, _, _] => exact absurd rfl h5
  | [a, c, d, e] =>
    unfold byteTextLen at h1
    split at h1
    · rename_i h
      injection h with ha h'
      injection h' with hc _
      subst ha hc
      exact .inr (.inr ⟨d, e, rfl⟩)
    · exact absurd h1 (by simp)
    · exact absurd h1 (by simp)
  | _ :: _ :: _ :: _ :: _ :: l =>
    exfalso
    simp only [List.length_cons] at h4
    omega

theorem byteTextLen_append (b : U8) (s : Text) :
    byteTextLen (debugByte b ++ s) = (debugByte b).length := by
  rcases byteText_shape b with ⟨c, h, hc, -⟩ | ⟨c, h, hc⟩ | ⟨c, d, h⟩
  · rw [h]
    show byteTextLen (c :: s) = 1
    unfold byteTextLen
    split
    · rename_i e; exact absurd (List.cons.inj e).1 hc
    · rename_i e; exact absurd (List.cons.inj e).1 hc
    · rfl
  · rw [h]
    show byteTextLen ('\\' :: c :: s) = 2
    unfold byteTextLen
    split
    · rename_i e; exact absurd (List.cons.inj (List.cons.inj e).2).1 hc
    · rfl
    · rename_i e; exact absurd rfl (e _)
  · rw [h]
    rfl

theorem reads_byte : Reads (fun _ => True) debugByte := by
  intro a b s t _ _ h
  have hl : (debugByte a).length = (debugByte b).length := by
    rw [← byteTextLen_append a s, ← byteTextLen_append b t, h]
  obtain ⟨h1, h2⟩ := List.append_inj h hl
  refine ⟨BitVec.eq_of_toNat_eq ?_, h2⟩
  rw [← byteOfText_debug a, ← byteOfText_debug b, h1]

theorem byte_not_quote (b : U8) (s t : Text) : debugByte b ++ s ≠ '"' :: t := by
  intro h
  rcases byteText_shape b with ⟨c, e, -, hc⟩ | ⟨c, e, -⟩ | ⟨c, d, e⟩
  · rw [e] at h
    exact hc (List.cons.inj h).1
  · rw [e] at h
    exact absurd (List.cons.inj h).1 (by decide)
  · rw [e] at h
    exact absurd (List.cons.inj h).1 (by decide)

theorem reads_bytes : Reads (fun _ => True) debugBytes := by
  intro a b s t _ _ h
  simp only [debugBytes, List.append_assoc] at h
  replace h := List.append_cancel_left h
  induction a generalizing b with
  | nil =>
    cases b with
    | nil => exact ⟨rfl, List.append_cancel_left h⟩
    | cons y b =>
      rw [List.flatMap_cons, List.append_assoc] at h
      exact absurd h.symm (byte_not_quote _ _ _)
  | cons x a ih =>
    cases b with
    | nil =>
      rw [List.flatMap_cons, List.append_assoc] at h
      exact absurd h (byte_not_quote _ _ _)
    | cons y b =>
      rw [List.flatMap_cons, List.append_assoc, List.flatMap_cons, List.append_assoc] at h
      obtain ⟨rfl, h'⟩ := reads_byte _ _ _ _ trivial trivial h
      obtain ⟨rfl, rfl⟩ := ih _ h'
      exact ⟨rfl, rfl⟩

theorem reads_optBytes : Reads Stop (debugOption debugBytes) := (reads_option reads_bytes.any).any

/-! ## Flags -/

/-- A part of the text of a set of flags. -/
def PartOk (x : Text) : Prop := x ≠ [] ∧ ∀ c ∈ x, c ≠ ' ' ∧ c ≠ ',' ∧ c ≠ '('

theorem join_cons (x y : Text) (l : List Text) :
    List.intercalate " | ".toList (x :: y :: l) =
      x ++ (" | ".toList ++ List.intercalate " | ".toList (y :: l)) := by
  simp [List.intercalate, List.intersperse]

theorem join_one (x : Text) : List.intercalate " | ".toList [x] = x := by
  simp [List.intercalate, List.intersperse]

theorem join_inj {l m : List Text} (hl : ∀ x ∈ l, PartOk x) (hm : ∀ x ∈ m, PartOk x)
    (h0 : l ≠ []) (h1 : m ≠ []) (h : List.intercalate " | ".toList l =
      List.intercalate " | ".toList m) : l = m := by
  have stop : ∀ s : Text, ∃ c r, " | ".toList ++ s = c :: r ∧ (c != ' ') = false :=
    fun s => ⟨' ', '|' :: ' ' :: s, rfl, rfl⟩
  have ok : ∀ {x : Text}, PartOk x → ∀ c ∈ x, (c != ' ') = true :=
    fun hx c hc => by rw [bne_iff_ne]; exact (hx.2 c hc).1
  induction l generalizing m with
  | nil => exact absurd rfl h0
  | cons x l ih =>
    cases m with
    | nil => exact absurd rfl h1
    | cons y m =>
      have hx := hl x (List.mem_cons_self ..)
      have hy := hm y (List.mem_cons_self ..)
      have bad : ∀ {x y : Text} {s : Text}, PartOk x → x = y ++ (" | ".toList ++ s) → False := by
        intro x y s hx e
        have : ' ' ∈ x := by
          rw [e]
          exact List.mem_append_right _ (List.mem_append_left _ (by decide))
        exact (hx.2 _ this).1 rfl
      cases l with
      | nil =>
        cases m with
        | nil =>
          rw [join_one, join_one] at h
          rw [h]
        | cons y' m =>
          rw [join_one, join_cons] at h
          exact (bad hx h).elim
      | cons x' l =>
        cases m with
        | nil =>
          rw [join_one, join_cons] at h
          exact (bad hy h.symm).elim
        | cons y' m =>
          rw [join_cons, join_cons] at h
          obtain ⟨rfl, h'⟩ := split_unique (p := (· != ' ')) (ok hx) (ok hy) (stop _) (stop _) h
          rw [ih (fun z hz => hl z (List.mem_cons_of_mem _ hz))
            (fun z hz => hm z (List.mem_cons_of_mem _ hz)) (by simp) (by simp)
            (List.append_cancel_left h')]

theorem join_chars {l : List Text} {p : Char → Prop} (hs : p ' ') (hb : p '|')
    (h : ∀ x ∈ l, ∀ c ∈ x, p c) : ∀ c ∈ List.intercalate " | ".toList l, p c := by
  induction l with
  | nil => intro c hc; cases hc
  | cons x l ih =>
    cases l with
    | nil =>
      rw [join_one]
      exact h x (List.mem_cons_self ..)
    | cons y l =>
      rw [join_cons]
      intro c hc
      rcases List.mem_append.1 hc with hc | hc
      · exact h x (List.mem_cons_self ..) c hc
      · rcases List.mem_append.1 hc with hc | hc
        · have : c = ' ' ∨ c = '|' ∨ c = ' ' := by
            have : c ∈ [' ', '|', ' '] := hc
            simpa using this
          rcases this with rfl | rfl | rfl <;> assumption
        · exact ih (fun z hz => h z (List.mem_cons_of_mem _ hz)) c hc

/-- A hexadecimal digit. -/
def hexChars : List Char := "0123456789abcdef".toList

theorem toDigits_hex (n : Nat) : ∀ c ∈ Nat.toDigits 16 n, c ∈ hexChars := by
  induction n using Nat.strongRecOn with
  | ind n ih =>
    have one : ∀ k < 16, Nat.digitChar k ∈ hexChars := by decide
    rw [Nat.toDigits_eq_if (by decide)]
    by_cases h : n < 16
    · rw [if_pos h]
      intro c hc
      rw [List.mem_singleton.1 hc]
      exact one n h
    · rw [if_neg h]
      intro c hc
      rcases List.mem_append.1 hc with hc | hc
      · exact ih (n / 16) (by omega) c hc
      · rw [List.mem_singleton.1 hc]
        exact one _ (Nat.mod_lt _ (by decide))

theorem extra_chars (n : Nat) :
    ∀ c ∈ "0x".toList ++ Nat.toDigits 16 n, c ∈ 'x' :: hexChars := by
  intro c hc
  rcases List.mem_append.1 hc with hc | hc
  · have h : ∀ c ∈ "0x".toList, c ∈ 'x' :: hexChars := by decide
    exact h c hc
  · exact List.mem_cons_of_mem _ (toDigits_hex n c hc)

theorem debugParts_mem {f : Flags} {x : Text} :
    x ∈ f.debugParts ↔ (∃ d ∈ Flags.declared, f.contains d.2 = true ∧ d.1 = x) ∨
      (f.bits &&& ~~~ Flags.all.bits ≠ 0#16 ∧
        x = "0x".toList ++ Nat.toDigits 16 (f.bits &&& ~~~ Flags.all.bits).toNat) := by
  unfold Flags.debugParts
  rw [List.mem_append]
  refine or_congr ?_ ?_
  · simp only [List.mem_map, List.mem_filter, and_assoc]
  · by_cases h : f.bits &&& ~~~ Flags.all.bits = 0#16
    · simp [h]
    · simp [h]

theorem debugParts_ok (f : Flags) : ∀ x ∈ f.debugParts, PartOk x := by
  intro x hx
  rcases debugParts_mem.1 hx with ⟨d, hd, -, rfl⟩ | ⟨-, rfl⟩
  · have h : ∀ d ∈ Flags.declared, d.1 ≠ [] ∧ ∀ c ∈ d.1, c ≠ ' ' ∧ c ≠ ',' ∧ c ≠ '(' := by decide
    exact h d hd
  · refine ⟨List.cons_ne_nil _ _, fun c hc => ?_⟩
    have h : ∀ c ∈ 'x' :: hexChars, c ≠ ' ' ∧ c ≠ ',' ∧ c ≠ '(' := by decide
    exact h c (extra_chars _ c hc)

theorem contains_eq_of_parts {f g : Flags} (h : f.debugParts = g.debugParts)
    {d : Text × Flags} (hd : d ∈ Flags.declared) : f.contains d.2 = g.contains d.2 := by
  have key : ∀ {f g : Flags}, f.debugParts = g.debugParts →
      f.contains d.2 = true → g.contains d.2 = true := by
    intro f g h hf
    have : d.1 ∈ g.debugParts := by
      rw [← h]
      exact debugParts_mem.2 (.inl ⟨d, hd, hf, rfl⟩)
    rcases debugParts_mem.1 this with ⟨d', hd', hg, e⟩ | ⟨-, e⟩
    · have inj : ∀ d ∈ Flags.declared, ∀ d' ∈ Flags.declared, d'.1 = d.1 → d'.2 = d.2 := by decide
      rw [← inj d hd d' hd' e]
      exact hg
    · exfalso
      have no : ∀ d ∈ Flags.declared, d.1.head? ≠ some '0' := by decide
      refine no d hd ?_
      rw [e]
      rfl
  rw [Bool.eq_iff_iff]
  exact ⟨key h, key h.symm⟩

theorem extra_eq_of_parts {f g : Flags} (h : f.debugParts = g.debugParts) :
    f.bits &&& ~~~ Flags.all.bits = g.bits &&& ~~~ Flags.all.bits := by
  have key : ∀ {f g : Flags}, f.debugParts = g.debugParts → f.bits &&& ~~~ Flags.all.bits ≠ 0#16 →
      f.bits &&& ~~~ Flags.all.bits = g.bits &&& ~~~ Flags.all.bits := by
    intro f g h hf
    have : ("0x".toList ++ Nat.toDigits 16 (f.bits &&& ~~~ Flags.all.bits).toNat) ∈
        g.debugParts := by
      rw [← h]
      exact debugParts_mem.2 (.inr ⟨hf, rfl⟩)
    rcases debugParts_mem.1 this with ⟨d, hd, -, e⟩ | ⟨-, e⟩
    · exfalso
      have no : ∀ d ∈ Flags.declared, d.1.head? ≠ some '0' := by decide
      refine no d hd ?_
      rw [e]
      rfl
    · exact BitVec.eq_of_toNat_eq (toDigits_inj (by decide) (by decide) (List.append_cancel_left e))
  by_cases hf : f.bits &&& ~~~ Flags.all.bits = 0#16
  · by_cases hg : g.bits &&& ~~~ Flags.all.bits = 0#16
    · rw [hf, hg]
    · exact (key h.symm hg).symm
  · exact key h hf

theorem flags_of_parts {f g : Flags} (h : f.debugParts = g.debugParts) : f = g := by
  have h8 := contains_eq_of_parts h (d := ("IGNORE".toList, Flags.IGNORE)) (by decide)
  have h7 := contains_eq_of_parts h (d := ("METADATA".toList, Flags.METADATA)) (by decide)
  have h6 := contains_eq_of_parts h (d := ("FOLLOWS".toList, Flags.FOLLOWS)) (by decide)
  have h5 := contains_eq_of_parts h (d := ("COMPLETE".toList, Flags.COMPLETE)) (by decide)
  have h4 := contains_eq_of_parts h (d := ("NEXT".toList, Flags.NEXT)) (by decide)
  have hx := extra_eq_of_parts h
  clear h
  obtain ⟨a⟩ := f
  obtain ⟨b⟩ := g
  congr 1
  have and1 : ∀ (x : U16) (i : Nat) (hi : i < 16),
      (x &&& BitVec.twoPow 16 i == BitVec.twoPow 16 i) = x.getLsbD i := by
    intro x i hi
    rw [BitVec.and_twoPow]
    cases hb : x.getLsbD i
    · rw [if_neg (by decide)]
      have : (0#16 == BitVec.twoPow 16 i) = false := by
        rw [beq_eq_false_iff_ne]
        intro e
        have := congrArg (fun y : U16 => y.getLsbD i) e
        simp [hi] at this
      exact this
    · rw [if_pos rfl]
      exact beq_self_eq_true _
  have c8 : a.getLsbD 8 = b.getLsbD 8 := by
    rw [← and1 a 8 (by decide), ← and1 b 8 (by decide)]; exact h8
  have c7 : a.getLsbD 7 = b.getLsbD 7 := by
    rw [← and1 a 7 (by decide), ← and1 b 7 (by decide)]; exact h7
  have c6 : a.getLsbD 6 = b.getLsbD 6 := by
    rw [← and1 a 6 (by decide), ← and1 b 6 (by decide)]; exact h6
  have c5 : a.getLsbD 5 = b.getLsbD 5 := by
    rw [← and1 a 5 (by decide), ← and1 b 5 (by decide)]; exact h5
  have c4 : a.getLsbD 4 = b.getLsbD 4 := by
    rw [← and1 a 4 (by decide), ← and1 b 4 (by decide)]; exact h4
  apply BitVec.eq_of_getLsbD_eq
  intro i hi
  have hxi := congrArg (fun y : U16 => y.getLsbD i) hx
  simp only [BitVec.getLsbD_and, BitVec.getLsbD_not, hi, decide_true, Bool.true_and] at hxi
  have tbl : ∀ i < 16, Flags.all.bits.getLsbD i = true → i = 8 ∨ i = 7 ∨ i = 6 ∨ i = 5 ∨ i = 4 := by
    decide
  cases hm : Flags.all.bits.getLsbD i
  · rw [hm] at hxi
    simpa using hxi
  · rcases tbl i hi hm with rfl | rfl | rfl | rfl | rfl <;> assumption

theorem flags_text_inj {f g : Flags} (h : f.debugText = g.debugText) : f = g := by
  have ne : ∀ {g : Flags}, g.debugParts ≠ [] →
      List.intercalate " | ".toList g.debugParts ≠ "(empty)".toList := by
    intro g _ e
    have := join_chars (p := (· ≠ '(')) (by decide) (by decide)
      (fun x hx c hc => ((debugParts_ok g x hx).2 c hc).2.2)
    rw [e] at this
    exact this '(' (by decide) rfl
  have txt : ∀ {g : Flags}, g.debugParts ≠ [] →
      g.debugText = List.intercalate " | ".toList g.debugParts := by
    intro g hg
    unfold Flags.debugText
    split
    · rename_i e; exact absurd e hg
    · rfl
  have txt0 : ∀ {g : Flags}, g.debugParts = [] → g.debugText = "(empty)".toList := by
    intro g hg
    unfold Flags.debugText
    rw [hg]
  by_cases hf : f.debugParts = []
  · by_cases hg : g.debugParts = []
    · exact flags_of_parts (hf.trans hg.symm)
    · rw [txt0 hf, txt hg] at h
      exact absurd h.symm (ne hg)
  · by_cases hg : g.debugParts = []
    · rw [txt hf, txt0 hg] at h
      exact absurd h (ne hf)
    · rw [txt hf, txt hg] at h
      exact flags_of_parts (join_inj (debugParts_ok f) (debugParts_ok g) hf hg h)

theorem flags_chars {p : Char → Prop} (hs : p ' ') (hb : p '|') (he : ∀ c ∈ "(empty)".toList, p c)
    (f : Flags) (h : ∀ x ∈ f.debugParts, ∀ c ∈ x, p c) : ∀ c ∈ f.debugText, p c := by
  unfold Flags.debugText
  split
  · exact he
  · exact join_chars hs hb h

theorem reads_flags : Reads Comma Flags.debugText := by
  intro f g s t hs ht h
  have stop : ∀ {s : Text}, Comma s → ∃ c r, s = c :: r ∧ (c != ',') = false := by
    rintro _ ⟨r, rfl⟩
    exact ⟨',', r, rfl, rfl⟩
  have ok : ∀ (f : Flags), ∀ c ∈ f.debugText, (c != ',') = true := fun f c hc => by
    rw [bne_iff_ne]
    exact flags_chars (p := (· ≠ ',')) (by decide) (by decide) (by decide) f
      (fun x hx c hc => ((debugParts_ok f x hx).2 c hc).2.1) c hc
  obtain ⟨h1, h2⟩ := split_unique (p := (· != ',')) (ok f) (ok g) (stop hs) (stop ht) h
  exact ⟨flags_text_inj h1, h2⟩

/-! ## Structs -/

theorem reads_Version : Reads (fun _ => True) Version.debugText := by
  intro f g s t _ _ h
  obtain ⟨a0, a1⟩ := f
  obtain ⟨b0, b1⟩ := g
  simp only [Version.debugText, debugStruct, debugFields, List.append_assoc] at h
  simp only [List.append_cancel_left_eq] at h
  obtain ⟨rfl, h1⟩ := reads_num _ _ _ _ (stop_comma _) (stop_comma _) h
  simp only [List.append_cancel_left_eq] at h1
  obtain ⟨rfl, h2⟩ := reads_num _ _ _ _ (stop_brace _) (stop_brace _) h1
  exact ⟨rfl, List.append_cancel_left h2⟩

theorem reads_Payload : Reads (fun _ => True) Payload.debugText := by
  intro f g s t _ _ h
  obtain ⟨a0, a1⟩ := f
  obtain ⟨b0, b1⟩ := g
  simp only [Payload.debugText, debugStruct, debugFields, List.append_assoc] at h
  simp only [List.append_cancel_left_eq] at h
  obtain ⟨rfl, h1⟩ := reads_optBytes _ _ _ _ (stop_comma _) (stop_comma _) h
  simp only [List.append_cancel_left_eq] at h1
  obtain ⟨rfl, h2⟩ := reads_optBytes _ _ _ _ (stop_brace _) (stop_brace _) h1
  exact ⟨rfl, List.append_cancel_left h2⟩

theorem reads_SetupFrame : Reads (fun _ => True) SetupFrame.debugText := by
  intro f g s t _ _ h
  obtain ⟨a0, a1, a2, a3, a4, a5, a6, a7⟩ := f
  obtain ⟨b0, b1, b2, b3, b4, b5, b6, b7⟩ := g
  simp only [SetupFrame.debugText, debugStruct, debugFields, List.append_assoc] at h
  simp only [List.append_cancel_left_eq] at h
  obtain ⟨rfl, h1⟩ := reads_flags _ _ _ _ (comma_comma _) (comma_comma _) h
  simp only [List.append_cancel_left_eq] at h1
  obtain ⟨rfl, h2⟩ := reads_Version.any _ _ _ _ (stop_comma _) (stop_comma _) h1
  simp only [List.append_cancel_left_eq] at h2
  obtain ⟨rfl, h3⟩ := reads_num _ _ _ _ (stop_comma _) (stop_comma _) h2
  simp only [List.append_cancel_left_eq] at h3
  obtain ⟨rfl, h4⟩ := reads_num _ _ _ _ (stop_comma _) (stop_comma _) h3
  simp only [List.append_cancel_left_eq] at h4
  obtain ⟨rfl, h5⟩ := reads_optBytes _ _ _ _ (stop_comma _) (stop_comma _) h4
  simp only [List.append_cancel_left_eq] at h5
  obtain ⟨rfl, h6⟩ := reads_bytes.any _ _ _ _ (stop_comma _) (stop_comma _) h5
  simp only [List.append_cancel_left_eq] at h6
  obtain ⟨rfl, h7⟩ := reads_bytes.any _ _ _ _ (stop_comma _) (stop_comma _) h6
  simp only [List.append_cancel_left_eq] at h7
  obtain ⟨rfl, h8⟩ := reads_Payload.any _ _ _ _ (stop_brace _) (stop_brace _) h7
  exact ⟨rfl, List.append_cancel_left h8⟩

theorem reads_ErrorFrame : Reads (fun _ => True) ErrorFrame.debugText := by
  intro f g s t _ _ h
  obtain ⟨a0, a1, a2⟩ := f
  obtain ⟨b0, b1, b2⟩ := g
  simp only [ErrorFrame.debugText, debugStruct, debugFields, List.append_assoc] at h
  simp only [List.append_cancel_left_eq] at h
  obtain ⟨rfl, h1⟩ := reads_num _ _ _ _ (stop_comma _) (stop_comma _) h
  simp only [List.append_cancel_left_eq] at h1
  obtain ⟨rfl, h2⟩ := reads_num _ _ _ _ (stop_comma _) (stop_comma _) h1
  simp only [List.append_cancel_left_eq] at h2
  obtain ⟨rfl, h3⟩ := reads_optBytes _ _ _ _ (stop_brace _) (stop_brace _) h2
  exact ⟨rfl, List.append_cancel_left h3⟩

theorem reads_LeaseFrame : Reads (fun _ => True) LeaseFrame.debugText := by
  intro f g s t _ _ h
  obtain ⟨a0, a1, a2⟩ := f
  obtain ⟨b0, b1, b2⟩ := g
  simp only [LeaseFrame.debugText, debugStruct, debugFields, List.append_assoc] at h
  simp only [List.append_cancel_left_eq] at h
  obtain ⟨rfl, h1⟩ := reads_num _ _ _ _ (stop_comma _) (stop_comma _) h
  simp only [List.append_cancel_left_eq] at h1
  obtain ⟨rfl, h2⟩ := reads_num _ _ _ _ (stop_comma _) (stop_comma _) h1
  simp only [List.append_cancel_left_eq] at h2
  obtain ⟨rfl, h3⟩ := reads_optBytes _ _ _ _ (stop_brace _) (stop_brace _) h2
  exact ⟨rfl, List.append_cancel_left h3⟩

theorem reads_KeepaliveFrame : Reads (fun _ => True) KeepaliveFrame.debugText := by
  intro f g s t _ _ h
  obtain ⟨a0, a1, a2⟩ := f
  obtain ⟨b0, b1, b2⟩ := g
  simp only [KeepaliveFrame.debugText, debugStruct, debugFields, List.append_assoc] at h
  simp only [List.append_cancel_left_eq] at h
  obtain ⟨rfl, h1⟩ := reads_bool _ _ _ _ (stop_comma _) (stop_comma _) h
  simp only [List.append_cancel_left_eq] at h1
  obtain ⟨rfl, h2⟩ := reads_num _ _ _ _ (stop_comma _) (stop_comma _) h1
  simp only [List.append_cancel_left_eq] at h2
  obtain ⟨rfl, h3⟩ := reads_optBytes _ _ _ _ (stop_brace _) (stop_brace _) h2
  exact ⟨rfl, List.append_cancel_left h3⟩

theorem reads_RequestResponseFrame : Reads (fun _ => True) RequestResponseFrame.debugText := by
  intro f g s t _ _ h
  obtain ⟨a0, a1, a2⟩ := f
  obtain ⟨b0, b1, b2⟩ := g
  simp only [RequestResponseFrame.debugText, debugStruct, debugFields, List.append_assoc] at h
  simp only [List.append_cancel_left_eq] at h
  obtain ⟨rfl, h1⟩ := reads_num _ _ _ _ (stop_comma _) (stop_comma _) h
  simp only [List.append_cancel_left_eq] at h1
  obtain ⟨rfl, h2⟩ := reads_flags _ _ _ _ (comma_comma _) (comma_comma _) h1
  simp only [List.append_cancel_left_eq] at h2
  obtain ⟨rfl, h3⟩ := reads_Payload.any _ _ _ _ (stop_brace _) (stop_brace _) h2
  exact ⟨rfl, List.append_cancel_left h3⟩

theorem reads_RequestFnfFrame : Reads (fun _ => True) RequestFnfFrame.debugText := by
  intro f g s t _ _ h
  obtain ⟨a0, a1, a2⟩ := f
  obtain ⟨b0, b1, b2⟩ := g
  simp only [RequestFnfFrame.debugText, debugStruct, debugFields, List.append_assoc] at h
  simp only [List.append_cancel_left_eq] at h
  obtain ⟨rfl, h1⟩ := reads_num _ _ _ _ (stop_comma _) (stop_comma _) h
  simp only [List.append_cancel_left_eq] at h1
  obtain ⟨rfl, h2⟩ := reads_flags _ _ _ _ (comma_comma _) (comma_comma _) h1
  simp only [List.append_cancel_left_eq] at h2
  obtain ⟨rfl, h3⟩ := reads_Payload.any _ _ _ _ (stop_brace _) (stop_brace _) h2
  exact ⟨rfl, List.append_cancel_left h3⟩

theorem reads_RequestStreamFrame : Reads (fun _ => True) RequestStreamFrame.debugText := by
  intro f g s t _ _ h
  obtain ⟨a0, a1, a2, a3⟩ := f
  obtain ⟨b0, b1, b2, b3⟩ := g
  simp only [RequestStreamFrame.debugText, debugStruct, debugFields, List.append_assoc] at h
  simp only [List.append_cancel_left_eq] at h
  obtain ⟨rfl, h1⟩ := reads_num _ _ _ _ (stop_comma _) (stop_comma _) h
  simp only [List.append_cancel_left_eq] at h1
  obtain ⟨rfl, h2⟩ := reads_flags _ _ _ _ (comma_comma _) (comma_comma _) h1
  simp only [List.append_cancel_left_eq] at h2
  obtain ⟨rfl, h3⟩ := reads_num _ _ _ _ (stop_comma _) (stop_comma _) h2
  simp only [List.append_cancel_left_eq] at h3
  obtain ⟨rfl, h4⟩ := reads_Payload.any _ _ _ _ (stop_brace _) (stop_brace _) h3
  exact ⟨rfl, List.append_cancel_left h4⟩

theorem reads_RequestChannelFrame : Reads (fun _ => True) RequestChannelFrame.debugText := by
  intro f g s t _ _ h
  obtain ⟨a0, a1, a2, a3⟩ := f
  obtain ⟨b0, b1, b2, b3⟩ := g
  simp only [RequestChannelFrame.debugText, debugStruct, debugFields, List.append_assoc] at h
  simp only [List.append_cancel_left_eq] at h
  obtain ⟨rfl, h1⟩ := reads_num _ _ _ _ (stop_comma _) (stop_comma _) h
  simp only [List.append_cancel_left_eq] at h1
  obtain ⟨rfl, h2⟩ := reads_flags _ _ _ _ (comma_comma _) (comma_comma _) h1
  simp only [List.append_cancel_left_eq] at h2
  obtain ⟨rfl, h3⟩ := reads_num _ _ _ _ (stop_comma _) (stop_comma _) h2
  simp only [List.append_cancel_left_eq] at h3
  obtain ⟨rfl, h4⟩ := reads_Payload.any _ _ _ _ (stop_brace _) (stop_brace _) h3
  exact ⟨rfl, List.append_cancel_left h4⟩

theorem reads_RequestNFrame : Reads (fun _ => True) RequestNFrame.debugText := by
  intro f g s t _ _ h
  obtain ⟨a0, a1⟩ := f
  obtain ⟨b0, b1⟩ := g
  simp only [RequestNFrame.debugText, debugStruct, debugFields, List.append_assoc] at h
  simp only [List.append_cancel_left_eq] at h
  obtain ⟨rfl, h1⟩ := reads_num _ _ _ _ (stop_comma _) (stop_comma _) h
  simp only [List.append_cancel_left_eq] at h1
  obtain ⟨rfl, h2⟩ := reads_num _ _ _ _ (stop_brace _) (stop_brace _) h1
  exact ⟨rfl, List.append_cancel_left h2⟩

theorem reads_CancelFrame : Reads (fun _ => True) CancelFrame.debugText := by
  intro f g s t _ _ h
  obtain ⟨a0⟩ := f
  obtain ⟨b0⟩ := g
  simp only [CancelFrame.debugText, debugStruct, debugFields, List.append_assoc] at h
  simp only [List.append_cancel_left_eq] at h
  obtain ⟨rfl, h1⟩ := reads_num _ _ _ _ (stop_brace _) (stop_brace _) h
  exact ⟨rfl, List.append_cancel_left h1⟩

theorem reads_PayloadFrame : Reads (fun _ => True) PayloadFrame.debugText := by
  intro f g s t _ _ h
  obtain ⟨a0, a1, a2⟩ := f
  obtain ⟨b0, b1, b2⟩ := g
  simp only [PayloadFrame.debugText, debugStruct, debugFields, List.append_assoc] at h
  simp only [List.append_cancel_left_eq] at h
  obtain ⟨rfl, h1⟩ := reads_num _ _ _ _ (stop_comma _) (stop_comma _) h
  simp only [List.append_cancel_left_eq] at h1
  obtain ⟨rfl, h2⟩ := reads_flags _ _ _ _ (comma_comma _) (comma_comma _) h1
  simp only [List.append_cancel_left_eq] at h2
  obtain ⟨rfl, h3⟩ := reads_Payload.any _ _ _ _ (stop_brace _) (stop_brace _) h2
  exact ⟨rfl, List.append_cancel_left h3⟩

theorem reads_MetadataPushFrame : Reads (fun _ => True) MetadataPushFrame.debugText := by
  intro f g s t _ _ h
  obtain ⟨a0⟩ := f
  obtain ⟨b0⟩ := g
  simp only [MetadataPushFrame.debugText, debugStruct, debugFields, List.append_assoc] at h
  simp only [List.append_cancel_left_eq] at h
  obtain ⟨rfl, h1⟩ := reads_bytes.any _ _ _ _ (stop_brace _) (stop_brace _) h
  exact ⟨rfl, List.append_cancel_left h1⟩

theorem reads_ResumeFrame : Reads (fun _ => True) ResumeFrame.debugText := by
  intro f g s t _ _ h
  obtain ⟨a0, a1, a2, a3⟩ := f
  obtain ⟨b0, b1, b2, b3⟩ := g
  simp only [ResumeFrame.debugText, debugStruct, debugFields, List.append_assoc] at h
  simp only [List.append_cancel_left_eq] at h
  obtain ⟨rfl, h1⟩ := reads_Version.any _ _ _ _ (stop_comma _) (stop_comma _) h
  simp only [List.append_cancel_left_eq] at h1
  obtain ⟨rfl, h2⟩ := reads_bytes.any _ _ _ _ (stop_comma _) (stop_comma _) h1
  simp only [List.append_cancel_left_eq] at h2
  obtain ⟨rfl, h3⟩ := reads_num _ _ _ _ (stop_comma _) (stop_comma _) h2
  simp only [List.append_cancel_left_eq] at h3
  obtain ⟨rfl, h4⟩ := reads_num _ _ _ _ (stop_brace _) (stop_brace _) h3
  exact ⟨rfl, List.append_cancel_left h4⟩

theorem reads_ResumeOkFrame : Reads (fun _ => True) ResumeOkFrame.debugText := by
  intro f g s t _ _ h
  obtain ⟨a0⟩ := f
  obtain ⟨b0⟩ := g
  simp only [ResumeOkFrame.debugText, debugStruct, debugFields, List.append_assoc] at h
  simp only [List.append_cancel_left_eq] at h
  obtain ⟨rfl, h1⟩ := reads_num _ _ _ _ (stop_brace _) (stop_brace _) h
  exact ⟨rfl, List.append_cancel_left h1⟩

/-! ## Frames -/

/-- The name of the variant. -/
def variantName : Frame → Text
  | .setup _ => "Setup".toList
  | .error _ => "Error".toList
  | .lease _ => "Lease".toList
  | .keepalive _ => "Keepalive".toList
  | .requestResponse _ => "RequestResponse".toList
  | .requestFnf _ => "RequestFnf".toList
  | .requestStream _ => "RequestStream".toList
  | .requestChannel _ => "RequestChannel".toList
  | .requestN _ => "RequestN".toList
  | .cancel _ => "Cancel".toList
  | .payload _ => "Payload".toList
  | .metadataPush _ => "MetadataPush".toList
  | .resume _ => "Resume".toList
  | .resumeOk _ => "ResumeOk".toList

/-- The text of the frame inside the variant. -/
def variantText : Frame → Text
  | .setup f => f.debugText
  | .error f => f.debugText
  | .lease f => f.debugText
  | .keepalive f => f.debugText
  | .requestResponse f => f.debugText
  | .requestFnf f => f.debugText
  | .requestStream f => f.debugText
  | .requestChannel f => f.debugText
  | .requestN f => f.debugText
  | .cancel f => f.debugText
  | .payload f => f.debugText
  | .metadataPush f => f.debugText
  | .resume f => f.debugText
  | .resumeOk f => f.debugText

theorem debugText_variant (f : Frame) :
    f.debugText = variantName f ++ ("(".toList ++ (variantText f ++ ")".toList)) := by
  cases f <;> simp only [Frame.debugText, debugVariant, List.append_assoc] <;> rfl

theorem variantName_char (f : Frame) : ∀ c ∈ variantName f, (c != '(') = true := by
  cases f <;> exact of_decide_eq_true rfl

/-- The number of the variant. -/
def variantIdx : Frame → Nat
  | .setup _ => 0
  | .error _ => 1
  | .lease _ => 2
  | .keepalive _ => 3
  | .requestResponse _ => 4
  | .requestFnf _ => 5
  | .requestStream _ => 6
  | .requestChannel _ => 7
  | .requestN _ => 8
  | .cancel _ => 9
  | .payload _ => 10
  | .metadataPush _ => 11
  | .resume _ => 12
  | .resumeOk _ => 13

/-- The names of the variants, in the order of their numbers. -/
def variantNames : List Text :=
  ["Setup".toList, "Error".toList, "Lease".toList, "Keepalive".toList, "RequestResponse".toList,
   "RequestFnf".toList, "RequestStream".toList, "RequestChannel".toList, "RequestN".toList,
   "Cancel".toList, "Payload".toList, "MetadataPush".toList, "Resume".toList, "ResumeOk".toList]

theorem variantName_idx (f : Frame) : variantNames[variantIdx f]? = some (variantName f) := by
  cases f <;> rfl

theorem variantNames_inj : ∀ i < 14, ∀ j < 14, variantNames[i]? = variantNames[j]? → i = j := by
  decide +kernel

theorem variantIdx_lt (f : Frame) : variantIdx f < 14 := by
  cases f <;> simp only [variantIdx] <;> decide

theorem frame_text_inj {f g : Frame} (h : f.debugText = g.debugText) : f = g := by
  rw [debugText_variant, debugText_variant] at h
  have stop : ∀ s : Text, ∃ c r, "(".toList ++ s = c :: r ∧ (c != '(') = false :=
    fun s => ⟨'(', s, rfl, rfl⟩
  obtain ⟨h1, h2⟩ := split_unique (p := (· != '(')) (variantName_char f) (variantName_char g)
    (stop _) (stop _) h
  replace h2 := List.append_cancel_left h2
  have h3 : variantIdx f = variantIdx g := by
    refine variantNames_inj _ (variantIdx_lt f) _ (variantIdx_lt g) ?_
    rw [variantName_idx f, variantName_idx g, h1]
  clear h h1 stop
  cases f <;> cases g <;> simp only [variantIdx, variantText] at h2 h3 <;> first
    | exact absurd h3 (by decide)
    | (refine congrArg Frame.setup ?_; exact (reads_SetupFrame _ _ ")".toList ")".toList trivial trivial h2).1)
    | (refine congrArg Frame.error ?_; exact (reads_ErrorFrame _ _ ")".toList ")".toList trivial trivial h2).1)
    | (refine congrArg Frame.lease ?_; exact (reads_LeaseFrame _ _ ")".toList ")".toList trivial trivial h2).1)
    | (refine congrArg Frame.keepalive ?_; exact (reads_KeepaliveFrame _ _ ")".toList ")".toList trivial trivial h2).1)
    | (refine congrArg Frame.requestResponse ?_; exact (reads_RequestResponseFrame _ _ ")".toList ")".toList trivial trivial h2).1)
    | (refine congrArg Frame.requestFnf ?_; exact (reads_RequestFnfFrame _ _ ")".toList ")".toList trivial trivial h2).1)
    | (refine congrArg Frame.requestStream ?_; exact (reads_RequestStreamFrame _ _ ")".toList ")".toList trivial trivial h2).1)
    | (refine congrArg Frame.requestChannel ?_; exact (reads_RequestChannelFrame _ _ ")".toList ")".toList trivial trivial h2).1)
    | (refine congrArg Frame.requestN ?_; exact (reads_RequestNFrame _ _ ")".toList ")".toList trivial trivial h2).1)
    | (refine congrArg Frame.cancel ?_; exact (reads_CancelFrame _ _ ")".toList ")".toList trivial trivial h2).1)
    | (refine congrArg Frame.payload ?_; exact (reads_PayloadFrame _ _ ")".toList ")".toList trivial trivial h2).1)
    | (refine congrArg Frame.metadataPush ?_; exact (reads_MetadataPushFrame _ _ ")".toList ")".toList trivial trivial h2).1)
    | (refine congrArg Frame.resume ?_; exact (reads_ResumeFrame _ _ ")".toList ")".toList trivial trivial h2).1)
    | (refine congrArg Frame.resumeOk ?_; exact (reads_ResumeOkFrame _ _ ")".toList ")".toList trivial trivial h2).1)

/-! ## Printable characters -/

/-- Printable ASCII. -/
def Printable (t : Text) : Prop := ∀ c ∈ t, 32 ≤ c.toNat ∧ c.toNat < 127

instance (t : Text) : Decidable (Printable t) :=
  inferInstanceAs (Decidable (∀ c ∈ t, 32 ≤ c.toNat ∧ c.toNat < 127))

theorem printable_append {s t : Text} (hs : Printable s) (ht : Printable t) :
    Printable (s ++ t) := fun c hc => (List.mem_append.1 hc).elim (hs c) (ht c)

theorem printable_hex (n : Nat) : Printable (Nat.toDigits 16 n) := by
  have h : Printable hexChars := by decide
  exact fun c hc => h c (toDigits_hex n c hc)

theorem printable_nat (n : Nat) : Printable (debugNat n) := by
  intro c hc
  have := Nat.isDigit_of_mem_toDigits (by decide) (by decide) hc
  simp only [Char.isDigit, Bool.and_eq_true, decide_eq_true_eq] at this
  obtain ⟨h1, h2⟩ := this
  have h1' : 48 ≤ c.toNat := h1
  have h2' : c.toNat ≤ 57 := h2
  omega

theorem printable_bool (b : Bool) : Printable (debugBool b) := by
  cases b <;> decide

theorem printable_byte (b : U8) : Printable (debugByte b) := by
  have h : ∀ n < 256, Printable (debugByte (BitVec.ofNat 8 n)) := by decide +kernel
  have := h b.toNat b.isLt
  rwa [BitVec.ofNat_toNat, BitVec.setWidth_eq] at this

theorem printable_bytes (b : Bytes) : Printable (debugBytes b) := by
  refine printable_append (printable_append (by decide) ?_) (by decide)
  intro c hc
  obtain ⟨x, -, hx⟩ := List.mem_flatMap.1 hc
  exact printable_byte x c hx

theorem printable_opt (b : Option Bytes) : Printable (debugOption debugBytes b) := by
  cases b with
  | none => decide
  | some b => exact printable_append (printable_append (by decide) (printable_bytes b)) (by decide)

theorem printable_flags (f : Flags) : Printable f.debugText := by
  refine flags_chars (p := fun c => 32 ≤ c.toNat ∧ c.toNat < 127) (by decide) (by decide)
    (by decide) f ?_
  intro x hx
  rcases debugParts_mem.1 hx with ⟨d, hd, -, rfl⟩ | ⟨-, rfl⟩
  · have h : ∀ d ∈ Flags.declared, Printable d.1 := by decide
    exact h d hd
  · exact printable_append (by decide) (printable_hex _)

theorem printable_fields {l : List (Text × Text)}
    (h : ∀ x ∈ l, Printable x.1 ∧ Printable x.2) : Printable (debugFields l) := by
  induction l with
  | nil => intro c hc; cases hc
  | cons x l ih =>
    have hx := h x (List.mem_cons_self ..)
    cases l with
    | nil => exact printable_append (printable_append hx.1 (by decide)) hx.2
    | cons y l =>
      exact printable_append (printable_append (printable_append (printable_append hx.1 (by decide))
        hx.2) (by decide)) (ih fun z hz => h z (List.mem_cons_of_mem _ hz))

theorem printable_struct {n : Text} {l : List (Text × Text)} (hn : Printable n)
    (h : ∀ x ∈ l, Printable x.1 ∧ Printable x.2) : Printable (debugStruct n l) :=
  printable_append (printable_append (printable_append hn (by decide)) (printable_fields h))
    (by decide)

theorem printable_Version (f : Version) : Printable f.debugText :=
  printable_struct (by decide) (List.forall_mem_cons.2 ⟨⟨by dsimp only; decide, printable_nat _⟩,
    List.forall_mem_cons.2 ⟨⟨by dsimp only; decide, printable_nat _⟩,
    nofun⟩⟩)

theorem printable_Payload (f : Payload) : Printable f.debugText :=
  printable_struct (by decide) (List.forall_mem_cons.2 ⟨⟨by dsimp only; decide, printable_opt _⟩,
    List.forall_mem_cons.2 ⟨⟨by dsimp only; decide, printable_opt _⟩,
    nofun⟩⟩)

theorem printable_SetupFrame (f : SetupFrame) : Printable f.debugText :=
  printable_struct (by decide) (List.forall_mem_cons.2 ⟨⟨by dsimp only; decide, printable_flags _⟩,
    List.forall_mem_cons.2 ⟨⟨by dsimp only; decide, printable_Version _⟩,
    List.forall_mem_cons.2 ⟨⟨by dsimp only; decide, printable_nat _⟩,
    List.forall_mem_cons.2 ⟨⟨by dsimp only; decide, printable_nat _⟩,
    List.forall_mem_cons.2 ⟨⟨by dsimp only; decide, printable_opt _⟩,
    List.forall_mem_cons.2 ⟨⟨by dsimp only; decide, printable_bytes _⟩,
    List.forall_mem_cons.2 ⟨⟨by dsimp only; decide, printable_bytes _⟩,
    List.forall_mem_cons.2 ⟨⟨by dsimp only; decide, printable_Payload _⟩,
    nofun⟩⟩⟩⟩⟩⟩⟩⟩)

theorem printable_ErrorFrame (f : ErrorFrame) : Printable f.debugText :=
  printable_struct (by decide) (List.forall_mem_cons.2 ⟨⟨by dsimp only; decide, printable_nat _⟩,
    List.forall_mem_cons.2 ⟨⟨by dsimp only; decide, printable_nat _⟩,
    List.forall_mem_cons.2 ⟨⟨by dsimp only; decide, printable_opt _⟩,
    nofun⟩⟩⟩)

theorem printable_LeaseFrame (f : LeaseFrame) : Printable f.debugText :=
  printable_struct (by decide) (List.forall_mem_cons.2 ⟨⟨by dsimp only; decide, printable_nat _⟩,
    List.forall_mem_cons.2 ⟨⟨by dsimp only; decide, printable_nat _⟩,
    List.forall_mem_cons.2 ⟨⟨by dsimp only; decide, printable_opt _⟩,
    nofun⟩⟩⟩)

theorem printable_KeepaliveFrame (f : KeepaliveFrame) : Printable f.debugText :=
  printable_struct (by decide) (List.forall_mem_cons.2 ⟨⟨by dsimp only; decide, printable_bool _⟩,
    List.forall_mem_cons.2 ⟨⟨by dsimp only; decide, printable_nat _⟩,
    List.forall_mem_cons.2 ⟨⟨by dsimp only; decide, printable_opt _⟩,
    nofun⟩⟩⟩)

theorem printable_RequestResponseFrame (f : RequestResponseFrame) : Printable f.debugText :=
  printable_struct (by decide) (List.forall_mem_cons.2 ⟨⟨by dsimp only; decide, printable_nat _⟩,
    List.forall_mem_cons.2 ⟨⟨by dsimp only; decide, printable_flags _⟩,
    List.forall_mem_cons.2 ⟨⟨by dsimp only; decide, printable_Payload _⟩,
    nofun⟩⟩⟩)

theorem printable_RequestFnfFrame (f : RequestFnfFrame) : Printable f.debugText :=
  printable_struct (by decide) (List.forall_mem_cons.2 ⟨⟨by dsimp only; decide, printable_nat _⟩,
    List.forall_mem_cons.2 ⟨⟨by dsimp only; decide, printable_flags _⟩,
    List.forall_mem_cons.2 ⟨⟨by dsimp only; decide, printable_Payload _⟩,
    nofun⟩⟩⟩)

theorem printable_RequestStreamFrame (f : RequestStreamFrame) : Printable f.debugText :=
  printable_struct (by decide) (List.forall_mem_cons.2 ⟨⟨by dsimp only; decide, printable_nat _⟩,
    List.forall_mem_cons.2 ⟨⟨by dsimp only; decide, printable_flags _⟩,
    List.forall_mem_cons.2 ⟨⟨by dsimp only; decide, printable_nat _⟩,
    List.forall_mem_cons.2 ⟨⟨by dsimp only; decide, printable_Payload _⟩,
    nofun⟩⟩⟩⟩)

theorem printable_RequestChannelFrame (f : RequestChannelFrame) : Printable f.debugText :=
  printable_struct (by decide) (List.forall_mem_cons.2 ⟨⟨by dsimp only; decide, printable_nat _⟩,
    List.forall_mem_cons.2 ⟨⟨by dsimp only; decide, printable_flags _⟩,
    List.forall_mem_cons.2 ⟨⟨by dsimp only; decide, printable_nat _⟩,
    List.forall_mem_cons.2 ⟨⟨by dsimp only; decide, printable_Payload _⟩,
    nofun⟩⟩⟩⟩)

theorem printable_RequestNFrame (f : RequestNFrame) : Printable f.debugText :=
  printable_struct (by decide) (List.forall_mem_cons.2 ⟨⟨by dsimp only; decide, printable_nat _⟩,
    List.forall_mem_cons.2 ⟨⟨by dsimp only; decide, printable_nat _⟩,
    nofun⟩⟩)

theorem printable_CancelFrame (f : CancelFrame) : Printable f.debugText :=
  printable_struct (by decide) (List.forall_mem_cons.2 ⟨⟨by dsimp only; decide, printable_nat _⟩,
    nofun⟩)

theorem printable_PayloadFrame (f : PayloadFrame) : Printable f.debugText :=
  printable_struct (by decide) (List.forall_mem_cons.2 ⟨⟨by dsimp only; decide, printable_nat _⟩,
    List.forall_mem_cons.2 ⟨⟨by dsimp only; decide, printable_flags _⟩,
    List.forall_mem_cons.2 ⟨⟨by dsimp only; decide, printable_Payload _⟩,
    nofun⟩⟩⟩)

theorem printable_MetadataPushFrame (f : MetadataPushFrame) : Printable f.debugText :=
  printable_struct (by decide) (List.forall_mem_cons.2 ⟨⟨by dsimp only; decide, printable_bytes _⟩,
    nofun⟩)

theorem printable_ResumeFrame (f : ResumeFrame) : Printable f.debugText :=
  printable_struct (by decide) (List.forall_mem_cons.2 ⟨⟨by dsimp only; decide, printable_Version _⟩,
    List.forall_mem_cons.2 ⟨⟨by dsimp only; decide, printable_bytes _⟩,
    List.forall_mem_cons.2 ⟨⟨by dsimp only; decide, printable_nat _⟩,
    List.forall_mem_cons.2 ⟨⟨by dsimp only; decide, printable_nat _⟩,
    nofun⟩⟩⟩⟩)

theorem printable_ResumeOkFrame (f : ResumeOkFrame) : Printable f.debugText :=
  printable_struct (by decide) (List.forall_mem_cons.2 ⟨⟨by dsimp only; decide, printable_nat _⟩,
    nofun⟩)

theorem printable_frame (f : Frame) : Printable f.debugText := by
  rw [debugText_variant]
  refine printable_append ?_ (printable_append (by decide) (printable_append ?_ (by decide)))
  · cases f <;> exact of_decide_eq_true rfl
  · cases f
    · exact printable_SetupFrame _
    · exact printable_ErrorFrame _
    · exact printable_LeaseFrame _
    · exact printable_KeepaliveFrame _
    · exact printable_RequestResponseFrame _
    · exact printable_RequestFnfFrame _
    · exact printable_RequestStreamFrame _
    · exact printable_RequestChannelFrame _
    · exact printable_RequestNFrame _
    · exact printable_CancelFrame _
    · exact printable_PayloadFrame _
    · exact printable_MetadataPushFrame _
    · exact printable_ResumeFrame _
    · exact printable_ResumeOkFrame _

end Binate

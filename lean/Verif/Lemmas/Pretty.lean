import Verif.Model.Pretty
import Verif.Spec.Pretty
import Verif.Spec.WellFormed
import Verif.Lemmas.Shown

/-! # Lemmas for `{:#?}`

`DebugTree.lines` gives the lines of a tree. `pretty` writes them (`pretty_block`), and put on one line
they are what `plain` writes (`join_tree`). -/

namespace Binate

open Spec

mutual

/-- The lines of a tree. -/
def DebugTree.lines : DebugTree → Lines
  | .text _ a => [(0, a)]
  | .node name _ .nil => [(0, name)]
  | .node name true (.cons l v r) =>
    (0, name ++ " {".toList) :: (DebugFields.lines (.cons l v r) ++ [(0, ['}'])])
  | .node name false (.cons l v r) =>
    (0, name ++ "(".toList) :: (DebugFields.lines (.cons l v r) ++ [(0, [')'])])

/-- The lines of the fields. -/
def DebugFields.lines : DebugFields → Lines
  | .nil => []
  | .cons l v r => deeper (comma (prefixed l v.lines)) ++ r.lines

end

/-- A text at the beginning of a line. -/
def Start (t : Text) : Prop := ∃ c r, t = c :: r ∧ c ≠ ' ' ∧ c ≠ '}' ∧ c ≠ ')'

theorem start_append {s : Text} (t : Text) (h : Start s) : Start (s ++ t) := by
  obtain ⟨c, r, rfl, hc⟩ := h
  exact ⟨c, r ++ t, rfl, hc⟩

/-- Printable, and can be at the beginning of a line. -/
def GoodText (t : Text) : Prop := Printable t ∧ Start t

mutual

/-- The texts are fit for lines. -/
def DebugTree.Good : DebugTree → Prop
  | .text _ a => GoodText a
  | .node name _ r => GoodText name ∧ r.Good

/-- The texts are fit for lines. -/
def DebugFields.Good : DebugFields → Prop
  | .nil => True
  | .cons l v r => (l = [] ∨ GoodText l) ∧ v.Good ∧ r.Good

end

mutual

/-- Nothing depends on the form. -/
def DebugTree.Same : DebugTree → Prop
  | .text p a => p = a
  | .node _ _ r => r.Same

/-- Nothing depends on the form. -/
def DebugFields.Same : DebugFields → Prop
  | .nil => True
  | .cons _ v r => v.Same ∧ r.Same

end

/-! ## Lines and indentation -/

/-- One line with its indentation. -/
def indented (x : Nat × List Char) : Text := List.replicate (4 * x.1) ' ' ++ x.2

/-- Lines, each with a line break behind it. -/
def block (l : Lines) : Text := l.flatMap fun x => indented x ++ ['\n']

theorem block_append (a b : Lines) : block (a ++ b) = block a ++ block b := List.flatMap_append ..

theorem block_cons (x : Nat × List Char) (b : Lines) :
    block (x :: b) = indented x ++ '\n' :: block b := by
  rw [block, List.flatMap_cons, List.append_assoc]
  rfl

theorem block_intercalate {l : Lines} (h : l ≠ []) :
    List.intercalate ['\n'] (l.map indented) ++ ['\n'] = block l := by
  induction l with
  | nil => exact absurd rfl h
  | cons x l ih =>
    cases l with
    | nil => simp [List.intercalate, block]
    | cons y l =>
      rw [block_cons, ← ih (by simp)]
      simp [List.intercalate]

theorem comma_ne {l : Lines} (h : l ≠ []) : comma l ≠ [] := by
  cases l with
  | nil => exact absurd rfl h
  | cons x l => cases l <;> simp [comma]

theorem block_comma {l : Lines} {s : Text} (h : l ≠ []) (hs : s ++ ['\n'] = block l) :
    block (comma l) = s ++ [',', '\n'] := by
  induction l generalizing s with
  | nil => exact absurd rfl h
  | cons x l ih =>
    cases l with
    | nil =>
      rw [block_cons] at hs
      have : s = indented x := List.append_cancel_right (bs := ['\n']) hs
      subst this
      simp [comma, block, indented]
    | cons y l =>
      rw [comma, block_cons]
      rw [block_cons] at hs
      have hn : block (y :: l) ≠ [] := by rw [block_cons]; simp
      obtain ⟨t, ht⟩ : ∃ t, t ++ ['\n'] = block (y :: l) := ⟨_, block_intercalate (by simp)⟩
      rw [ih (by simp) ht]
      rw [← ht] at hs
      have : s = indented x ++ '\n' :: t := by
        apply List.append_cancel_right (bs := ['\n'])
        rw [hs]
        simp
      rw [this]
      simp

theorem lines_cons (t : DebugTree) : ∃ h r, t.lines = (0, h) :: r := by
  cases t with
  | text p a => exact ⟨a, [], by rw [DebugTree.lines]⟩
  | node name b fs =>
    cases fs with
    | nil => exact ⟨name, [], by rw [DebugTree.lines]⟩
    | cons l v r => cases b <;> exact ⟨_, _, by rw [DebugTree.lines]⟩

theorem block_prefixed (s h : Text) (r : Lines) :
    block (prefixed s ((0, h) :: r)) = s ++ block ((0, h) :: r) := by
  simp [prefixed, block_cons, indented]

/-- No line has a break in it. -/
def NoBreaks (l : Lines) : Prop := ∀ x ∈ l, '\n' ∉ x.2

theorem pad_line {t : Text} (rest : Text) (ht : '\n' ∉ t) :
    padAdapter false (t ++ '\n' :: rest) = t ++ '\n' :: padAdapter true rest := by
  induction t with
  | nil => simp [padAdapter]
  | cons c t ih =>
    have hc : (c == '\n') = false := beq_false_of_ne fun e => ht (by rw [e]; exact List.mem_cons_self ..)
    rw [List.cons_append, padAdapter, hc, ih fun h => ht (List.mem_cons_of_mem _ h), List.cons_append]

theorem pad_begin {t : Text} (rest : Text) (ht : '\n' ∉ t) :
    padAdapter true (t ++ '\n' :: rest) = "    ".toList ++ (t ++ '\n' :: padAdapter true rest) := by
  cases t with
  | nil => simp [padAdapter]
  | cons c t =>
    have hc : (c == '\n') = false := beq_false_of_ne fun e => ht (by rw [e]; exact List.mem_cons_self ..)
    rw [List.cons_append, padAdapter, hc, pad_line _ fun h => ht (List.mem_cons_of_mem _ h)]
    rfl

theorem pad_block {l : Lines} (h : NoBreaks l) : padAdapter true (block l) = block (deeper l) := by
  induction l with
  | nil => rfl
  | cons x l ih =>
    rw [block_cons, pad_begin]
    · rw [ih fun y hy => h y (List.mem_cons_of_mem _ hy)]
      show _ = block ((x.1 + 1, x.2) :: deeper l)
      rw [block_cons]
      show _ = List.replicate (4 * (x.1 + 1)) ' ' ++ x.2 ++ _
      rw [show 4 * (x.1 + 1) = 4 + 4 * x.1 by omega, List.replicate_add]
      simp [indented]
    · intro hm
      rcases List.mem_append.1 hm with hm | hm
      · exact absurd (List.eq_of_mem_replicate hm) (by decide)
      · exact h x (List.mem_cons_self ..) hm

/-! ## What is in the lines -/

/-- All lines satisfy `p`. -/
def AllTexts (p : Text → Prop) (l : Lines) : Prop := ∀ x ∈ l, p x.2

theorem all_deeper {p : Text → Prop} {l : Lines} (h : AllTexts p l) : AllTexts p (deeper l) := by
  intro x hx
  obtain ⟨y, hy, rfl⟩ := List.mem_map.1 hx
  exact h y hy

theorem all_comma {p : Text → Prop} (hp : ∀ t, p t → p (t ++ [','])) {l : Lines}
    (h : AllTexts p l) : AllTexts p (comma l) := by
  induction l with
  | nil => exact h
  | cons x l ih =>
    cases l with
    | nil =>
      intro y hy
      rw [comma, List.mem_singleton] at hy
      subst hy
      exact hp _ (h x (List.mem_cons_self ..))
    | cons z l =>
      rw [comma]
      intro y hy
      rcases List.mem_cons.1 hy with rfl | hy
      · exact h _ (List.mem_cons_self ..)
      · exact ih (fun w hw => h w (List.mem_cons_of_mem _ hw)) y hy

theorem all_prefixed {p : Text → Prop} {s : Text} (hp : ∀ t, p t → p (s ++ t)) {l : Lines}
    (h : AllTexts p l) : AllTexts p (prefixed s l) := by
  cases l with
  | nil => exact h
  | cons x l =>
    rw [prefixed]
    intro y hy
    rcases List.mem_cons.1 hy with rfl | hy
    · exact hp _ (h x (List.mem_cons_self ..))
    · exact h y (List.mem_cons_of_mem _ hy)

theorem all_append {p : Text → Prop} {a b : Lines} (ha : AllTexts p a) (hb : AllTexts p b) :
    AllTexts p (a ++ b) := fun x hx => (List.mem_append.1 hx).elim (ha x) (hb x)

/-- A line: printable, no further indentation. -/
def LineText (t : Text) : Prop := Printable t ∧ ∃ c r, t = c :: r ∧ c ≠ ' '

theorem line_good {t : Text} (h : GoodText t) : LineText t := by
  obtain ⟨hp, c, r, hr, hc, -⟩ := h
  exact ⟨hp, c, r, hr, hc⟩

theorem line_append {s t : Text} (h : LineText s) (ht : Printable t) : LineText (s ++ t) := by
  obtain ⟨hp, c, r, rfl, hc⟩ := h
  exact ⟨printable_append hp ht, c, r ++ t, rfl, hc⟩

mutual

theorem lines_tree : ∀ t : DebugTree, t.Good → AllTexts LineText t.lines
  | .text _ a, h => by
    rw [DebugTree.lines]
    intro x hx
    rw [List.mem_singleton] at hx
    subst hx
    exact line_good h
  | .node name _ .nil, h => by
    rw [DebugTree.lines]
    intro x hx
    rw [List.mem_singleton] at hx
    subst hx
    exact line_good h.1
  | .node name true (.cons l v r), h => by
    rw [DebugTree.lines]
    have hf := lines_fields (.cons l v r) h.2
    intro x hx
    rcases List.mem_cons.1 hx with rfl | hx
    · exact line_append (line_good h.1) (by decide)
    · rcases List.mem_append.1 hx with hx | hx
      · exact hf x hx
      · rw [List.mem_singleton] at hx
        subst hx
        exact ⟨by dsimp only; decide, '}', [], rfl, by decide⟩
  | .node name false (.cons l v r), h => by
    rw [DebugTree.lines]
    have hf := lines_fields (.cons l v r) h.2
    intro x hx
    rcases List.mem_cons.1 hx with rfl | hx
    · exact line_append (line_good h.1) (by decide)
    · rcases List.mem_append.1 hx with hx | hx
      · exact hf x hx
      · rw [List.mem_singleton] at hx
        subst hx
        exact ⟨by dsimp only; decide, ')', [], rfl, by decide⟩

theorem lines_fields : ∀ t : DebugFields, t.Good → AllTexts LineText t.lines
  | .nil, _ => by
    rw [DebugFields.lines]
    exact fun x hx => absurd hx List.not_mem_nil
  | .cons l v r, h => by
    rw [DebugFields.lines]
    refine all_append (all_deeper (all_comma (fun t ht => line_append ht (by decide)) ?_))
      (lines_fields r h.2.2)
    refine all_prefixed ?_ (lines_tree v h.2.1)
    intro t ht
    rcases h.1 with rfl | hl
    · exact ht
    · exact line_append (line_good hl) ht.1

end

theorem line_noBreak {t : Text} (h : LineText t) : '\n' ∉ t := by
  intro hm
  have : 32 ≤ ('\n').toNat := (h.1 _ hm).1
  exact absurd this (by decide)

theorem noBreaks_of {l : Lines} (h : AllTexts LineText l) : NoBreaks l :=
  fun x hx => line_noBreak (h x hx)

/-! ## What `pretty` writes -/

mutual

theorem pretty_block : ∀ t : DebugTree, t.Good → t.pretty ++ ['\n'] = block t.lines
  | .text _ a, _ => by
    rw [DebugTree.pretty, DebugTree.lines]
    simp [block, indented]
  | .node name _ .nil, _ => by
    rw [DebugTree.pretty, DebugTree.lines]
    simp [block, indented]
  | .node name true (.cons l v r), h => by
    rw [DebugTree.pretty, DebugTree.lines, pretty_fields (.cons l v r) h.2, block_cons, block_append]
    simp [block, indented]
  | .node name false (.cons l v r), h => by
    rw [DebugTree.pretty, DebugTree.lines, pretty_fields (.cons l v r) h.2, block_cons, block_append]
    simp [block, indented]

theorem pretty_fields : ∀ t : DebugFields, t.Good → t.pretty = block t.lines
  | .nil, _ => by
    rw [DebugFields.pretty, DebugFields.lines]
    rfl
  | .cons l v r, h => by
    have hg := lines_fields (.cons l v .nil) ⟨h.1, h.2.1, trivial⟩
    rw [DebugFields.lines, DebugFields.lines, List.append_nil] at hg
    have hv := pretty_block v h.2.1
    rw [DebugFields.pretty, DebugFields.lines, block_append, pretty_fields r h.2.2, ← pad_block]
    · congr 2
      obtain ⟨t, s, e⟩ := lines_cons v
      rw [e] at hv ⊢
      refine (block_comma (s := l ++ v.pretty) (by simp [prefixed]) ?_).symm
      rw [block_prefixed, ← hv, List.append_assoc]
    · intro x hx
      exact noBreaks_of hg (x.1 + 1, x.2) (List.mem_map.2 ⟨x, hx, rfl⟩)

end

theorem pretty_lines {t : DebugTree} (h : t.Good) :
    t.pretty = List.intercalate ['\n'] (t.lines.map indented) := by
  have hn : t.lines ≠ [] := by
    obtain ⟨s, r, e⟩ := lines_cons t
    rw [e]
    simp
  exact List.append_cancel_right ((pretty_block t h).trans (block_intercalate hn).symm)

theorem split_pretty {t : DebugTree} (h : t.Good) :
    (t.pretty.splitOn '\n').map (fun l => l.dropWhile (· == ' ')) = t.lines.map (·.2) := by
  have hl := lines_tree t h
  rw [pretty_lines h, List.splitOn_intercalate]
  · rw [List.map_map]
    apply List.map_congr_left
    intro x hx
    obtain ⟨-, c, r, e, hc⟩ := hl x hx
    show (List.replicate (4 * x.1) ' ' ++ x.2).dropWhile (· == ' ') = x.2
    rw [List.dropWhile_append_of_pos, e, List.dropWhile_cons_of_neg]
    · simpa using hc
    · intro a ha
      rw [List.eq_of_mem_replicate ha]
      rfl
  · intro s hs
    obtain ⟨x, hx, rfl⟩ := List.mem_map.1 hs
    intro hm
    rcases List.mem_append.1 hm with hm | hm
    · exact absurd (List.eq_of_mem_replicate hm) (by decide)
    · exact noBreaks_of hl x hx hm
  · obtain ⟨s, r, e⟩ := lines_cons t
    rw [e]
    simp

theorem count_block {l : Lines} (h : AllTexts LineText l) : (block l).count '\n' = l.length := by
  induction l with
  | nil => rfl
  | cons x l ih =>
    have hx := line_noBreak (h x (List.mem_cons_self ..))
    rw [block_cons, List.count_append, List.count_cons_self,
      ih fun y hy => h y (List.mem_cons_of_mem _ hy), List.length_cons, indented, List.count_append,
      List.count_eq_zero_of_not_mem hx, List.count_eq_zero_of_not_mem]
    · omega
    · exact fun hm => absurd (List.eq_of_mem_replicate hm) (by decide)

theorem count_pretty {t : DebugTree} (h : t.Good) : t.pretty.count '\n' + 1 = t.lines.length := by
  have := count_block (lines_tree t h)
  rw [← pretty_block t h, List.count_append] at this
  exact this

theorem chars_pretty {t : DebugTree} (h : t.Good) :
    ∀ c ∈ t.pretty, c = '\n' ∨ 32 ≤ c.toNat ∧ c.toNat < 127 := by
  intro c hc
  have hb : c ∈ block t.lines := by
    rw [← pretty_block t h]
    exact List.mem_append_left _ hc
  obtain ⟨x, hx, hm⟩ := List.mem_flatMap.1 hb
  rcases List.mem_append.1 hm with hm | hm
  · rcases List.mem_append.1 hm with hm | hm
    · rw [List.eq_of_mem_replicate hm]
      exact .inr (by decide)
    · exact .inr ((lines_tree t h x hx).1 c hm)
  · exact .inl (List.mem_singleton.1 hm)

/-! ## Lines put on one line -/

theorem before_brace (s b : Text) : before (s ++ ['{']) b = s ++ ['{', ' '] := by
  unfold before
  rw [List.getLast?_concat]
  simp

theorem before_paren (s b : Text) : before (s ++ ['(']) b = s ++ ['('] := by
  unfold before
  rw [List.getLast?_concat]
  simp

theorem before_comma (s b : Text) : before (s ++ [',']) b = s ++ before [','] b := by
  unfold before
  rw [List.getLast?_concat, List.dropLast_concat]
  show (match some ',', b.head? with
    | some '{', _ => _
    | some '(', _ => _
    | some ',', some '}' => _
    | some ',', some ')' => _
    | _, _ => _) = s ++ (match some ',', b.head? with
    | some '{', _ => _
    | some '(', _ => _
    | some ',', some '}' => _
    | some ',', some ')' => _
    | _, _ => _)
  generalize b.head? = o
  split <;> simp_all

theorem before_start {b : Text} (h : Start b) : before [','] b = [',', ' '] := by
  obtain ⟨c, r, rfl, -, h1, h2⟩ := h
  unfold before
  show (match some ',', some c with
    | some '{', _ => _
    | some '(', _ => _
    | some ',', some '}' => _
    | some ',', some ')' => _
    | _, _ => _) = _
  split <;> simp_all

/-- Lines put before a further one. -/
def joinBefore : List Text → Text → Text
  | [], _ => []
  | [a], b => before a b
  | a :: a' :: r, b => before a a' ++ joinBefore (a' :: r) b

theorem joinBefore_append (x y : List Text) (z b : Text) :
    joinBefore (x ++ z :: y) b = joinBefore x z ++ joinBefore (z :: y) b := by
  induction x with
  | nil => rfl
  | cons a x ih =>
    cases x with
    | nil => rfl
    | cons a' x =>
      show before a a' ++ joinBefore (a' :: x ++ z :: y) b = _
      rw [ih, ← List.append_assoc]
      rfl

theorem joinLines_append (x y : List Text) (z : Text) :
    joinLines (x ++ z :: y) = joinBefore x z ++ joinLines (z :: y) := by
  induction x with
  | nil => rfl
  | cons a x ih =>
    cases x with
    | nil => rfl
    | cons a' x =>
      show before a a' ++ joinLines (a' :: x ++ z :: y) = _
      rw [ih, ← List.append_assoc]
      rfl

/-- The texts of lines. -/
def texts (l : Lines) : List Text := l.map (·.2)

theorem texts_deeper (l : Lines) : texts (deeper l) = texts l := by
  rw [texts, deeper, List.map_map]
  rfl

theorem texts_append (a b : Lines) : texts (a ++ b) = texts a ++ texts b := List.map_append ..

theorem comma_concat (l : Lines) (k : Nat) (s : Text) :
    comma (l ++ [(k, s)]) = l ++ [(k, s ++ [','])] := by
  induction l with
  | nil => rfl
  | cons x l ih =>
    cases l with
    | nil => rfl
    | cons y l =>
      show x :: comma (y :: l ++ [(k, s)]) = _
      rw [ih]
      rfl

/-- The first line of a field can stand after a comma. -/
theorem fields_start {l : Text} {v : DebugTree} {r : DebugFields} (h : (DebugFields.cons l v r).Good) :
    ∃ a b, texts (DebugFields.cons l v r).lines = a :: b ∧ Start a := by
  have hv : ∃ a b, v.lines = (0, a) :: b ∧ Start a := by
    have h := h.2.1
    cases v with
    | text p a => exact ⟨a, [], by rw [DebugTree.lines], h.2⟩
    | node name b fs =>
      cases fs with
      | nil => exact ⟨name, [], by rw [DebugTree.lines], h.1.2⟩
      | cons l v r =>
        cases b <;> exact ⟨_, _, by rw [DebugTree.lines], start_append _ h.1.2⟩
  obtain ⟨a, b, e, ha⟩ := hv
  have hs : Start (l ++ a) := by
    rcases h.1 with rfl | hl
    · exact ha
    · exact start_append _ hl.2
  rw [DebugFields.lines, texts_append, texts_deeper, e, prefixed]
  cases b with
  | nil => exact ⟨l ++ a ++ [','], _, rfl, start_append _ hs⟩
  | cons y b => exact ⟨l ++ a, _, rfl, hs⟩

mutual

theorem join_value : ∀ (t : DebugTree) (l b : Text), t.Good → t.Same →
    joinBefore (texts (comma (prefixed l t.lines))) b = l ++ t.plain ++ before [','] b
  | .text p a, l, b, _, h => by
    have h : p = a := h
    subst h
    rw [DebugTree.lines, DebugTree.plain]
    show before (l ++ p ++ [',']) b = _
    rw [before_comma]
  | .node name _ .nil, l, b, _, _ => by
    rw [DebugTree.lines, DebugTree.plain]
    show before (l ++ name ++ [',']) b = _
    rw [before_comma]
  | .node name true (.cons l' v r), l, b, h, h' => by
    have hf := join_fields (.cons l' v r) "},".toList h.2 (nomatch ·) h'
    obtain ⟨x, y, e, -⟩ := fields_start h.2
    rw [DebugTree.lines, DebugTree.plain, prefixed, ← List.cons_append, comma_concat, texts_append]
    show joinBefore ((l ++ (name ++ " {".toList)) :: texts _ ++ ["},".toList]) b = _
    rw [joinBefore_append]
    rw [e] at hf ⊢
    show before (l ++ (name ++ " {".toList)) x ++ joinBefore (x :: y) "},".toList ++
      before (['}'] ++ [',']) b = _
    rw [hf, before_comma, show l ++ (name ++ " {".toList) = (l ++ name ++ [' ']) ++ ['{'] by simp,
      before_brace, show before [','] "},".toList = [' '] by decide]
    simp
  | .node name false (.cons l' v r), l, b, h, h' => by
    have hf := join_fields (.cons l' v r) "),".toList h.2 (nomatch ·) h'
    obtain ⟨x, y, e, -⟩ := fields_start h.2
    rw [DebugTree.lines, DebugTree.plain, prefixed, ← List.cons_append, comma_concat, texts_append]
    show joinBefore ((l ++ (name ++ "(".toList)) :: texts _ ++ ["),".toList]) b = _
    rw [joinBefore_append]
    rw [e] at hf ⊢
    show before (l ++ (name ++ "(".toList)) x ++ joinBefore (x :: y) "),".toList ++
      before ([')'] ++ [',']) b = _
    rw [hf, before_comma, show l ++ (name ++ "(".toList) = (l ++ name) ++ ['('] by simp,
      before_paren, show before [','] "),".toList = [] by decide]
    simp

theorem join_fields : ∀ (fs : DebugFields) (b : Text), fs.Good → fs ≠ .nil → fs.Same →
    joinBefore (texts fs.lines) b = fs.plain ++ before [','] b
  | .nil, _, _, h, _ => absurd rfl h
  | .cons l v .nil, b, h, _, h' => by
    rw [DebugFields.lines, DebugFields.lines, List.append_nil, texts_deeper, DebugFields.plain]
    exact join_value v l b h.2.1 h'.1
  | .cons l v (.cons l' v' r), b, h, _, h' => by
    have hf := join_fields (.cons l' v' r) b h.2.2 (nomatch ·) h'.2
    obtain ⟨x, y, e, hx⟩ := fields_start h.2.2
    rw [DebugFields.lines, texts_append, texts_deeper, DebugFields.plain, e, joinBefore_append,
      join_value v l x h.2.1 h'.1, ← e, hf, before_start hx]
    simp

end

theorem join_tree {t : DebugTree} (h : t.Good) (h' : t.Same) : joinLines (texts t.lines) = t.plain := by
  cases t with
  | text p a =>
    have h' : p = a := h'
    subst h'
    rw [DebugTree.lines, DebugTree.plain]
    rfl
  | node name b fs =>
    cases fs with
    | nil =>
      rw [DebugTree.lines, DebugTree.plain]
      rfl
    | cons l v r =>
      obtain ⟨x, y, e, -⟩ := fields_start h.2
      cases b with
      | true =>
        have hf := join_fields (.cons l v r) "}".toList h.2 (nomatch ·) h'
        rw [DebugTree.lines, DebugTree.plain]
        show joinLines ((name ++ " {".toList) :: texts (_ ++ [(0, ['}'])])) = _
        rw [texts_append, ← List.cons_append]
        show joinLines ((name ++ " {".toList) :: texts _ ++ ["}".toList]) = _
        rw [joinLines_append]
        rw [e] at hf ⊢
        show before (name ++ " {".toList) x ++ joinBefore (x :: y) "}".toList ++ ['}'] = _
        rw [hf, show name ++ " {".toList = (name ++ [' ']) ++ ['{'] by simp,
          before_brace, show before [','] "}".toList = [' '] by decide]
        simp
      | false =>
        have hf := join_fields (.cons l v r) ")".toList h.2 (nomatch ·) h'
        rw [DebugTree.lines, DebugTree.plain]
        show joinLines ((name ++ "(".toList) :: texts (_ ++ [(0, [')'])])) = _
        rw [texts_append, ← List.cons_append]
        show joinLines ((name ++ "(".toList) :: texts _ ++ [")".toList]) = _
        rw [joinLines_append]
        rw [e] at hf ⊢
        show before (name ++ "(".toList) x ++ joinBefore (x :: y) ")".toList ++ [')'] = _
        rw [hf, show name ++ "(".toList = name ++ ['('] by simp, before_paren, show before [','] ")".toList = [] by decide]
        simp

/-! ## The trees of the types -/

theorem prefixed_nil (l : Lines) : prefixed [] l = l := by
  cases l <;> rfl

theorem lines_struct (n : String) (fs : List (String × DebugTree)) (h : fs ≠ []) :
    (DebugTree.struct n.toList (fs.map fun f => (f.1.toList, f.2))).lines =
      record n (fs.map fun f => (f.1, f.2.lines)) := by
  have key : ∀ fs : List (String × DebugTree),
      DebugFields.lines ((fs.map fun f => (f.1.toList, f.2)).foldr
        (fun (f : Text × DebugTree) r => .cons (f.1 ++ ": ".toList) f.2 r) .nil) =
      (fs.map fun f => (f.1, f.2.lines)).flatMap
        (fun (f : String × Lines) => deeper (comma (prefixed (f.1 ++ ": ").toList f.2))) := by
    intro fs
    induction fs with
    | nil => rfl
    | cons f fs ih =>
      rw [List.map_cons, List.foldr_cons, DebugFields.lines, ih, List.map_cons, List.flatMap_cons,
        String.toList_append]
  cases fs with
  | nil => exact absurd rfl h
  | cons f fs =>
    have := key (f :: fs)
    rw [record, ← this, DebugTree.struct, List.map_cons, List.foldr_cons, DebugTree.lines,
      String.toList_append]
    rfl

theorem lines_tuple (n : String) (t : DebugTree) :
    (DebugTree.tuple n.toList [t]).lines = wrapped n t.lines := by
  rw [DebugTree.tuple, List.foldr_cons, DebugTree.lines, DebugFields.lines, prefixed_nil,
    List.foldr_nil, DebugFields.lines, List.append_nil, wrapped, String.toList_append]
  rfl

theorem lines_same (s : String) : (DebugTree.same s.toList).lines = word s := by
  rw [DebugTree.same, DebugTree.lines, word]

theorem lines_number (n : Nat) : (debugNumber n).lines = number n := by
  rw [debugNumber, debug_nat, lines_same, number]

theorem lines_bool (b : Bool) : (DebugTree.same (debugBool b)).lines = word (toString b) := by
  rw [debug_bool, lines_same]

theorem lines_bytes (b : Bytes) : (DebugTree.same (debugBytes b)).lines = word (shownBytes b) := by
  rw [debug_bytes, lines_same]

theorem lines_option (o : Option Bytes) : (debugOptionTree o).lines = optionLines o := by
  cases o with
  | none => exact lines_same "None"
  | some b => rw [debugOptionTree, lines_tuple, lines_bytes, optionLines]

theorem flags_alternate (f : Flags) :
    f.debugAlternate = (shownFlagsAlternate f.bits.toNat).toList := by
  have e : (f.bits &&& ~~~ Flags.all.bits).toNat =
      f.bits.toNat % 16 + f.bits.toNat / 512 * 512 := by
    rw [← bits_other _ f.bits.isLt, show ~~~ Flags.all.bits = 0xFE0F#16 by decide, BitVec.toNat_and]
    rfl
  have e' : f.bits &&& ~~~ Flags.all.bits = 0#16 ↔
      f.bits.toNat % 16 + f.bits.toNat / 512 * 512 = 0 := by
    rw [← e]
    exact ⟨fun h => by rw [h]; rfl, fun h => BitVec.eq_of_toNat_eq h⟩
  have hp : (Flags.declared.filter fun d => f.contains d.2).map (·.1) ++
      (if f.bits &&& ~~~ Flags.all.bits = 0#16 then []
        else ["0x0x".toList ++ Nat.toDigits 16 (f.bits &&& ~~~ Flags.all.bits).toNat]) =
      (shownNames f.bits.toNat ++
        if f.bits.toNat % 16 + f.bits.toNat / 512 * 512 = 0 then []
        else ["0x0x" ++ String.ofList
          (Nat.toDigits 16 (f.bits.toNat % 16 + f.bits.toNat / 512 * 512))]).map String.toList := by
    rw [List.map_append, debug_names]
    congr 1
    by_cases h : f.bits.toNat % 16 + f.bits.toNat / 512 * 512 = 0
    · rw [if_pos h, if_pos (e'.2 h)]
      rfl
    · rw [if_neg h, if_neg (fun hb => h (e'.1 hb)), e]
      simp only [List.map_cons, List.map_nil, String.toList_append, String.toList_ofList]
  have hd := debug_parts f
  unfold Flags.debugAlternate shownFlagsAlternate
  simp only
  rw [hp]
  by_cases h0 : f.bits.toNat = 0
  · rw [if_pos h0, h0]
    rfl
  · rw [if_neg h0, ← join_text]
    have hne : f.debugParts ≠ [] := by
      intro h
      have h1 : f = ⟨0#16⟩ := flags_of_parts (h.trans (by decide))
      exact h0 (by rw [h1]; rfl)
    have : (shownNames f.bits.toNat ++
        if f.bits.toNat % 16 + f.bits.toNat / 512 * 512 = 0 then []
        else ["0x0x" ++ String.ofList
          (Nat.toDigits 16 (f.bits.toNat % 16 + f.bits.toNat / 512 * 512))]).map String.toList ≠ [] := by
      intro h
      apply hne
      rw [hd]
      rw [List.map_eq_nil_iff, List.append_eq_nil_iff] at h ⊢
      refine ⟨h.1, ?_⟩
      by_cases hz : f.bits.toNat % 16 + f.bits.toNat / 512 * 512 = 0
      · rw [if_pos hz]
      · rw [if_neg hz] at h
        exact absurd h.2 (List.cons_ne_nil _ _)
    generalize (List.map String.toList _ : List Text) = l at this
    cases l with
    | nil => exact absurd rfl this
    | cons x l => rfl

theorem lines_flags (f : Flags) :
    f.debugTree.lines = word (shownFlagsAlternate f.bits.toNat) := by
  rw [Flags.debugTree, DebugTree.lines, flags_alternate, word]

theorem lines_version (v : Version) : v.debugTree.lines = versionLines v := by
  have := lines_struct "Version" [("major", debugNumber v.major.toNat),
    ("minor", debugNumber v.minor.toNat)] (List.cons_ne_nil _ _)
  simp only [List.map_cons, List.map_nil, lines_number] at this
  exact this

theorem lines_payload (p : Payload) : p.debugTree.lines = payloadLines p := by
  have := lines_struct "Payload" [("metadata", debugOptionTree p.metadata),
    ("data", debugOptionTree p.data)] (List.cons_ne_nil _ _)
  simp only [List.map_cons, List.map_nil, lines_option] at this
  exact this

theorem lines_SetupFrame (f : SetupFrame) :
    (Frame.setup f).debugTree.lines = frameLines (.setup f) := by
  have := lines_struct "SetupFrame"
    [("flags", f.flags.debugTree), ("version", f.version.debugTree),
     ("keepalive_interval", debugNumber f.keepaliveInterval.toNat),
     ("keepalive_timeout", debugNumber f.keepaliveTimeout.toNat),
     ("resume_token", debugOptionTree f.resumeToken),
     ("metadata_mimetype", .same (debugBytes f.metadataMimetype)),
     ("data_mimetype", .same (debugBytes f.dataMimetype)), ("payload", f.payload.debugTree)] (List.cons_ne_nil _ _)
  simp only [List.map_cons, List.map_nil, lines_flags, lines_version,
    lines_number, lines_option, lines_bytes, lines_payload] at this
  exact (lines_tuple "Setup" f.debugTree).trans (congrArg (wrapped "Setup") this)

theorem lines_ErrorFrame (f : ErrorFrame) :
    (Frame.error f).debugTree.lines = frameLines (.error f) := by
  have := lines_struct "ErrorFrame"
    [("stream_id", debugNumber f.streamId.toNat), ("code", debugNumber f.code.toNat),
     ("data", debugOptionTree f.data)] (List.cons_ne_nil _ _)
  simp only [List.map_cons, List.map_nil, lines_number, lines_option] at this
  exact (lines_tuple "Error" f.debugTree).trans (congrArg (wrapped "Error") this)

theorem lines_LeaseFrame (f : LeaseFrame) :
    (Frame.lease f).debugTree.lines = frameLines (.lease f) := by
  have := lines_struct "LeaseFrame"
    [("ttl", debugNumber f.ttl.toNat),
     ("number_of_requests", debugNumber f.numberOfRequests.toNat),
     ("metadata", debugOptionTree f.metadata)] (List.cons_ne_nil _ _)
  simp only [List.map_cons, List.map_nil, lines_number, lines_option] at this
  exact (lines_tuple "Lease" f.debugTree).trans (congrArg (wrapped "Lease") this)

theorem lines_KeepaliveFrame (f : KeepaliveFrame) :
    (Frame.keepalive f).debugTree.lines = frameLines (.keepalive f) := by
  have := lines_struct "KeepaliveFrame"
    [("respond", .same (debugBool f.respond)),
     ("last_received_position", debugNumber f.lastReceivedPosition.toNat),
     ("data", debugOptionTree f.data)] (List.cons_ne_nil _ _)
  simp only [List.map_cons, List.map_nil, lines_bool, lines_number, lines_option] at this
  exact (lines_tuple "Keepalive" f.debugTree).trans (congrArg (wrapped "Keepalive") this)

theorem lines_RequestResponseFrame (f : RequestResponseFrame) :
    (Frame.requestResponse f).debugTree.lines = frameLines (.requestResponse f) := by
  have := lines_struct "RequestResponseFrame"
    [("stream_id", debugNumber f.streamId.toNat), ("flags", f.flags.debugTree),
     ("payload", f.payload.debugTree)] (List.cons_ne_nil _ _)
  simp only [List.map_cons, List.map_nil, lines_number, lines_flags, lines_payload] at this
  exact (lines_tuple "RequestResponse" f.debugTree).trans (congrArg (wrapped "RequestResponse") this)

theorem lines_RequestFnfFrame (f : RequestFnfFrame) :
    (Frame.requestFnf f).debugTree.lines = frameLines (.requestFnf f) := by
  have := lines_struct "RequestFnfFrame"
    [("stream_id", debugNumber f.streamId.toNat), ("flags", f.flags.debugTree),
     ("payload", f.payload.debugTree)] (List.cons_ne_nil _ _)
  simp only [List.map_cons, List.map_nil, lines_number, lines_flags, lines_payload] at this
  exact (lines_tuple "RequestFnf" f.debugTree).trans (congrArg (wrapped "RequestFnf") this)

theorem lines_RequestStreamFrame (f : RequestStreamFrame) :
    (Frame.requestStream f).debugTree.lines = frameLines (.requestStream f) := by
  have := lines_struct "RequestStreamFrame"
    [("stream_id", debugNumber f.streamId.toNat), ("flags", f.flags.debugTree),
     ("initial_request_n", debugNumber f.initialRequestN.toNat),
     ("payload", f.payload.debugTree)] (List.cons_ne_nil _ _)
  simp only [List.map_cons, List.map_nil, lines_number, lines_flags, lines_payload] at this
  exact (lines_tuple "RequestStream" f.debugTree).trans (congrArg (wrapped "RequestStream") this)

theorem lines_RequestChannelFrame (f : RequestChannelFrame) :
    (Frame.requestChannel f).debugTree.lines = frameLines (.requestChannel f) := by
  have := lines_struct "RequestChannelFrame"
    [("stream_id", debugNumber f.streamId.toNat), ("flags", f.flags.debugTree),
     ("initial_request_n", debugNumber f.initialRequestN.toNat),
     ("payload", f.payload.debugTree)] (List.cons_ne_nil _ _)
  simp only [List.map_cons, List.map_nil, lines_number, lines_flags, lines_payload] at this
  exact (lines_tuple "RequestChannel" f.debugTree).trans (congrArg (wrapped "RequestChannel") this)

theorem lines_RequestNFrame (f : RequestNFrame) :
    (Frame.requestN f).debugTree.lines = frameLines (.requestN f) := by
  have := lines_struct "RequestNFrame"
    [("stream_id", debugNumber f.streamId.toNat), ("request_n", debugNumber f.requestN.toNat)] (List.cons_ne_nil _ _)
  simp only [List.map_cons, List.map_nil, lines_number] at this
  exact (lines_tuple "RequestN" f.debugTree).trans (congrArg (wrapped "RequestN") this)

theorem lines_CancelFrame (f : CancelFrame) :
    (Frame.cancel f).debugTree.lines = frameLines (.cancel f) := by
  have := lines_struct "CancelFrame"
    [("stream_id", debugNumber f.streamId.toNat)] (List.cons_ne_nil _ _)
  simp only [List.map_cons, List.map_nil, lines_number] at this
  exact (lines_tuple "Cancel" f.debugTree).trans (congrArg (wrapped "Cancel") this)

theorem lines_PayloadFrame (f : PayloadFrame) :
    (Frame.payload f).debugTree.lines = frameLines (.payload f) := by
  have := lines_struct "PayloadFrame"
    [("stream_id", debugNumber f.streamId.toNat), ("flags", f.flags.debugTree),
     ("payload", f.payload.debugTree)] (List.cons_ne_nil _ _)
  simp only [List.map_cons, List.map_nil, lines_number, lines_flags, lines_payload] at this
  exact (lines_tuple "Payload" f.debugTree).trans (congrArg (wrapped "Payload") this)

theorem lines_MetadataPushFrame (f : MetadataPushFrame) :
    (Frame.metadataPush f).debugTree.lines = frameLines (.metadataPush f) := by
  have := lines_struct "MetadataPushFrame"
    [("metadata", .same (debugBytes f.metadata))] (List.cons_ne_nil _ _)
  simp only [List.map_cons, List.map_nil, lines_bytes] at this
  exact (lines_tuple "MetadataPush" f.debugTree).trans (congrArg (wrapped "MetadataPush") this)

theorem lines_ResumeFrame (f : ResumeFrame) :
    (Frame.resume f).debugTree.lines = frameLines (.resume f) := by
  have := lines_struct "ResumeFrame"
    [("version", f.version.debugTree), ("resume_token", .same (debugBytes f.resumeToken)),
     ("last_received_server_position", debugNumber f.lastReceivedServerPosition.toNat),
     ("first_available_client_position", debugNumber f.firstAvailableClientPosition.toNat)] (List.cons_ne_nil _ _)
  simp only [List.map_cons, List.map_nil, lines_version, lines_bytes, lines_number] at this
  exact (lines_tuple "Resume" f.debugTree).trans (congrArg (wrapped "Resume") this)

theorem lines_ResumeOkFrame (f : ResumeOkFrame) :
    (Frame.resumeOk f).debugTree.lines = frameLines (.resumeOk f) := by
  have := lines_struct "ResumeOkFrame"
    [("last_received_client_position", debugNumber f.lastReceivedClientPosition.toNat)] (List.cons_ne_nil _ _)
  simp only [List.map_cons, List.map_nil, lines_number] at this
  exact (lines_tuple "ResumeOk" f.debugTree).trans (congrArg (wrapped "ResumeOk") this)

theorem lines_frame (f : Frame) : f.debugTree.lines = frameLines f := by
  cases f with
  | setup f => exact lines_SetupFrame f
  | error f => exact lines_ErrorFrame f
  | lease f => exact lines_LeaseFrame f
  | keepalive f => exact lines_KeepaliveFrame f
  | requestResponse f => exact lines_RequestResponseFrame f
  | requestFnf f => exact lines_RequestFnfFrame f
  | requestStream f => exact lines_RequestStreamFrame f
  | requestChannel f => exact lines_RequestChannelFrame f
  | requestN f => exact lines_RequestNFrame f
  | cancel f => exact lines_CancelFrame f
  | payload f => exact lines_PayloadFrame f
  | metadataPush f => exact lines_MetadataPushFrame f
  | resume f => exact lines_ResumeFrame f
  | resumeOk f => exact lines_ResumeOkFrame f

/-! ## The texts of the types are fit for lines -/

theorem goodText_of {t : Text} (h : Printable t)
    (h' : t.head?.any (fun c => c != ' ' && c != '}' && c != ')') = true) : GoodText t := by
  refine ⟨h, ?_⟩
  cases t with
  | nil => cases h'
  | cons c r =>
    have h' : (c != ' ' && c != '}' && c != ')') = true := h'
    simp only [Bool.and_eq_true, bne_iff_ne] at h'
    exact ⟨c, r, rfl, h'.1.1, h'.1.2, h'.2⟩

theorem goodText_append {s t : Text} (hs : GoodText s) (ht : Printable t) : GoodText (s ++ t) :=
  ⟨printable_append hs.1 ht, start_append t hs.2⟩

theorem good_struct {n : Text} {fs : List (Text × DebugTree)} (hn : GoodText n)
    (h : ∀ f ∈ fs, GoodText f.1 ∧ f.2.Good) : (DebugTree.struct n fs).Good := by
  refine ⟨hn, ?_⟩
  induction fs with
  | nil => trivial
  | cons f fs ih =>
    have hf := h f (List.mem_cons_self ..)
    exact ⟨.inr (goodText_append hf.1 (by decide)), hf.2, ih fun g hg => h g (List.mem_cons_of_mem _ hg)⟩

theorem good_tuple {n : Text} {t : DebugTree} (hn : GoodText n) (h : t.Good) :
    (DebugTree.tuple n [t]).Good := ⟨hn, .inl rfl, h, trivial⟩

theorem same_struct {n : Text} {fs : List (Text × DebugTree)} (h : ∀ f ∈ fs, f.2.Same) :
    (DebugTree.struct n fs).Same := by
  show DebugFields.Same _
  induction fs with
  | nil => trivial
  | cons f fs ih =>
    exact ⟨h f (List.mem_cons_self ..), ih fun g hg => h g (List.mem_cons_of_mem _ hg)⟩

theorem same_tuple {n : Text} {t : DebugTree} (h : t.Same) : (DebugTree.tuple n [t]).Same :=
  ⟨h, trivial⟩

theorem same_same (t : Text) : (DebugTree.same t).Same := rfl

theorem plain_struct {n : Text} {fs : List (Text × DebugTree)} (h : fs ≠ []) :
    (DebugTree.struct n fs).plain = debugStruct n (fs.map fun f => (f.1, f.2.plain)) := by
  have key : ∀ fs : List (Text × DebugTree),
      DebugFields.plain (fs.foldr (fun f r => .cons (f.1 ++ ": ".toList) f.2 r) .nil) =
        debugFields (fs.map fun f => (f.1, f.2.plain)) := by
    intro fs
    induction fs with
    | nil => rfl
    | cons f fs ih =>
      cases fs with
      | nil =>
        rw [List.foldr_cons, List.foldr_nil, DebugFields.plain]
        rfl
      | cons g fs =>
        rw [List.foldr_cons] at ih
        rw [List.foldr_cons, List.foldr_cons, DebugFields.plain, ih]
        rfl
  cases fs with
  | nil => exact absurd rfl h
  | cons f fs =>
    have := key (f :: fs)
    rw [debugStruct, ← this, DebugTree.struct, List.foldr_cons, DebugTree.plain]

theorem plain_tuple (n : Text) (t : DebugTree) :
    (DebugTree.tuple n [t]).plain = debugVariant n t.plain := by
  rw [DebugTree.tuple, List.foldr_cons, List.foldr_nil, DebugTree.plain, DebugFields.plain,
    debugVariant]
  rfl

theorem plain_same (t : Text) : (DebugTree.same t).plain = t := by
  rw [DebugTree.same, DebugTree.plain]

theorem good_number (n : Nat) : (debugNumber n).Good := by
  show GoodText (debugNat n)
  refine ⟨printable_nat n, ?_⟩
  have hd : ∀ c ∈ debugNat n, c.isDigit = true :=
    fun c hc => Nat.isDigit_of_mem_toDigits (by decide) (by decide) hc
  cases h : debugNat n with
  | nil => exact absurd h (Nat.toDigits_ne_nil)
  | cons c r =>
    have hc := hd c (by rw [h]; exact List.mem_cons_self ..)
    refine ⟨c, r, rfl, ?_, ?_, ?_⟩ <;> (rintro rfl; exact absurd hc (by decide))

theorem good_bool (b : Bool) : (DebugTree.same (debugBool b)).Good := by
  cases b <;> exact goodText_of (by decide) (by decide)

theorem good_bytes (b : Bytes) : (DebugTree.same (debugBytes b)).Good :=
  goodText_of (printable_bytes b) rfl

theorem good_option (o : Option Bytes) : (debugOptionTree o).Good := by
  cases o with
  | none => exact goodText_of (by decide) (by decide)
  | some b => exact good_tuple (goodText_of (by decide) (by decide)) (good_bytes b)

theorem same_option (o : Option Bytes) : (debugOptionTree o).Same := by
  cases o with
  | none => rfl
  | some b => exact same_tuple rfl

theorem plain_option (o : Option Bytes) : (debugOptionTree o).plain = debugOption debugBytes o := by
  cases o with
  | none => exact plain_same _
  | some b =>
    rw [debugOptionTree, plain_tuple, plain_same]
    rfl

theorem plain_number (n : Nat) : (debugNumber n).plain = debugNat n := plain_same _

theorem good_flags (f : Flags) : f.debugTree.Good := by
  show GoodText f.debugAlternate
  have hj : ∀ l : List Text, (∀ x ∈ l, GoodText x) →
      GoodText (match l with | [] => "(empty)".toList | parts => List.intercalate " | ".toList parts) := by
    intro l h
    cases l with
    | nil => exact goodText_of (by decide) (by decide)
    | cons x l =>
      show GoodText (List.intercalate " | ".toList (x :: l))
      have hp : Printable (List.intercalate " | ".toList (x :: l)) :=
        join_chars (p := fun c => 32 ≤ c.toNat ∧ c.toNat < 127) (by decide) (by decide)
          fun y hy => (h y hy).1
      refine ⟨hp, ?_⟩
      cases l with
      | nil => simpa [List.intercalate] using (h x (List.mem_cons_self ..)).2
      | cons y l =>
        have : List.intercalate " | ".toList (x :: y :: l) =
            x ++ (" | ".toList ++ List.intercalate " | ".toList (y :: l)) := by
          simp [List.intercalate]
        rw [this]
        exact start_append _ (h x (List.mem_cons_self ..)).2
  refine hj _ ?_
  intro x hx
  rcases List.mem_append.1 hx with hx | hx
  · obtain ⟨d, hd, rfl⟩ := List.mem_map.1 hx
    have : ∀ d ∈ Flags.declared, Printable d.1 ∧
        d.1.head?.any (fun c => c != ' ' && c != '}' && c != ')') = true := by decide
    have := this d (List.mem_filter.1 hd).1
    exact goodText_of this.1 this.2
  · split at hx
    · exact absurd hx List.not_mem_nil
    · rw [List.mem_singleton] at hx
      subst hx
      exact goodText_of (printable_append (by decide) (printable_hex _)) rfl

theorem same_flags {f : Flags} (h : FlagsOk f) : f.debugTree.Same := by
  show f.debugText = f.debugAlternate
  rw [debug_flags, flags_alternate]
  have : f.bits.toNat % 16 + f.bits.toNat / 512 * 512 = 0 := by
    have h1 : f.bits.toNat % 16 = 0 := h.1
    have h2 : f.bits.toNat < 512 := h.2
    omega
  unfold shownFlags shownFlagsAlternate
  simp only [this]
  rfl

theorem plain_flags (f : Flags) : f.debugTree.plain = f.debugText := by
  rw [Flags.debugTree, DebugTree.plain]

theorem good_Version (f : Version) : f.debugTree.Good :=
  good_struct (goodText_of (by decide) (by decide)) (by
    intro x hx
    simp only [List.mem_cons, List.not_mem_nil, or_false] at hx
    rcases hx with rfl | rfl
    · exact ⟨goodText_of (by dsimp only; decide) (by dsimp only; decide), good_number _⟩
    · exact ⟨goodText_of (by dsimp only; decide) (by dsimp only; decide), good_number _⟩)

theorem same_Version (f : Version) : f.debugTree.Same :=
  same_struct (by
    intro x hx
    simp only [List.mem_cons, List.not_mem_nil, or_false] at hx
    rcases hx with rfl | rfl
    · exact same_same _
    · exact same_same _)

theorem plain_Version (f : Version) : f.debugTree.plain = f.debugText := by
  rw [Version.debugTree, plain_struct (List.cons_ne_nil _ _), Version.debugText]
  simp only [List.map_cons, List.map_nil, plain_number]

theorem good_Payload (f : Payload) : f.debugTree.Good :=
  good_struct (goodText_of (by decide) (by decide)) (by
    intro x hx
    simp only [List.mem_cons, List.not_mem_nil, or_false] at hx
    rcases hx with rfl | rfl
    · exact ⟨goodText_of (by dsimp only; decide) (by dsimp only; decide), good_option _⟩
    · exact ⟨goodText_of (by dsimp only; decide) (by dsimp only; decide), good_option _⟩)

theorem same_Payload (f : Payload) : f.debugTree.Same :=
  same_struct (by
    intro x hx
    simp only [List.mem_cons, List.not_mem_nil, or_false] at hx
    rcases hx with rfl | rfl
    · exact same_option _
    · exact same_option _)

theorem plain_Payload (f : Payload) : f.debugTree.plain = f.debugText := by
  rw [Payload.debugTree, plain_struct (List.cons_ne_nil _ _), Payload.debugText]
  simp only [List.map_cons, List.map_nil, plain_option]

theorem good_SetupFrame (f : SetupFrame) : f.debugTree.Good :=
  good_struct (goodText_of (by decide) (by decide)) (by
    intro x hx
    simp only [List.mem_cons, List.not_mem_nil, or_false] at hx
    rcases hx with rfl | rfl | rfl | rfl | rfl | rfl | rfl | rfl
    · exact ⟨goodText_of (by dsimp only; decide) (by dsimp only; decide), good_flags _⟩
    · exact ⟨goodText_of (by dsimp only; decide) (by dsimp only; decide), good_Version _⟩
    · exact ⟨goodText_of (by dsimp only; decide) (by dsimp only; decide), good_number _⟩
    · exact ⟨goodText_of (by dsimp only; decide) (by dsimp only; decide), good_number _⟩
    · exact ⟨goodText_of (by dsimp only; decide) (by dsimp only; decide), good_option _⟩
    · exact ⟨goodText_of (by dsimp only; decide) (by dsimp only; decide), good_bytes _⟩
    · exact ⟨goodText_of (by dsimp only; decide) (by dsimp only; decide), good_bytes _⟩
    · exact ⟨goodText_of (by dsimp only; decide) (by dsimp only; decide), good_Payload _⟩)

theorem same_SetupFrame {f : SetupFrame} (h : FlagsOk f.flags) : f.debugTree.Same :=
  same_struct (by
    intro x hx
    simp only [List.mem_cons, List.not_mem_nil, or_false] at hx
    rcases hx with rfl | rfl | rfl | rfl | rfl | rfl | rfl | rfl
    · exact same_flags h
    · exact same_Version _
    · exact same_same _
    · exact same_same _
    · exact same_option _
    · exact same_same _
    · exact same_same _
    · exact same_Payload _)

theorem plain_SetupFrame (f : SetupFrame) : f.debugTree.plain = f.debugText := by
  rw [SetupFrame.debugTree, plain_struct (List.cons_ne_nil _ _), SetupFrame.debugText]
  simp only [List.map_cons, List.map_nil, plain_flags, plain_Version,
    plain_number, plain_option, plain_same, plain_Payload]

theorem good_ErrorFrame (f : ErrorFrame) : f.debugTree.Good :=
  good_struct (goodText_of (by decide) (by decide)) (by
    intro x hx
    simp only [List.mem_cons, List.not_mem_nil, or_false] at hx
    rcases hx with rfl | rfl | rfl
    · exact ⟨goodText_of (by dsimp only; decide) (by dsimp only; decide), good_number _⟩
    · exact ⟨goodText_of (by dsimp only; decide) (by dsimp only; decide), good_number _⟩
    · exact ⟨goodText_of (by dsimp only; decide) (by dsimp only; decide), good_option _⟩)

theorem same_ErrorFrame (f : ErrorFrame) : f.debugTree.Same :=
  same_struct (by
    intro x hx
    simp only [List.mem_cons, List.not_mem_nil, or_false] at hx
    rcases hx with rfl | rfl | rfl
    · exact same_same _
    · exact same_same _
    · exact same_option _)

theorem plain_ErrorFrame (f : ErrorFrame) : f.debugTree.plain = f.debugText := by
  rw [ErrorFrame.debugTree, plain_struct (List.cons_ne_nil _ _), ErrorFrame.debugText]
  simp only [List.map_cons, List.map_nil, plain_number, plain_option]

theorem good_LeaseFrame (f : LeaseFrame) : f.debugTree.Good :=
  good_struct (goodText_of (by decide) (by decide)) (by
    intro x hx
    simp only [List.mem_cons, List.not_mem_nil, or_false] at hx
    rcases hx with rfl | rfl | rfl
    · exact ⟨goodText_of (by dsimp only; decide) (by dsimp only; decide), good_number _⟩
    · exact ⟨goodText_of (by dsimp only; decide) (by dsimp only; decide), good_number _⟩
    · exact ⟨goodText_of (by dsimp only; decide) (by dsimp only; decide), good_option _⟩)

theorem same_LeaseFrame (f : LeaseFrame) : f.debugTree.Same :=
  same_struct (by
    intro x hx
    simp only [List.mem_cons, List.not_mem_nil, or_false] at hx
    rcases hx with rfl | rfl | rfl
    · exact same_same _
    · exact same_same _
    · exact same_option _)

theorem plain_LeaseFrame (f : LeaseFrame) : f.debugTree.plain = f.debugText := by
  rw [LeaseFrame.debugTree, plain_struct (List.cons_ne_nil _ _), LeaseFrame.debugText]
  simp only [List.map_cons, List.map_nil, plain_number, plain_option]

theorem good_KeepaliveFrame (f : KeepaliveFrame) : f.debugTree.Good :=
  good_struct (goodText_of (by decide) (by decide)) (by
    intro x hx
    simp only [List.mem_cons, List.not_mem_nil, or_false] at hx
    rcases hx with rfl | rfl | rfl
    · exact ⟨goodText_of (by dsimp only; decide) (by dsimp only; decide), good_bool _⟩
    · exact ⟨goodText_of (by dsimp only; decide) (by dsimp only; decide), good_number _⟩
    · exact ⟨goodText_of (by dsimp only; decide) (by dsimp only; decide), good_option _⟩)

theorem same_KeepaliveFrame (f : KeepaliveFrame) : f.debugTree.Same :=
  same_struct (by
    intro x hx
    simp only [List.mem_cons, List.not_mem_nil, or_false] at hx
    rcases hx with rfl | rfl | rfl
    · exact same_same _
    · exact same_same _
    · exact same_option _)

theorem plain_KeepaliveFrame (f : KeepaliveFrame) : f.debugTree.plain = f.debugText := by
  rw [KeepaliveFrame.debugTree, plain_struct (List.cons_ne_nil _ _), KeepaliveFrame.debugText]
  simp only [List.map_cons, List.map_nil, plain_same, plain_number, plain_option]

theorem good_RequestResponseFrame (f : RequestResponseFrame) : f.debugTree.Good :=
  good_struct (goodText_of (by decide) (by decide)) (by
    intro x hx
    simp only [List.mem_cons, List.not_mem_nil, or_false] at hx
    rcases hx with rfl | rfl | rfl
    · exact ⟨goodText_of (by dsimp only; decide) (by dsimp only; decide), good_number _⟩
    · exact ⟨goodText_of (by dsimp only; decide) (by dsimp only; decide), good_flags _⟩
    · exact ⟨goodText_of (by dsimp only; decide) (by dsimp only; decide), good_Payload _⟩)

theorem same_RequestResponseFrame {f : RequestResponseFrame} (h : FlagsOk f.flags) : f.debugTree.Same :=
  same_struct (by
    intro x hx
    simp only [List.mem_cons, List.not_mem_nil, or_false] at hx
    rcases hx with rfl | rfl | rfl
    · exact same_same _
    · exact same_flags h
    · exact same_Payload _)

theorem plain_RequestResponseFrame (f : RequestResponseFrame) : f.debugTree.plain = f.debugText := by
  rw [RequestResponseFrame.debugTree, plain_struct (List.cons_ne_nil _ _), RequestResponseFrame.debugText]
  simp only [List.map_cons, List.map_nil, plain_number, plain_flags, plain_Payload]

theorem good_RequestFnfFrame (f : RequestFnfFrame) : f.debugTree.Good :=
  good_struct (goodText_of (by decide) (by decide)) (by
    intro x hx
    simp only [List.mem_cons, List.not_mem_nil, or_false] at hx
    rcases hx with rfl | rfl | rfl
    · exact ⟨goodText_of (by dsimp only; decide) (by dsimp only; decide), good_number _⟩
    · exact ⟨goodText_of (by dsimp only; decide) (by dsimp only; decide), good_flags _⟩
    · exact ⟨goodText_of (by dsimp only; decide) (by dsimp only; decide), good_Payload _⟩)

theorem same_RequestFnfFrame {f : RequestFnfFrame} (h : FlagsOk f.flags) : f.debugTree.Same :=
  same_struct (by
    intro x hx
    simp only [List.mem_cons, List.not_mem_nil, or_false] at hx
    rcases hx with rfl | rfl | rfl
    · exact same_same _
    · exact same_flags h
    · exact same_Payload _)

theorem plain_RequestFnfFrame (f : RequestFnfFrame) : f.debugTree.plain = f.debugText := by
  rw [RequestFnfFrame.debugTree, plain_struct (List.cons_ne_nil _ _), RequestFnfFrame.debugText]
  simp only [List.map_cons, List.map_nil, plain_number, plain_flags, plain_Payload]

theorem good_RequestStreamFrame (f : RequestStreamFrame) : f.debugTree.Good :=
  good_struct (goodText_of (by decide) (by decide)) (by
    intro x hx
    simp only [List.mem_cons, List.not_mem_nil, or_false] at hx
    rcases hx with rfl | rfl | rfl | rfl
    · exact ⟨goodText_of (by dsimp only; decide) (by dsimp only; decide), good_number _⟩
    · exact ⟨goodText_of (by dsimp only; decide) (by dsimp only; decide), good_flags _⟩
    · exact ⟨goodText_of (by dsimp only; decide) (by dsimp only; decide), good_number _⟩
    · exact ⟨goodText_of (by dsimp only; decide) (by dsimp only; decide), good_Payload _⟩)

theorem same_RequestStreamFrame {f : RequestStreamFrame} (h : FlagsOk f.flags) : f.debugTree.Same :=
  same_struct (by
    intro x hx
    simp only [List.mem_cons, List.not_mem_nil, or_false] at hx
    rcases hx with rfl | rfl | rfl | rfl
    · exact same_same _
    · exact same_flags h
    · exact same_same _
    · exact same_Payload _)

theorem plain_RequestStreamFrame (f : RequestStreamFrame) : f.debugTree.plain = f.debugText := by
  rw [RequestStreamFrame.debugTree, plain_struct (List.cons_ne_nil _ _), RequestStreamFrame.debugText]
  simp only [List.map_cons, List.map_nil, plain_number, plain_flags, plain_Payload]

theorem good_RequestChannelFrame (f : RequestChannelFrame) : f.debugTree.Good :=
  good_struct (goodText_of (by decide) (by decide)) (by
    intro x hx
    simp only [List.mem_cons, List.not_mem_nil, or_false] at hx
    rcases hx with rfl | rfl | rfl | rfl
    · exact ⟨goodText_of (by dsimp only; decide) (by dsimp only; decide), good_number _⟩
    · exact ⟨goodText_of (by dsimp only; decide) (by dsimp only; decide), good_flags _⟩
    · exact ⟨goodText_of (by dsimp only; decide) (by dsimp only; decide), good_number _⟩
    · exact ⟨goodText_of (by dsimp only; decide) (by dsimp only; decide), good_Payload _⟩)

theorem same_RequestChannelFrame {f : RequestChannelFrame} (h : FlagsOk f.flags) : f.debugTree.Same :=
  same_struct (by
    intro x hx
    simp only [List.mem_cons, List.not_mem_nil, or_false] at hx
    rcases hx with rfl | rfl | rfl | rfl
    · exact same_same _
    · exact same_flags h
    · exact same_same _
    · exact same_Payload _)

theorem plain_RequestChannelFrame (f : RequestChannelFrame) : f.debugTree.plain = f.debugText := by
  rw [RequestChannelFrame.debugTree, plain_struct (List.cons_ne_nil _ _), RequestChannelFrame.debugText]
  simp only [List.map_cons, List.map_nil, plain_number, plain_flags, plain_Payload]

theorem good_RequestNFrame (f : RequestNFrame) : f.debugTree.Good :=
  good_struct (goodText_of (by decide) (by decide)) (by
    intro x hx
    simp only [List.mem_cons, List.not_mem_nil, or_false] at hx
    rcases hx with rfl | rfl
    · exact ⟨goodText_of (by dsimp only; decide) (by dsimp only; decide), good_number _⟩
    · exact ⟨goodText_of (by dsimp only; decide) (by dsimp only; decide), good_number _⟩)

theorem same_RequestNFrame (f : RequestNFrame) : f.debugTree.Same :=
  same_struct (by
    intro x hx
    simp only [List.mem_cons, List.not_mem_nil, or_false] at hx
    rcases hx with rfl | rfl
    · exact same_same _
    · exact same_same _)

theorem plain_RequestNFrame (f : RequestNFrame) : f.debugTree.plain = f.debugText := by
  rw [RequestNFrame.debugTree, plain_struct (List.cons_ne_nil _ _), RequestNFrame.debugText]
  simp only [List.map_cons, List.map_nil, plain_number]

theorem good_CancelFrame (f : CancelFrame) : f.debugTree.Good :=
  good_struct (goodText_of (by decide) (by decide)) (by
    intro x hx
    simp only [List.mem_cons, List.not_mem_nil, or_false] at hx
    subst hx
    exact ⟨goodText_of (by dsimp only; decide) (by dsimp only; decide), good_number _⟩)

theorem same_CancelFrame (f : CancelFrame) : f.debugTree.Same :=
  same_struct (by
    intro x hx
    simp only [List.mem_cons, List.not_mem_nil, or_false] at hx
    subst hx
    exact same_same _)

theorem plain_CancelFrame (f : CancelFrame) : f.debugTree.plain = f.debugText := by
  rw [CancelFrame.debugTree, plain_struct (List.cons_ne_nil _ _), CancelFrame.debugText]
  simp only [List.map_cons, List.map_nil, plain_number]

theorem good_PayloadFrame (f : PayloadFrame) : f.debugTree.Good :=
  good_struct (goodText_of (by decide) (by decide)) (by
    intro x hx
    simp only [List.mem_cons, List.not_mem_nil, or_false] at hx
    rcases hx with rfl | rfl | rfl
    · exact ⟨goodText_of (by dsimp only; decide) (by dsimp only; decide), good_number _⟩
    · exact ⟨goodText_of (by dsimp only; decide) (by dsimp only; decide), good_flags _⟩
    · exact ⟨goodText_of (by dsimp only; decide) (by dsimp only; decide), good_Payload _⟩)

theorem same_PayloadFrame {f : PayloadFrame} (h : FlagsOk f.flags) : f.debugTree.Same :=
  same_struct (by
    intro x hx
    simp only [List.mem_cons, List.not_mem_nil, or_false] at hx
    rcases hx with rfl | rfl | rfl
    · exact same_same _
    · exact same_flags h
    · exact same_Payload _)

theorem plain_PayloadFrame (f : PayloadFrame) : f.debugTree.plain = f.debugText := by
  rw [PayloadFrame.debugTree, plain_struct (List.cons_ne_nil _ _), PayloadFrame.debugText]
  simp only [List.map_cons, List.map_nil, plain_number, plain_flags, plain_Payload]

theorem good_MetadataPushFrame (f : MetadataPushFrame) : f.debugTree.Good :=
  good_struct (goodText_of (by decide) (by decide)) (by
    intro x hx
    simp only [List.mem_cons, List.not_mem_nil, or_false] at hx
    subst hx
    exact ⟨goodText_of (by dsimp only; decide) (by dsimp only; decide), good_bytes _⟩)

theorem same_MetadataPushFrame (f : MetadataPushFrame) : f.debugTree.Same :=
  same_struct (by
    intro x hx
    simp only [List.mem_cons, List.not_mem_nil, or_false] at hx
    subst hx
    exact same_same _)

theorem plain_MetadataPushFrame (f : MetadataPushFrame) : f.debugTree.plain = f.debugText := by
  rw [MetadataPushFrame.debugTree, plain_struct (List.cons_ne_nil _ _), MetadataPushFrame.debugText]
  simp only [List.map_cons, List.map_nil, plain_same]

theorem good_ResumeFrame (f : ResumeFrame) : f.debugTree.Good :=
  good_struct (goodText_of (by decide) (by decide)) (by
    intro x hx
    simp only [List.mem_cons, List.not_mem_nil, or_false] at hx
    rcases hx with rfl | rfl | rfl | rfl
    · exact ⟨goodText_of (by dsimp only; decide) (by dsimp only; decide), good_Version _⟩
    · exact ⟨goodText_of (by dsimp only; decide) (by dsimp only; decide), good_bytes _⟩
    · exact ⟨goodText_of (by dsimp only; decide) (by dsimp only; decide), good_number _⟩
    · exact ⟨goodText_of (by dsimp only; decide) (by dsimp only; decide), good_number _⟩)

theorem same_ResumeFrame (f : ResumeFrame) : f.debugTree.Same :=
  same_struct (by
    intro x hx
    simp only [List.mem_cons, List.not_mem_nil, or_false] at hx
    rcases hx with rfl | rfl | rfl | rfl
    · exact same_Version _
    · exact same_same _
    · exact same_same _
    · exact same_same _)

theorem plain_ResumeFrame (f : ResumeFrame) : f.debugTree.plain = f.debugText := by
  rw [ResumeFrame.debugTree, plain_struct (List.cons_ne_nil _ _), ResumeFrame.debugText]
  simp only [List.map_cons, List.map_nil, plain_Version, plain_same, plain_number]

theorem good_ResumeOkFrame (f : ResumeOkFrame) : f.debugTree.Good :=
  good_struct (goodText_of (by decide) (by decide)) (by
    intro x hx
    simp only [List.mem_cons, List.not_mem_nil, or_false] at hx
    subst hx
    exact ⟨goodText_of (by dsimp only; decide) (by dsimp only; decide), good_number _⟩)

theorem same_ResumeOkFrame (f : ResumeOkFrame) : f.debugTree.Same :=
  same_struct (by
    intro x hx
    simp only [List.mem_cons, List.not_mem_nil, or_false] at hx
    subst hx
    exact same_same _)

theorem plain_ResumeOkFrame (f : ResumeOkFrame) : f.debugTree.plain = f.debugText := by
  rw [ResumeOkFrame.debugTree, plain_struct (List.cons_ne_nil _ _), ResumeOkFrame.debugText]
  simp only [List.map_cons, List.map_nil, plain_number]

theorem good_frame (f : Frame) : f.debugTree.Good := by
  cases f with
  | setup f => exact good_tuple (goodText_of (by decide) (by decide)) (good_SetupFrame f)
  | error f => exact good_tuple (goodText_of (by decide) (by decide)) (good_ErrorFrame f)
  | lease f => exact good_tuple (goodText_of (by decide) (by decide)) (good_LeaseFrame f)
  | keepalive f => exact good_tuple (goodText_of (by decide) (by decide)) (good_KeepaliveFrame f)
  | requestResponse f => exact good_tuple (goodText_of (by decide) (by decide)) (good_RequestResponseFrame f)
  | requestFnf f => exact good_tuple (goodText_of (by decide) (by decide)) (good_RequestFnfFrame f)
  | requestStream f => exact good_tuple (goodText_of (by decide) (by decide)) (good_RequestStreamFrame f)
  | requestChannel f => exact good_tuple (goodText_of (by decide) (by decide)) (good_RequestChannelFrame f)
  | requestN f => exact good_tuple (goodText_of (by decide) (by decide)) (good_RequestNFrame f)
  | cancel f => exact good_tuple (goodText_of (by decide) (by decide)) (good_CancelFrame f)
  | payload f => exact good_tuple (goodText_of (by decide) (by decide)) (good_PayloadFrame f)
  | metadataPush f => exact good_tuple (goodText_of (by decide) (by decide)) (good_MetadataPushFrame f)
  | resume f => exact good_tuple (goodText_of (by decide) (by decide)) (good_ResumeFrame f)
  | resumeOk f => exact good_tuple (goodText_of (by decide) (by decide)) (good_ResumeOkFrame f)

theorem same_frame {f : Frame} (h : FrameFlagsOk f) : f.debugTree.Same := by
  cases f with
  | setup f => exact same_tuple (same_SetupFrame (h f.flags rfl))
  | error f => exact same_tuple (same_ErrorFrame f)
  | lease f => exact same_tuple (same_LeaseFrame f)
  | keepalive f => exact same_tuple (same_KeepaliveFrame f)
  | requestResponse f => exact same_tuple (same_RequestResponseFrame (h f.flags rfl))
  | requestFnf f => exact same_tuple (same_RequestFnfFrame (h f.flags rfl))
  | requestStream f => exact same_tuple (same_RequestStreamFrame (h f.flags rfl))
  | requestChannel f => exact same_tuple (same_RequestChannelFrame (h f.flags rfl))
  | requestN f => exact same_tuple (same_RequestNFrame f)
  | cancel f => exact same_tuple (same_CancelFrame f)
  | payload f => exact same_tuple (same_PayloadFrame (h f.flags rfl))
  | metadataPush f => exact same_tuple (same_MetadataPushFrame f)
  | resume f => exact same_tuple (same_ResumeFrame f)
  | resumeOk f => exact same_tuple (same_ResumeOkFrame f)

theorem plain_frame (f : Frame) : f.debugTree.plain = f.debugText := by
  cases f with
  | setup f => rw [Frame.debugTree, plain_tuple, plain_SetupFrame, Frame.debugText]
  | error f => rw [Frame.debugTree, plain_tuple, plain_ErrorFrame, Frame.debugText]
  | lease f => rw [Frame.debugTree, plain_tuple, plain_LeaseFrame, Frame.debugText]
  | keepalive f => rw [Frame.debugTree, plain_tuple, plain_KeepaliveFrame, Frame.debugText]
  | requestResponse f => rw [Frame.debugTree, plain_tuple, plain_RequestResponseFrame, Frame.debugText]
  | requestFnf f => rw [Frame.debugTree, plain_tuple, plain_RequestFnfFrame, Frame.debugText]
  | requestStream f => rw [Frame.debugTree, plain_tuple, plain_RequestStreamFrame, Frame.debugText]
  | requestChannel f => rw [Frame.debugTree, plain_tuple, plain_RequestChannelFrame, Frame.debugText]
  | requestN f => rw [Frame.debugTree, plain_tuple, plain_RequestNFrame, Frame.debugText]
  | cancel f => rw [Frame.debugTree, plain_tuple, plain_CancelFrame, Frame.debugText]
  | payload f => rw [Frame.debugTree, plain_tuple, plain_PayloadFrame, Frame.debugText]
  | metadataPush f => rw [Frame.debugTree, plain_tuple, plain_MetadataPushFrame, Frame.debugText]
  | resume f => rw [Frame.debugTree, plain_tuple, plain_ResumeFrame, Frame.debugText]
  | resumeOk f => rw [Frame.debugTree, plain_tuple, plain_ResumeOkFrame, Frame.debugText]

/-! ## The number of lines -/

theorem length_deeper (l : Lines) : (deeper l).length = l.length := List.length_map ..

theorem length_comma (l : Lines) : (comma l).length = l.length := by
  induction l with
  | nil => rfl
  | cons x l ih =>
    cases l with
    | nil => rfl
    | cons y l =>
      rw [comma, List.length_cons, ih]
      rfl

theorem length_prefixed (s : List Char) (l : Lines) : (prefixed s l).length = l.length := by
  cases l <;> rfl

theorem length_record (n : String) (fs : List (String × Lines)) :
    (record n fs).length = 2 + (fs.map fun f => f.2.length).sum := by
  simp only [record, List.length_append, List.length_flatMap, length_deeper, length_comma,
    length_prefixed, List.length_singleton]
  omega

theorem length_wrapped (n : String) (l : Lines) : (wrapped n l).length = 2 + l.length := by
  simp only [wrapped, List.length_append, length_deeper, length_comma, List.length_singleton]
  omega

theorem length_word (s : String) : (word s).length = 1 := rfl

theorem length_option (o : Option Bytes) : (optionLines o).length = 1 + optionBreaks o := by
  cases o <;> rfl

theorem length_version (v : Version) : (versionLines v).length = 4 := rfl

theorem length_payload (p : Payload) : (payloadLines p).length = 1 + payloadBreaks p := by
  simp only [payloadLines, payloadBreaks, length_record, List.map_cons, List.map_nil, List.sum_cons,
    List.sum_nil, length_option]
  omega

theorem length_frame (f : Frame) : (frameLines f).length = 1 + frameBreaks f := by
  cases f <;> simp only [frameLines, frameBreaks, length_wrapped, length_record, List.map_cons,
    List.map_nil, List.sum_cons, List.sum_nil, length_option, length_version, length_payload, number,
    length_word] <;> omega

/-! ## Other types -/

theorem lines_tuples (n : String) (ts : List DebugTree) (h : ts ≠ []) :
    (DebugTree.tuple n.toList ts).lines = wrappedAll n (ts.map (·.lines)) := by
  have key : ∀ ts : List DebugTree,
      DebugFields.lines (ts.foldr (fun v r => .cons [] v r) .nil) =
      (ts.map (·.lines)).flatMap (fun l => deeper (comma l)) := by
    intro ts
    induction ts with
    | nil => rfl
    | cons t ts ih =>
      rw [List.foldr_cons, DebugFields.lines, ih, List.map_cons, List.flatMap_cons, prefixed_nil]
  cases ts with
  | nil => exact absurd rfl h
  | cons t ts =>
    have := key (t :: ts)
    rw [wrappedAll, ← this, DebugTree.tuple, List.foldr_cons, DebugTree.lines, String.toList_append]
    rfl

theorem good_tuples {n : Text} {ts : List DebugTree} (hn : GoodText n) (h : ∀ t ∈ ts, t.Good) :
    (DebugTree.tuple n ts).Good := by
  refine ⟨hn, ?_⟩
  induction ts with
  | nil => trivial
  | cons t ts ih =>
    exact ⟨.inl rfl, h t (List.mem_cons_self ..), ih fun u hu => h u (List.mem_cons_of_mem _ hu)⟩

theorem same_tuples {n : Text} {ts : List DebugTree} (h : ∀ t ∈ ts, t.Same) :
    (DebugTree.tuple n ts).Same := by
  show DebugFields.Same _
  induction ts with
  | nil => trivial
  | cons t ts ih =>
    exact ⟨h t (List.mem_cons_self ..), ih fun u hu => h u (List.mem_cons_of_mem _ hu)⟩

theorem ofLines_pretty {t : DebugTree} (h : t.Good) : String.ofList t.pretty = ofLines t.lines := by
  rw [pretty_lines h]
  rfl

theorem oneLine_pretty {t : DebugTree} (h : t.Good) (h' : t.Same) :
    oneLine (String.ofList t.pretty) = String.ofList t.plain := by
  rw [oneLine, String.toList_ofList, split_pretty h, ← join_tree h h']
  rfl

theorem shows_tree {t : DebugTree} {l : Lines} (h : t.Good) (h' : t.Same) (e : t.lines = l) :
    Shows t.forms l := by
  refine ⟨by rw [← e, ← ofLines_pretty h]; rfl, ?_⟩
  rw [← e, ← ofLines_pretty h, oneLine_pretty h h']
  rfl

theorem shows_text {s : String} (h : GoodText s.toList) : Shows (DebugTree.same s.toList).forms (word s) :=
  shows_tree h rfl (lines_same s)

theorem debug_int (i : Int) : debugInt i = (toString i).toList := by
  cases i with
  | ofNat n =>
    rw [debugInt, if_neg (by simp), debug_nat]
    rfl
  | negSucc n =>
    rw [debugInt, if_pos (Int.negSucc_lt_zero n), debug_nat]
    show '-' :: (toString (n + 1)).toList = ("-" ++ toString (n + 1)).toList
    rw [String.toList_append]
    rfl

theorem good_int (i : Int) : (DebugTree.same (debugInt i)).Good := by
  show GoodText (debugInt i)
  unfold debugInt
  split
  · exact goodText_of (printable_append (s := ['-']) (by decide) (printable_nat _)) rfl
  · exact good_number _

theorem lines_int (i : Int) : (DebugTree.same (debugInt i)).lines = word (toString i) := by
  rw [debug_int, lines_same]

theorem shows_int (n : String) (hn : GoodText n.toList) (i : Int) :
    Shows (DebugTree.tuple n.toList [.same (debugInt i)]).forms (wrapped n (word (toString i))) :=
  shows_tree (good_tuple hn (good_int i)) (same_tuple rfl) (by rw [lines_tuple, lines_int])

theorem printable_ascii {s : String} (h : PrintableAscii s) : Printable s.toList :=
  fun c hc => ⟨(h c hc).1, Nat.lt_succ_of_le (h c hc).2⟩

theorem good_DecodeError {e : DecodeError}
    (h : ∀ x n, e = .invalidStreamId x n → PrintableAscii x) : e.debugTree.Good := by
  cases e with
  | inComplete => exact goodText_of (by decide) (by decide)
  | unrecognizedFrameType v =>
    exact good_tuple (goodText_of (by decide) (by decide)) (good_number _)
  | invalidStreamId x n =>
    refine good_struct (goodText_of (by decide) (by decide)) ?_
    intro f hf
    simp only [List.mem_cons, List.not_mem_nil, or_false] at hf
    rcases hf with rfl | rfl
    · refine ⟨goodText_of (by dsimp only; decide) (by dsimp only; decide), goodText_of ?_ rfl⟩
      exact printable_append (s := ['"']) (by decide)
        (printable_append (printable_ascii (h x n rfl)) (by decide))
    · exact ⟨goodText_of (by dsimp only; decide) (by dsimp only; decide), good_number _⟩

theorem same_DecodeError (e : DecodeError) : e.debugTree.Same := by
  cases e with
  | inComplete => rfl
  | unrecognizedFrameType v => exact same_tuple rfl
  | invalidStreamId x n => exact ⟨rfl, rfl, trivial⟩

theorem lines_DecodeError (e : DecodeError) : e.debugTree.lines = decodeErrorLines e := by
  cases e with
  | inComplete => exact lines_same "InComplete"
  | unrecognizedFrameType v =>
    rw [DecodeError.debugTree, lines_tuple, lines_number, decodeErrorLines]
  | invalidStreamId x n =>
    have := lines_struct "InvalidStreamId" [("expected", .same ("\"" ++ x ++ "\"").toList),
      ("found", debugNumber n.toNat)] (List.cons_ne_nil _ _)
    simp only [List.map_cons, List.map_nil, lines_number, lines_same] at this
    rw [decodeErrorLines, ← this, DecodeError.debugTree]
    simp only [String.toList_append]
    rfl

theorem dec_text (n : Nat) : fmtDec n = String.ofList (debugNat n) := rfl

theorem plain_DecodeError (e : DecodeError) : String.ofList e.debugTree.plain = e.debug := by
  cases e with
  | inComplete =>
    show String.ofList (DebugTree.same "InComplete".toList).plain = "InComplete"
    rw [plain_same, String.ofList_toList]
  | unrecognizedFrameType v =>
    show String.ofList (DebugTree.tuple "UnrecognizedFrameType".toList [debugNumber v.toNat]).plain =
      "UnrecognizedFrameType(" ++ String.ofList (debugNat v.toNat) ++ ")"
    rw [plain_tuple, plain_number, debugVariant, ← String.toList_inj]
    simp only [String.toList_ofList, String.toList_append]
    rfl
  | invalidStreamId x n =>
    show String.ofList (DebugTree.struct "InvalidStreamId".toList _).plain =
      "InvalidStreamId { expected: \"" ++ x ++ "\", found: " ++ String.ofList (debugNat n.toNat) ++ " }"
    rw [plain_struct (List.cons_ne_nil _ _), ← String.toList_inj]
    simp only [List.map_cons, List.map_nil, plain_number, plain_same, debugStruct, debugFields,
      String.toList_ofList, String.toList_append]
    simp

theorem lines_Kind (k : Kind) (h : ∀ e, k ≠ .decode e) : k.debugTree = .same k.debug.toList := by
  cases k with
  | decode e => exact absurd rfl (h e)
  | _ => rfl

theorem good_Kind {k : Kind} (h : ∀ x n, k = .decode (.invalidStreamId x n) → PrintableAscii x) :
    k.debugTree.Good := by
  cases k with
  | decode e =>
    exact good_tuple (goodText_of (by decide) (by decide))
      (good_DecodeError fun x n he => h x n (by rw [he]))
  | _ => exact goodText_of (by decide) (by decide)

theorem same_Kind (k : Kind) : k.debugTree.Same := by
  cases k with
  | decode e => exact same_tuple (same_DecodeError e)
  | _ => rfl

theorem plain_Kind (k : Kind) : String.ofList k.debugTree.plain = k.debug := by
  cases k with
  | decode e =>
    rw [Kind.debugTree, plain_tuple, Kind.debug, ← plain_DecodeError, debugVariant, ← String.toList_inj]
    simp only [String.toList_ofList, String.toList_append]
    rfl
  | _ => rw [Kind.debugTree, plain_same, Kind.debug, String.ofList_toList]

theorem plain_pair (n : Text) (t u : DebugTree) :
    (DebugTree.tuple n [t, u]).plain = n ++ "(".toList ++ t.plain ++ ", ".toList ++ u.plain ++ ")".toList := by
  rw [DebugTree.tuple, List.foldr_cons, List.foldr_cons, List.foldr_nil, DebugTree.plain,
    DebugFields.plain, DebugFields.plain]
  simp

theorem plain_Error (d : String → DebugTree) (e : Error) :
    String.ofList (e.debugTree d).plain = e.debug (fun s => String.ofList (d s).plain) := by
  unfold Error.debugTree Error.debug
  cases e.source with
  | none =>
    simp only
    rw [plain_tuple, ← plain_Kind, debugVariant, ← String.toList_inj]
    simp only [String.toList_ofList, String.toList_append]
    rfl
  | some s =>
    simp only
    rw [plain_pair, ← plain_Kind, ← String.toList_inj]
    simp only [String.toList_ofList, String.toList_append]
    simp

end Binate

import Verif.Spec.Display
import Verif.Props.Mime
import Verif.Lemmas.Text

/-! # Helper lemmas on texts over the wire and numerals -/

namespace Binate

open Spec WellKnownMimeType

theorem nats_strBytes (s : String) : nats (strBytes s) = utf8 s := by
  have h : ∀ v, v < 0x110000 → ∀ n ∈ scalarBytes v, n < 256 := by
    intro v hv n hn
    unfold scalarBytes at hn
    split at hn
    · simp only [List.mem_singleton] at hn; omega
    · split at hn
      · simp only [List.mem_cons, List.not_mem_nil, or_false] at hn; omega
      · split at hn <;> simp only [List.mem_cons, List.not_mem_nil, or_false] at hn <;> omega
  have h' : ∀ n ∈ utf8 s, n < 256 := by
    intro n hn
    obtain ⟨c, -, hc⟩ := List.mem_flatMap.1 hn
    refine h _ ?_ n hc
    have := c.valid
    rcases this with h | h
    · have : c.toNat < 0xd800 := h
      omega
    · exact h.2
  unfold nats strBytes
  rw [List.map_map]
  refine (List.map_congr_left (g := id) fun n hn => ?_).trans (List.map_id _)
  exact Nat.mod_eq_of_lt (h' n hn)

theorem mimeStr_strBytes (s : String) : ((SetupFrame.mimeStr (strBytes s)).map fromStr).getD
    UNPARSEABLE = fromStr s ∧
    ((∀ n ∈ utf8 s, n < 128) → SetupFrame.mimeStr (strBytes s) = some s) := by
  have hf : fromUtf8 (strBytes s) = some s := fromUtf8_eq_some.2 (nats_strBytes s)
  unfold SetupFrame.mimeStr
  rw [hf]
  simp only
  by_cases ha : isAscii s = true
  · rw [if_pos ha]
    exact ⟨rfl, fun _ => rfl⟩
  · rw [if_neg ha]
    refine ⟨?_, fun h => absurd (isAscii_iff.2 h) ha⟩
    apply Eq.symm
    by_contra hn
    have hm := (C50_listed s).1.1 hn
    have all : ∀ t ∈ mimeStrings, ∀ n ∈ utf8 t, n < 128 := by decide
    exact ha (isAscii_iff.2 (all s hm))

theorem numeral_toDigits (n : Nat) : Numeral (Nat.toDigits 10 n) n := by
  refine ⟨Nat.toDigits_ne_nil, readNumber_toDigits (by decide) (by decide) n, ?_⟩
  induction n using Nat.strongRecOn with
  | ind n ih =>
    rw [Nat.toDigits_eq_if (by decide)]
    by_cases h : n < 10
    · rw [if_pos h]
      intro h'
      exact congrArg (fun c => [c]) (Option.some.inj h')
    · rw [if_neg h]
      intro h'
      rw [List.head?_append_of_ne_nil _ Nat.toDigits_ne_nil] at h'
      have := ih (n / 10) (by omega) h'
      have z := toDigits_inj (b := 10) (by omega) (by omega)
        (show Nat.toDigits 10 (n / 10) = Nat.toDigits 10 0 from this)
      omega

end Binate

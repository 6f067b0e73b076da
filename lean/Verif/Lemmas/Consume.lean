import Verif.Lemmas.Outcomes
import Verif.Lemmas.Encode
import Verif.Spec.Extend

/-! # How much `decode` consumes, and what happens with more bytes -/

namespace Binate

open Spec

theorem header_six {h : Bytes} {sid ty fl : Nat} (hh : Header h sid ty fl) : h.length = 6 := by
  obtain ⟨s, w, rfl, h1, h2, -⟩ := hh
  rw [List.length_append, h1, h2]

theorem header_fields {h body : Bytes} {sid ty fl : Nat} (hh : Header h sid ty fl) :
    typeOf (h ++ body) = ty ∧ streamIdOf (h ++ body) = sid := by
  obtain ⟨s, w, rfl, h1, h2, hs, ht, -⟩ := hh
  match s, h1, w, h2 with
  | [a0, a1, a2, a3], _, [a4, a5], _ =>
    subst hs ht
    refine ⟨?_, ?_⟩
    · rw [beVal_two]
      exact typeOf_cons a0 a1 a2 a3 a4 a5 body
    · rw [beVal_four, ← and_max31]
      exact streamIdOf_cons a0 a1 a2 a3 a4 a5 body

theorem parses_typeOf {b rest : Bytes} {f : Frame} (h : Parses b f rest) :
    6 ≤ b.length ∧ typeOf b = typeNumber f := by
  obtain ⟨hd, body, sid, fl, rfl, hh, -⟩ := h
  refine ⟨?_, (header_fields hh).1⟩
  rw [List.length_append, header_six hh]; omega

theorem optAppend_opt {o : Option Bytes} {b : Bytes} (h : Opt o b) (s : Bytes) :
    Opt (optAppend o s) (b ++ s) := by
  rcases h with ⟨rfl, rfl⟩ | ⟨h1, rfl⟩
  · cases s
    · exact .inl ⟨rfl, rfl⟩
    · exact .inr ⟨by simp, rfl⟩
  · exact .inr ⟨by simp [h1], by cases s <;> rfl⟩

theorem pay_extend {p : Payload} {b : Bytes} (h : Pay p b) (s : Bytes) :
    Pay { p with data := optAppend p.data s } (b ++ s) := by
  obtain ⟨m, d, mb, rfl, h1, h2, h3⟩ := h
  exact ⟨m, d ++ s, mb, by simp, h1, h2, optAppend_opt h3 s⟩

theorem body_extend {sid fl : Nat} {b rest : Bytes} {f : Frame} (h : Body sid fl b f rest)
    (s : Bytes) : Body sid fl (b ++ s) (extend s f) (extendRest f rest s) := by
  cases h with
  | setup h1 h2 h3 h4 h5 h6 h7 h8 =>
    rw [List.append_assoc]
    exact .setup h1 h2 h3 h4 h5 h6 h7 (pay_extend h8 s)
  | lease h1 h2 h3 =>
    rw [List.append_assoc]
    exact .lease h1 h2 (optAppend_opt h3 s)
  | keepalive h1 h2 h3 =>
    rw [List.append_assoc]
    exact .keepalive h1 h2 (optAppend_opt h3 s)
  | requestResponse h1 h2 h3 => exact .requestResponse h1 h2 (pay_extend h3 s)
  | requestFnf h1 h2 h3 => exact .requestFnf h1 h2 (pay_extend h3 s)
  | requestStream h1 h2 h3 h4 =>
    rw [List.append_assoc]
    exact .requestStream h1 h2 h3 (pay_extend h4 s)
  | requestChannel h1 h2 h3 h4 =>
    rw [List.append_assoc]
    exact .requestChannel h1 h2 h3 (pay_extend h4 s)
  | requestN h1 h2 =>
    rw [List.append_assoc]
    exact .requestN h1 h2
  | cancel h1 => exact .cancel h1
  | payload h1 h2 h3 => exact .payload h1 h2 (pay_extend h3 s)
  | error h1 h2 h3 h4 h5 =>
    rw [List.append_assoc]
    exact .error h1 h2 h3 h4 (optAppend_opt h5 s)
  | metadataPush h => subst h; exact .metadataPush rfl
  | resume h1 h2 h3 h4 =>
    rw [List.append_assoc]
    exact .resume h1 h2 h3 h4
  | resumeOk h1 =>
    rw [List.append_assoc]
    exact .resumeOk h1

theorem typeNumber_extend (s : Bytes) (f : Frame) : typeNumber (extend s f) = typeNumber f := by
  cases f <;> rfl

theorem parses_extend {b rest : Bytes} {f : Frame} (h : Parses b f rest) (s : Bytes) :
    Parses (b ++ s) (extend s f) (extendRest f rest s) := by
  obtain ⟨hd, body, sid, fl, rfl, hh, hb⟩ := h
  exact ⟨hd, body ++ s, sid, fl, by simp, by rw [typeNumber_extend]; exact hh, body_extend hb s⟩

theorem body_rest_nil {sid fl : Nat} {b rest : Bytes} {f : Frame} (h : Body sid fl b f rest)
    (hf : ¬ FixedEnd f) : rest = [] := by
  cases h <;> first | rfl | exact absurd trivial hf

/-! ## Length -/

theorem num_length {k bits v : Nat} {b : Bytes} (h : Num k bits v b) : b.length = k := h.1

theorem ver_length {v : Version} {b : Bytes} (h : Ver v b) : b.length = 4 := by
  obtain ⟨x, y, rfl, h1, h2⟩ := h
  rw [List.length_append, h1.1, h2.1]

theorem opt_length {o : Option Bytes} {b : Bytes} (h : Opt o b) :
    b.length = (optBytes o).length := by rw [optBytes_opt h]

theorem pay_length {p : Payload} {b : Bytes} (h : Pay p b) :
    b.length = (payloadBytes p).length := by
  obtain ⟨m, d, mb, rfl, h1, h2, h3⟩ := h
  rw [payloadBytes, optBytes_opt h2, optBytes_opt h3]
  simp only [List.length_append, be_length, h1.length]

theorem header_length (a b c : Nat) : (header a b c).length = 6 := by
  simp [header, be_length]

theorem parses_length {b rest : Bytes} {f : Frame} (h : Parses b f rest) :
    b.length = (layout 16 f).length + rest.length := by
  obtain ⟨hd, body, sid, fl, rfl, hh, hb⟩ := h
  rw [List.length_append, header_six hh]
  cases hb with
  | setup h1 h2 h3 h4 h5 h6 h7 h8 =>
    simp only [layout, List.length_append, header_length, be_length, ver_length h2, num_length h3,
      num_length h4, h6.length, h7.length, pay_length h8, List.length_nil]
    unfold Token at h5
    split at h5
    · obtain ⟨t, ht, hp⟩ := h5
      rw [ht, hp.length]; simp only [List.length_append, be_length]; omega
    · rw [h5.1, h5.2]; simp only [List.length_nil]; omega
  | lease h1 h2 h3 =>
    simp only [layout, List.length_append, header_length, be_length, num_length h1, num_length h2,
      opt_length h3, List.length_nil]; omega
  | keepalive h1 h2 h3 =>
    simp only [layout, List.length_append, header_length, be_length, num_length h2,
      opt_length h3, List.length_nil]; omega
  | requestResponse h1 h2 h3 =>
    simp only [layout, List.length_append, header_length, pay_length h3, List.length_nil]; omega
  | requestFnf h1 h2 h3 =>
    simp only [layout, List.length_append, header_length, pay_length h3, List.length_nil]; omega
  | requestStream h1 h2 h3 h4 =>
    simp only [layout, List.length_append, header_length, be_length, num_length h3, pay_length h4,
      List.length_nil]; omega
  | requestChannel h1 h2 h3 h4 =>
    simp only [layout, List.length_append, header_length, be_length, num_length h3, pay_length h4,
      List.length_nil]; omega
  | requestN h1 h2 =>
    simp only [layout, List.length_append, header_length, be_length, num_length h2]; omega
  | cancel h1 => simp only [layout, header_length]
  | payload h1 h2 h3 =>
    simp only [layout, List.length_append, header_length, pay_length h3, List.length_nil]; omega
  | error h1 h2 h3 h4 h5 =>
    simp only [layout, List.length_append, header_length, be_length, num_length h2, opt_length h5,
      List.length_nil]; omega
  | metadataPush h =>
    subst h
    simp only [layout, List.length_append, header_length, List.length_nil]; omega
  | resume h1 h2 h3 h4 =>
    simp only [layout, List.length_append, header_length, be_length, ver_length h1, h2.length,
      num_length h3, num_length h4]; omega
  | resumeOk h1 =>
    simp only [layout, List.length_append, header_length, be_length, num_length h1]; omega

end Binate

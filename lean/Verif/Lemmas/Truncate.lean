import Verif.Spec.Truncate
import Verif.Spec.Extend
import Verif.Lemmas.Sizes

/-! # Facts about frames cut short -/

namespace Binate

open Spec

theorem opt_present (d : Bytes) : Opt (present d) d := by
  cases d with
  | nil => exact .inl ⟨rfl, rfl⟩
  | cons x d => exact .inr ⟨nofun, rfl⟩

theorem opt_getD {o : Option Bytes} {b : Bytes} (h : Opt o b) : b = o.getD [] := by
  rcases h with ⟨rfl, rfl⟩ | ⟨-, rfl⟩ <;> rfl

theorem pay_tail {p : Payload} {b : Bytes} (h : Pay p b) :
    ∃ x, b = x ++ p.data.getD [] ∧ ∀ d, Pay { p with data := present d } (x ++ d) := by
  obtain ⟨m, d, mb, rfl, h1, h2, h3⟩ := h
  exact ⟨mb, by rw [opt_getD h3], fun d' => ⟨m, d', mb, rfl, h1, h2, opt_present d'⟩⟩

/-- Everything before the last field can be followed by any other last field. -/
theorem body_tail {sid fl : Nat} {b rest : Bytes} {f : Frame} (h : Body sid fl b f rest) :
    ∃ x, b = x ++ (tailOf f ++ rest) ∧
      ∀ k, Body sid fl (x ++ (tailOf f ++ rest).take k) (withTail ((tailOf f).take k) f)
        (rest.take k) := by
  have pull : ∀ (u x d : Bytes), u ++ (x ++ d) = (u ++ x) ++ d := fun u x d =>
    (List.append_assoc u x d).symm
  cases h with
  | setup h1 h2 h3 h4 h5 h6 h7 h8 =>
    obtain ⟨x, e, hx⟩ := pay_tail h8
    refine ⟨_, by rw [e, pull]; exact (by rw [List.append_nil]; rfl), fun k => ?_⟩
    rw [List.append_nil, ← pull]
    rename_i f
    rw [List.take_nil]
    exact .setup
      (f := { f with payload := { f.payload with data := present ((f.payload.data.getD []).take k) } })
      h1 h2 h3 h4 h5 h6 h7 (hx _)
  | lease h1 h2 h3 =>
    refine ⟨_, by rw [opt_getD h3, List.append_nil]; rfl, fun k => ?_⟩
    rw [List.append_nil]
    rename_i f
    rw [List.take_nil]
    exact .lease (f := { f with metadata := present ((f.metadata.getD []).take k) }) h1 h2 (opt_present _)
  | keepalive h1 h2 h3 =>
    refine ⟨_, by rw [opt_getD h3, List.append_nil]; rfl, fun k => ?_⟩
    rw [List.append_nil]
    rename_i f
    rw [List.take_nil]
    exact .keepalive (f := { f with data := present ((f.data.getD []).take k) }) h1 h2 (opt_present _)
  | requestResponse h1 h2 h3 =>
    obtain ⟨x, e, hx⟩ := pay_tail h3
    refine ⟨x, by rw [e, List.append_nil]; rfl, fun k => ?_⟩
    rw [List.append_nil]
    rename_i f
    rw [List.take_nil]
    exact .requestResponse
      (f := { f with payload := { f.payload with data := present ((f.payload.data.getD []).take k) } })
      h1 h2 (hx _)
  | requestFnf h1 h2 h3 =>
    obtain ⟨x, e, hx⟩ := pay_tail h3
    refine ⟨x, by rw [e, List.append_nil]; rfl, fun k => ?_⟩
    rw [List.append_nil]
    rename_i f
    rw [List.take_nil]
    exact .requestFnf
      (f := { f with payload := { f.payload with data := present ((f.payload.data.getD []).take k) } })
      h1 h2 (hx _)
  | requestStream h1 h2 h3 h4 =>
    obtain ⟨x, e, hx⟩ := pay_tail h4
    refine ⟨_, by rw [e, pull]; exact (by rw [List.append_nil]; rfl), fun k => ?_⟩
    rw [List.append_nil, ← pull]
    rename_i f
    rw [List.take_nil]
    exact .requestStream
      (f := { f with payload := { f.payload with data := present ((f.payload.data.getD []).take k) } })
      h1 h2 h3 (hx _)
  | requestChannel h1 h2 h3 h4 =>
    obtain ⟨x, e, hx⟩ := pay_tail h4
    refine ⟨_, by rw [e, pull]; exact (by rw [List.append_nil]; rfl), fun k => ?_⟩
    rw [List.append_nil, ← pull]
    rename_i f
    rw [List.take_nil]
    exact .requestChannel
      (f := { f with payload := { f.payload with data := present ((f.payload.data.getD []).take k) } })
      h1 h2 h3 (hx _)
  | requestN h1 h2 => exact ⟨_, rfl, fun k => .requestN h1 h2⟩
  | cancel h1 => exact ⟨[], rfl, fun k => .cancel h1⟩
  | payload h1 h2 h3 =>
    obtain ⟨x, e, hx⟩ := pay_tail h3
    refine ⟨x, by rw [e, List.append_nil]; rfl, fun k => ?_⟩
    rw [List.append_nil]
    rename_i f
    rw [List.take_nil]
    exact .payload
      (f := { f with payload := { f.payload with data := present ((f.payload.data.getD []).take k) } })
      h1 h2 (hx _)
  | error h1 h2 h3 h4 h5 =>
    refine ⟨_, by rw [opt_getD h5, List.append_nil]; rfl, fun k => ?_⟩
    rw [List.append_nil]
    rename_i f
    rw [List.take_nil]
    exact .error (f := { f with data := present ((f.data.getD []).take k) }) h1 h2 h3 h4 (opt_present _)
  | metadataPush h1 =>
    refine ⟨[], by rw [← h1, List.append_nil]; rfl, fun k => ?_⟩
    rw [List.append_nil]
    rename_i f
    rw [List.take_nil]
    exact .metadataPush (f := { f with metadata := f.metadata.take k }) rfl
  | resume h1 h2 h3 h4 => exact ⟨_, rfl, fun k => .resume h1 h2 h3 h4⟩
  | resumeOk h1 => exact ⟨_, rfl, fun k => .resumeOk h1⟩

theorem typeNumber_withTail (d : Bytes) (f : Frame) : typeNumber (withTail d f) = typeNumber f := by
  cases f <;> rfl

theorem tail_le (f : Frame) : (tailOf f).length ≤ userBytes f := by
  cases f <;> simp only [tailOf, userBytes, paySize, partSize, List.length_nil] <;> omega

theorem parses_take {b rest : Bytes} {f : Frame} (h : Parses b f rest) {k : Nat}
    (hk : mandatory f ≤ k) :
    Parses (b.take k) (withTail ((tailOf f).take (k - mandatory f)) f)
      (rest.take (k - mandatory f)) := by
  have hl := parses_length h
  rw [layout_size] at hl
  have ht := tail_le f
  obtain ⟨hd, body, sid, fl, rfl, hh, hb⟩ := h
  obtain ⟨x, e, hx⟩ := body_tail hb
  have hm : (hd ++ x).length = mandatory f := by
    rw [e] at hl
    simp only [List.length_append] at hl ⊢
    unfold mandatory
    omega
  refine ⟨hd, x ++ (tailOf f ++ rest).take (k - mandatory f), sid, fl, ?_, ?_, hx _⟩
  · have : hd ++ (x ++ (tailOf f ++ rest)) = (hd ++ x) ++ (tailOf f ++ rest) := by simp
    rw [e, this, List.take_append, hm, List.take_of_length_le (by omega), List.append_assoc]
  · rw [typeNumber_withTail]; exact hh

theorem mandatory_extend (s : Bytes) (f : Frame) : mandatory (extend s f) = mandatory f := by
  have h : ∀ o : Option Bytes, partSize (optAppend o s) = partSize o + s.length := by
    intro o
    cases o <;> cases s <;> simp [optAppend, partSize]
  unfold mandatory
  cases f <;> simp only [extend, overhead, userBytes, tailOf, paySize] <;>
    simp only [← partSize.eq_1, h, List.length_append] <;> omega

/-! ## Fragments that arrive -/

theorem pick_map {α β : Type} {F : α → β} {l : List α} {gs : List β}
    (h : ∀ g ∈ gs, g ∈ l.map F) : ∃ l' : List α, gs = l'.map F ∧ ∀ e ∈ l', e ∈ l := by
  induction gs with
  | nil => exact ⟨[], rfl, by simp⟩
  | cons g gs ih =>
    obtain ⟨l', rfl, h2⟩ := ih fun x hx => h x (List.mem_cons_of_mem _ hx)
    obtain ⟨e, he, rfl⟩ := List.mem_map.1 (h g (List.mem_cons_self ..))
    refine ⟨e :: l', rfl, fun x hx => ?_⟩
    rcases List.mem_cons.1 hx with rfl | hx
    · exact he
    · exact h2 x hx

theorem present_isEmpty (b : Bytes) : (if b.isEmpty then none else some b) = present b := by
  cases b <;> rfl

theorem present_getD (b : Bytes) : (present b).getD [] = b := by cases b <;> rfl

theorem normOpt_present (o : Option Bytes) : normOpt o = present (o.getD []) := by
  rcases o with _ | (_ | ⟨x, b⟩) <;> rfl

theorem tryInto_fragments {sid : U32} (hs : sid.toNat < 2 ^ 31) (parts : List (Bool × Payload))
    (hm : ∀ e ∈ parts, (e.2.metadata.getD []).length < 2 ^ 24) :
    (⟨parts.map fun e => layout 16 (fnfFrame sid e.1 e.2)⟩ : BufList Bytes).tryInto =
      .ok (.ok ⟨present (joinMetadata (parts.map (·.2))), present (joinData (parts.map (·.2)))⟩) := by
  unfold BufList.tryInto
  simp only [reassemble_fragments hs parts hm, List.nil_append]
  rw [← present_isEmpty, ← present_isEmpty]
  rfl

/-- What a call sends, as parts. -/
theorem call_parts {dbg : Bool} {fuel : Nat} {m m' : RSocketMachine} {p : Payload}
    {frames : List Frame}
    (hf : m.fireAndForget dbg fuel openTransport p [] = .ok (.ok (), frames, m'))
    (hm : (p.metadata.getD []).length < 2 ^ 24 ∨ ∃ size, m.chunkPayload = some size ∧ size < 2 ^ 24) :
    ∃ (sid : U32) (parts : List (Bool × Payload)), sid.toNat < 2 ^ 31 ∧
      frames = parts.map (fun e => fnfFrame sid e.1 e.2) ∧
      joinMetadata (parts.map (·.2)) = p.metadata.getD [] ∧
      joinData (parts.map (·.2)) = p.data.getD [] ∧
      ∀ e ∈ parts, (e.2.metadata.getD []).length < 2 ^ 24 := by
  obtain ⟨h0, sid, k, hs, h1, h2⟩ := call_inv hf
  rw [h2 rfl, List.take_length, List.nil_append] at h1
  obtain ⟨parts, e1, e2, e3, e4⟩ := callFrames_parts sid m.chunkPayload p h0
  refine ⟨sid, parts, hs, h1.trans e1, e2, e3, fun e he => ?_⟩
  obtain ⟨a, b⟩ := e4 e he
  rcases hm with hm | ⟨size, c, d⟩
  · omega
  · have := b size c
    omega

theorem join_fnfParts (sid : U32) (l : List (Bool × Payload)) :
    joinMetadata (l.map (·.2)) =
      ((l.map fun e => fnfFrame sid e.1 e.2).map fun g => (fnfParts g).1).flatten ∧
    joinData (l.map (·.2)) =
      ((l.map fun e => fnfFrame sid e.1 e.2).map fun g => (fnfParts g).2).flatten := by
  rw [joinMetadata, joinData, List.map_map, List.map_map, List.map_map, List.map_map]
  exact ⟨rfl, rfl⟩

theorem userBytes_parts (sid : U32) (l : List (Bool × Payload)) :
    ((l.map fun e => fnfFrame sid e.1 e.2).map userBytes).sum =
      (joinMetadata (l.map (·.2))).length + (joinData (l.map (·.2))).length := by
  induction l with
  | nil => rfl
  | cons e l ih =>
    have e1 : userBytes (fnfFrame sid e.1 e.2) =
        (e.2.metadata.getD []).length + (e.2.data.getD []).length := rfl
    simp only [joinMetadata, joinData, List.map_cons, List.sum_cons, List.flatten_cons,
      List.length_append] at ih ⊢
    rw [ih, e1]
    omega

end Binate

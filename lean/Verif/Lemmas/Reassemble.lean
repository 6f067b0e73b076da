import Verif.Lemmas.Segments

/-! # Reassembly -/

namespace Binate

open Spec

variable {T : Type} [Buf T] [LawfulBuf T]

theorem frameOf_eq {b : Bytes} {f : Frame} :
    frameOf b = some f ↔ ∃ rest, (Frame.decode : Dec Bytes Frame) b = .ok f rest := by
  unfold frameOf
  cases (Frame.decode : Dec Bytes Frame) b with
  | ok f' s =>
    simp only [Option.some.injEq]
    exact ⟨fun h => ⟨s, by rw [h]⟩, fun ⟨r, h⟩ => by cases h; rfl⟩
  | err => exact ⟨nofun, nofun⟩
  | panic => exact ⟨nofun, nofun⟩
  | diverge => exact ⟨nofun, nofun⟩

theorem framePayload_carried (f : Frame) :
    BufList.framePayload f = ((carried f).metadata, (carried f).data) := by
  cases f <;> rfl

theorem putOpt_getD (buf : Bytes) (o : Option Bytes) : putOpt buf o = buf ++ o.getD [] := by
  cases o with
  | none => exact (List.append_nil _).symm
  | some b => rfl

theorem sim_ok {b : T} (hb : Valid b) {f : Frame} {rest : Bytes}
    (h : (Frame.decode : Dec Bytes Frame) (bytes b) = .ok f rest) :
    ∃ s, (Frame.decode : Dec T Frame) b = .ok f s := by
  have := sim_decode b hb
  rw [h] at this
  cases hd : (Frame.decode : Dec T Frame) b with
  | ok a s => rw [hd] at this; exact ⟨s, by rw [this.1]⟩
  | err => rw [hd] at this; exact this.elim
  | panic => rw [hd] at this; exact this.elim
  | diverge => rw [hd] at this; exact this.elim

theorem sim_err {b : T} (hb : Valid b) {e : DecodeError} {rest : Bytes}
    (h : (Frame.decode : Dec Bytes Frame) (bytes b) = .err e rest) :
    ∃ s, (Frame.decode : Dec T Frame) b = .err e s := by
  have := sim_decode b hb
  rw [h] at this
  cases hd : (Frame.decode : Dec T Frame) b with
  | err a s => rw [hd] at this; exact ⟨s, by rw [this.1]⟩
  | ok => rw [hd] at this; exact this.elim
  | panic => rw [hd] at this; exact this.elim
  | diverge => rw [hd] at this; exact this.elim

theorem sim_panic {b : T} (hb : Valid b) {m : String}
    (h : (Frame.decode : Dec Bytes Frame) (bytes b) = .panic m) :
    (Frame.decode : Dec T Frame) b = .panic m := by
  have := sim_decode b hb
  rw [h] at this
  cases hd : (Frame.decode : Dec T Frame) b with
  | panic m' => rw [hd] at this; rw [this]
  | ok => rw [hd] at this; exact this.elim
  | err => rw [hd] at this; exact this.elim
  | diverge => rw [hd] at this; exact this.elim

/-- The loop over a prefix whose buffers all decode. -/
theorem reassembleLoop_prefix {pre : List T} (hv : ∀ b ∈ pre, Valid b) {fs : List Frame}
    (hf : pre.map (fun b => frameOf (bytes b)) = fs.map some) (post : List T) (M D : Bytes) :
    BufList.reassembleLoop (pre ++ post) M D =
      BufList.reassembleLoop post (M ++ fs.flatMap fun f => (carried f).metadata.getD [])
        (D ++ fs.flatMap fun f => (carried f).data.getD []) := by
  induction pre generalizing fs M D with
  | nil =>
    cases fs with
    | nil => simp
    | cons => cases hf
  | cons b bs ih =>
    cases fs with
    | nil => cases hf
    | cons f fs =>
      rw [List.map_cons, List.map_cons, List.cons.injEq] at hf
      obtain ⟨rest, h1⟩ := frameOf_eq.1 hf.1
      obtain ⟨s, h2⟩ := sim_ok (hv b (List.mem_cons_self ..)) h1
      rw [List.cons_append, BufList.reassembleLoop, h2]
      simp only [framePayload_carried, putOpt_getD]
      rw [ih (fun b' hb' => hv b' (List.mem_cons_of_mem _ hb')) hf.2]
      simp only [List.flatMap_cons, List.append_assoc]

theorem normOpt_some (b : Bytes) : (if b.isEmpty then none else some b) = normOpt (some b) := by
  cases b <;> rfl

omit [LawfulBuf T] in
theorem tryInto_of_loop {l : BufList T} {M D : Bytes}
    (h : BufList.reassembleLoop l.bufs [] [] = .ok (.ok (M, D))) :
    l.tryInto = .ok (.ok (normPayload ⟨some M, some D⟩)) := by
  unfold BufList.tryInto
  rw [h]
  simp only [Outcome.ok_bind]
  rw [normOpt_some, normOpt_some]
  rfl

/-- Either everything decodes or there is a first buffer that does not. -/
theorem first_failure (bufs : List T) :
    (∃ fs : List Frame, bufs.map (fun b => frameOf (bytes b)) = fs.map some) ∨
    ∃ (pre : List T) (b : T) (post : List T) (fs : List Frame), bufs = pre ++ b :: post ∧
      pre.map (fun b => frameOf (bytes b)) = fs.map some ∧ frameOf (bytes b) = none := by
  induction bufs with
  | nil => exact .inl ⟨[], rfl⟩
  | cons b bs ih =>
    cases h : frameOf (bytes b) with
    | none => exact .inr ⟨[], b, bs, [], rfl, rfl, h⟩
    | some f =>
      rcases ih with ⟨fs, e⟩ | ⟨pre, x, post, fs, e1, e2, e3⟩
      · exact .inl ⟨f :: fs, by rw [List.map_cons, List.map_cons, h, e]⟩
      · exact .inr ⟨b :: pre, x, post, f :: fs, by rw [e1]; rfl,
          by rw [List.map_cons, List.map_cons, h, e2], e3⟩

end Binate

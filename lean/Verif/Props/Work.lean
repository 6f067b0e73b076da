import Verif.Lemmas.Work

/-! # How much work decoding is

C99. The caller of `Frame::decode` supplies the buffer. Whatever the bytes in it, and whether or not
it keeps the contract of `bytes::Buf`, decoding reads every number once, takes every byte string of
the frame with one call of `copy_to_bytes` and keeps the result as it is. -/

namespace Binate

open Spec

/-- **C99.** When a frame is decoded, the byte strings in it are the ones that `copy_to_bytes`
returned, in the order of the wire and one call for each; the numbers in it take as many bytes of
`advance` as the layout says, in as many calls at most. The buffer that watches has no effect. -/
theorem C99_frame {β : Type} [Buf β] {b b' : β} {f : Frame}
    (h : (Frame.decode : Dec β Frame) b = .ok f b') :
    ∃ calls, (Frame.decode : Dec (Recorded β) Frame) ⟨b, []⟩ = .ok f ⟨b', calls⟩ ∧
      copies calls = fields f ∧ advanced calls = overhead f ∧ advances calls ≤ overhead f := by
  have hr := runs_decode b []
  rw [h] at hr
  obtain ⟨m, n, s, hd, ⟨m', hm, hn, hs, ha⟩, hf, hg⟩ := hr
  rw [List.nil_append] at hm
  subst hm
  exact ⟨m, hd, by rw [hs, hg], by rw [hn, hf], by omega⟩

/-- **C99.** When the bytes are not a frame, at most three byte strings have been copied and at most
25 bytes of numbers read. -/
theorem C99_rejected {β : Type} [Buf β] {b b' : β} {e : DecodeError}
    (h : (Frame.decode : Dec β Frame) b = .err e b') :
    ∃ calls, (Frame.decode : Dec (Recorded β) Frame) ⟨b, []⟩ = .err e ⟨b', calls⟩ ∧
      (copies calls).length ≤ 3 ∧ advanced calls ≤ 25 ∧ advances calls ≤ 25 := by
  have hr := runs_decode b []
  rw [h] at hr
  obtain ⟨m, n, s, hd, ⟨m', hm, hn, hs, ha⟩, hf, hg⟩ := hr
  rw [List.nil_append] at hm
  subst hm
  exact ⟨m, hd, by rw [hs]; exact hg, by omega, by omega⟩

/-- **C99.** So no input makes `decode` call `copy_to_bytes` more than five times or `advance` more
than 28 times. -/
theorem C99_bounded {β : Type} [Buf β] (b : β) {r : Recorded β}
    (h : (∃ f, (Frame.decode : Dec (Recorded β) Frame) ⟨b, []⟩ = .ok f r) ∨
      ∃ e, (Frame.decode : Dec (Recorded β) Frame) ⟨b, []⟩ = .err e r) :
    (copies r.calls).length ≤ 5 ∧ advances r.calls ≤ 28 := by
  have hp : ∀ p : Payload, (payloadFields p).length ≤ 2 := by
    intro ⟨m, d⟩; cases m <;> cases d <;> simp [payloadFields]
  have ho : ∀ o : Option Bytes, o.toList.length ≤ 1 := by intro o; cases o <;> simp
  have hf : ∀ f : Frame, (fields f).length ≤ 5 ∧ overhead f ≤ 28 := by
    intro f
    cases f with
    | setup f =>
      have h1 := ho f.resumeToken
      have h2 := hp f.payload
      refine ⟨?_, ?_⟩
      · simp only [fields, List.length_append, List.length_cons, List.length_nil]; omega
      · simp only [overhead]; split <;> omega
    | lease f => exact ⟨Nat.le_trans (ho f.metadata) (by omega), by simp [overhead]⟩
    | keepalive f => exact ⟨Nat.le_trans (ho f.data) (by omega), by simp [overhead]⟩
    | requestResponse f => exact ⟨Nat.le_trans (hp f.payload) (by omega), by simp [overhead]⟩
    | requestFnf f => exact ⟨Nat.le_trans (hp f.payload) (by omega), by simp [overhead]⟩
    | requestStream f => exact ⟨Nat.le_trans (hp f.payload) (by omega), by simp [overhead]⟩
    | requestChannel f => exact ⟨Nat.le_trans (hp f.payload) (by omega), by simp [overhead]⟩
    | requestN f => simp [fields, overhead]
    | cancel f => simp [fields, overhead]
    | payload f => exact ⟨Nat.le_trans (hp f.payload) (by omega), by simp [overhead]⟩
    | error f => exact ⟨Nat.le_trans (ho f.data) (by omega), by simp [overhead]⟩
    | metadataPush f => simp [fields, overhead]
    | resume f => simp [fields, overhead]
    | resumeOk f => simp [fields, overhead]
  cases hd : (Frame.decode : Dec β Frame) b with
  | ok f b' =>
    obtain ⟨calls, hr, h1, h2, h3⟩ := C99_frame hd
    rw [hr] at h
    rcases h with ⟨_, h⟩ | ⟨_, h⟩ <;> cases h
    have := hf f
    exact ⟨by rw [h1]; exact this.1, by show advances calls ≤ 28; omega⟩
  | err e b' =>
    obtain ⟨calls, hr, h1, h2, h3⟩ := C99_rejected hd
    rw [hr] at h
    rcases h with ⟨_, h⟩ | ⟨_, h⟩ <;> cases h
    exact ⟨by show (copies calls).length ≤ 5; omega, by show advances calls ≤ 28; omega⟩
  | panic m =>
    have hr := runs_decode b []
    rw [hd] at hr
    rw [show (Frame.decode : Dec (Recorded β) Frame) ⟨b, []⟩ = .panic m from hr] at h
    rcases h with ⟨_, h⟩ | ⟨_, h⟩ <;> cases h
  | diverge =>
    have hr := runs_decode b []
    rw [hd] at hr
    rw [show (Frame.decode : Dec (Recorded β) Frame) ⟨b, []⟩ = .diverge from hr] at h
    rcases h with ⟨_, h⟩ | ⟨_, h⟩ <;> cases h

/-- **C99.** If the buffer keeps the contract, the byte strings and the numbers of the frame make up
what was consumed: a frame never holds more bytes than were read for it. -/
theorem C99_account {β : Type} [Buf β] [LawfulBuf β] {b b' : β} {f : Frame} (hb : Valid b)
    (h : (Frame.decode : Dec β Frame) b = .ok f b') :
    overhead f + ((fields f).map List.length).sum + (bytes b').length = (bytes b).length := by
  obtain ⟨calls, hr, h1, h2, -⟩ := C99_frame h
  have := recorded_total hb hr
  rw [taken, h1, h2] at this
  exact this

/-- A SETUP frame with a resume token, metadata and data, one byte at a time: five byte strings, 25
bytes of numbers in 25 calls. -/
example : (match (Frame.decode : Dec (Recorded (BufList Bytes)) Frame)
    ⟨⟨([0, 0, 0, 0, 0x05, 0x40, 0, 1, 0, 0, 0, 0, 0, 1, 0, 0, 0, 2, 0, 1, 7, 1, 8, 1, 9,
      0, 0, 1, 10, 11] : Bytes).map fun x => [x]⟩, []⟩ with
    | .ok f r => (fields f, copies r.calls, advances r.calls)
    | _ => ([], [], 0)) = ([[7], [8], [9], [10], [11]], [[7], [8], [9], [10], [11]], 25) := by
  decide +kernel

/-- A RESUME frame, one byte at a time: 28 calls of `advance`. -/
example : (match (Frame.decode : Dec (Recorded (BufList Bytes)) Frame)
    ⟨⟨([0, 0, 0, 0, 0x34, 0, 0, 1, 0, 0, 0, 1, 7, 0, 0, 0, 0, 0, 0, 0, 1, 0, 0, 0, 0, 0, 0, 0, 2] :
      Bytes).map fun x => [x]⟩, []⟩ with
    | .ok f r => (fields f, copies r.calls, advances r.calls)
    | _ => ([], [], 0)) = ([[7]], [[7]], 28) := by decide +kernel

/-- In one piece the same frame takes seven calls. -/
example : (match (Frame.decode : Dec (Recorded Bytes) Frame)
    ⟨[0, 0, 0, 0, 0x34, 0, 0, 1, 0, 0, 0, 1, 7, 0, 0, 0, 0, 0, 0, 0, 1, 0, 0, 0, 0, 0, 0, 0, 2],
      []⟩ with
    | .ok f r => (fields f, copies r.calls, advances r.calls)
    | _ => ([], [], 0)) = ([[7]], [[7]], 7) := by decide +kernel

/-- A SETUP frame cut off within its metadata: three byte strings have been copied. -/
example : (match (Frame.decode : Dec (Recorded Bytes) Frame)
    ⟨[0, 0, 0, 0, 0x05, 0x40, 0, 1, 0, 0, 0, 0, 0, 1, 0, 0, 0, 2, 0, 1, 7, 1, 8, 1, 9,
      0, 0, 1], []⟩ with
    | .err e r => (e, copies r.calls, advanced r.calls)
    | _ => (.inComplete, [], 0)) = (.inComplete, [[7], [8], [9]], 25) := by decide +kernel

end Binate

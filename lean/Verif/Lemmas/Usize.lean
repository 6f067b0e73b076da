import Verif.Lemmas.BufList
import Verif.Model.Usize
import Verif.Spec.Usize

/-! # Sums in machine arithmetic -/

namespace Binate

open Spec

theorem addUsize_eq (dbg : Bool) (a b : Nat) : addUsize dbg a b = machine dbg (a + b) := rfl

theorem machine_ok {dbg : Bool} {n : Nat} (h : n < 2 ^ 64) : machine dbg n = .ok n := if_pos h

theorem machine_bind_add (dbg : Bool) (a n : Nat) :
    (machine dbg a >>= fun x => addUsize dbg x n) = machine dbg (a + n) := by
  unfold machine addUsize
  by_cases h : a < 2 ^ 64
  · rw [if_pos h]; rfl
  · rw [if_neg h]
    cases dbg with
    | true =>
      rw [if_neg (show ¬ a + n < 2 ^ 64 by omega)]
      rfl
    | false =>
      show (if a % 2 ^ 64 + n < 2 ^ 64 then Outcome.ok (a % 2 ^ 64 + n)
        else .ok ((a % 2 ^ 64 + n) % 2 ^ 64)) = _
      rw [if_neg (show ¬ a + n < 2 ^ 64 by omega)]
      have e : (a + n) % 2 ^ 64 = (a % 2 ^ 64 + n) % 2 ^ 64 := by omega
      by_cases h' : a % 2 ^ 64 + n < 2 ^ 64
      · rw [if_pos h']
        show _ = Outcome.ok _
        rw [e, Nat.mod_eq_of_lt h']
      · rw [if_neg h']
        show _ = Outcome.ok _
        rw [e]

theorem machine_bind_bind (dbg : Bool) (a b : Nat) :
    (machine dbg a >>= fun x => machine dbg b >>= fun y => addUsize dbg x y) =
      machine dbg (a + b) := by
  by_cases h : b < 2 ^ 64
  · rw [machine_ok h]
    exact machine_bind_add dbg a b
  · cases dbg with
    | true =>
      have hb : machine true b = .panic "attempt to add with overflow" := if_neg h
      have hs : machine true (a + b) = .panic "attempt to add with overflow" :=
        if_neg (show ¬ a + b < 2 ^ 64 by omega)
      rw [hb, hs]
      unfold machine
      by_cases ha : a < 2 ^ 64
      · rw [if_pos ha]; rfl
      · rw [if_neg ha]; rfl
    | false =>
      have hb : machine false b = .ok (b % 2 ^ 64) := if_neg h
      have hs : machine false (a + b) = .ok ((a + b) % 2 ^ 64) :=
        if_neg (show ¬ a + b < 2 ^ 64 by omega)
      rw [hb]
      show (machine false a >>= fun x => addUsize false x (b % 2 ^ 64)) = _
      rw [machine_bind_add, hs]
      unfold machine
      by_cases h' : a + b % 2 ^ 64 < 2 ^ 64
      · rw [if_pos h', show (a + b) % 2 ^ 64 = a + b % 2 ^ 64 by omega]
      · rw [if_neg h', show (a + b) % 2 ^ 64 = (a + b % 2 ^ 64) % 2 ^ 64 by omega]
        rfl

theorem addOpt_eq {dbg : Bool} {n : Nat} (hn : n < 2 ^ 64) (o : Option Bytes) :
    addOpt dbg n o = machine dbg (n + partSize o) := by
  cases o with
  | none => exact (machine_ok hn).symm
  | some b => rfl

theorem machine_bind_opt (dbg : Bool) (a : Nat) (o : Option Bytes) :
    (machine dbg a >>= fun x => addOpt dbg x o) = machine dbg (a + partSize o) := by
  cases o with
  | none =>
    show (machine dbg a >>= fun x => Outcome.ok x) = machine dbg a
    cases machine dbg a <;> rfl
  | some b => exact machine_bind_add dbg a _

theorem payload_lenUsize (dbg : Bool) (p : Payload) : p.lenUsize dbg = machine dbg (paySize p) := by
  unfold Payload.lenUsize
  rw [addOpt_eq (by decide), machine_bind_opt]
  unfold paySize
  rw [Nat.zero_add]

theorem payloadLenUsize_eq {dbg : Bool} {n : Nat} (h : n < 2 ^ 64) (p : Payload) :
    payloadLenUsize dbg n p = machine dbg (n + paySize p) := by
  unfold payloadLenUsize
  rw [payload_lenUsize]
  have := machine_bind_bind dbg n (paySize p)
  rw [machine_ok h] at this
  exact this

theorem bind_assoc_outcome {α β γ : Type} (x : Outcome α) (f : α → Outcome β) (g : β → Outcome γ) :
    ((x >>= f) >>= g) = (x >>= fun a => f a >>= g) := by
  cases x <;> rfl

theorem setup_lenUsize (dbg : Bool) (f : SetupFrame) :
    f.lenUsize dbg = machine dbg (25 + userBytes (.setup f)) := by
  have e1 : (addUsize dbg 1 f.metadataMimetype.length >>= fun mime => addUsize dbg mime 1 >>= fun mime =>
      addUsize dbg mime f.dataMimetype.length) =
      machine dbg (1 + f.metadataMimetype.length + 1 + f.dataMimetype.length) := by
    rw [← bind_assoc_outcome, addUsize_eq, machine_bind_add, machine_bind_add]
  have e2 : (f.payload.lenUsize dbg >>= fun payload => addUsize dbg 3 payload) =
      machine dbg (3 + paySize f.payload) := payloadLenUsize_eq (by decide) f.payload
  have e3 : f.lenUsize dbg =
      (addOpt dbg 20 f.resumeToken >>= fun len =>
        ((addUsize dbg 1 f.metadataMimetype.length >>= fun mime => addUsize dbg mime 1 >>= fun mime =>
          addUsize dbg mime f.dataMimetype.length) >>= fun mime => addUsize dbg len mime)
        >>= fun len =>
          ((f.payload.lenUsize dbg >>= fun payload => addUsize dbg 3 payload) >>= fun payload =>
            addUsize dbg len payload)) := by
    unfold SetupFrame.lenUsize
    simp only [bind_assoc_outcome]
  rw [e3, e1, e2, ← bind_assoc_outcome, addOpt_eq (by decide), machine_bind_bind, machine_bind_bind]
  congr 1
  simp only [userBytes]
  omega

theorem frame_lenUsize (dbg : Bool) (f : Frame) : f.lenUsize dbg = machine dbg (announced f) := by
  cases f with
  | setup v => exact setup_lenUsize dbg v
  | error v => exact addOpt_eq (by decide) _
  | lease v => exact addOpt_eq (by decide) _
  | keepalive v => exact addOpt_eq (by decide) _
  | requestResponse v => exact payloadLenUsize_eq (by decide) _
  | requestFnf v => exact payloadLenUsize_eq (by decide) _
  | requestStream v => exact payloadLenUsize_eq (by decide) _
  | requestChannel v => exact payloadLenUsize_eq (by decide) _
  | requestN v => rfl
  | cancel v => rfl
  | payload v => exact payloadLenUsize_eq (by decide) _
  | metadataPush v => rfl
  | resume v =>
    show (addUsize dbg 12 v.resumeToken.length >>= fun len => addUsize dbg len 16) = _
    rw [addUsize_eq, machine_bind_add]
    congr 1
    simp only [announced, overhead, userBytes]
    omega
  | resumeOk v => rfl

theorem len_announced (f : Frame) : f.len = announced f := by
  have ho : ∀ o : Option Bytes, optLen o = partSize o := by rintro (_ | _) <;> rfl
  have hp : ∀ p : Payload, p.len = paySize p := by
    rintro ⟨_ | m, _ | d⟩ <;> simp [Payload.len, paySize, partSize]
  cases f with
  | setup v =>
    cases h : v.resumeToken <;>
      simp only [Frame.len, SetupFrame.len, announced, userBytes, hp, h, partSize, Option.getD,
        List.length_nil] <;> omega
  | error v => simp only [Frame.len, ErrorFrame.len, announced, overhead, userBytes, ho]
  | lease v => simp only [Frame.len, LeaseFrame.len, announced, overhead, userBytes, ho]
  | keepalive v => simp only [Frame.len, KeepaliveFrame.len, announced, overhead, userBytes, ho]
  | requestResponse v => simp only [Frame.len, RequestResponseFrame.len, announced, overhead, userBytes, hp]
  | requestFnf v => simp only [Frame.len, RequestFnfFrame.len, announced, overhead, userBytes, hp]
  | requestStream v => simp only [Frame.len, RequestStreamFrame.len, announced, overhead, userBytes, hp]
  | requestChannel v => simp only [Frame.len, RequestChannelFrame.len, announced, overhead, userBytes, hp]
  | requestN v => rfl
  | cancel v => rfl
  | payload v => simp only [Frame.len, PayloadFrame.len, announced, overhead, userBytes, hp]
  | metadataPush v => simp only [Frame.len, MetadataPushFrame.len, announced, overhead, userBytes]
  | resume v => simp only [Frame.len, ResumeFrame.len, announced, overhead, userBytes] <;> omega
  | resumeOk v => rfl

/-! ## Lists of buffers -/

theorem sumUsize_eq (dbg : Bool) (ns : List Nat) : ∀ {acc : Nat}, acc < 2 ^ 64 →
    BufList.sumUsize dbg ns acc = machine dbg (acc + ns.sum) := by
  induction ns with
  | nil => intro acc h; exact (machine_ok h).symm
  | cons n ns ih =>
    intro acc _
    show (addUsize dbg acc n >>= fun acc => BufList.sumUsize dbg ns acc) = _
    rw [List.sum_cons, ← Nat.add_assoc, addUsize_eq]
    unfold machine
    by_cases h : acc + n < 2 ^ 64
    · rw [if_pos h]
      exact ih h
    · rw [if_neg h]
      cases dbg with
      | true => rw [if_neg (show ¬ acc + n + ns.sum < 2 ^ 64 by omega)]; rfl
      | false =>
        show BufList.sumUsize false ns ((acc + n) % 2 ^ 64) = _
        rw [ih (Nat.mod_lt _ (by decide)), if_neg (show ¬ acc + n + ns.sum < 2 ^ 64 by omega)]
        unfold machine
        by_cases h' : (acc + n) % 2 ^ 64 + ns.sum < 2 ^ 64
        · rw [if_pos h',
            show (acc + n) % 2 ^ 64 + ns.sum = (acc + n + ns.sum) % 2 ^ 64 by omega]
          rfl
        · rw [if_neg h',
            show ((acc + n) % 2 ^ 64 + ns.sum) % 2 ^ 64 = (acc + n + ns.sum) % 2 ^ 64 by omega]

section
variable {T : Type} [Buf T] [LawfulBuf T]

theorem wrap_remaining {l : WrapList T} (h : ∀ b ∈ l.list.bufs, Valid b) :
    BufCore.remaining l = (concat l.list.bufs).length % 2 ^ 64 := by
  show l.list.remaining % 2 ^ 64 = _
  rw [BufList.remaining, sum_remaining h]

instance : LawfulCore (WrapList T) where
  Valid l := Segments l.list.bufs ∧ (concat l.list.bufs).length < 2 ^ 64
  bytes l := concat l.list.bufs
  remaining_eq h := by
    rw [wrap_remaining fun b hb => (h.1 b hb).1, Nat.mod_eq_of_lt h.2]
  chunk_prefix := fun {l} h => LawfulCore.chunk_prefix (b := l.list) h.1
  chunk_ne := fun {l} h => LawfulCore.chunk_ne (b := l.list) h.1
  advance_ok := fun {l n} h hn => by
    obtain ⟨l', e1, e2, e3⟩ := LawfulCore.advance_ok (b := l.list) h.1 hn
    refine ⟨⟨l'⟩, ?_, ⟨e2, ?_⟩, e3⟩
    · show (BufCore.advance l.list n >>= _) = _
      rw [e1]
      rfl
    · have : (concat l'.bufs).length = (concat l.list.bufs).length - n := by
        rw [← List.length_drop]
        exact congrArg List.length e3
      have := h.2
      show (concat l'.bufs).length < _
      omega
  advance_over := fun {l n} h hn => by
    obtain ⟨m, e⟩ := LawfulCore.advance_over (b := l.list) h.1 hn
    refine ⟨m, ?_⟩
    show (BufCore.advance l.list n >>= _) = _
    rw [e]
    rfl

theorem wrap_copyToBytes_over {l : WrapList T} (h : Valid l) {n : Nat}
    (hn : (concat l.list.bufs).length < n) :
    l.copyToBytes n = .panic "`len` greater than remaining" := by
  have hs : l.copySlow n = .panic "`len` greater than remaining" := by
    have : decide (n ≤ BufCore.remaining l) = false := by
      rw [LawfulCore.remaining_eq h]
      exact decide_eq_false (Nat.not_le.2 hn)
    rw [WrapList.copySlow, this]
    rfl
  rcases l with ⟨⟨_ | ⟨b, bs⟩⟩⟩
  · exact hs
  · have hr := LawfulCore.remaining_eq (h.1 b (List.mem_cons_self ..)).1
    change (concat (b :: bs)).length < n at hn
    rw [concat_cons, List.length_append] at hn
    unfold WrapList.copyToBytes
    simp only
    rw [if_neg (by omega), if_neg (by omega)]
    exact hs

theorem wrap_copyToBytes_ok {l : WrapList T} (h : Valid l) {n : Nat}
    (hn : n ≤ (concat l.list.bufs).length) :
    ∃ l', l.copyToBytes n = .ok ((concat l.list.bufs).take n, l') ∧ Valid l' ∧
      concat l'.list.bufs = (concat l.list.bufs).drop n := by
  have slow : ∃ l', l.copySlow n = .ok ((concat l.list.bufs).take n, l') ∧ Valid l' ∧
      concat l'.list.bufs = (concat l.list.bufs).drop n := by
    have : decide (n ≤ BufCore.remaining l) = true := by
      rw [LawfulCore.remaining_eq h]
      exact decide_eq_true hn
    rw [WrapList.copySlow, this]
    obtain ⟨l', e1, e2, e3⟩ := putTake_ok (Nat.le_refl n) (b := l) h hn []
    exact ⟨l', e1, e2, e3⟩
  have small : ∀ {bufs' : List T}, concat bufs' = (concat l.list.bufs).drop n →
      (concat bufs').length < 2 ^ 64 := by
    intro bufs' e
    have := h.2
    rw [e, List.length_drop]
    omega
  rcases l with ⟨⟨_ | ⟨b, bs⟩⟩⟩
  · exact slow
  · obtain ⟨hb, hne⟩ := h.1 b (List.mem_cons_self ..)
    have hbs : Segments bs := fun b' hb' => h.1 b' (List.mem_cons_of_mem _ hb')
    have hr := LawfulCore.remaining_eq hb
    unfold WrapList.copyToBytes
    simp only
    split
    · rename_i he
      obtain ⟨b', e1, e2, e3⟩ := LawfulBuf.copy_ok hb (n := n) (by omega)
      have hc : concat bs = (concat (b :: bs)).drop n := by
        rw [concat_cons, List.drop_append_of_le_length (by omega), List.drop_eq_nil_of_le (by omega)]
        rfl
      refine ⟨⟨⟨bs⟩⟩, ?_, ⟨hbs, small hc⟩, hc⟩
      rw [e1, concat_cons, List.take_append_of_le_length (by omega)]
      rfl
    · split
      · obtain ⟨b', e1, e2, e3⟩ := LawfulBuf.copy_ok hb (n := n) (by omega)
        have hc : concat (b' :: bs) = (concat (b :: bs)).drop n := by
          rw [concat_cons, concat_cons, e3, List.drop_append_of_le_length (by omega)]
        refine ⟨⟨⟨b' :: bs⟩⟩, ?_, ⟨?_, small hc⟩, hc⟩
        · rw [e1, concat_cons, List.take_append_of_le_length (by omega)]
          rfl
        · intro x hx
          rcases List.mem_cons.1 hx with rfl | hx
          · refine ⟨e2, fun hnil => ?_⟩
            have := congrArg List.length (e3.symm.trans hnil)
            rw [List.length_drop, List.length_nil] at this
            omega
          · exact hbs x hx
      · exact slow

instance : LawfulBuf (WrapList T) where
  copy_ok := fun h hn => wrap_copyToBytes_ok h hn
  copy_over := fun h hn => ⟨_, wrap_copyToBytes_over h hn⟩

end

end Binate

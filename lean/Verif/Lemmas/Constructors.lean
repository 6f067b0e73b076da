import Verif.Lemmas.RoundTrip
import Verif.Spec.Api

/-! # Constructors and the decoder only produce well-formed frames -/

namespace Binate

open Spec

theorem flagsOk_iff {fl : Flags} :
    FlagsOk fl ↔ ∀ i, fl.bits.getLsbD i = true → 4 ≤ i ∧ i ≤ 8 := by
  have e : ∀ i, fl.bits.getLsbD i = fl.bits.toNat.testBit i := fun _ => rfl
  simp only [e, FlagsOk]
  generalize fl.bits.toNat = n
  constructor
  · rintro ⟨h1, h2⟩ i hi
    constructor
    · apply Nat.not_lt.1
      intro h4
      have := Nat.testBit_mod_two_pow n 4 i
      rw [show (2 : Nat) ^ 4 = 16 from rfl, h1, hi] at this
      simp [h4] at this
    · apply Nat.not_lt.1
      intro h9
      have hlt : n < 2 ^ i := Nat.lt_of_lt_of_le h2 (Nat.pow_le_pow_right (n := 2) (by omega) h9)
      rw [Nat.testBit_lt_two_pow hlt] at hi
      cases hi
  · intro h
    constructor
    · have : n % 2 ^ 4 = 0 := by
        apply Nat.eq_of_testBit_eq
        intro i
        rw [Nat.testBit_mod_two_pow, Nat.zero_testBit]
        cases hb : n.testBit i
        · simp
        · have := h i hb
          simp; omega
      exact this
    · apply Nat.lt_pow_two_of_testBit n (n := 9)
      intro i hi
      cases hb : n.testBit i
      · rfl
      · have := h i hb
        omega

theorem flagsOk_union {a b : Flags} (ha : FlagsOk a) (hb : FlagsOk b) : FlagsOk (a.union b) := by
  rw [flagsOk_iff] at *
  intro i hi
  rw [Flags.union, BitVec.getLsbD_or, Bool.or_eq_true] at hi
  exact hi.elim (ha i) (hb i)

theorem flagsOk_inter {a b : Flags} (ha : FlagsOk a) : FlagsOk (a.inter b) := by
  rw [flagsOk_iff] at *
  intro i hi
  rw [Flags.inter, BitVec.getLsbD_and, Bool.and_eq_true] at hi
  exact ha i hi.1

theorem flagsOk_truncate (w : U16) : FlagsOk (Flags.fromBitsTruncate w) := by
  unfold FlagsOk
  rw [fromBitsTruncate_toNat]
  omega

theorem flagsOk_empty : FlagsOk Flags.empty := by decide
theorem flagsOk_follows : FlagsOk Flags.FOLLOWS := by decide
theorem flagsOk_resume : FlagsOk Flags.RESUME := by decide
theorem flagsOk_complete : FlagsOk Flags.COMPLETE := by decide
theorem flagsOk_lease : FlagsOk Flags.LEASE := by decide
theorem flagsOk_metadata : FlagsOk Flags.METADATA := by decide

theorem flagsOk_ite {c : Prop} [Decidable c] {a b : Flags} (ha : FlagsOk a) (hb : FlagsOk b) :
    FlagsOk (if c then a else b) := by split <;> assumption

theorem max31_lt (x : U32) : (x &&& MAX_U31).toNat < 2 ^ 31 := by
  rw [and_max31]; omega

theorem max63_lt (x : U64) : (x &&& MAX_U63).toNat < 2 ^ 63 := by
  rw [and_max63]; omega

/-- Invariant of the SETUP builder. -/
def SetupInv (b : SetupFrame) : Prop :=
  FlagsOk b.flags ∧ b.keepaliveInterval.toNat < 2 ^ 31 ∧ b.keepaliveTimeout.toNat < 2 ^ 31 ∧
  (∀ t, b.resumeToken = some t → t.length ≤ 65535 ∧ b.flags.bits.toNat.testBit 6 = true) ∧
  b.metadataMimetype.length ≤ 256 ∧ b.dataMimetype.length ≤ 256

theorem setupInv_default : SetupInv SetupFrameBuilder.default := by
  refine ⟨by decide, by decide, by decide, ?_, by decide, by decide⟩
  intro t h; cases h

theorem union_testBit (a b : Flags) (i : Nat) :
    (a.union b).bits.toNat.testBit i = (a.bits.toNat.testBit i || b.bits.toNat.testBit i) := by
  rw [Flags.union, BitVec.toNat_or, Nat.testBit_or]

theorem assert_eq_ok {c : Bool} {m : String} {u : Unit} :
    Outcome.assert c m = .ok u ↔ c = true := by
  cases c <;> simp

theorem setupInv_apply {dbg : Bool} {b b' : SetupFrame} {c : SetupCall} (h : SetupInv b)
    (hc : SetupFrameBuilder.apply dbg b c = .ok b') : SetupInv b' := by
  obtain ⟨h1, h2, h3, h4, h5, h6⟩ := h
  have tok : ∀ fl : Flags, ∀ t, b.resumeToken = some t →
      t.length ≤ 65535 ∧ (b.flags.union fl).bits.toNat.testBit 6 = true := by
    intro fl t ht
    obtain ⟨h, h'⟩ := h4 t ht
    exact ⟨h, by rw [union_testBit, h']; rfl⟩
  cases c with
  | setResumeFlag => cases hc; exact ⟨flagsOk_union h1 flagsOk_resume, h2, h3, tok _, h5, h6⟩
  | setLeaseFlag => cases hc; exact ⟨flagsOk_union h1 flagsOk_lease, h2, h3, tok _, h5, h6⟩
  | setVersion _ _ => cases hc; exact ⟨h1, h2, h3, h4, h5, h6⟩
  | setKeepaliveInterval i =>
    obtain ⟨_, _, hc⟩ := Outcome.bind_eq_ok.1 hc
    cases hc; exact ⟨h1, max31_lt _, h3, h4, h5, h6⟩
  | setKeepaliveTimeout i =>
    obtain ⟨_, _, hc⟩ := Outcome.bind_eq_ok.1 hc
    cases hc; exact ⟨h1, h2, max31_lt _, h4, h5, h6⟩
  | setResumeToken t =>
    obtain ⟨_, ha, hc⟩ := Outcome.bind_eq_ok.1 hc
    rw [assert_eq_ok, decide_eq_true_eq] at ha
    cases hc
    refine ⟨flagsOk_union h1 flagsOk_resume, h2, h3, ?_, h5, h6⟩
    intro t' ht'
    cases ht'
    refine ⟨ha, ?_⟩
    rw [union_testBit, Bool.or_eq_true]
    right; decide
  | setMetadataMimetype m =>
    obtain ⟨_, ha, hc⟩ := Outcome.bind_eq_ok.1 hc
    rw [assert_eq_ok, decide_eq_true_eq] at ha
    cases hc; exact ⟨h1, h2, h3, h4, ha, h6⟩
  | setDataMimetype m =>
    obtain ⟨_, ha, hc⟩ := Outcome.bind_eq_ok.1 hc
    rw [assert_eq_ok, decide_eq_true_eq] at ha
    cases hc; exact ⟨h1, h2, h3, h4, h5, ha⟩
  | setMetadata m => cases hc; exact ⟨flagsOk_union h1 flagsOk_metadata, h2, h3, tok _, h5, h6⟩
  | setData d => cases hc; exact ⟨h1, h2, h3, h4, h5, h6⟩

theorem setupInv_run {dbg : Bool} {b b' : SetupFrame} {cs : List SetupCall} (h : SetupInv b)
    (hc : SetupFrameBuilder.run dbg b cs = .ok b') : SetupInv b' := by
  induction cs generalizing b with
  | nil => cases hc; exact h
  | cons c cs ih =>
    obtain ⟨b1, h1, h2⟩ := Outcome.bind_eq_ok.1 hc
    exact ih (setupInv_apply h h1) h2

theorem setupInv_build {dbg : Bool} {b : SetupFrame} {cs : List SetupCall}
    (hc : SetupFrameBuilder.build dbg cs = .ok b) : SetupInv b :=
  setupInv_run setupInv_default hc

/-- What the constructors guarantee, plus what the caller has to respect. -/
theorem built_wellFormed {dbg : Bool} {f : Frame} (hb : Built dbg f) (hs : Sendable f) :
    WellFormed f := by
  cases hb with
  | setup h =>
    obtain ⟨h1, h2, h3, h4, h5, h6⟩ := setupInv_build h
    obtain ⟨s1, s2, s3, s4⟩ := hs
    exact ⟨h1, h2, h3, s1, fun t ht => by have := (h4 t ht).1; omega, by omega, by omega, s4⟩
  | lease h => exact hs
  | keepalive h =>
    obtain ⟨_, -, h⟩ := Outcome.bind_eq_ok.1 h
    cases h; exact max63_lt _
  | requestResponse h =>
    obtain ⟨_, -, h⟩ := Outcome.bind_eq_ok.1 h
    cases h
    exact ⟨max31_lt _, flagsOk_ite (flagsOk_union (flagsOk_ite (flagsOk_union flagsOk_empty
      flagsOk_follows) flagsOk_empty) flagsOk_metadata) (flagsOk_ite (flagsOk_union flagsOk_empty
      flagsOk_follows) flagsOk_empty), hs⟩
  | requestFnf h =>
    obtain ⟨_, -, h⟩ := Outcome.bind_eq_ok.1 h
    cases h
    exact ⟨max31_lt _, flagsOk_ite (flagsOk_union (flagsOk_ite (flagsOk_union flagsOk_empty
      flagsOk_follows) flagsOk_empty) flagsOk_metadata) (flagsOk_ite (flagsOk_union flagsOk_empty
      flagsOk_follows) flagsOk_empty), hs⟩
  | requestStream h =>
    obtain ⟨_, -, h⟩ := Outcome.bind_eq_ok.1 h
    obtain ⟨_, -, h⟩ := Outcome.bind_eq_ok.1 h
    obtain ⟨_, -, h⟩ := Outcome.bind_eq_ok.1 h
    cases h
    exact ⟨max31_lt _, flagsOk_ite (flagsOk_union (flagsOk_ite (flagsOk_union flagsOk_empty
      flagsOk_follows) flagsOk_empty) flagsOk_metadata) (flagsOk_ite (flagsOk_union flagsOk_empty
      flagsOk_follows) flagsOk_empty), max31_lt _, hs⟩
  | requestChannel h =>
    obtain ⟨_, -, h⟩ := Outcome.bind_eq_ok.1 h
    obtain ⟨_, -, h⟩ := Outcome.bind_eq_ok.1 h
    obtain ⟨_, -, h⟩ := Outcome.bind_eq_ok.1 h
    cases h
    have h1 : ∀ c : Bool, FlagsOk (if c then Flags.empty.union Flags.FOLLOWS else Flags.empty) :=
      fun c => flagsOk_ite (flagsOk_union flagsOk_empty flagsOk_follows) flagsOk_empty
    have h2 : ∀ c c' : Bool, FlagsOk (if c' then
        (if c then Flags.empty.union Flags.FOLLOWS else Flags.empty).union Flags.COMPLETE
        else if c then Flags.empty.union Flags.FOLLOWS else Flags.empty) :=
      fun c c' => flagsOk_ite (flagsOk_union (h1 c) flagsOk_complete) (h1 c)
    exact ⟨max31_lt _, flagsOk_ite (flagsOk_union (h2 _ _) flagsOk_metadata) (h2 _ _),
      max31_lt _, hs⟩
  | requestN h =>
    obtain ⟨_, -, h⟩ := Outcome.bind_eq_ok.1 h
    obtain ⟨_, -, h⟩ := Outcome.bind_eq_ok.1 h
    obtain ⟨_, -, h⟩ := Outcome.bind_eq_ok.1 h
    cases h
    exact ⟨max31_lt _, max31_lt _⟩
  | cancel h =>
    obtain ⟨_, -, h⟩ := Outcome.bind_eq_ok.1 h
    cases h; exact max31_lt _
  | payload hfl h =>
    obtain ⟨_, -, h⟩ := Outcome.bind_eq_ok.1 h
    cases h
    exact ⟨max31_lt _, flagsOk_ite (flagsOk_union (flagsOk_inter hfl) flagsOk_metadata)
      (flagsOk_inter hfl), hs⟩
  | error h =>
    obtain ⟨_, -, h⟩ := Outcome.bind_eq_ok.1 h
    obtain ⟨_, -, h⟩ := Outcome.bind_eq_ok.1 h
    cases h; exact ⟨max31_lt _, hs⟩
  | metadataPush => trivial
  | resume h =>
    obtain ⟨_, -, h⟩ := Outcome.bind_eq_ok.1 h
    obtain ⟨_, -, h⟩ := Outcome.bind_eq_ok.1 h
    cases h
    have hs' : _ ≤ 65535 := hs
    exact ⟨by show _ < 65536; omega, max63_lt _, max63_lt _⟩
  | resumeOk h =>
    obtain ⟨_, -, h⟩ := Outcome.bind_eq_ok.1 h
    cases h; exact max63_lt _

theorem built_flags {dbg : Bool} {f : Frame} (hb : Built dbg f) : FrameFlagsOk f := by
  intro fl hfl
  have h1 : ∀ c : Bool, FlagsOk (if c then Flags.empty.union Flags.FOLLOWS else Flags.empty) :=
    fun c => flagsOk_ite (flagsOk_union flagsOk_empty flagsOk_follows) flagsOk_empty
  cases hb with
  | setup h => cases hfl; exact (setupInv_build h).1
  | requestResponse h =>
    obtain ⟨_, -, h⟩ := Outcome.bind_eq_ok.1 h
    cases h
    cases hfl
    exact flagsOk_ite (flagsOk_union (h1 _) flagsOk_metadata) (h1 _)
  | requestFnf h =>
    obtain ⟨_, -, h⟩ := Outcome.bind_eq_ok.1 h
    cases h
    cases hfl
    exact flagsOk_ite (flagsOk_union (h1 _) flagsOk_metadata) (h1 _)
  | requestStream h =>
    obtain ⟨_, -, h⟩ := Outcome.bind_eq_ok.1 h
    obtain ⟨_, -, h⟩ := Outcome.bind_eq_ok.1 h
    obtain ⟨_, -, h⟩ := Outcome.bind_eq_ok.1 h
    cases h
    cases hfl
    exact flagsOk_ite (flagsOk_union (h1 _) flagsOk_metadata) (h1 _)
  | requestChannel h =>
    obtain ⟨_, -, h⟩ := Outcome.bind_eq_ok.1 h
    obtain ⟨_, -, h⟩ := Outcome.bind_eq_ok.1 h
    obtain ⟨_, -, h⟩ := Outcome.bind_eq_ok.1 h
    cases h
    cases hfl
    have h2 : ∀ c c' : Bool, FlagsOk (if c' then
        (if c then Flags.empty.union Flags.FOLLOWS else Flags.empty).union Flags.COMPLETE
        else if c then Flags.empty.union Flags.FOLLOWS else Flags.empty) :=
      fun c c' => flagsOk_ite (flagsOk_union (h1 c) flagsOk_complete) (h1 c)
    exact flagsOk_ite (flagsOk_union (h2 _ _) flagsOk_metadata) (h2 _ _)
  | payload hf h =>
    obtain ⟨_, -, h⟩ := Outcome.bind_eq_ok.1 h
    cases h
    cases hfl
    exact flagsOk_ite (flagsOk_union (flagsOk_inter hf) flagsOk_metadata) (flagsOk_inter hf)
  | _ => cases hfl

/-! ## Decoded frames -/

theorem num_lt {k bits v : Nat} {b : Bytes} (h : Num k bits v b) : v < 2 ^ bits := by
  rw [h.2]; exact Nat.mod_lt _ (Nat.two_pow_pos _)

theorem prefixed_lt {k : Nat} {x b : Bytes} (h : Prefixed k x b) : x.length < 256 ^ k := by
  obtain ⟨l, rfl, hl, he⟩ := h
  rw [← he, ← hl]; exact beVal_lt l

theorem opt_noEmpty {o : Option Bytes} {b : Bytes} (h : Opt o b) : some [] ≠ o := by
  rintro rfl
  rcases h with ⟨h1, h2⟩ | ⟨h1, h2⟩
  · cases h2
  · cases h2; exact h1 rfl

theorem optBytes_opt {o : Option Bytes} {b : Bytes} (h : Opt o b) : optBytes o = b := by
  rcases h with ⟨rfl, rfl⟩ | ⟨h1, rfl⟩ <;> rfl

theorem pay_lt {p : Payload} {b : Bytes} (h : Pay p b) :
    (optBytes p.metadata).length < 2 ^ 24 := by
  obtain ⟨m, d, mb, rfl, hm, ho, -⟩ := h
  rw [optBytes_opt ho]; exact prefixed_lt hm

theorem parses_wellFormed {b rest : Bytes} {f : Frame} (h : Parses b f rest) : WellFormed f := by
  obtain ⟨hd, body, sid, fl, -, ⟨s, w, -, -, -, hsid, -, hfl⟩, hb⟩ := h
  have hsid' : sid < 2 ^ 31 := by rw [hsid]; exact Nat.mod_lt _ (by omega)
  have flok : ∀ F : Flags, F.bits.toNat = fl → FlagsOk F := by
    intro F hF; unfold FlagsOk; rw [hF, hfl]; omega
  cases hb with
  | setup h1 h2 h3 h4 h5 h6 h7 h8 =>
    refine ⟨flok _ h1, num_lt h3, num_lt h4, ?_, ?_, prefixed_lt h6, prefixed_lt h7, pay_lt h8⟩
    · rw [h1]
      unfold Token at h5
      split at h5
      · next ht => obtain ⟨t, h, -⟩ := h5; rw [h, ht]; rfl
      · next ht => rw [h5.1]; simp at ht; rw [ht]; rfl
    · intro t ht
      unfold Token at h5
      split at h5
      · obtain ⟨t', h, h'⟩ := h5; rw [h] at ht; cases ht; exact prefixed_lt h'
      · rw [h5.1] at ht; cases ht
  | lease h1 h2 h3 => exact ⟨num_lt h1, num_lt h2⟩
  | keepalive h1 h2 h3 => exact num_lt h2
  | requestResponse h1 h2 h3 => exact ⟨h1 ▸ hsid', flok _ h2, pay_lt h3⟩
  | requestFnf h1 h2 h3 => exact ⟨h1 ▸ hsid', flok _ h2, pay_lt h3⟩
  | requestStream h1 h2 h3 h4 => exact ⟨h1 ▸ hsid', flok _ h2, num_lt h3, pay_lt h4⟩
  | requestChannel h1 h2 h3 h4 => exact ⟨h1 ▸ hsid', flok _ h2, num_lt h3, pay_lt h4⟩
  | requestN h1 h2 => exact ⟨h1 ▸ hsid', num_lt h2⟩
  | cancel h1 => subst h1; exact hsid'
  | payload h1 h2 h3 => exact ⟨h1 ▸ hsid', flok _ h2, pay_lt h3⟩
  | error h1 h2 h3 h4 h5 => subst h1; exact ⟨hsid', h3, h4⟩
  | metadataPush _ => trivial
  | resume h1 h2 h3 h4 => exact ⟨prefixed_lt h2, num_lt h3, num_lt h4⟩
  | resumeOk h1 => exact num_lt h1

theorem parses_noEmpty {b rest : Bytes} {f : Frame} (h : Parses b f rest) : NoEmpty f := by
  obtain ⟨hd, body, sid, fl, -, -, hb⟩ := h
  have pay : ∀ {p : Payload} {b : Bytes}, Pay p b → some [] ∉ [p.metadata, p.data] := by
    rintro p b ⟨m, d, mb, -, -, h1, h2⟩ hm
    simp only [List.mem_cons, List.not_mem_nil, or_false] at hm
    exact hm.elim (opt_noEmpty h1) (opt_noEmpty h2)
  have one : ∀ {o : Option Bytes} {b : Bytes}, Opt o b → some [] ∉ [o] := by
    intro o b h hm
    simp only [List.mem_cons, List.not_mem_nil, or_false] at hm
    exact opt_noEmpty h hm
  cases hb with
  | setup _ _ _ _ _ _ _ h => exact pay h
  | lease _ _ h => exact one h
  | keepalive _ _ h => exact one h
  | requestResponse _ _ h => exact pay h
  | requestFnf _ _ h => exact pay h
  | requestStream _ _ _ h => exact pay h
  | requestChannel _ _ _ h => exact pay h
  | requestN _ _ => exact List.not_mem_nil
  | cancel _ => exact List.not_mem_nil
  | payload _ _ h => exact pay h
  | error _ _ _ _ h => exact one h
  | metadataPush _ => exact List.not_mem_nil
  | resume _ _ _ _ => exact List.not_mem_nil
  | resumeOk _ => exact List.not_mem_nil

end Binate

import Verif.Lemmas.Encode
import Verif.Spec.Builder

/-! # The SETUP builder -/

namespace Binate

open Spec

theorem maxU31_le {x : U32} : (x ≤ MAX_U31) ↔ x.toNat < 2 ^ 31 := by
  rw [BitVec.le_def, show MAX_U31.toNat = 2147483647 from rfl]; omega

theorem maxU63_le {x : U64} : (x ≤ MAX_U63) ↔ x.toNat < 2 ^ 63 := by
  rw [BitVec.le_def, show MAX_U63.toNat = 9223372036854775807 from rfl]; omega

theorem dam31_ok {dbg : Bool} {nm : String} {x : U32} (h : dbg = true → x.toNat < 2 ^ 31) :
    debugAssertMaxU31 dbg nm x = .ok () := by
  unfold debugAssertMaxU31 Outcome.debugAssert
  cases dbg
  · rfl
  · rw [decide_eq_true (maxU31_le.2 (h rfl))]; rfl

theorem dam31_panic {nm : String} {x : U32} (h : 2 ^ 31 ≤ x.toNat) :
    ∃ m, debugAssertMaxU31 true nm x = .panic m := by
  unfold debugAssertMaxU31 Outcome.debugAssert
  rw [decide_eq_false (by rw [maxU31_le]; omega)]; exact ⟨_, rfl⟩

theorem dam31_iff {dbg : Bool} {nm : String} {x : U32} {u : Unit} :
    debugAssertMaxU31 dbg nm x = .ok u ↔ (dbg = true → x.toNat < 2 ^ 31) := by
  constructor
  · intro h hd
    subst hd
    apply Nat.not_le.1
    intro hx
    obtain ⟨m, hm⟩ := dam31_panic (nm := nm) hx
    rw [hm] at h; cases h
  · exact dam31_ok

theorem dam63_ok {dbg : Bool} {nm : String} {x : U64} (h : dbg = true → x.toNat < 2 ^ 63) :
    debugAssertMaxU63 dbg nm x = .ok () := by
  unfold debugAssertMaxU63 Outcome.debugAssert
  cases dbg
  · rfl
  · rw [decide_eq_true (maxU63_le.2 (h rfl))]; rfl

theorem dam63_panic {nm : String} {x : U64} (h : 2 ^ 63 ≤ x.toNat) :
    ∃ m, debugAssertMaxU63 true nm x = .panic m := by
  unfold debugAssertMaxU63 Outcome.debugAssert
  rw [decide_eq_false (by rw [maxU63_le]; omega)]; exact ⟨_, rfl⟩

theorem danz_ok {dbg : Bool} {nm : String} {x : U32} (h : dbg = true → x ≠ 0#32) :
    debugAssertNonZero dbg nm x = .ok () := by
  unfold debugAssertNonZero Outcome.debugAssert
  cases dbg
  · rfl
  · have := h rfl; simp [this]

theorem danz_panic {nm : String} : ∃ m, debugAssertNonZero true nm 0#32 = .panic m := ⟨_, rfl⟩

theorem masked31 {x : U32} (h : x.toNat < 2 ^ 31) : x &&& MAX_U31 = x := by
  apply BitVec.eq_of_toNat_eq; rw [and_max31, Nat.mod_eq_of_lt h]

theorem masked63 {x : U64} (h : x.toNat < 2 ^ 63) : x &&& MAX_U63 = x := by
  apply BitVec.eq_of_toNat_eq; rw [and_max63, Nat.mod_eq_of_lt h]

theorem apply_ok_iff {dbg : Bool} {b : SetupFrame} {c : SetupCall} :
    (∃ b', SetupFrameBuilder.apply dbg b c = .ok b') ↔ Legal dbg c := by
  cases c with
  | setResumeFlag => exact ⟨fun _ => trivial, fun _ => ⟨_, rfl⟩⟩
  | setLeaseFlag => exact ⟨fun _ => trivial, fun _ => ⟨_, rfl⟩⟩
  | setVersion _ _ => exact ⟨fun _ => trivial, fun _ => ⟨_, rfl⟩⟩
  | setMetadata _ => exact ⟨fun _ => trivial, fun _ => ⟨_, rfl⟩⟩
  | setData _ => exact ⟨fun _ => trivial, fun _ => ⟨_, rfl⟩⟩
  | setKeepaliveInterval i =>
    constructor
    · rintro ⟨b', h⟩
      obtain ⟨_, h1, -⟩ := Outcome.bind_eq_ok.1 h
      exact dam31_iff.1 h1
    · intro h
      exact ⟨_, Outcome.bind_eq_ok.2 ⟨(), dam31_ok h, rfl⟩⟩
  | setKeepaliveTimeout i =>
    constructor
    · rintro ⟨b', h⟩
      obtain ⟨_, h1, -⟩ := Outcome.bind_eq_ok.1 h
      exact dam31_iff.1 h1
    · intro h
      exact ⟨_, Outcome.bind_eq_ok.2 ⟨(), dam31_ok h, rfl⟩⟩
  | setResumeToken t =>
    constructor
    · rintro ⟨b', h⟩
      obtain ⟨_, h1, -⟩ := Outcome.bind_eq_ok.1 h
      rw [assert_eq_ok, decide_eq_true_eq] at h1
      exact h1
    · intro h
      exact ⟨_, Outcome.bind_eq_ok.2 ⟨(), by rw [assert_eq_ok, decide_eq_true_eq]; exact h, rfl⟩⟩
  | setMetadataMimetype t =>
    constructor
    · rintro ⟨b', h⟩
      obtain ⟨_, h1, -⟩ := Outcome.bind_eq_ok.1 h
      rw [assert_eq_ok, decide_eq_true_eq] at h1
      exact h1
    · intro h
      exact ⟨_, Outcome.bind_eq_ok.2 ⟨(), by rw [assert_eq_ok, decide_eq_true_eq]; exact h, rfl⟩⟩
  | setDataMimetype t =>
    constructor
    · rintro ⟨b', h⟩
      obtain ⟨_, h1, -⟩ := Outcome.bind_eq_ok.1 h
      rw [assert_eq_ok, decide_eq_true_eq] at h1
      exact h1
    · intro h
      exact ⟨_, Outcome.bind_eq_ok.2 ⟨(), by rw [assert_eq_ok, decide_eq_true_eq]; exact h, rfl⟩⟩

theorem run_ok_iff {dbg : Bool} {b : SetupFrame} {calls : List SetupCall} :
    (∃ f, SetupFrameBuilder.run dbg b calls = .ok f) ↔ ∀ c ∈ calls, Legal dbg c := by
  induction calls generalizing b with
  | nil => exact ⟨fun _ c hc => (List.not_mem_nil hc).elim, fun _ => ⟨_, rfl⟩⟩
  | cons c cs ih =>
    constructor
    · rintro ⟨f, h⟩
      obtain ⟨b1, h1, h2⟩ := Outcome.bind_eq_ok.1 h
      intro c' hc'
      rcases List.mem_cons.1 hc' with rfl | hc'
      · exact apply_ok_iff.1 ⟨_, h1⟩
      · exact ih.1 ⟨_, h2⟩ c' hc'
    · intro h
      obtain ⟨b1, h1⟩ := (apply_ok_iff (b := b)).2 (h c (List.mem_cons_self ..))
      obtain ⟨f, h2⟩ := (ih (b := b1)).2 (fun c' hc' => h c' (List.mem_cons_of_mem _ hc'))
      exact ⟨f, Outcome.bind_eq_ok.2 ⟨b1, h1, h2⟩⟩

theorem apply_no_diverge {dbg : Bool} {b : SetupFrame} {c : SetupCall} :
    SetupFrameBuilder.apply dbg b c ≠ .diverge := by
  cases c <;> simp only [SetupFrameBuilder.apply, debugAssertMaxU31, Outcome.debugAssert,
    Outcome.assert, ne_eq, reduceCtorEq, not_false_eq_true] <;> split <;> exact fun h => nomatch h

theorem lastOr_cons {α : Type} (d : α) (sel : SetupCall → Option α) (c : SetupCall)
    (cs : List SetupCall) : lastOr d sel (c :: cs) = lastOr ((sel c).getD d) sel cs := by
  unfold lastOr
  cases h : sel c with
  | none => rw [List.filterMap_cons_none h]; rfl
  | some a =>
    rw [List.filterMap_cons_some h, List.getLast?_cons]; rfl

/-- The description of a run that starts in builder state `b`. -/
structure RunSpec (b : SetupFrame) (calls : List SetupCall) (f : SetupFrame) : Prop where
  resume : f.flags.bits.toNat.testBit 6 = (b.flags.bits.toNat.testBit 6 || calls.any setsResume)
  lease : f.flags.bits.toNat.testBit 5 = (b.flags.bits.toNat.testBit 5 || calls.any setsLease)
  metadata : f.flags.bits.toNat.testBit 7 =
    (b.flags.bits.toNat.testBit 7 || calls.any setsMetadata)
  noOther : ∀ i, i ≠ 5 → i ≠ 6 → i ≠ 7 →
    f.flags.bits.toNat.testBit i = b.flags.bits.toNat.testBit i
  version : f.version = lastOr b.version versionArg calls
  interval : f.keepaliveInterval.toNat =
    (lastOr b.keepaliveInterval intervalArg calls).toNat % 2 ^ 31
  timeout : f.keepaliveTimeout.toNat = (lastOr b.keepaliveTimeout timeoutArg calls).toNat % 2 ^ 31
  token : f.resumeToken = lastOr b.resumeToken tokenArg calls
  metadataMime : f.metadataMimetype = lastOr b.metadataMimetype metadataMimeArg calls
  dataMime : f.dataMimetype = lastOr b.dataMimetype dataMimeArg calls
  payload : f.payload = ⟨lastOr b.payload.metadata metadataArg calls,
    lastOr b.payload.data dataArg calls⟩

/-- What one builder call does. -/
structure StepSpec (b : SetupFrame) (c : SetupCall) (f : SetupFrame) : Prop where
  resume : f.flags.bits.toNat.testBit 6 = (b.flags.bits.toNat.testBit 6 || setsResume c)
  lease : f.flags.bits.toNat.testBit 5 = (b.flags.bits.toNat.testBit 5 || setsLease c)
  metadata : f.flags.bits.toNat.testBit 7 = (b.flags.bits.toNat.testBit 7 || setsMetadata c)
  noOther : ∀ i, i ≠ 5 → i ≠ 6 → i ≠ 7 →
    f.flags.bits.toNat.testBit i = b.flags.bits.toNat.testBit i
  version : f.version = (versionArg c).getD b.version
  interval : f.keepaliveInterval = ((intervalArg c).map (· &&& MAX_U31)).getD b.keepaliveInterval
  timeout : f.keepaliveTimeout = ((timeoutArg c).map (· &&& MAX_U31)).getD b.keepaliveTimeout
  token : f.resumeToken = (tokenArg c).getD b.resumeToken
  metadataMime : f.metadataMimetype = (metadataMimeArg c).getD b.metadataMimetype
  dataMime : f.dataMimetype = (dataMimeArg c).getD b.dataMimetype
  payload : f.payload = ⟨(metadataArg c).getD b.payload.metadata, (dataArg c).getD b.payload.data⟩

theorem oneBit (k i : Nat) (h : i ≠ k) : (2 ^ k).testBit i = false := by
  rw [Nat.testBit_two_pow]; simp; omega

theorem bit_resume (i : Nat) : Flags.RESUME.bits.toNat.testBit i = decide (i = 6) := by
  rw [show Flags.RESUME.bits.toNat = 2 ^ 6 from rfl, Nat.testBit_two_pow]
  simp [eq_comm]
theorem bit_lease (i : Nat) : Flags.LEASE.bits.toNat.testBit i = decide (i = 5) := by
  rw [show Flags.LEASE.bits.toNat = 2 ^ 5 from rfl, Nat.testBit_two_pow]
  simp [eq_comm]
theorem bit_metadata (i : Nat) : Flags.METADATA.bits.toNat.testBit i = decide (i = 7) := by
  rw [show Flags.METADATA.bits.toNat = 2 ^ 7 from rfl, Nat.testBit_two_pow]
  simp [eq_comm]

theorem step_spec {dbg : Bool} {b b' : SetupFrame} {c : SetupCall}
    (h : SetupFrameBuilder.apply dbg b c = .ok b') : StepSpec b c b' := by
  cases c with
  | setResumeFlag =>
    cases h
    constructor <;> simp [union_testBit, bit_resume, setsResume, setsLease, setsMetadata,
      versionArg, intervalArg, timeoutArg, tokenArg, metadataMimeArg, dataMimeArg, metadataArg,
      dataArg]
    intro i _ h _ h'; exact absurd h' h
  | setLeaseFlag =>
    cases h
    constructor <;> simp [union_testBit, bit_lease, setsResume, setsLease, setsMetadata,
      versionArg, intervalArg, timeoutArg, tokenArg, metadataMimeArg, dataMimeArg, metadataArg,
      dataArg]
    intro i h _ _ h'; exact absurd h' h
  | setVersion _ _ =>
    cases h
    constructor <;> simp [setsResume, setsLease, setsMetadata, Version.new,
      versionArg, intervalArg, timeoutArg, tokenArg, metadataMimeArg, dataMimeArg, metadataArg,
      dataArg]
  | setKeepaliveInterval i =>
    obtain ⟨_, -, h⟩ := Outcome.bind_eq_ok.1 h
    cases h
    constructor <;> simp [setsResume, setsLease, setsMetadata,
      versionArg, intervalArg, timeoutArg, tokenArg, metadataMimeArg, dataMimeArg, metadataArg,
      dataArg]
  | setKeepaliveTimeout i =>
    obtain ⟨_, -, h⟩ := Outcome.bind_eq_ok.1 h
    cases h
    constructor <;> simp [setsResume, setsLease, setsMetadata,
      versionArg, intervalArg, timeoutArg, tokenArg, metadataMimeArg, dataMimeArg, metadataArg,
      dataArg]
  | setResumeToken t =>
    obtain ⟨_, -, h⟩ := Outcome.bind_eq_ok.1 h
    cases h
    constructor <;> simp [union_testBit, bit_resume, setsResume, setsLease, setsMetadata,
      versionArg, intervalArg, timeoutArg, tokenArg, metadataMimeArg, dataMimeArg, metadataArg,
      dataArg]
    intro i _ h _ h'; exact absurd h' h
  | setMetadataMimetype m =>
    obtain ⟨_, -, h⟩ := Outcome.bind_eq_ok.1 h
    cases h
    constructor <;> simp [setsResume, setsLease, setsMetadata,
      versionArg, intervalArg, timeoutArg, tokenArg, metadataMimeArg, dataMimeArg, metadataArg,
      dataArg]
  | setDataMimetype m =>
    obtain ⟨_, -, h⟩ := Outcome.bind_eq_ok.1 h
    cases h
    constructor <;> simp [setsResume, setsLease, setsMetadata,
      versionArg, intervalArg, timeoutArg, tokenArg, metadataMimeArg, dataMimeArg, metadataArg,
      dataArg]
  | setMetadata m =>
    cases h
    constructor <;> simp [union_testBit, bit_metadata, setsResume, setsLease, setsMetadata,
      versionArg, intervalArg, timeoutArg, tokenArg, metadataMimeArg, dataMimeArg, metadataArg,
      dataArg]
    intro i _ _ h h'; exact absurd h' h
  | setData d =>
    cases h
    constructor <;> simp [setsResume, setsLease, setsMetadata,
      versionArg, intervalArg, timeoutArg, tokenArg, metadataMimeArg, dataMimeArg, metadataArg,
      dataArg]

theorem lastOr_masked (d : U32) (o : Option U32) (sel : SetupCall → Option U32)
    (cs : List SetupCall) :
    (lastOr ((o.map (· &&& MAX_U31)).getD d) sel cs).toNat % 2 ^ 31 =
      (lastOr (o.getD d) sel cs).toNat % 2 ^ 31 := by
  cases o with
  | none => rfl
  | some a =>
    unfold lastOr
    cases (cs.filterMap sel).getLast? with
    | none =>
      show (a &&& MAX_U31).toNat % 2 ^ 31 = a.toNat % 2 ^ 31
      rw [and_max31, Nat.mod_mod]
    | some x => rfl

theorem run_spec {dbg : Bool} {b f : SetupFrame} {calls : List SetupCall}
    (hi : b.keepaliveInterval.toNat < 2 ^ 31) (ht : b.keepaliveTimeout.toNat < 2 ^ 31)
    (h : SetupFrameBuilder.run dbg b calls = .ok f) : RunSpec b calls f := by
  induction calls generalizing b with
  | nil =>
    cases h
    constructor <;> simp [lastOr]
    · omega
    · omega
  | cons c cs ih =>
    obtain ⟨b1, h1, h2⟩ := Outcome.bind_eq_ok.1 h
    have s := step_spec h1
    have hi' : b1.keepaliveInterval.toNat < 2 ^ 31 := by
      rw [s.interval]
      cases intervalArg c with
      | none => exact hi
      | some a => exact max31_lt a
    have ht' : b1.keepaliveTimeout.toNat < 2 ^ 31 := by
      rw [s.timeout]
      cases timeoutArg c with
      | none => exact ht
      | some a => exact max31_lt a
    have r := ih hi' ht' h2
    constructor
    · rw [r.resume, s.resume, List.any_cons, Bool.or_assoc]
    · rw [r.lease, s.lease, List.any_cons, Bool.or_assoc]
    · rw [r.metadata, s.metadata, List.any_cons, Bool.or_assoc]
    · intro i h5 h6 h7; rw [r.noOther i h5 h6 h7, s.noOther i h5 h6 h7]
    · rw [r.version, s.version, lastOr_cons]
    · rw [r.interval, s.interval, lastOr_cons, lastOr_masked]
    · rw [r.timeout, s.timeout, lastOr_cons, lastOr_masked]
    · rw [r.token, s.token, lastOr_cons]
    · rw [r.metadataMime, s.metadataMime, lastOr_cons]
    · rw [r.dataMime, s.dataMime, lastOr_cons]
    · rw [r.payload, s.payload, lastOr_cons, lastOr_cons]

theorem build_describes {dbg : Bool} {f : SetupFrame} {calls : List SetupCall}
    (h : SetupFrameBuilder.build dbg calls = .ok f) : Describes calls f := by
  have r := run_spec (by decide) (by decide) h
  constructor
  · rw [r.resume]; exact Bool.false_or _
  · rw [r.lease]; exact Bool.false_or _
  · rw [r.metadata]; exact Bool.false_or _
  · intro i h5 h6 h7; rw [r.noOther i h5 h6 h7]; exact Nat.zero_testBit i
  · exact r.version
  · exact r.interval
  · exact r.timeout
  · exact r.token
  · exact r.metadataMime
  · exact r.dataMime
  · exact r.payload

theorem describes_unique {calls : List SetupCall} {f g : SetupFrame} (hf : Describes calls f)
    (hg : Describes calls g) : f = g := by
  rcases f with ⟨⟨fl⟩, ver, ki, kt, tok, mm, dm, p⟩
  rcases g with ⟨⟨fl'⟩, ver', ki', kt', tok', mm', dm', p'⟩
  have e1 : fl = fl' := by
    apply BitVec.eq_of_toNat_eq
    apply Nat.eq_of_testBit_eq
    intro i
    by_cases h5 : i = 5
    · subst h5; exact hf.lease.trans hg.lease.symm
    by_cases h6 : i = 6
    · subst h6; exact hf.resume.trans hg.resume.symm
    by_cases h7 : i = 7
    · subst h7; exact hf.metadata.trans hg.metadata.symm
    exact (hf.noOther i h5 h6 h7).trans (hg.noOther i h5 h6 h7).symm
  have e2 : ver = ver' := hf.version.trans hg.version.symm
  have e3 : ki = ki' := BitVec.eq_of_toNat_eq (hf.interval.trans hg.interval.symm)
  have e4 : kt = kt' := BitVec.eq_of_toNat_eq (hf.timeout.trans hg.timeout.symm)
  have e5 : tok = tok' := hf.token.trans hg.token.symm
  have e6 : mm = mm' := hf.metadataMime.trans hg.metadataMime.symm
  have e7 : dm = dm' := hf.dataMime.trans hg.dataMime.symm
  have e8 : p = p' := hf.payload.trans hg.payload.symm
  subst e1 e2 e3 e4 e5 e6 e7 e8
  rfl

theorem lastOr_token (calls : List SetupCall) :
    (lastOr none tokenArg calls).isSome = calls.any isTokenCall := by
  have key : ∀ o : Option Bytes,
      (lastOr o tokenArg calls).isSome = (o.isSome || calls.any isTokenCall) := by
    induction calls with
    | nil => intro o; exact (Bool.or_false _).symm
    | cons c cs ih =>
      intro o
      rw [lastOr_cons, ih, List.any_cons]
      cases c <;> simp [tokenArg, isTokenCall]
  exact key none

theorem run_no_diverge' {dbg : Bool} {b : SetupFrame} {calls : List SetupCall} :
    SetupFrameBuilder.run dbg b calls ≠ .diverge := by
  induction calls generalizing b with
  | nil => exact fun h => nomatch h
  | cons c cs ih =>
    intro h
    rw [SetupFrameBuilder.run] at h
    cases hc : SetupFrameBuilder.apply dbg b c with
    | ok b' => rw [hc] at h; exact ih h
    | panic m => rw [hc] at h; cases h
    | diverge => exact apply_no_diverge hc

theorem lastOr_swap {α : Type} {d : α} {sel : SetupCall → Option α} {xs ys : List SetupCall}
    {a b : SetupCall} (h : sel a = none ∨ sel b = none) :
    lastOr d sel (xs ++ a :: b :: ys) = lastOr d sel (xs ++ b :: a :: ys) := by
  unfold lastOr
  rw [List.filterMap_append, List.filterMap_append]
  rcases h with h | h <;> cases ha : sel a <;> cases hb : sel b <;>
    simp_all

theorem any_swap {p : SetupCall → Bool} {xs ys : List SetupCall} {a b : SetupCall} :
    (xs ++ a :: b :: ys).any p = (xs ++ b :: a :: ys).any p := by
  simp only [List.any_append, List.any_cons, Bool.or_left_comm]

theorem describes_swap {xs ys : List SetupCall} {a b : SetupCall} {f : SetupFrame}
    (hab : slot a ≠ slot b) (h : Describes (xs ++ b :: a :: ys) f) :
    Describes (xs ++ a :: b :: ys) f := by
  constructor
  · rw [h.resume, any_swap]
  · rw [h.lease, any_swap]
  · rw [h.metadata, any_swap]
  · exact h.noOther
  · rw [h.version]; apply lastOr_swap; cases a <;> cases b <;> simp_all [versionArg, slot]
  · rw [h.interval]; congr 2; apply lastOr_swap; cases a <;> cases b <;> simp_all [intervalArg, slot]
  · rw [h.timeout]; congr 2; apply lastOr_swap; cases a <;> cases b <;> simp_all [timeoutArg, slot]
  · rw [h.token]; apply lastOr_swap; cases a <;> cases b <;> simp_all [tokenArg, slot]
  · rw [h.metadataMime]; apply lastOr_swap; cases a <;> cases b <;> simp_all [metadataMimeArg, slot]
  · rw [h.dataMime]; apply lastOr_swap; cases a <;> cases b <;> simp_all [dataMimeArg, slot]
  · rw [h.payload]
    have e1 : lastOr none metadataArg (xs ++ b :: a :: ys) =
        lastOr none metadataArg (xs ++ a :: b :: ys) := by
      apply lastOr_swap; cases a <;> cases b <;> simp_all [metadataArg, slot]
    have e2 : lastOr none dataArg (xs ++ b :: a :: ys) =
        lastOr none dataArg (xs ++ a :: b :: ys) := by
      apply lastOr_swap; cases a <;> cases b <;> simp_all [dataArg, slot]
    rw [e1, e2]

end Binate

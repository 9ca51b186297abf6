import Verif.Lemmas.ChainInv
import Verif.Lemmas.SafeMsgs
import Verif.Spec.Any
import Verif.Demo
/-!
# C06 to C22: headers, round trips, what the parsers accept
-/
namespace Spdm
open Spec

/-! ## Helpers -/

/-- `p`, started aligned in front of `bs`, fails with `e`. -/
def Fails {α : Type} (p : R α) (bs : Bytes) (e : Err) : Prop :=
  ∀ pre suf : Bytes, ∃ r, p ⟨pre ++ (bs ++ suf), pre.length, 0⟩ = (.err e, r)

theorem Fails.fail {α : Type} (e : Err) : Fails (M.fail e : R α) [] e := fun _ _ => ⟨_, rfl⟩

theorem Fails.lift_bind {α β : Type} {x : Res α} {q : α → R β} {e : Err} (h : x = .err e) : Fails (M.lift x >>= q) [] e := by
  subst h; exact fun _ _ => ⟨_, rfl⟩

theorem Fails.congr {α : Type} {p : R α} {bs cs : Bytes} {e : Err} (hp : Fails p bs e) (h : bs = cs) : Fails p cs e := h ▸ hp

theorem Reads.then_fails {α β : Type} {p : R α} {q : α → R β} {bs cs : Bytes} {a : α} {e : Err}
    (hp : Reads p bs a) (hq : Fails (q a) cs e) : Fails (p >>= q) (bs ++ cs) e := by
  intro pre suf
  have h1 := hp pre (cs ++ suf)
  obtain ⟨r, h2⟩ := hq (pre ++ bs) suf
  refine ⟨r, ?_⟩
  rw [List.append_assoc, M.run_bind_ok h1]
  simpa using h2

theorem Fails.parse {α : Type} {p : R α} {bs : Bytes} {e : Err} (hp : Fails p bs e) (suf : Bytes) :
    (p (Reader.new (bs ++ suf))).1 = .err e := by
  obtain ⟨r, h⟩ := hp [] suf
  simp only [List.nil_append, List.length_nil] at h
  simp [Reader.new, h]

theorem err_of {α : Type} {x : Res α} (h1 : ∀ a, x ≠ .ok a) (h2 : x.isPanic = false) : ∃ e, x = .err e := by
  cases x with
  | ok a => exact absurd rfl (h1 a)
  | err e => exact ⟨e, rfl⟩
  | panic k => simp [Res.isPanic] at h2

/-! ## C06, C07: headers -/

/-- **C06**, first half: classification of every buffer of at least three bytes. -/
theorem c06_parse_header (t : MsgType) (buf : Bytes) (h : 3 ≤ buf.length) :
    (t.parseHeader buf = .ok true ↔ buf.take 2 = Wire.header t) ∧
    (t.parseHeader buf = .ok false ↔ buf[1]? ≠ (Wire.header t)[1]?) ∧
    (t.parseHeader buf = .err .parseHeader ↔ buf[1]? = (Wire.header t)[1]? ∧ buf[0]? ≠ (Wire.header t)[0]?) := by
  match buf with
  | b0 :: b1 :: b2 :: rest =>
    have hh : Wire.header t = [t.spdmVersion, t.spdmCode] := by cases t <;> rfl
    simp only [MsgType.parseHeader, hh]
    rw [if_neg (by simp)]
    simp only [List.getElem?_cons_zero, List.getElem?_cons_succ, Option.some.injEq, List.take_succ_cons, List.take_zero]
    by_cases h1 : b1 = t.spdmCode
    · rw [if_neg (by simp [h1])]
      by_cases h0 : b0 = t.spdmVersion
      · rw [if_pos h0]; simp [h1, h0]
      · rw [if_neg h0]; simp [h1, h0]
    · rw [if_pos h1]; simp [h1]

/-- The fifteen headers have different codes. -/
theorem header_code_inj (t t' : MsgType) (h : (Wire.header t)[1]? = (Wire.header t')[1]?) : t = t' := by
  revert h; cases t <;> cases t' <;> first | (intro _; rfl) | (intro h; simp [Wire.header] at h)

theorem body_pos {c : Cfg} {x : Ctx} {m : AnyMsg} (_h : MsgWF c x m) : 1 ≤ (Wire.body m).length := by
  cases m <;> simp [Wire.body, Wire.getVersion, Wire.version, Wire.getCapabilities, Wire.capabilities, Wire.negotiateAlgorithms, Wire.algorithms,
    Wire.getDigests, Wire.digests, Wire.getCertificate, Wire.certificate, Wire.challenge, Wire.challengeAuth, Wire.getMeasurements, Wire.measurements, zeros]
  rename_i e
  cases e <;> simp [Wire.error]

theorem res_map_ok {α β : Type} {x : Res α} {a : α} (f : α → β) (h : x = .ok a) : x.map f = .ok (f a) := by subst h; rfl

/-- Every message of `MsgWF` travels: its bytes are header and layout, and its own parser recovers it. -/
theorem any_travels {c : Cfg} {x : Ctx} {m : AnyMsg} (h : MsgWF c x m) :
    Travels m.ty (m.writeBody c) (AnyMsg.parse c x m.ty) (Wire.body m) m := by
  cases m with
  | getVersion => exact travels_of GetVersion.writes fun suf => res_map_ok (fun _ : Unit => AnyMsg.getVersion) (GetVersion.reads.parse suf)
  | version m => exact travels_of (Version.writes h) fun suf => res_map_ok _ (Version.reads h suf)
  | getCapabilities m => exact travels_of (GetCapabilities.writes m) fun suf => res_map_ok _ ((GetCapabilities.reads h).parse suf)
  | capabilities m => exact travels_of (Capabilities.writes m) fun suf => res_map_ok _ ((Capabilities.reads h).parse suf)
  | negotiateAlgorithms m => exact travels_of (NegotiateAlgorithms.writes h.len h.num) fun suf => res_map_ok _ ((NegotiateAlgorithms.reads h).parse suf)
  | algorithms m => exact travels_of (Algorithms.writes h.len h.num) fun suf => res_map_ok _ ((Algorithms.reads h).parse suf)
  | getDigests => exact travels_of GetDigests.writes fun suf => res_map_ok (fun _ : Unit => AnyMsg.getDigests) (GetDigests.reads.parse suf)
  | digests m => exact travels_of (Digests.writes h) fun suf => res_map_ok _ ((Digests.reads h).parse suf)
  | getCertificate m => exact travels_of (GetCertificate.writes m) fun suf => res_map_ok _ ((GetCertificate.reads m).parse suf)
  | certificate m =>
    exact travels_of (Certificate.writes (by rw [h.len]; exact h.portion)) fun suf => res_map_ok _ ((Certificate.reads h).parse suf)
  | challenge m => exact travels_of (Challenge.writes m) fun suf => res_map_ok _ ((Challenge.reads h).parse suf)
  | challengeAuth m => exact travels_of (ChallengeAuth.writes h.1 h.2) fun suf => res_map_ok _ ((ChallengeAuth.reads h.1).parse suf)
  | getMeasurements m => exact travels_of (GetMeasurements.writes h) fun suf => res_map_ok _ ((GetMeasurements.reads h).parse suf)
  | measurements m =>
    obtain ⟨h1, h2, h3⟩ := h
    refine travels_of (Measurements.writes h1) fun suf => res_map_ok _ ?_
    rw [← h3]
    exact (Measurements.reads h1 h2).parse suf
  | error m =>
    refine travels_of (ErrorMsg.writes ?_) fun suf => res_map_ok _ ((ErrorMsg.reads h).parse suf)
    rintro id v rfl
    rw [h.1]; omega

/-- **C06**, second half: a message of any type, written into any buffer, is recognised by its own type and no other. -/
theorem c06_written_message_recognised {c : Cfg} {x : Ctx} {m : AnyMsg} (h : MsgWF c x m) (buf out : Bytes) (n : Nat)
    (hw : m.write c buf = (.ok n, out)) (t : MsgType) :
    (t = m.ty → t.parseHeader (out.take n) = .ok true) ∧ (t ≠ m.ty → t.parseHeader (out.take n) = .ok false) := by
  obtain ⟨t1, t2, _⟩ := any_travels h
  by_cases hl : 2 + (Wire.body m).length ≤ buf.length
  · have := t1 buf hl
    rw [AnyMsg.write, this] at hw
    simp only [Prod.mk.injEq, Res.ok.injEq] at hw
    obtain ⟨rfl, rfl⟩ := hw
    have hhl : (Wire.header m.ty).length = 2 := by cases m.ty <;> rfl
    have htk : (Wire.header m.ty ++ Wire.body m ++ buf.drop (2 + (Wire.body m).length)).take (2 + (Wire.body m).length) = Wire.header m.ty ++ Wire.body m := by
      rw [show 2 + (Wire.body m).length = (Wire.header m.ty ++ Wire.body m).length by simp [hhl], List.take_left]
    rw [htk]
    have hb := body_pos h
    obtain ⟨p1, p2, _⟩ := c06_parse_header t (Wire.header m.ty ++ Wire.body m) (by simp [hhl]; omega)
    refine ⟨fun e => p1.mpr ?_, fun e => p2.mpr fun h1 => e ?_⟩
    · subst e; rw [List.take_append_of_le_length (by omega), List.take_of_length_le (by omega)]
    · rw [List.getElem?_append_left (by omega)] at h1
      exact (header_code_inj _ _ h1).symm
  · obtain ⟨e, he⟩ := t2 buf (by omega)
    rw [AnyMsg.write] at hw
    rw [hw] at he
    simp at he

example : MsgWF demoCfg ⟨32, 64, false⟩ (.challenge ⟨1, .all, [1, 2, 3, 4]⟩) := rfl
example : (AnyMsg.challenge ⟨1, .all, [1, 2, 3, 4]⟩).write demoCfg (zeros 9) = (.ok 8, [0x11, 0x83, 1, 0xFF, 1, 2, 3, 4, 0]) := by decide

/-- **C07** is false: on every two-byte buffer, which the documented precondition allows, every `parse_header` aborts. -/
theorem c07_two_byte_buffer_panics (t : MsgType) (b0 b1 : UInt8) : t.parseHeader [b0, b1] = .panic .assertion := by
  simp [MsgType.parseHeader]

/-- **C07**, the part that holds: from three bytes on a result is returned. -/
theorem c07_no_panic_partial (t : MsgType) (buf : Bytes) (h : 3 ≤ buf.length) : (t.parseHeader buf).isPanic = false := by
  obtain ⟨p1, p2, p3⟩ := c06_parse_header t buf h
  by_cases h1 : buf[1]? = (Wire.header t)[1]?
  · by_cases h0 : buf[0]? = (Wire.header t)[0]?
    · have : buf.take 2 = Wire.header t := by
        match buf with
        | b0 :: b1 :: b2 :: rest =>
          have hh : Wire.header t = [t.spdmVersion, t.spdmCode] := by cases t <;> rfl
          rw [hh] at h0 h1 ⊢
          simp at h0 h1
          simp [h0, h1]
      rw [p1.mpr this]; rfl
    · rw [p3.mpr ⟨h1, h0⟩]; rfl
  · rw [p2.mpr h1]; rfl

/-! ## C08: GET_VERSION, VERSION -/

/-- **C08**: round trips. -/
theorem c08_version_roundtrip :
    Travels .getVersion GetVersion.writeBody GetVersion.parseBody Wire.getVersion () ∧
    ∀ m, VersionWF m → Travels .version m.writeBody Version.parseBody (Wire.version m) m :=
  ⟨travels_of GetVersion.writes GetVersion.reads.parse, fun _ h => travels_of (Version.writes h) (Version.reads h)⟩

/-- **C08**: more entries than the array holds are rejected, whatever else the message contains. -/
theorem c08_too_many_entries (buf : Bytes) (n : UInt8) (h : buf[3]? = some n) (hn : 2 < n.toNat) : ∃ e, Version.parseBody buf = .err e := by
  refine err_of (fun m hm => ?_) (Version.safe.parse buf)
  obtain ⟨bs, rest, rfl, cs, rfl, h2⟩ := Version.inverts.parse hm
  simp only [zeros, List.append_assoc] at h
  rw [List.getElem?_append_right (by simp)] at h
  simp at h
  subst h
  omega

/-- With all reserved bytes zero the error is `TooManyVersionsReceived`. -/
theorem c08_too_many_entries_code (n : UInt8) (suf : Bytes) (hn : 2 < n.toNat) :
    Version.parseBody (zeros 3 ++ [n] ++ suf) = .err .tooManyVersionsReceived := by
  refine Fails.parse (Fails.congr ((Reads.zeros 3).then_fails ((Reads.getByte n).then_fails (cs := []) ?_)) (by simp)) suf
  rw [if_pos (by simpa [maxAllowedVersions] using hn)]
  exact Fails.fail _

example : VersionWF ⟨2, [⟨1, 0, 0, 0⟩, ⟨1, 1, 2, 15⟩]⟩ :=
  ⟨rfl, by decide, by decide, by intro i e h hi; match i with | 0 => simp at hi | 1 => simp at hi | i + 2 => simp at h⟩

/-! ## C09: GET_CAPABILITIES, CAPABILITIES -/

/-- **C09**: round trips. -/
theorem c09_capabilities_roundtrip :
    (∀ m : GetCapabilities, OnlyBits reqFlagBit m.flags.toNat → Travels .getCapabilities m.writeBody GetCapabilities.parseBody (Wire.getCapabilities m) m) ∧
    (∀ m : Capabilities, OnlyBits rspFlagBit m.flags.toNat → Travels .capabilities m.writeBody Capabilities.parseBody (Wire.capabilities m) m) :=
  ⟨fun m h => travels_of (GetCapabilities.writes m) (GetCapabilities.reads h).parse,
    fun m h => travels_of (Capabilities.writes m) (Capabilities.reads h).parse⟩

/-- **C09**: an undefined flag bit is rejected. -/
theorem c09_undefined_flags_rejected (ct : UInt8) (flags : UInt32) (suf : Bytes) :
    (¬ OnlyBits reqFlagBit flags.toNat →
      GetCapabilities.parseBody (zeros 3 ++ [ct] ++ zeros 2 ++ le 4 flags.toNat ++ suf) = .err .invalidBitsSet) ∧
    (¬ OnlyBits rspFlagBit flags.toNat →
      Capabilities.parseBody (zeros 3 ++ [ct] ++ zeros 2 ++ le 4 flags.toNat ++ suf) = .err .invalidBitsSet) := by
  constructor
  · intro h
    refine Fails.parse (Fails.congr ((Reads.zeros 3).then_fails ((Reads.getByte ct).then_fails ((Reads.zeros 2).then_fails ((Reads.le32 flags).then_fails
      (Fails.lift_bind ?_))))) (by simp)) suf
    rw [fromBits32, if_neg (fun hh => h ((reqFlags_iff _).mp hh))]
  · intro h
    refine Fails.parse (Fails.congr ((Reads.zeros 3).then_fails ((Reads.getByte ct).then_fails ((Reads.zeros 2).then_fails ((Reads.le32 flags).then_fails
      (Fails.lift_bind ?_))))) (by simp)) suf
    rw [fromBits32, if_neg (fun hh => h ((rspFlags_iff _).mp hh))]

/-- **C09**: accepted flags contain only defined bits, and are the ones on the wire. -/
theorem c09_accepted_flags_defined (buf : Bytes) :
    (∀ m, GetCapabilities.parseBody buf = .ok m → OnlyBits reqFlagBit m.flags.toNat ∧ (buf.drop 6).take 4 = le 4 m.flags.toNat) ∧
    (∀ m, Capabilities.parseBody buf = .ok m → OnlyBits rspFlagBit m.flags.toNat ∧ (buf.drop 6).take 4 = le 4 m.flags.toNat) := by
  constructor
  · intro m h
    obtain ⟨bs, rest, rfl, rfl, h2⟩ := GetCapabilities.inverts.parse h
    refine ⟨h2, ?_⟩
    simp [Wire.getCapabilities, zeros, List.replicate_succ, Spec.le, List.range_succ]
  · intro m h
    obtain ⟨bs, rest, rfl, rfl, h2⟩ := Capabilities.inverts.parse h
    refine ⟨h2, ?_⟩
    simp [Wire.capabilities, zeros, List.replicate_succ, Spec.le, List.range_succ]

example : OnlyBits reqFlagBit (0x46 : UInt32).toNat := (reqFlags_iff _).mp (by decide)
example : ¬ OnlyBits reqFlagBit (0x1 : UInt32).toNat := fun h => by have := h 0 (by decide); simp [reqFlagBit] at this
example : OnlyBits rspFlagBit (0x1 : UInt32).toNat := (rspFlags_iff _).mp (by decide)

/-! ## C10, C11, C12: NEGOTIATE_ALGORITHMS, ALGORITHMS -/

theorem flatMap_alg_length (l : List AlgorithmRequest) : (l.flatMap Wire.alg).length = 4 * l.length := by
  induction l with
  | nil => rfl
  | cons a l ih => simp only [List.flatMap_cons, List.length_append, ih, List.length_cons]; simp [Wire.alg]; omega

/-- **C10**: round trip, and the length field is the total size including the header. -/
theorem c10_negotiate_algorithms_roundtrip (m : NegotiateAlgorithms) (h : NegotiateWF m) :
    Travels .negotiateAlgorithms m.writeBody NegotiateAlgorithms.parseBody (Wire.negotiateAlgorithms m) m ∧
    ((Wire.negotiateAlgorithms m).drop 2).take 2 = le 2 (2 + (Wire.negotiateAlgorithms m).length) := by
  refine ⟨travels_of (NegotiateAlgorithms.writes h.len h.num) (NegotiateAlgorithms.reads h).parse, ?_⟩
  have hn := h.num
  have hl : (Wire.negotiateAlgorithms m).length = 30 + 4 * m.numAlgorithmRequests.toNat := by
    simp only [Wire.negotiateAlgorithms, List.length_append, flatMap_alg_length, List.length_take, h.len]
    simp [zeros]; omega
  rw [hl, show 2 + (30 + 4 * m.numAlgorithmRequests.toNat) = 32 + 4 * m.numAlgorithmRequests.toNat by omega]
  simp [Wire.negotiateAlgorithms, zeros, Spec.le, List.range_succ]

/-- **C11**: round trip, and the length field is the total size including the header. -/
theorem c11_algorithms_roundtrip (m : Algorithms) (h : AlgorithmsWF m) :
    Travels .algorithms m.writeBody Algorithms.parseBody (Wire.algorithms m) m ∧
    ((Wire.algorithms m).drop 2).take 2 = le 2 (2 + (Wire.algorithms m).length) := by
  refine ⟨travels_of (Algorithms.writes h.len h.num) (Algorithms.reads h).parse, ?_⟩
  have hn := h.num
  have hl : (Wire.algorithms m).length = 34 + 4 * m.numAlgorithmResponses.toNat := by
    simp only [Wire.algorithms, List.length_append, flatMap_alg_length, List.length_take, h.len]
    simp [zeros]; omega
  rw [hl, show 2 + (34 + 4 * m.numAlgorithmResponses.toNat) = 36 + 4 * m.numAlgorithmResponses.toNat by omega]
  simp [Wire.algorithms, zeros, Spec.le, List.range_succ]

/-- **C12**: whatever ALGORITHMS parsing accepts selects exactly one defined algorithm in every field and in each response. -/
theorem c12_parsed_algorithms_single_selection (buf : Bytes) (m : Algorithms) (h : Algorithms.parseBody buf = .ok m) :
    OneBit 1 m.measurementSpecSelected.toNat ∧ OneBit 6 m.measurementHashAlgoSelected.toNat ∧ OneBit 9 m.baseAsymAlgoSelected.toNat ∧
    OneBit 6 m.baseHashAlgoSelected.toNat ∧ m.numAlgorithmResponses.toNat ≤ 4 ∧
    ∀ i, i < m.numAlgorithmResponses.toNat → ∃ a, m.algorithmResponses[i]? = some a ∧ OneBit (algBits a.kind) a.supported.toNat := by
  obtain ⟨bs, rest, _, hP⟩ := Algorithms.inverts.parse h
  have hwf : AlgorithmsWF m := hP.1
  refine ⟨hwf.spec, hwf.mhash, hwf.asym, hwf.hash, hwf.num, fun i hi => ?_⟩
  have hlen := hwf.len
  have hnum := hwf.num
  obtain ⟨a, ha⟩ : ∃ a, m.algorithmResponses[i]? = some a := ⟨m.algorithmResponses[i]'(by omega), by simp⟩
  exact ⟨a, ha, hwf.bits i a ha hi⟩

/-- An offer with two structures. -/
def demoOffer : NegotiateAlgorithms := ⟨1, 0x90, 0x3, 2, [⟨.aead, 6⟩, ⟨.dhe, 0x18⟩, ⟨.dhe, 0⟩, ⟨.dhe, 0⟩]⟩
example : NegotiateWF demoOffer :=
  ⟨rfl, by decide, by intro i a h hi; match i with | 0 => simp [demoOffer] at hi | 1 => simp [demoOffer] at hi | 2 => simp [demoOffer] at h; exact h.symm | 3 => simp [demoOffer] at h; exact h.symm | i + 4 => simp [demoOffer] at h,
    by decide, by decide, by decide, by decide⟩

/-- A selection with one structure. -/
def demoSelection : Algorithms := ⟨1, 1, 0x10, 1, 1, [⟨.aead, 2⟩, ⟨.dhe, 0⟩, ⟨.dhe, 0⟩, ⟨.dhe, 0⟩]⟩
theorem demoSelection_wf : AlgorithmsWF demoSelection :=
  ⟨rfl, by decide, by intro i a h hi; match i with | 0 => simp [demoSelection] at hi | 1 => simp [demoSelection] at h; exact h.symm | 2 => simp [demoSelection] at h; exact h.symm | 3 => simp [demoSelection] at h; exact h.symm | i + 4 => simp [demoSelection] at h,
    by intro i a h hi; match i with | 0 => (simp [demoSelection] at h; subst h; exact ⟨1, by decide, rfl⟩) | i + 1 => simp [demoSelection] at hi,
    ⟨0, by decide, rfl⟩, ⟨0, by decide, rfl⟩, ⟨4, by decide, rfl⟩, ⟨0, by decide, rfl⟩⟩
example : Algorithms.parseBody (Wire.algorithms demoSelection) = .ok demoSelection := by decide +kernel

/-! ## C13: DIGESTS -/

/-- **C13** -/
theorem c13_digests_roundtrip (c : Cfg) (size : Nat) (m : Digests) (h : DigestsWF c size m) :
    Travels .digests (m.writeBody c) (Digests.parseBody c size) (Wire.digests m) m :=
  travels_of (Digests.writes h) (Digests.reads h).parse

example : DigestsWF demoCfg 2 ⟨2, [none, some [7, 8]]⟩ :=
  ⟨by decide, rfl, by
    intro i hi
    match i, hi with
    | 0, _ => simp
    | 1, _ => simp; rfl
    | i + 2, hi =>
      have : ∀ i : Fin 6, Nat.testBit 2 (i.val + 2) = false := by decide
      simp [this ⟨i, by omega⟩], by simp⟩
example : Digests.parseBody demoCfg 2 ([0, 2, 7, 8] ++ [9, 9]) = .ok ⟨2, [none, some [7, 8]]⟩ := by decide +kernel

/-! ## C14: GET_CERTIFICATE, CERTIFICATE -/

/-- **C14**: round trips. -/
theorem c14_certificate_roundtrip :
    (∀ m : GetCertificate, Travels .getCertificate m.writeBody GetCertificate.parseBody (Wire.getCertificate m) m) ∧
    (∀ (c : Cfg) (m : Certificate), CertificateWF c m → Travels .certificate m.writeBody (Certificate.parseBody c) (Wire.certificate m) m) :=
  ⟨fun m => travels_of (GetCertificate.writes m) (GetCertificate.reads m).parse,
    fun c m h => travels_of (Certificate.writes (by rw [h.len]; exact h.portion)) (Certificate.reads h).parse⟩

/-- **C14**: a portion larger than the buffer is rejected before anything is copied. -/
theorem c14_oversized_portion_rejected (c : Cfg) (slot : UInt8) (p : UInt16) (suf : Bytes) (h : c.maxCertChainSize < p.toNat) :
    Certificate.parseBody c ([slot, 0] ++ le 2 p.toNat ++ suf) = .err .certTooLarge := by
  refine Fails.parse (Fails.congr ((Reads.getByte slot).then_fails ((Reads.zeros 1).then_fails ((Reads.le16 p).then_fails (cs := []) ?_))) (by simp [zeros])) suf
  rw [if_pos h]
  exact Fails.fail _

/-- **C14**: an accepted CERTIFICATE fits its buffer, and no byte string makes the parser panic. -/
theorem c14_certificate_bounded (c : Cfg) (buf : Bytes) :
    (Certificate.parseBody c buf).isPanic = false ∧
    ∀ m, Certificate.parseBody c buf = .ok m → m.portionLength.toNat ≤ c.maxCertChainSize ∧ m.certChain.length = c.maxCertChainSize := by
  refine ⟨(Certificate.safe c).parse buf, fun m h => ?_⟩
  obtain ⟨bs, rest, rfl, _, h2⟩ := (Certificate.inverts c).parse h
  exact ⟨h2.portion, h2.len⟩

example : CertificateWF demoCfg ⟨1, 3, 0, [1, 2, 3] ++ zeros 61⟩ := ⟨rfl, by decide, by decide⟩

/-! ## C15, C16: certificate chains -/

/-- **C15**: a chain is written as its layout (failing in a smaller buffer), whose first two bytes are its total length, and is parsed
back from exactly those bytes. -/
theorem c15_chain_roundtrip (c : Cfg) (ds : Nat) (ch : CertificateChain) (h : ChainWF c ds ch) :
    (∀ buf : Bytes, (Wire.chain ch).length ≤ buf.length →
      (ch.write (Writer.new buf)).1 = .ok (Wire.chain ch).length ∧
      (ch.write (Writer.new buf)).2.buf = Wire.chain ch ++ buf.drop (Wire.chain ch).length) ∧
    (∀ buf : Bytes, buf.length < (Wire.chain ch).length → ∃ e, (ch.write (Writer.new buf)).1 = .err e) ∧
    CertificateChain.parse c (Wire.chain ch) ds = .ok ch ∧
    (Wire.chain ch).take 2 = le 2 (Wire.chain ch).length := by
  have hl : (Wire.chain ch).length = 4 + (ch.rootHash ++ ch.intermediateCerts.flatten ++ ch.leafCert).length := by
    rw [Wire.chain]; simp [zeros]; omega
  have hw := CertificateChain.writes (ch := ch) (by rw [hl]; exact h.size)
  refine ⟨fun buf hb => ?_, fun buf hb => ?_, CertificateChain.parse_chain h, ?_⟩
  · have := (hw (Writer.new buf) (by simp [Writer.WF, Writer.new])).1 (by simp [Writer.room, Writer.new]; omega)
    rw [this]
    simp [Writer.new, Writer.app]
  · obtain ⟨e, n, _, _, h3⟩ := (hw (Writer.new buf) (by simp [Writer.WF, Writer.new])).2 (by simp [Writer.room, Writer.new]; omega)
    exact ⟨e, by rw [h3]⟩
  · rw [hl]
    simp [Wire.chain, Spec.le, List.range_succ]

/-- **C15**: a chain of more than 65535 bytes is refused. -/
theorem c15_oversized_chain_refused (ch : CertificateChain) (buf : Bytes)
    (h : 65535 < 4 + (ch.rootHash ++ ch.intermediateCerts.flatten ++ ch.leafCert).length) :
    ch.write (Writer.new buf) = (.err .maxSizeExceeded, Writer.new buf) := by
  unfold CertificateChain.write
  rw [if_pos (by rw [CertificateChain.wireLength_eq]; exact h)]
  rfl

/-- **C16**: chain parsing accepts exactly the layouts of well-formed chains: the buffer is the four-byte header (with the buffer's
length), the root hash, the intermediates (at most MAX_CERT_CHAIN_DEPTH) and the leaf, all certificates minimally encoded DER sequences. -/
theorem c16_chain_parse_lossless (c : Cfg) (ds : Nat) (buf : Bytes) (ch : CertificateChain) :
    CertificateChain.parse c buf ds = .ok ch ↔ ChainWF c ds ch ∧ buf = Wire.chain ch := by
  constructor
  · exact CertificateChain.parse_inv
  · rintro ⟨h, rfl⟩
    exact CertificateChain.parse_chain h

/-- A chain with one intermediate certificate. -/
def demoChain : CertificateChain := ⟨[9, 9], [[0x30, 1, 5]], [0x30, 2, 6, 7]⟩
theorem demoChain_wf : ChainWF demoCfg 2 demoChain :=
  ⟨rfl, by decide, by intro x hx; simp [demoChain] at hx; subst hx; exact ⟨[5], by decide, by decide⟩, ⟨[6, 7], by decide, by decide⟩, by decide⟩
example : CertificateChain.parse demoCfg [13, 0, 0, 0, 9, 9, 0x30, 1, 5, 0x30, 2, 6, 7] 2 = .ok demoChain := by decide +kernel

/-! ## C17: CHALLENGE -/

/-- **C17**: round trip. -/
theorem c17_challenge_roundtrip (c : Cfg) (m : Challenge) (h : m.nonce.length = c.nonceSize) :
    Travels .challenge m.writeBody (Challenge.parseBody c) (Wire.challenge m) m :=
  travels_of (Challenge.writes m) (Challenge.reads h).parse

/-- **C17**: an undefined measurement hash type is rejected. -/
theorem c17_undefined_type_rejected (c : Cfg) (slot b : UInt8) (suf : Bytes) (h : ∀ t, Wire.hashType t ≠ b) :
    Challenge.parseBody c ([slot, b] ++ suf) = .err .invalidMeasurementHashType := by
  refine Fails.parse (Fails.congr ((Reads.getByte slot).then_fails ((Reads.getByte b).then_fails (Fails.lift_bind ?_))) (by simp)) suf
  have h0 := h .none; have h1 := h .tcb; have h2 := h .all
  simp only [Wire.hashType] at h0 h1 h2
  rw [MeasurementHashType.tryFrom, if_neg (Ne.symm h0), if_neg (Ne.symm h1), if_neg (Ne.symm h2)]

example : ∀ t, Wire.hashType t ≠ 2 := by intro t; cases t <;> decide

/-! ## C18, C19: CHALLENGE_AUTH, opaque data -/

/-- **C18** holds when mutual authentication is not requested. -/
theorem c18_challenge_auth_roundtrip_partial (c : Cfg) (ds ss : Nat) (m : ChallengeAuth) (h : ChallengeAuthWF c ds ss m)
    (hm : m.useMutualAuth = false) :
    Travels .challengeAuth (m.writeBody c) (fun b => ChallengeAuth.parseBody c b ds ss) (Wire.challengeAuth m) m :=
  travels_of (ChallengeAuth.writes h hm) (ChallengeAuth.reads h).parse

/-- The reader, on the other hand, does decode the documented layout with the flag set. -/
theorem c18_reader_inverts_layout (c : Cfg) (ds ss : Nat) (m : ChallengeAuth) (h : ChallengeAuthWF c ds ss m) (suf : Bytes) :
    ChallengeAuth.parseBody c (Wire.challengeAuth m ++ suf) ds ss = .ok m := (ChallengeAuth.reads h).parse suf

theorem mask_slot (s : UInt8) (h : s.toNat < 8) : s &&& ((1 : UInt8) <<< 7) = 0 := by
  have : ∀ i : Fin 8, (UInt8.ofNat i.val) &&& ((1 : UInt8) <<< 7) = 0 := by decide
  have h2 := this ⟨s.toNat, h⟩
  simpa using h2

/-- **C18** is false: every message that requests mutual authentication is written exactly as the message with slot 0 and no such request, and
so comes back as that one: both the flag and the slot number are lost. -/
theorem c18_mutual_auth_lost (c : Cfg) (ds ss : Nat) (m : ChallengeAuth) (h : ChallengeAuthWF c ds ss m) (hm : m.useMutualAuth = true) :
    Travels .challengeAuth (m.writeBody c) (fun b => ChallengeAuth.parseBody c b ds ss)
      (Wire.challengeAuth { m with slot := 0, useMutualAuth := false }) { m with slot := 0, useMutualAuth := false } := by
  have hs := h.slot
  have h8 := h.slots
  have hwf : ChallengeAuthWF c ds ss { m with slot := 0, useMutualAuth := false } :=
    ⟨h.slots, by simp; omega, h.cch, h.nonce, h.msh, h.opq, h.opqLen, h.sig⟩
  refine travels_of (Writes.congr (ChallengeAuth.writes' h) ?_) (ChallengeAuth.reads hwf).parse
  simp [slotByte, hm, Wire.challengeAuth, mask_slot m.slot (by omega)]

/-- The default opaque data of the demo configuration. -/
def demoOpaque : OpaqueData := ⟨1, [⟨.tcg, .u16 0x1234, 3, [1, 2, 3, 0, 0, 0, 0, 0]⟩, ⟨.dmtf, .empty, 0, zeros 8⟩]⟩
theorem demoOpaque_wf : OpaqueDataWF demoCfg demoOpaque :=
  ⟨rfl, by decide, by intro e he; simp [demoOpaque] at he; rcases he with rfl | rfl <;> exact ⟨rfl, rfl, by decide, by decide⟩,
    by intro i e h hi; match i with | 0 => simp [demoOpaque] at hi | 1 => (simp [demoOpaque] at h; exact h.symm) | i + 2 => simp [demoOpaque] at h⟩
/-- A CHALLENGE_AUTH for slot 1 requesting mutual authentication. -/
def demoAuth (f : Bool) : ChallengeAuth := ⟨1, 3, f, [1, 2], [1, 2, 3, 4], [5, 6], demoOpaque, [7, 8, 9]⟩
theorem demoAuth_wf (f : Bool) : ChallengeAuthWF demoCfg 2 3 (demoAuth f) :=
  ⟨by decide, by simp [demoAuth, demoCfg], rfl, rfl, rfl, demoOpaque_wf, by simp only [demoAuth]; decide, rfl⟩

/-- **C19**: opaque data is written as its layout, its announced size is the number of bytes written, and it parses back. -/
theorem c19_opaque_roundtrip (c : Cfg) (d : OpaqueData) (h : OpaqueDataWF c d) :
    (∀ buf : Bytes, (Wire.opaqueData d).length ≤ buf.length →
      (d.write (Writer.new buf)).1 = .ok (Wire.opaqueData d).length ∧
      (d.write (Writer.new buf)).2.buf = Wire.opaqueData d ++ buf.drop (Wire.opaqueData d).length) ∧
    d.serializedSize = .ok (Wire.opaqueData d).length ∧
    ∀ suf, (OpaqueData.read c (Reader.new (Wire.opaqueData d ++ suf))).1 = .ok d := by
  refine ⟨fun buf hb => ?_, OpaqueData.serializedSize_eq h, fun suf => (OpaqueData.reads h).parse suf⟩
  have := (OpaqueData.writes h (Writer.new buf) (by simp [Writer.WF, Writer.new])).1 (by simp [Writer.room, Writer.new]; omega)
  rw [this]
  simp [Writer.new, Writer.app]

example : Wire.opaqueData demoOpaque = [1, 0, 0, 0, 1, 2, 0x34, 0x12, 3, 0, 1, 2, 3, 0, 0, 0] := by decide

/-! ## C20: ERROR -/

/-- **C20** holds for every error without vendor opaque data. -/
theorem c20_error_roundtrip_partial (m : ErrorMsg) (h : ErrorWF m) : Travels .error m.writeBody ErrorMsg.parseBody (Wire.error m) m :=
  travels_of (ErrorMsg.writes (by rintro id v rfl; rw [h.1]; omega)) (ErrorMsg.reads h).parse

/-- **C20** is false: the opaque data of a vendor-defined error is written after the vendor id but comes back empty. -/
theorem c20_vendor_opaque_lost (id : VendorRegistryId) (v : VendorDefined) (h : v.opaqueLen ≤ v.opaqueErrorData.length) :
    Travels .error (ErrorMsg.vendorDefined id v).writeBody ErrorMsg.parseBody (Wire.error (.vendorDefined id v))
      (.vendorDefined id { vendorId := v.vendorId, opaqueLen := 0, opaqueErrorData := zeros 32 }) := by
  refine travels_of (ErrorMsg.writes (by rintro id' v' he; cases he; exact h)) fun suf => ?_
  have := (ErrorMsg.reads (m := .vendorDefined id { vendorId := v.vendorId, opaqueLen := 0, opaqueErrorData := zeros 32 }) ⟨rfl, rfl⟩).parse
    (v.opaqueErrorData.take v.opaqueLen ++ suf)
  simpa [Wire.error, ErrorMsg.parseBody] using this

example : ErrorWF (.responseTooLarge 77) := trivial
example : (ErrorMsg.vendorDefined .tcg ⟨.u16 7, 1, 5 :: zeros 31⟩) ≠ .vendorDefined .tcg ⟨.u16 7, 0, zeros 32⟩ := by decide

/-! ## C21: GET_MEASUREMENTS -/

/-- The slot number is only transmitted when a signature is requested. -/
def Spec.transmitted (m : GetMeasurements) : GetMeasurements :=
  { m with slotId := if m.attributes.signatureRequested then m.slotId else 0 }

/-- **C21**: a message built by `GetMeasurements::new` from a valid index and a nonce of the configured size comes back with its attributes, index, nonce
and the slot it transmits. -/
theorem c21_get_measurements_roundtrip (c : Cfg) (hc : 0 < c.numSlots) (attributes : RequestAttributes) (index : MeasurementIndex) (slot : UInt8)
    (nonce : Bytes) (hn : nonce.length = c.nonceSize) (hi : IndexWF index) (m : GetMeasurements)
    (h : GetMeasurements.new c attributes index slot nonce = .ok m) :
    Travels .getMeasurements m.writeBody (GetMeasurements.parseBody c) (Wire.getMeasurements m) (Spec.transmitted m) := by
  unfold GetMeasurements.new at h
  split at h
  · rename_i hs
    simp only [Res.ok.injEq] at h
    subst h
    have hwf : GetMeasurementsWF c (Spec.transmitted ⟨attributes, index, if attributes.signatureRequested then some nonce else none, slot⟩) := by
      refine ⟨hi, ?_, ?_, ?_⟩
      · simp only [Spec.transmitted]; split <;> simp [hs, hc]
      · intro h1; simp only [Spec.transmitted] at h1 ⊢; exact ⟨nonce, by simp [h1], hn⟩
      · intro h1; simp only [Spec.transmitted] at h1 ⊢; simp [h1]
    have hwire : Wire.getMeasurements (Spec.transmitted ⟨attributes, index, if attributes.signatureRequested then some nonce else none, slot⟩) =
        Wire.getMeasurements ⟨attributes, index, if attributes.signatureRequested then some nonce else none, slot⟩ := by
      simp only [Wire.getMeasurements, Spec.transmitted]
      cases attributes.signatureRequested <;> simp
    have hbody : (Spec.transmitted ⟨attributes, index, if attributes.signatureRequested then some nonce else none, slot⟩).writeBody =
        (⟨attributes, index, if attributes.signatureRequested then some nonce else none, slot⟩ : GetMeasurements).writeBody := by
      simp only [GetMeasurements.writeBody, Spec.transmitted]
      cases attributes.signatureRequested <;> simp
    have := travels_of (t := .getMeasurements) (parse := GetMeasurements.parseBody c) (GetMeasurements.writes hwf) (GetMeasurements.reads hwf).parse
    rw [hwire, hbody] at this
    exact this
  · simp at h

example : GetMeasurements.new demoCfg ⟨true, false⟩ (.implementationDefined 9) 1 [1, 2, 3, 4] =
    .ok ⟨⟨true, false⟩, .implementationDefined 9, some [1, 2, 3, 4], 1⟩ := by decide

/-! ## C22: MEASUREMENTS -/

/-- **C22** holds for messages whose blocks, headers included, fit in MAX_MEASUREMENT_SIZE * MAX_MEASUREMENT_BLOCKS, with at most 1024 bytes of opaque data,
and slot 0 if unsigned. -/
theorem c22_measurements_roundtrip_partial (c : Cfg) (ss : Nat) (m : Measurements) (h : MeasurementsWF c ss m) (hr : MeasurementsReadable c m) :
    Travels .measurements m.writeBody (fun b => Measurements.parseBody c b m.signature.isSome ss) (Wire.measurements m) m :=
  travels_of (Measurements.writes h) (Measurements.reads h hr).parse

/-- A block holding a raw bit stream of the maximal size. -/
def demoBlock : MeasurementBlock := ⟨1, 1, ⟨.rawBitStream, .hardwareConfig, .bitStream [1, 2, 3, 4, 5, 6, 7, 8]⟩⟩
/-- A signed message with `n` blocks of one byte (0) or of maximal size. -/
def demoMeasurements (b : MeasurementBlock) (sig : Option Bytes) : Measurements :=
  ⟨2, .true, 1, ⟨2, [some b, some b]⟩, [1, 2, 3, 4], demoOpaque, sig⟩
theorem demoMeasurements_wf (b : MeasurementBlock) (hb : BlockWF demoCfg b) (sig : Option Bytes) (hs : ∀ s, sig = some s → s.length = 3) :
    MeasurementsWF demoCfg 3 (demoMeasurements b sig) :=
  ⟨by simp [demoMeasurements, demoCfg], by decide, by simp [demoMeasurements, demoCfg], ⟨rfl, by simp [demoMeasurements], by simp [demoMeasurements, demoCfg], by
      intro i hi
      match i with
      | 0 => exact ⟨b, rfl, hb⟩
      | 1 => exact ⟨b, rfl, hb⟩
      | i + 2 => simp [demoMeasurements] at hi, by
      intro i o h hi
      match i with
      | 0 => simp [demoMeasurements] at hi
      | 1 => simp [demoMeasurements] at hi
      | i + 2 => simp [demoMeasurements] at h⟩, rfl, demoOpaque_wf, by simp only [demoMeasurements]; decide, hs⟩

/-- A signed message satisfying the hypotheses of the partial theorem. -/
example : MeasurementsWF demoCfg 3 (demoMeasurements ⟨1, 1, ⟨.rawBitStream, .hardwareConfig, .bitStream [1]⟩⟩ (some [7, 8, 9])) ∧
    MeasurementsReadable demoCfg (demoMeasurements ⟨1, 1, ⟨.rawBitStream, .hardwareConfig, .bitStream [1]⟩⟩ (some [7, 8, 9])) :=
  ⟨demoMeasurements_wf _ ⟨rfl, by decide⟩ _ (by intro s h; cases h; rfl), ⟨by decide, by decide, by decide, by intro h; simp [demoMeasurements] at h⟩⟩

/-- **C22** is false (1): the largest permitted blocks are written but rejected by the reader, because the limit is compared with a size that includes the seven
header bytes of each block. -/
theorem c22_maximal_blocks_rejected :
    MeasurementsWF demoCfg 3 (demoMeasurements demoBlock (some [7, 8, 9])) ∧
    Measurements.parseBody demoCfg (Wire.measurements (demoMeasurements demoBlock (some [7, 8, 9]))) true 3 = .err .blocksMaxSizeExceeded := by
  refine ⟨demoMeasurements_wf _ ⟨rfl, by simp [demoBlock, demoCfg]⟩ _ (by intro s h; cases h; rfl), by decide +kernel⟩

/-- **C22** is false (2): without a signature the slot number is not transmitted. -/
theorem c22_unsigned_slot_lost (c : Cfg) (ss : Nat) (m : Measurements) (h : MeasurementsWF c ss m)
    (hr : MeasurementsReadable c { m with slotId := 0 }) (hs : m.signature = none) :
    Travels .measurements m.writeBody (fun b => Measurements.parseBody c b false ss) (Wire.measurements m) { m with slotId := 0 } := by
  have hslots := h.slot
  have hwf : MeasurementsWF c ss { m with slotId := 0 } :=
    ⟨h.total, h.slots, by simp; omega, h.blocks, h.nonce, h.opq, h.opqMax, h.sig⟩
  refine travels_of (Measurements.writes h) fun suf => ?_
  have e : Wire.measurements m = Wire.measurements { m with slotId := 0 } := by simp [Wire.measurements, hs]
  have := (Measurements.reads hwf hr).parse suf
  rw [e]
  rw [show m.signature.isSome = false by rw [hs]; rfl] at this
  exact this

end Spdm

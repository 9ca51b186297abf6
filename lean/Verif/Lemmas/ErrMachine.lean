import Verif.Lemmas.Errors
/-!
# The machines with the callers' errors do what the flat ones do
-/
namespace Spdm
open Spec

/-! ## The errors of the parsers, exactly -/

/-- One step of a bound on the errors of a parser: a `ReadError` or one of a list. -/
macro "errs_step" : tactic => `(tactic| first
  | with_reducible refine ErrIn.bind ?_ (fun _ => ?_)
  | with_reducible refine ErrIn.ite ?_ ?_
  | with_reducible exact ErrIn.pure _
  | with_reducible exact ErrIn.die _
  | with_reducible exact ErrIn.get
  | ((with_reducible refine ErrIn.fail ?_); simp)
  | with_reducible exact ErrIn.mono getByte_errs (fun _ h => Or.inl h)
  | with_reducible exact ErrIn.mono getU16_errs (fun _ h => Or.inl h)
  | with_reducible exact ErrIn.mono getU32_errs (fun _ h => Or.inl h)
  | with_reducible exact ErrIn.mono (getBits_errs _) (fun _ h => Or.inl h)
  | with_reducible exact ErrIn.mono (skipReserved_errs _) (fun _ h => Or.inl h)
  | with_reducible exact ErrIn.mono (skipIgnored_errs _) (fun _ h => Or.inl h)
  | with_reducible exact ErrIn.mono (getSlice_errs _ _) (fun _ h => Or.inl h)
  | with_reducible exact ErrIn.lift (RErrIn.setIndex _ _ _)
  | with_reducible exact ErrIn.lift (RErrIn.sliceFrom _ _)
  | with_reducible exact ErrIn.lift (RErrIn.sliceTo _ _))

theorem RErrIn.bits8 {S : Err → Prop} {mask v : UInt8} {e : Err} (h : S e) : RErrIn S (fromBits8 mask v e) := by unfold fromBits8; exact .ite (.ok _) (.err h)
theorem RErrIn.bits16 {S : Err → Prop} {mask v : UInt16} {e : Err} (h : S e) : RErrIn S (fromBits16 mask v e) := by unfold fromBits16; exact .ite (.ok _) (.err h)
theorem RErrIn.bits32 {S : Err → Prop} {mask v : UInt32} {e : Err} (h : S e) : RErrIn S (fromBits32 mask v e) := by unfold fromBits32; exact .ite (.ok _) (.err h)

theorem Capabilities.parseBody_errs (b : Bytes) : RErrIn (fun e => IsRead e ∨ e = .invalidBitsSet) (Capabilities.parseBody b) := by
  have : ErrIn (fun e => IsRead e ∨ e = .invalidBitsSet) Capabilities.read := by
    unfold Capabilities.read
    repeat' first | errs_step | exact .lift (.bits32 (.inr rfl))
  exact fun e h => this _ e h

theorem GetCapabilities.parseBody_errs (b : Bytes) : RErrIn (fun e => IsRead e ∨ e = .invalidBitsSet) (GetCapabilities.parseBody b) := by
  have : ErrIn (fun e => IsRead e ∨ e = .invalidBitsSet) GetCapabilities.read := by
    unfold GetCapabilities.read
    repeat' first | errs_step | exact .lift (.bits32 (.inr rfl))
  exact fun e h => this _ e h

theorem GetVersion.parseBody_errs (b : Bytes) : RErrIn IsRead (GetVersion.parseBody b) := fun e h => skipReserved_errs 2 _ e h

theorem Version.parseBody_errs (b : Bytes) : RErrIn VersionErr (Version.parseBody b) := fun e h => Version.read_errs _ e h

theorem Digests.parseBody_errs (c : Cfg) (n : Nat) (b : Bytes) : RErrIn IsRead (Digests.parseBody c n b) := by
  have hl : ∀ n' bits ds, ErrIn (fun e => IsRead e ∨ False) (Digests.readLoop c n n' bits ds) := by
    intro n'
    induction n' with
    | zero => intro _ _; exact .pure _
    | succ n' ih =>
      intro bits ds
      unfold Digests.readLoop
      repeat' first | errs_step | exact ih _ _
  have : ErrIn (fun e => IsRead e ∨ False) (Digests.read c n) := by
    unfold Digests.read
    repeat' first | errs_step | exact hl _ _ _
  exact fun e h => (this _ e h).elim id False.elim

theorem Certificate.parseBody_errs (c : Cfg) (b : Bytes) : RErrIn (fun e => IsRead e ∨ e = .certTooLarge) (Certificate.parseBody c b) := by
  have : ErrIn (fun e => IsRead e ∨ e = .certTooLarge) (Certificate.read c) := by
    unfold Certificate.read
    repeat' errs_step
  exact fun e h => this _ e h

theorem GetCertificate.parseBody_errs (b : Bytes) : RErrIn IsRead (GetCertificate.parseBody b) := by
  have : ErrIn (fun e => IsRead e ∨ False) GetCertificate.read := by
    unfold GetCertificate.read
    repeat' errs_step
  exact fun e h => (this _ e h).elim id False.elim

theorem Challenge.parseBody_errs (c : Cfg) (b : Bytes) : RErrIn (fun e => IsRead e ∨ e = .invalidMeasurementHashType) (Challenge.parseBody c b) := by
  have : ErrIn (fun e => IsRead e ∨ e = .invalidMeasurementHashType) (Challenge.read c) := by
    unfold Challenge.read Nonce.read
    repeat' first
      | errs_step
      | exact .lift (by unfold MeasurementHashType.tryFrom; exact .ite (.ok _) (.ite (.ok _) (.ite (.ok _) (.err (.inr rfl)))))
  exact fun e h => this _ e h

theorem CertificateChain.parse_errs (c : Cfg) (b : Bytes) (n : Nat) :
    RErrIn (fun e => IsRead e ∨ e = .badDerEncoding ∨ e = .lengthMismatch ∨ e = .maxDepthExceeded) (CertificateChain.parse c b n) := by
  have hs : ∀ i j, RErrIn (fun e => IsRead e ∨ e = .badDerEncoding ∨ e = .lengthMismatch ∨ e = .maxDepthExceeded) (CertificateChain.slice b i j) := fun i j => by
    unfold CertificateChain.slice; exact .ite (.ok _) (.panic _)
  have hr : ErrIn (fun e => IsRead e ∨ e = .badDerEncoding ∨ e = .lengthMismatch ∨ e = .maxDepthExceeded) CertificateChain.readCertSize := by
    unfold CertificateChain.readCertSize
    repeat' errs_step
  have hl : ∀ n certs, ErrIn (fun e => IsRead e ∨ e = .badDerEncoding ∨ e = .lengthMismatch ∨ e = .maxDepthExceeded) (CertificateChain.parseLoop c b n certs) := by
    intro n
    induction n with
    | zero => intro _; exact .die _
    | succ n ih =>
      intro certs
      unfold CertificateChain.parseLoop
      repeat' first | errs_step | exact hr | exact .lift (hs _ _) | exact ih _
  have : ErrIn (fun e => IsRead e ∨ e = .badDerEncoding ∨ e = .lengthMismatch ∨ e = .maxDepthExceeded) (CertificateChain.read c b n) := by
    unfold CertificateChain.read
    repeat' first | errs_step | exact .lift (hs _ _) | exact hl _ _
  exact fun e h => this _ e h

/-- The errors of NEGOTIATE_ALGORITHMS. -/
abbrev NegotiateErr (e : Err) : Prop :=
  IsRead e ∨ (∃ x, e = .algorithmRequestRead x) ∨ e = .incorrectFixedAlgCount ∨ e = .invalidFixedAlgorithm ∨ e = .invalidAlgorithmType ∨ e = .tooLarge ∨
    e = .maxAlgorithmRequestsExceeded ∨ e = .invalidMeasurementSpec ∨ e = .invalidBaseAsymAlgo ∨ e = .invalidBaseHashAlgo

theorem AlgorithmRequest.read_errs_exact :
    ErrIn (fun e => IsRead e ∨ e = .incorrectFixedAlgCount ∨ e = .invalidFixedAlgorithm ∨ e = .invalidAlgorithmType) AlgorithmRequest.read := by
  unfold AlgorithmRequest.read
  refine ErrIn.bind (by errs_step) fun ty => ?_
  cases AlgKind.ofType ty with
  | none => exact .fail (by simp)
  | some k => repeat' first | errs_step | exact .lift (.bits16 (.inr (.inr (.inl rfl))))

theorem NegotiateAlgorithms.parseBody_errs (b : Bytes) : RErrIn NegotiateErr (NegotiateAlgorithms.parseBody b) := by
  have hl : ∀ n i rs, ErrIn NegotiateErr (NegotiateAlgorithms.readRequests n i rs) := by
    intro n
    induction n with
    | zero => intro _ _; exact .pure _
    | succ n ih =>
      intro i rs
      unfold NegotiateAlgorithms.readRequests
      refine ErrIn.bind (.mapErr AlgorithmRequest.read_errs_exact ?_) fun a => (ErrIn.lift (.setIndex _ _ _)).bind fun _ => ih _ _
      rintro e (⟨x, rfl⟩ | rfl | rfl | rfl)
      · exact .inr (.inl ⟨x, rfl⟩)
      · exact .inr (.inr (.inl rfl))
      · exact .inr (.inr (.inr (.inl rfl)))
      · exact .inr (.inr (.inr (.inr (.inl rfl))))
  have : ErrIn NegotiateErr NegotiateAlgorithms.read := by
    unfold NegotiateAlgorithms.read
    repeat' first
      | errs_step
      | exact hl _ _ _
      | exact .lift (.bits8 (by simp [NegotiateErr]))
      | exact .lift (.bits32 (by simp [NegotiateErr]))
      | exact .fail (by simp [NegotiateErr])
  exact fun e h => this _ e h

/-- The errors of writing CHALLENGE_AUTH. -/
def AuthWriteErr (e : Err) : Prop :=
  e = .bufferFull ∨ e = .maxSlotNumberExceeded ∨ e = .maxOpaqueDataSizeExceeded ∨ e = .opaqueFull ∨ e = .opaqueInvalidVendorIdLength

theorem OpaqueData.serializedSize_errs {S : Err → Prop} (d : OpaqueData) : RErrIn S d.serializedSize := by
  unfold OpaqueData.serializedSize
  exact .bind (.sliceTo _ _) fun _ => .ok _

theorem OpaqueElement.write_errs (e : OpaqueElement) : ErrIn (fun e => e = .bufferFull ∨ e = .opaqueInvalidVendorIdLength) e.write := by
  have l : ∀ {α : Type} {p : W α}, ErrIn Full p → ErrIn (fun e => e = .bufferFull ∨ e = .opaqueInvalidVendorIdLength) p := fun h => h.mono fun _ h => .inl h
  unfold OpaqueElement.write
  refine (l (put_errs _)).bind fun _ => ErrIn.bind ?_ fun _ => ErrIn.bind (.lift ?_) fun _ => ?_
  · refine l ?_
    unfold VendorId.write
    split
    · exact (put_errs _).bind fun _ => .pure _
    · exact (put_errs _).bind fun _ => (putAll_errs _).bind fun _ => .pure _
    · exact (put_errs _).bind fun _ => (putAll_errs _).bind fun _ => .pure _
  · unfold OpaqueElement.ensureVendorIdLen
    exact .ite (.ok _) (.err (.inr rfl))
  · exact l ((putAll_errs _).bind fun _ => (ErrIn.lift (.sliceTo _ _)).bind fun _ => (wextend_errs _).bind fun _ => putAll_errs _)

theorem OpaqueData.write_errs (d : OpaqueData) : ErrIn (fun e => e = .opaqueFull ∨ e = .opaqueInvalidVendorIdLength) d.write := by
  have l : ∀ {α : Type} {p : W α}, ErrIn Full p → ErrIn (fun e => e = .bufferFull ∨ e = .opaqueInvalidVendorIdLength) p := fun h => h.mono fun _ h => .inl h
  have hl : ∀ es, ErrIn (fun e => e = .bufferFull ∨ e = .opaqueInvalidVendorIdLength) (OpaqueData.writeElements es) := by
    intro es
    induction es with
    | nil => exact offsetM_errs
    | cons x xs ih => exact (OpaqueElement.write_errs x).bind fun _ => ih
  unfold OpaqueData.write
  refine ErrIn.mapErr (S := fun e => e = .bufferFull ∨ e = .opaqueInvalidVendorIdLength) ?_ ?_
  · exact (l (put_errs _)).bind fun _ => (l (putAll_errs _)).bind fun _ => (ErrIn.lift (.sliceTo _ _)).bind fun _ => hl _
  · rintro e (rfl | rfl)
    · exact .inl rfl
    · exact .inr rfl

theorem ChallengeAuth.writeBody_errs (c : Cfg) (m : ChallengeAuth) : ErrIn AuthWriteErr (m.writeBody c) := by
  have l : ∀ {α : Type} {p : W α}, ErrIn Full p → ErrIn AuthWriteErr p := fun h => h.mono fun _ h => .inl h
  unfold ChallengeAuth.writeBody
  refine ErrIn.bind (.lift ?_) fun _ => (l (put_errs _)).bind fun _ => (l (put_errs _)).bind fun _ => ?_
  · unfold ChallengeAuth.validate
    refine .ite (.err (by simp [AuthWriteErr])) (.bind (OpaqueData.serializedSize_errs _) fun _ => .ite (.err (by simp [AuthWriteErr])) (.ok _))
  refine (l (wextend_errs _)).bind fun _ => (l (wextend_errs _)).bind fun _ => (l (wextend_errs _)).bind fun _ => ?_
  refine (ErrIn.lift (OpaqueData.serializedSize_errs _)).bind fun _ => (l (putAll_errs _)).bind fun _ => ?_
  refine ErrIn.bind ((OpaqueData.write_errs _).mono fun e h => ?_) fun _ => (l (wextend_errs _)).bind fun _ => offsetM_errs
  rcases h with rfl | rfl <;> simp [AuthWriteErr]

/-! ## Other calls -/

theorem parseFlags_errs {S : Err → Prop} {f : String → Res UInt32} (hf : ∀ s, RErrIn S (f s)) (l : List String) (acc : UInt32) : RErrIn S (Responder.parseFlags f l acc) := by
  induction l generalizing acc with
  | nil => exact .ok _
  | cons s l ih => exact .bind (hf s) fun _ => ih _

theorem ReqFlags.fromStr_errs (s : String) : RErrIn (fun e => e = .parseName) (ReqFlags.fromStr s) := by
  unfold ReqFlags.fromStr
  split <;> first | exact .ok _ | exact .err rfl
theorem RspFlags.fromStr_errs (s : String) : RErrIn (fun e => e = .parseName) (RspFlags.fromStr s) := by
  unfold RspFlags.fromStr
  split <;> first | exact .ok _ | exact .err rfl
theorem BaseAsymAlgo.fromStr_errs (s : String) : RErrIn (fun e => e = .parseName) (BaseAsymAlgo.fromStr s) := by
  unfold BaseAsymAlgo.fromStr
  split <;> first | exact .ok _ | exact .err rfl

theorem findMax_errs {S : Err → Prop} (v : Version) : RErrIn S (Requester.findMaxMatchingVersion v) := by
  have hl : ∀ n i f, RErrIn S (Requester.findMaxLoop v.entries (Version.default.entries.take Version.default.numEntries.toNat) n i f) := by
    intro n
    induction n with
    | zero => intro i f; exact .ok _
    | succ n ih => intro i f; exact .bind (.index _ _) fun _ => ih _ _
  unfold Requester.findMaxMatchingVersion
  exact .bind (hl _ _ _) fun _ => .ok _

theorem unwrap_errs {S : Err → Prop} {α : Type} (o : Option α) : RErrIn S (Requester.unwrap o) := by
  cases o with
  | none => exact .panic _
  | some a => exact .ok _

theorem subChecked_errs {S : Err → Prop} (a b : Nat) : RErrIn S (Responder.subChecked a b) := by unfold Responder.subChecked; exact .ite (.ok _) (.panic _)
theorem slotBit_errs {S : Err → Prop} (a : UInt8) : RErrIn S (Requester.slotBit a) := by unfold Requester.slotBit; exact .ite (.ok _) (.panic _)

theorem ensureValid_errs (ng : Option NegotiateAlgorithms) (a : Algorithms) :
    RErrIn (fun e => ∃ n, e = .selectedAlgorithmNotRequested n) (Requester.ensureValidAlgorithmsSelected ng a) := by
  have h1 : ∀ reqs (rsp : AlgorithmRequest) n i, RErrIn (fun e => ∃ n, e = .selectedAlgorithmNotRequested n) (Requester.ensureResponseLoop reqs rsp n i) := by
    intro reqs rsp n
    induction n with
    | zero => intro i; exact .ok _
    | succ n ih => intro i; exact .bind (.index _ _) fun _ => .ite (.err ⟨_, rfl⟩) (ih _)
  have h2 : ∀ q rsps n i, RErrIn (fun e => ∃ n, e = .selectedAlgorithmNotRequested n) (Requester.ensureResponses q rsps n i) := by
    intro q rsps n
    induction n with
    | zero => intro i; exact .ok _
    | succ n ih => intro i; exact .bind (.index _ _) fun _ => .bind (h1 _ _ _ _) fun _ => ih _
  cases ng with
  | none => exact .panic _
  | some q =>
    unfold Requester.ensureValidAlgorithmsSelected
    exact .ite (.err ⟨_, rfl⟩) (.ite (.err ⟨_, rfl⟩) (.ite (.err ⟨_, rfl⟩) (.ite (.err ⟨_, rfl⟩) (h2 _ _ _ _))))

theorem newEndEntity_errs (c : Cfg) (cr : Crypto) (b : Bytes) : RErrIn (fun e => ∃ n, e = .chain n) (cr.newEndEntityCert c b) := by
  unfold Crypto.newEndEntityCert; exact .ite (.ok _) (.err ⟨_, rfl⟩)
theorem verifyChain_errs (c : Cfg) (cr : Crypto) (l : Bytes) (a : UInt32) (is : List Bytes) (r : Bytes) (t : Nat) : RErrIn (fun e => ∃ n, e = .chain n) (cr.verifyChainOfTrust c l a is r t) := by
  unfold Crypto.verifyChainOfTrust
  exact .ite (.panic _) (.ite (.bind (spdmToWebpki_errs _) fun _ => .ite (.ok _) (.err ⟨_, rfl⟩)) (.err ⟨_, rfl⟩))
theorem verifySig_errs {S : Err → Prop} (c : Cfg) (cr : Crypto) (l : Bytes) (a : UInt32) (m s : Bytes) : RErrIn S (cr.verifySignature c l a m s) := by
  unfold Crypto.verifySignature
  exact .ite (.panic _) (.bind (spdmToWebpki_errs _) fun _ => .bind (binToDer_errs _ _) fun _ => .bind (.sliceTo _ _) fun _ => .ok _)

theorem reqExtend_errs (bs : Bytes) : ErrIn Full (Requester.extend bs) := by
  intro h e he
  simp only [Requester.extend, Transcript.extend] at he
  split at he
  · simp only [Res.err.injEq] at he; exact he.symm
  · simp at he

theorem writeTo_errs {t : MsgType} {body : W Nat} (hb : ErrIn Full body) (buf : Bytes) : RErrIn Full (Requester.writeTo t body buf) := by
  have h : ErrIn Full (t.writeMsg body) := by
    unfold MsgType.writeMsg MsgType.writeHeader
    exact ErrIn.bind ((put_errs _).bind fun _ => put_errs _) fun _ => hb
  have h' : RErrIn Full (t.write body buf).1 := fun e he => h _ e (by simpa [MsgType.write] using he)
  unfold Requester.writeTo
  exact .bind h' fun _ => .sliceTo _ _

/-! ## The requester -/

namespace Requester

theorem expect_agrees {σ : Type} (t : MsgType) (b : Bytes) : Agrees (σ := σ) ReqSame (M.lift (Responder.expect t b)) (TM.of expectErr (M.lift (Responder.expect t b))) := by
  refine .ofRes (expect_errs t b) ?_
  rintro e (rfl | ⟨x, g, rfl⟩) <;> rfl

theorem quiet_agrees {σ α : Type} {x : Res α} (h : RErrIn (fun _ => False) x) : Agrees (σ := σ) ReqSame (M.lift x) (quiet (M.lift x)) := .none (.lift h)

theorem extend_agrees (bs : Bytes) : Agrees ReqSame (extend bs) (extendT bs) := .of (reqExtend_errs bs) (by rintro e rfl; rfl)

theorem M.lift_bind {σ α β : Type} (x : Res α) (f : α → Res β) : (M.lift (x >>= f) : M σ β) = M.lift x >>= fun a => M.lift (f a) := by
  funext s
  cases x <;> rfl

theorem verify_agrees (c : Cfg) (cr : Crypto) (s : ReqChallenge) (n : Nat) (h sg rt : Bytes) :
    Agrees ReqSame (M.lift (verifyCertChainAndSignature c cr s n h sg rt)) (verifyT c cr s n h sg rt) := by
  unfold verifyCertChainAndSignature verifyT
  simp only [M.lift_bind]
  refine Agrees.bind (quiet_agrees (.sliceTo _ _)) fun b => ?_
  refine Agrees.bind (.ofRes (CertificateChain.parse_errs c b n) ?_) fun ch => ?_
  · rintro e (⟨x, rfl⟩ | rfl | rfl | rfl) <;> rfl
  refine Agrees.bind (.ofRes (newEndEntity_errs c cr _) fun e h => h) fun leaf => ?_
  refine Agrees.bind (.ofRes (verifyChain_errs c cr _ _ _ _ _) fun e h => h) fun _ => ?_
  refine Agrees.bind (quiet_agrees (verifySig_errs c cr _ _ _ _)) fun ok => ?_
  cases ok
  · exact .fail rfl
  · exact .pure ()

theorem checkSlot_agrees (cs : UInt8) (m : ChallengeAuth) : Agrees ReqSame (M.lift (checkSlot cs m)) (checkSlotT cs m) := by
  unfold checkSlot checkSlotT
  by_cases h1 : m.slot ≠ cs
  · simp only [if_pos h1]; exact fun _ => ⟨.err rfl, rfl⟩
  · simp only [if_neg h1]
    by_cases h2 : m.slot ≠ 0x0F
    · simp only [if_pos h2, M.lift_bind]
      refine Agrees.bind (quiet_agrees (slotBit_errs _)) fun b => ?_
      by_cases h3 : m.slotMask &&& b = 0
      · simp only [if_pos h3]; exact fun _ => ⟨.err rfl, rfl⟩
      · simp only [if_neg h3]; exact .pure ()
    · simp only [if_neg h2]; exact .pure ()

theorem challengeHandle_agrees (c : Cfg) (cr : Crypto) (s : ReqChallenge) (b : Bytes) : Agrees ReqSame (challengeHandle c cr s b) (challengeHandleT c cr s b) := by
  unfold challengeHandle challengeHandleT
  refine Agrees.bind (expect_agrees _ _) fun _ => ?_
  refine Agrees.bind (quiet_agrees (digestSize_errs _ _)) fun ds => ?_
  refine Agrees.bind (quiet_agrees (signatureSize_errs _ _)) fun ss => ?_
  refine Agrees.bind (quiet_agrees (.sliceFrom _ _)) fun body => ?_
  refine Agrees.bind (.via (.lift ((ChallengeAuth.readT_agrees c ds ss).run (Reader.new body))) fun e d h => h) fun m => ?_
  refine Agrees.bind (checkSlot_agrees _ _) fun _ => ?_
  refine Agrees.bind (quiet_agrees (.sliceTo _ _)) fun ch => ?_
  refine Agrees.bind (quiet_agrees (digest_errs _ _ _ _)) fun dg => ?_
  refine Agrees.ite (.fail rfl) ?_
  refine Agrees.bind (quiet_agrees (subChecked_errs _ _)) fun _ => ?_
  refine Agrees.bind (quiet_agrees (.sliceTo _ _)) fun _ => ?_
  refine Agrees.bind (extend_agrees _) fun _ => ?_
  refine Agrees.bind .get fun r => ?_
  refine Agrees.bind (quiet_agrees (digest_errs _ _ _ _)) fun _ => ?_
  exact verify_agrees _ _ _ _ _ _ _

theorem handle_agrees (c : Cfg) (cr : Crypto) (st : ReqState) (b : Bytes) : Agrees ReqSame (handle c cr st b) (handleT c cr st b) := by
  unfold handle handleT
  match st with
  | .version =>
    refine Agrees.bind (expect_agrees _ _) fun _ => ?_
    refine Agrees.bind (quiet_agrees (.sliceFrom _ _)) fun body => ?_
    refine Agrees.bind (.ofRes (Version.parseBody_errs body) ?_) fun v => ?_
    · rintro e (⟨x, rfl⟩ | rfl) <;> rfl
    refine Agrees.bind (quiet_agrees (findMax_errs _)) fun e => ?_
    rcases e with _ | e
    · exact .fail rfl
    · exact Agrees.bind (extend_agrees _) fun _ => .pure _
  | .capabilities v ct cap =>
    refine Agrees.bind (expect_agrees _ _) fun _ => ?_
    refine Agrees.bind (quiet_agrees (.sliceFrom _ _)) fun body => ?_
    refine Agrees.bind (.ofRes (Capabilities.parseBody_errs body) fun e h => h) fun v => ?_
    refine Agrees.bind (extend_agrees _) fun _ => ?_
    refine Agrees.bind (quiet_agrees (unwrap_errs _)) fun _ => ?_
    exact Agrees.bind (quiet_agrees (unwrap_errs _)) fun _ => .pure _
  | .algorithms v caps ng =>
    refine Agrees.bind (expect_agrees _ _) fun _ => ?_
    refine Agrees.bind (quiet_agrees (.sliceFrom _ _)) fun body => ?_
    refine Agrees.bind (.via (.lift (Algorithms.readT_agrees.run (Reader.new body))) fun e d h => h) fun a => ?_
    refine Agrees.bind (.ofRes (ensureValid_errs ng a) fun e h => h) fun _ => ?_
    exact Agrees.bind (extend_agrees _) fun _ => .pure _
  | .idAuth v caps a none =>
    refine Agrees.bind (expect_agrees _ _) fun _ => ?_
    refine Agrees.bind (quiet_agrees (digestSize_errs _ _)) fun n => ?_
    refine Agrees.bind (quiet_agrees (.sliceFrom _ _)) fun body => ?_
    refine Agrees.bind (.read (.lift (Digests.parseBody_errs c n body)) fun e => rfl) fun d => ?_
    exact Agrees.bind (extend_agrees _) fun _ => .pure _
  | .idAuth v caps a (some d) =>
    refine Agrees.bind (expect_agrees _ _) fun _ => ?_
    refine Agrees.bind (quiet_agrees (.sliceFrom _ _)) fun body => ?_
    refine Agrees.bind (.ofRes (Certificate.parseBody_errs c body) ?_) fun d => ?_
    · rintro e (⟨x, rfl⟩ | rfl) <;> rfl
    exact Agrees.bind (extend_agrees _) fun _ => .pure _
  | .challenge s => exact Agrees.bind (challengeHandle_agrees _ _ _ _) fun _ => .pure _
  | .error => exact .die _
  | .newSession => exact .die _

theorem handleMsg_agrees (c : Cfg) (cr : Crypto) (b : Bytes) : Agrees ReqSame (handleMsg c cr b) (handleMsgT c cr b) := by
  intro r
  simp only [handleMsg, handleMsgT]
  rcases r.state with _ | st
  · exact ⟨.panic _, rfl⟩
  · obtain ⟨h1, h2⟩ := handle_agrees c cr st b { r with state := none }
    dsimp only
    rcases hx : handle c cr st b { r with state := none } with ⟨x, r1⟩
    rcases hy : handleT c cr st b { r with state := none } with ⟨y, r2⟩
    rw [hx, hy] at h1 h2
    dsimp only at h1 h2
    subst h2
    cases h1 with
    | ok a => exact ⟨.ok _, rfl⟩
    | err h => exact ⟨.err h, rfl⟩
    | panic k => exact ⟨.panic k, rfl⟩

theorem writeTo_agrees {t : MsgType} {body : W Nat} (hb : ErrIn Full body) (buf : Bytes) : Agrees ReqSame (M.lift (writeTo t body buf)) (writeToT t body buf) :=
  .ofRes (writeTo_errs hb buf) (by rintro e rfl; rfl)

theorem negotiateBody_errs (m : NegotiateAlgorithms) : ErrIn Full m.writeBody := by
  unfold NegotiateAlgorithms.writeBody NegotiateAlgorithms.msgLength
  repeat' first
    | with_reducible refine ErrIn.bind ?_ (fun _ => ?_)
    | exact put_errs _
    | exact putAll_errs _
    | exact writeAlgs_errs _ _ _
    | exact .lift (.bind (.sliceTo _ _) fun _ => .ok _)

theorem writeReq_agrees (c : Cfg) (env : Env) (st : ReqState) (b : Bytes) : Agrees ReqSame (writeReq c env st b) (writeReqT c env st b) := by
  have hset : ∀ s, Agrees ReqSame (setState s) (quiet (setState s)) := fun s => .none (by intro r e h; simp [setState] at h)
  have hclear : Agrees ReqSame clear (quiet clear) := .none (by intro r e h; simp [clear] at h)
  unfold writeReq writeReqT
  match st with
  | .version =>
    refine Agrees.bind (writeTo_agrees (putAll_errs _) _) fun out => ?_
    refine Agrees.bind hclear fun _ => ?_
    exact Agrees.bind (extend_agrees _) fun _ => .pure _
  | .capabilities v ct cap =>
    refine Agrees.bind (.ofRes (S := fun e => e = .parseName) (.bind (parseFlags_errs ReqFlags.fromStr_errs _ _) fun _ => .ok _) (by rintro e rfl; rfl)) fun m => ?_
    refine Agrees.bind (writeTo_agrees ?_ _) fun out => ?_
    · exact (putAll_errs _).bind fun _ => (put_errs _).bind fun _ => (putAll_errs _).bind fun _ => putAll_errs _
    refine Agrees.bind (extend_agrees _) fun _ => ?_
    exact Agrees.bind (hset _) fun _ => .pure _
  | .algorithms v caps ng =>
    refine Agrees.bind (.ofRes (S := fun e => e = .parseName) (.bind (parseFlags_errs BaseAsymAlgo.fromStr_errs _ _) fun _ => .ok _) (by rintro e rfl; rfl)) fun m => ?_
    refine Agrees.bind (writeTo_agrees (negotiateBody_errs m) _) fun out => ?_
    refine Agrees.bind (hset _) fun _ => ?_
    exact Agrees.bind (extend_agrees _) fun _ => .pure _
  | .idAuth v caps a none =>
    refine Agrees.bind (writeTo_agrees (putAll_errs _) _) fun out => ?_
    exact Agrees.bind (extend_agrees _) fun _ => .pure _
  | .idAuth v caps a (some d) =>
    refine Agrees.ite (.die _) ?_
    refine Agrees.bind (writeTo_agrees ?_ _) fun out => ?_
    · unfold GetCertificate.writeBody
      repeat' first
        | with_reducible refine ErrIn.bind ?_ (fun _ => ?_)
        | exact put_errs _
        | exact putAll_errs _
    exact Agrees.bind (extend_agrees _) fun _ => .pure _
  | .challenge s =>
    refine Agrees.bind (hset _) fun _ => ?_
    refine Agrees.bind (writeTo_agrees ?_ _) fun out => ?_
    · exact (put_errs _).bind fun _ => (put_errs _).bind fun _ => wextend_errs _
    exact Agrees.bind (extend_agrees _) fun _ => .pure _
  | .error => exact .die _
  | .newSession => exact .die _

theorem nextRequest_agrees (c : Cfg) (env : Env) (b : Bytes) : Agrees ReqSame (nextRequest c env b) (nextRequestT c env b) := by
  intro r
  simp only [nextRequest, nextRequestT]
  rcases hs : r.state with _ | st
  · exact ⟨.panic _, rfl⟩
  · cases st <;> first | exact writeReq_agrees c env _ b r | exact ⟨.err rfl, rfl⟩
end Requester

/-! ## The responder -/

namespace Responder

theorem header_errs (t : MsgType) (b : Bytes) : RErrIn (fun e => e = .parseHeader) (t.parseHeader b) := by
  unfold MsgType.parseHeader
  refine .ite (.panic _) ?_
  split
  · exact .ite (.ok _) (.ite (.ok _) (.err rfl))
  · exact .panic _

theorem expect_agrees (t : MsgType) (b : Bytes) : Agrees (σ := HState) RspSame (M.lift (expect t b)) (TM.of expectErr (M.lift (expect t b))) := by
  refine .ofRes (expect_errs t b) ?_
  rintro e (rfl | ⟨x, g, rfl⟩) <;> rfl

theorem quiet_agrees {α : Type} {m : H α} (h : ErrIn (fun _ => False) m) : Agrees RspSame m (quiet m) := .none h
theorem full_agrees {α : Type} {m : H α} (h : ErrIn Full m) : Agrees RspSame m (full m) := .of h (by rintro e rfl; rfl)
theorem extend_agrees (b : Bytes) : Agrees RspSame (H.extend b) (full (H.extend b)) := full_agrees (hextend_errs b)
theorem write_agrees (t : MsgType) {body : W Nat} (h : ErrIn Full body) : Agrees RspSame (H.write t body) (full (H.write t body)) := full_agrees (hwrite_errs rfl h)
theorem rspTo_agrees (n : Nat) : Agrees RspSame (H.rspTo n) (quiet (H.rspTo n)) := quiet_agrees (rspTo_errs n)
theorem lift_agrees {α : Type} {x : Res α} (h : RErrIn (fun _ => False) x) : Agrees RspSame (M.lift x) (quiet (M.lift x)) := quiet_agrees (.lift h)

theorem handleGetVersion_agrees (req : Bytes) : Agrees RspSame (handleGetVersion req) (handleGetVersionT req) := by
  unfold handleGetVersion handleGetVersionT
  refine Agrees.bind (lift_agrees (.sliceFrom _ _)) fun body => ?_
  refine Agrees.bind (.read (.lift (GetVersion.parseBody_errs body)) fun e => rfl) fun _ => ?_
  refine Agrees.bind (quiet_agrees hclear_errs) fun _ => ?_
  refine Agrees.bind (extend_agrees _) fun _ => ?_
  refine Agrees.bind (write_agrees _ (Version.writeBody_errs _)) fun n => ?_
  refine Agrees.bind (rspTo_agrees _) fun out => ?_
  exact Agrees.bind (extend_agrees _) fun _ => .pure _

theorem versionHandle_agrees (req : Bytes) : Agrees RspSame (versionHandle req) (versionHandleT req) := by
  unfold versionHandle versionHandleT
  have he := header_errs .getVersion req
  rcases hp : MsgType.getVersion.parseHeader req with b | e | k
  · cases b
    · refine Agrees.bind (lift_agrees (.index _ _)) fun g => ?_
      exact .fail rfl
    · exact handleGetVersion_agrees req
  · exact .fail (he e hp)
  · exact .die k

theorem reset_agrees (req : Bytes) {m : H (Nat × RspState)} {t : TM ResponderError HState (Nat × RspState)} (h : Agrees RspSame m t) :
    Agrees RspSame (resetOnGetVersion req m) (resetOnGetVersionT req t) := by
  unfold resetOnGetVersion resetOnGetVersionT
  have he := header_errs .getVersion req
  rcases hp : MsgType.getVersion.parseHeader req with b | e | k
  · cases b
    · exact h
    · exact versionHandle_agrees req
  · exact .fail (he e hp)
  · exact .die k

theorem capabilitiesHandle_agrees (c : Cfg) (req : Bytes) : Agrees RspSame (capabilitiesHandle c req) (capabilitiesHandleT c req) := by
  unfold capabilitiesHandle capabilitiesHandleT
  refine reset_agrees req ?_
  refine Agrees.bind (expect_agrees _ _) fun _ => ?_
  refine Agrees.bind (lift_agrees (.sliceFrom _ _)) fun body => ?_
  refine Agrees.bind (.ofRes (GetCapabilities.parseBody_errs body) ?_) fun m => ?_
  · rintro e (⟨x, rfl⟩ | rfl) <;> rfl
  refine Agrees.bind (extend_agrees _) fun _ => ?_
  refine Agrees.bind (.ofRes (S := fun e => e = .parseName) (.bind (parseFlags_errs RspFlags.fromStr_errs _ _) fun _ => .ok _) (by rintro e rfl; rfl)) fun s => ?_
  refine Agrees.bind (write_agrees _ (Capabilities.writeBody_errs _)) fun n => ?_
  refine Agrees.bind (rspTo_agrees _) fun out => ?_
  exact Agrees.bind (extend_agrees _) fun _ => .pure _

theorem chooseAlgorithms_errs {S : Err → Prop} (m : NegotiateAlgorithms) : RErrIn S (chooseAlgorithms m) := by
  have hf : ∀ w k b, RErrIn S (firstBit w k b) := fun w k b => by unfold firstBit; exact .ite (.ite (.ok _) (.panic _)) (.panic _)
  have hl : ∀ reqs n i rs, RErrIn S (chooseResponses reqs n i rs) := by
    intro reqs n
    induction n with
    | zero => intro i rs; exact .ok _
    | succ n ih => intro i rs; exact .bind (.index _ _) fun _ => .bind (hf _ _ _) fun _ => .bind (.setIndex _ _ _) fun _ => ih _ _
  unfold chooseAlgorithms
  exact .bind (hf _ _ _) fun _ => .bind (hf _ _ _) fun _ => .bind (hl _ _ _ _) fun _ => .ok _

theorem algorithmsHandle_agrees (caps : Caps) (req : Bytes) : Agrees RspSame (algorithmsHandle caps req) (algorithmsHandleT caps req) := by
  unfold algorithmsHandle algorithmsHandleT
  refine reset_agrees req ?_
  refine Agrees.bind (expect_agrees _ _) fun _ => ?_
  refine Agrees.bind (lift_agrees (.sliceFrom _ _)) fun body => ?_
  refine Agrees.bind (.ofRes (NegotiateAlgorithms.parseBody_errs body) ?_) fun m => ?_
  · rintro e (⟨x, rfl⟩ | ⟨x, rfl⟩ | rfl | rfl | rfl | rfl | rfl | rfl | rfl | rfl) <;> rfl
  refine Agrees.bind (extend_agrees _) fun _ => ?_
  refine Agrees.bind (lift_agrees (chooseAlgorithms_errs _)) fun a => ?_
  refine Agrees.bind (write_agrees _ (Algorithms.writeBody_errs _)) fun n => ?_
  refine Agrees.bind (rspTo_agrees _) fun out => ?_
  exact Agrees.bind (extend_agrees _) fun _ => .pure _

theorem noRoom_same : ∀ e, NoRoom e → RspSame e (.writeCertChain (.from e)) := by rintro e (rfl | rfl) <;> rfl

theorem handleGetDigests_agrees (c : Cfg) (cr : Crypto) (n : Negotiated) (chains : List (Option CertificateChain)) (req : Bytes) :
    Agrees RspSame (handleGetDigests c cr n chains req) (handleGetDigestsT c cr n chains req) := by
  unfold handleGetDigests handleGetDigestsT
  refine Agrees.bind (lift_agrees (slotMask_errs _ _)) fun mask => ?_
  refine Agrees.bind (.ofRes (hashChains_errs c cr _ chains) noRoom_same) fun ds => ?_
  refine Agrees.bind (write_agrees _ (Digests.writeBody_errs _ _)) fun n => ?_
  refine Agrees.bind (extend_agrees _) fun _ => ?_
  refine Agrees.bind (rspTo_agrees _) fun out => ?_
  exact Agrees.bind (extend_agrees _) fun _ => .pure _

theorem handleGetCertificate_agrees (c : Cfg) (n : Negotiated) (chains : List (Option CertificateChain)) (req : Bytes) :
    Agrees RspSame (handleGetCertificate c n chains req) (handleGetCertificateT c n chains req) := by
  unfold handleGetCertificate handleGetCertificateT
  refine Agrees.bind (lift_agrees (.sliceFrom _ _)) fun body => ?_
  refine Agrees.bind (.read (.lift (GetCertificate.parseBody_errs body)) fun e => rfl) fun m => ?_
  refine Agrees.ite (.fail rfl) ?_
  refine Agrees.bind (.ofRes (certPortion_errs c chains _) noRoom_same) fun p => ?_
  rcases p with ⟨chain, portion⟩
  refine Agrees.bind (write_agrees _ (Certificate.writeBody_errs _)) fun n => ?_
  refine Agrees.bind (extend_agrees _) fun _ => ?_
  refine Agrees.bind (rspTo_agrees _) fun out => ?_
  exact Agrees.bind (extend_agrees _) fun _ => .pure _

theorem idAuthHandle_agrees (c : Cfg) (cr : Crypto) (n : Negotiated) (chains : List (Option CertificateChain)) (req : Bytes) :
    Agrees RspSame (idAuthHandle c cr n chains req) (idAuthHandleT c cr n chains req) := by
  unfold idAuthHandle idAuthHandleT
  refine reset_agrees req ?_
  refine Agrees.bind (.ofRes (header_errs _ _) (by rintro e rfl; rfl)) fun d => ?_
  refine Agrees.ite (handleGetDigests_agrees _ _ _ _ _) ?_
  refine Agrees.bind (expect_agrees _ _) fun _ => ?_
  exact handleGetCertificate_agrees _ _ _ _

theorem slotAt_errs (slots : List (Option FilledSlot)) (i : Nat) : RErrIn (fun e => e = .invalidSlot) (slotAt slots i) := by
  unfold slotAt
  split
  · exact .ok _
  · exact .err rfl

theorem writeAuth_agrees (c : Cfg) (m : ChallengeAuth) :
    Agrees RspSame (M.mapErr wrapChallengeAuth (H.write .challengeAuth (m.writeBody c))) (TM.of (fun e => .writeChallengeAuth (.from e)) (H.write .challengeAuth (m.writeBody c))) := by
  have h := hwrite_errs (t := .challengeAuth) (S := AuthWriteErr) (.inl rfl) (m.writeBody_errs c)
  intro s
  have hs := h s
  simp only [M.mapErr, TM.of]
  rcases hw : H.write .challengeAuth (m.writeBody c) s with ⟨x, s1⟩
  cases x with
  | ok a => exact ⟨.ok a, rfl⟩
  | err e =>
    refine ⟨.err ?_, rfl⟩
    rcases hs e (by rw [hw]) with rfl | rfl | rfl | rfl | rfl <;> rfl
  | panic k => exact ⟨.panic k, rfl⟩

theorem signWith_errs (i : Nat) (s : FilledSlot) (seed : Nat) (m : Bytes) : ErrIn (fun e => e = .sign) (signWith i s seed m) := by
  intro h e he
  simp only [signWith] at he
  split at he
  · simp at he
  · simp only [Res.err.injEq] at he; exact he.symm

theorem patchRsp_errs {S : Err → Prop} (i j : Nat) (b : Bytes) : ErrIn S (patchRsp i j b) := by
  intro h e he
  simp only [patchRsp] at he
  split at he
  · split at he <;> simp at he
  · simp at he

theorem newAuth_errs {S : Err → Prop} (c : Cfg) (s m : UInt8) (u : Bool) (d n ms : Bytes) (o : OpaqueData) (sg : Bytes) : RErrIn S (ChallengeAuth.new c s m u d n ms o sg) := by
  unfold ChallengeAuth.new
  exact .ite (.ok _) (.panic _)

theorem challengeHandle_agrees (c : Cfg) (cr : Crypto) (env : Env) (n : Negotiated) (slots : List (Option FilledSlot)) (req : Bytes) :
    Agrees RspSame (challengeHandle c cr env n slots req) (challengeHandleT c cr env n slots req) := by
  unfold challengeHandle challengeHandleT
  refine reset_agrees req ?_
  refine Agrees.bind (expect_agrees _ _) fun _ => ?_
  refine Agrees.bind (lift_agrees (digestSize_errs _ _)) fun ds => ?_
  refine Agrees.bind (lift_agrees (signatureSize_errs _ _)) fun ss => ?_
  refine Agrees.bind (lift_agrees (.sliceFrom _ _)) fun body => ?_
  refine Agrees.bind (.ofRes (Challenge.parseBody_errs c body) ?_) fun m => ?_
  · rintro e (⟨x, rfl⟩ | rfl) <;> rfl
  refine Agrees.bind (.ofRes (slotAt_errs slots _) (by rintro e rfl; rfl)) fun slot => ?_
  refine Agrees.bind (.ofRes (chainDigest_errs c cr _ _) noRoom_same) fun d => ?_
  refine Agrees.bind (extend_agrees _) fun _ => ?_
  refine Agrees.bind (lift_agrees (slotMask_errs _ _)) fun mask => ?_
  refine Agrees.bind (lift_agrees (newAuth_errs _ _ _ _ _ _ _ _ _)) fun auth => ?_
  refine Agrees.bind (writeAuth_agrees c auth) fun size => ?_
  refine Agrees.bind (lift_agrees (subChecked_errs _ _)) fun ss => ?_
  refine Agrees.bind (rspTo_agrees _) fun out => ?_
  refine Agrees.bind (extend_agrees _) fun _ => ?_
  refine Agrees.bind (quiet_agrees transcript_errs) fun t => ?_
  refine Agrees.bind (lift_agrees (digest_errs _ _ _ _)) fun m1 => ?_
  refine Agrees.bind (.of (signWith_errs _ _ _ _) (by rintro e rfl; rfl)) fun sg => ?_
  exact Agrees.bind (quiet_agrees (patchRsp_errs _ _ _)) fun _ => .pure _

theorem dispatch_agrees (c : Cfg) (cr : Crypto) (env : Env) (slots : List (Option FilledSlot)) (st : RspState) (req : Bytes) :
    Agrees RspSame (dispatch c cr env slots st req) (dispatchT c cr env slots st req) := by
  unfold dispatch dispatchT
  cases st with
  | version => exact versionHandle_agrees req
  | capabilities => exact capabilitiesHandle_agrees c req
  | algorithms caps => exact algorithmsHandle_agrees caps req
  | idAuth n => exact idAuthHandle_agrees _ _ _ _ _
  | challenge n => exact challengeHandle_agrees _ _ _ _ _ _
  | error => exact .die _

/-- The ERROR message is chosen alike. -/
theorem errorOf_flat (d : ResponderError) : errorToMsg d.flat = errorOf d := by
  cases d with
  | parseNegotiateAlgorithms e =>
    cases e with
    | algorithmRequest e => cases e <;> rfl
    | _ => rfl
  | parseGetCapabilities e => cases e <;> rfl
  | parseChallenge e => cases e <;> rfl
  | writeCertChain e => cases e <;> rfl
  | writeChallengeAuth e =>
    cases e with
    | writeOpaqueElement e => cases e <;> rfl
    | _ => rfl
  | _ => rfl

/-- The returned slice is the same, and the returned errors correspond. -/
def SameOutput (o : Output) (t : OutputT) : Prop :=
  o.out = t.out ∧ o.error = t.error.map ResponderError.flat

/-- The same outcome of `handle_msg`. -/
inductive SameReply : Res Output → Out ResponderError OutputT → Prop
  | ok {o : Output} {t : OutputT} : SameOutput o t → SameReply (.ok o) (.ok t)
  | err {e : Err} {d : ResponderError} : SameReply (.err e) (.err d)
  | panic (k : PanicKind) : SameReply (.panic k) (.panic k)

theorem handleMsg_agrees (c : Cfg) (cr : Crypto) (env : Env) (req buf : Bytes) (r : Responder) :
    SameReply (handleMsg c cr env req buf r).1 (handleMsgT c cr env req buf r).1 ∧ (handleMsg c cr env req buf r).2 = (handleMsgT c cr env req buf r).2 := by
  simp only [handleMsg, handleMsgT]
  rcases r.state with _ | st
  · exact ⟨.panic _, rfl⟩
  · obtain ⟨h1, h2⟩ := dispatch_agrees c cr env r.slots st req ⟨buf, r.transcript, r.signed⟩
    simp only [handle, handleT]
    rcases hx : dispatch c cr env r.slots st req ⟨buf, r.transcript, r.signed⟩ with ⟨x, r1⟩
    rcases hy : dispatchT c cr env r.slots st req ⟨buf, r.transcript, r.signed⟩ with ⟨y, r2⟩
    rw [hx, hy] at h1 h2
    dsimp only at h1 h2
    subst h2
    cases h1 with
    | ok a =>
      dsimp only
      rcases sliceTo r1.rsp a.1 with o | e | k
      · exact ⟨.ok ⟨rfl, rfl⟩, rfl⟩
      · exact ⟨.err, rfl⟩
      · exact ⟨.panic k, rfl⟩
    | err h =>
      rename_i e d
      dsimp only
      have hm : errorToMsg e = errorOf d := by rw [show e = d.flat from h]; exact errorOf_flat d
      rw [hm]
      rcases H.write .error (errorOf d).writeBody r1 with ⟨z, r3⟩
      rcases z with n | e' | k
      · dsimp only
        rcases sliceTo r3.rsp n with o | e' | k
        · exact ⟨.ok ⟨rfl, by rw [show e = d.flat from h]; rfl⟩, rfl⟩
        · exact ⟨.err, rfl⟩
        · exact ⟨.panic k, rfl⟩
      · exact ⟨.ok ⟨rfl, by rw [show e = d.flat from h]; rfl⟩, rfl⟩
      · exact ⟨.panic k, rfl⟩
    | panic k => exact ⟨.panic k, rfl⟩

end Responder
end Spdm

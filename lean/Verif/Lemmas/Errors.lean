import Verif.Errors
import Verif.Props.Rejection
import Verif.Props.Refusal
/-!
# The machine with the callers' errors does what the flat one does
-/
namespace Spdm
open Spec

/-! ## Which flat error a value stands for -/

/-- The flat error inside. -/
def ParseVersionError.flat : ParseVersionError → Err
  | .tooManyVersionsReceived => .tooManyVersionsReceived
  | .read e => .read e

/-- The flat error inside. -/
def ParseGetCapabilitiesError.flat : ParseGetCapabilitiesError → Err
  | .invalidBitsSet => .invalidBitsSet
  | .read e => .read e

/-- The flat error inside, in a response. -/
def ParseAlgorithmRequestError.flat : ParseAlgorithmRequestError → Err
  | .incorrectFixedAlgCount => .incorrectFixedAlgCount
  | .invalidFixedAlgorithm => .invalidFixedAlgorithm
  | .invalidAlgorithmType => .invalidAlgorithmType
  | .read e => .read e

/-- The flat error inside. -/
def ParseNegotiateAlgorithmsError.flat : ParseNegotiateAlgorithmsError → Err
  | .tooLarge => .tooLarge
  | .maxAlgorithmRequestsExceeded => .maxAlgorithmRequestsExceeded
  | .invalidMeasurementSpec => .invalidMeasurementSpec
  | .invalidBaseAsymAlgo => .invalidBaseAsymAlgo
  | .invalidBaseHashAlgo => .invalidBaseHashAlgo
  | .read e => .read e
  | .algorithmRequest (.read e) => .algorithmRequestRead e
  | .algorithmRequest e => e.flat

/-- The flat error inside. -/
def ParseAlgorithmResponseError.flat : ParseAlgorithmResponseError → Err
  | .moreThanOneDheAlgoSelected => .moreThanOneDheAlgoSelected
  | .moreThanOneAeadAlgoSelected => .moreThanOneAeadAlgoSelected
  | .moreThanOneBaseAsymAlgoSelected => .moreThanOneRspBaseAsymAlgoSelected
  | .moreThanOneKeySchedule => .moreThanOneKeySchedule

/-- The flat error inside. -/
def ParseAlgorithmsError.flat : ParseAlgorithmsError → Err
  | .maxAlgorithmResponsesExceeded => .maxAlgorithmResponsesExceeded
  | .invalidMeasurementSpecSelected => .invalidMeasurementSpecSelected
  | .moreThanOneMeasurementSpecSelected => .moreThanOneMeasurementSpecSelected
  | .invalidMeasurementHashAlgoSelected => .invalidMeasurementHashAlgoSelected
  | .moreThanOneMeasurementHashAlgoSelected => .moreThanOneMeasurementHashAlgoSelected
  | .invalidBaseAsymAlgoSelected => .invalidBaseAsymAlgoSelected
  | .moreThanOneBaseAsymAlgoSelected => .moreThanOneBaseAsymAlgoSelected
  | .invalidBaseHashAlgoSelected => .invalidBaseHashAlgoSelected
  | .moreThanOneBaseHashAlgoSelected => .moreThanOneBaseHashAlgoSelected
  | .algorithmsResponse e => e.flat
  | .algorithmsRequest e => e.flat
  | .read e => .read e

/-- The flat error inside. -/
def ParseCertificateError.flat : ParseCertificateError → Err
  | .tooLarge => .certTooLarge
  | .read e => .read e

/-- The flat error inside. -/
def WriteCertificateChainError.flat : WriteCertificateChainError → Err
  | .maxSizeExceeded => .maxSizeExceeded
  | .bufferFull => .bufferFull

/-- The flat error inside. -/
def ParseCertificateChainError.flat : ParseCertificateChainError → Err
  | .badDerEncoding => .badDerEncoding
  | .lengthMismatch => .lengthMismatch
  | .maxDepthExceeded => .maxDepthExceeded
  | .read e => .read e

/-- The flat error inside. -/
def ParseVendorIdError.flat : ParseVendorIdError → Err
  | .read e => .read e
  | .invalidLen => .opaqueInvalidVendorIdLength

/-- The flat error inside. -/
def ParseOpaqueElementError.flat : ParseOpaqueElementError → Err
  | .read e => .read e
  | .invalidVendorId => .opaqueInvalidVendorIdLength
  | .parseVendorRegistryId => .opaqueInvalidVendorRegistryId
  | .parseVendorId e => e.flat

/-- The flat error inside. -/
def ParseOpaqueDataError.flat : ParseOpaqueDataError → Err
  | .read e => .read e
  | .parseOpaqueElement e => e.flat

/-- The flat error inside. -/
def ParseChallengeError.flat : ParseChallengeError → Err
  | .invalidMeasurementHashType => .invalidMeasurementHashType
  | .read e => .read e

/-- The flat error inside. -/
def WriteChallengeAuthError.flat : WriteChallengeAuthError → Err
  | .maxSlotNumberExceeded => .maxSlotNumberExceeded
  | .maxOpaqueDataSizeExceeded => .maxOpaqueDataSizeExceeded
  | .bufferFull => .challengeAuthFull
  | .writeOpaqueElement .bufferFull => .opaqueFull
  | .writeOpaqueElement .invalidVendorId => .opaqueInvalidVendorIdLength

/-- The flat error inside. -/
def ParseChallengeAuthError.flat : ParseChallengeAuthError → Err
  | .maxSlotNumberExceeded => .maxSlotNumberExceeded
  | .maxOpaqueDataSizeExceeded => .maxOpaqueDataSizeExceeded
  | .parseOpaqueData e => e.flat
  | .read e => .read e

/-- The flat error inside. -/
def ChallengeAuthError.flat : ChallengeAuthError → Err
  | .incorrectSlot => .incorrectSlot
  | .slotNotInMask => .slotNotInMask
  | .digestMismatch => .digestMismatch
  | .invalidSignature => .invalidSignature
  | .parseChallengeAuth e => e.flat
  | .pki _ => .chain 0

/-- The flat error a `RequesterError` stands for.  `ParseCapabilities` keeps nothing of its cause; see `ReqSame`. -/
def RequesterError.flat : RequesterError → Err
  | .read e => .read e
  | .bufferFull => .bufferFull
  | .unexpectedMsgCode x g => .unexpectedMsg x g
  | .noSupportedVersions _ => .noSupportedVersions
  | .selectedAlgorithmNotRequested => .selectedAlgorithmNotRequested 0
  | .challengeAuth e => e.flat
  | .parseCert e => e.flat
  | .invalidCert => .chain 0
  | .parseAlgorithms e => e.flat
  | .parseBaseAsymAlgo => .parseName
  | .parseBaseHashAlgo => .parseName
  | .parseCapabilities => .invalidBitsSet
  | .parseCapability => .parseName
  | .initializationComplete => .initializationComplete
  | .parseChallengeAuth e => e.flat
  | .parseHeader => .parseHeader
  | .parseVersion e => e.flat
  | .parseCertChain e => e.flat

/-- The flat error a `ResponderError` stands for. -/
def ResponderError.flat : ResponderError → Err
  | .parseHeader => .parseHeader
  | .read e => .read e
  | .bufferFull => .bufferFull
  | .unexpectedMsgCode x g => .unexpectedMsg x g
  | .invalidSlot => .invalidSlot
  | .signingFailed => .sign
  | .writeCertChain e => e.flat
  | .parseNegotiateAlgorithms e => e.flat
  | .parseGetCapabilities e => e.flat
  | .parseCapability => .parseName
  | .parseChallenge e => e.flat
  | .writeChallengeAuth e => e.flat

/-- The flat model tells apart some errors that are one value for callers: the branch of a refused selection, the reason a certificate is not trusted, and what is wrong with a
CAPABILITIES message. -/
def ReqSame (e : Err) (d : RequesterError) : Prop :=
  match d with
  | .selectedAlgorithmNotRequested => ∃ n, e = .selectedAlgorithmNotRequested n
  | .invalidCert => ∃ n, e = .chain n
  | .parseCapabilities => IsRead e ∨ e = .invalidBitsSet
  | d => e = d.flat

/-- The error of the flat model is the one inside. -/
def RspSame (e : Err) (d : ResponderError) : Prop := e = d.flat

/-! ## Agreement -/

/-- The same outcome, up to the error. -/
inductive Same {ε α : Type} (R : Err → ε → Prop) : Res α → Out ε α → Prop
  | ok (a : α) : Same R (.ok a) (.ok a)
  | err {e : Err} {d : ε} : R e d → Same R (.err e) (.err d)
  | panic (k : PanicKind) : Same R (.panic k) (.panic k)

/-- The same outcome up to the error, and the same effect. -/
def Agrees {ε σ α : Type} (R : Err → ε → Prop) (m : M σ α) (t : TM ε σ α) : Prop := ∀ s, Same R (m s).1 (t s).1 ∧ (m s).2 = (t s).2

namespace Agrees
variable {ε δ σ α β : Type} {R : Err → ε → Prop}

theorem pure (a : α) : Agrees (σ := σ) R (Pure.pure a) (Pure.pure a) := fun _ => ⟨.ok a, rfl⟩
theorem die (k : PanicKind) : Agrees R (M.die k : M σ α) (TM.die k) := fun _ => ⟨.panic k, rfl⟩
theorem get : Agrees R (M.get : M σ σ) TM.get := fun s => ⟨.ok s, rfl⟩
theorem fail {e : Err} {d : ε} (h : R e d) : Agrees R (M.fail e : M σ α) (TM.fail d) := fun _ => ⟨.err h, rfl⟩
theorem lift {x : Res α} {y : Out ε α} (h : Same R x y) : Agrees (σ := σ) R (M.lift x) (TM.lift y) := fun _ => ⟨h, rfl⟩

theorem bind {m : M σ α} {t : TM ε σ α} {f : α → M σ β} {g : α → TM ε σ β} (h : Agrees R m t) (hf : ∀ a, Agrees R (f a) (g a)) : Agrees R (m >>= f) (t >>= g) := by
  intro s
  obtain ⟨h1, h2⟩ := h s
  have hm : (m >>= f) s = M.bind m f s := rfl
  have ht : (t >>= g) s = TM.bind t g s := rfl
  rw [hm, ht]
  simp only [M.bind, TM.bind]
  rcases hx : m s with ⟨x, s1⟩
  rcases hy : t s with ⟨y, s2⟩
  rw [hx, hy] at h1 h2
  dsimp only at h1 h2
  subst h2
  cases h1 with
  | ok a => exact hf a s1
  | err h => exact ⟨.err h, rfl⟩
  | panic k => exact ⟨.panic k, rfl⟩

theorem ite {c : Prop} [Decidable c] {m m' : M σ α} {t t' : TM ε σ α} (h : Agrees R m t) (h' : Agrees R m' t') : Agrees R (if c then m else m') (if c then t else t') := by
  split
  · exact h
  · exact h'

theorem of {S : Err → Prop} {f : Err → ε} {m : M σ α} (hm : ErrIn S m) (hf : ∀ e, S e → R e (f e)) : Agrees R m (TM.of f m) := by
  intro s
  simp only [TM.of]
  rcases hx : m s with ⟨x, s1⟩
  cases x with
  | ok a => exact ⟨.ok a, rfl⟩
  | err e => exact ⟨.err (hf e (hm s e (by rw [hx]))), rfl⟩
  | panic k => exact ⟨.panic k, rfl⟩

theorem ofRes {S : Err → Prop} {f : Err → ε} {x : Res α} (hm : RErrIn S x) (hf : ∀ e, S e → R e (f e)) : Agrees (σ := σ) R (M.lift x) (TM.of f (M.lift x)) := of (.lift hm) hf

theorem via {R' : Err → δ → Prop} {f : δ → ε} {m : M σ α} {t : TM δ σ α} (h : Agrees R' m t) (hf : ∀ e d, R' e d → R e (f d)) : Agrees R m (TM.via f t) := by
  intro s
  obtain ⟨h1, h2⟩ := h s
  simp only [TM.via]
  rcases hx : m s with ⟨x, s1⟩
  rcases hy : t s with ⟨y, s2⟩
  rw [hx, hy] at h1 h2
  dsimp only at h1 h2
  subst h2
  cases h1 with
  | ok a => exact ⟨.ok a, rfl⟩
  | err h => exact ⟨.err (hf _ _ h), rfl⟩
  | panic k => exact ⟨.panic k, rfl⟩

theorem read {g : ReadError → ε} {m : M σ α} (hm : ErrIn IsRead m) (hg : ∀ e, R (.read e) (g e)) : Agrees R m (TM.of (fromRead g) m) :=
  of hm fun e h => by obtain ⟨x, rfl⟩ := h; exact hg x

theorem none {d : ε} {m : M σ α} (hm : ErrIn (fun _ => False) m) : Agrees R m (TM.of (noErr d) m) := of hm fun _ h => h.elim

/-- The outcome of a parser. -/
theorem run {m : M σ α} {t : TM ε σ α} (h : Agrees R m t) (s : σ) : Same R (m s).1 (t s).1 := (h s).1

/-- A check that the flat model has as an outcome. -/
theorem check {p : Prop} [Decidable p] {e : Err} {m : Unit → M σ α} {d : ε} {t : TM ε σ α} (he : R e d) (h : Agrees R (m ()) t) :
    Agrees R (M.lift (if p then .err e else .ok ()) >>= m) (if p then TM.fail d else t) := by
  by_cases hp : p
  · simp only [if_pos hp]
    exact fun s => ⟨.err he, rfl⟩
  · simp only [if_neg hp]
    exact h

/-- The same with the branches the other way round. -/
theorem checkNot {p : Prop} [Decidable p] {e : Err} {m : Unit → M σ α} {d : ε} {t : TM ε σ α} (he : R e d) (h : Agrees R (m ()) t) :
    Agrees R (M.lift (if p then .ok () else .err e) >>= m) (if p then t else TM.fail d) := by
  by_cases hp : p
  · simp only [if_pos hp]
    exact h
  · simp only [if_neg hp]
    exact fun s => ⟨.err he, rfl⟩
end Agrees

theorem Same.liftOf {ε α : Type} {R : Err → ε → Prop} {S : Err → Prop} {x : Res α} {f : Err → ε} (hx : RErrIn S x) (hf : ∀ e, S e → R e (f e)) : Same R x (Out.of f x) := by
  cases x with
  | ok a => exact .ok a
  | err e => exact .err (hf e (hx e rfl))
  | panic k => exact .panic k

/-! ## The parsers -/

theorem AlgorithmRequest.readT_agrees : Agrees (fun e d => e = ParseAlgorithmRequestError.flat d) AlgorithmRequest.read AlgorithmRequest.readT := by
  refine .of (S := fun e => IsRead e ∨ e = .incorrectFixedAlgCount ∨ e = .invalidFixedAlgorithm ∨ e = .invalidAlgorithmType) ?_ ?_
  · unfold AlgorithmRequest.read
    refine (getByte_errs.mono fun _ h => .inl h).bind fun ty => ?_
    split
    · refine ((getBits_errs 4).mono fun _ h => .inl h).bind fun ext => ((getBits_errs 4).mono fun _ h => .inl h).bind fun n => ErrIn.ite ?_ ?_
      · exact .fail (.inr (.inl rfl))
      · refine (getU16_errs.mono fun _ h => .inl h).bind fun s => ?_
        refine ErrIn.bind (.lift ?_) fun s => ((skipIgnored_errs _).mono fun _ h => .inl h).bind fun _ => .pure _
        unfold fromBits16
        exact .ite (.ok _) (.err (.inr (.inr (.inl rfl))))
    · exact .fail (.inr (.inr (.inr rfl)))
  · rintro e (⟨x, rfl⟩ | rfl | rfl | rfl) <;> rfl

theorem getBit_errs : ErrIn IsRead Reader.getBit := by
  unfold Reader.getBit
  exact getBits_errs 1

/-- One step of an agreement. -/
macro "agree_step" : tactic => `(tactic| first
  | with_reducible refine Agrees.bind ?_ (fun _ => ?_)
  | with_reducible refine Agrees.ite ?_ ?_
  | with_reducible exact Agrees.pure _
  | with_reducible exact Agrees.die _
  | with_reducible exact Agrees.get
  | ((with_reducible refine Agrees.fail ?_); rfl)
  | ((with_reducible refine Agrees.read ?_ ?_)
     · with_reducible first
        | exact getByte_errs
        | exact getU16_errs
        | exact getU32_errs
        | exact getBit_errs
        | exact getBits_errs _
        | exact skipReserved_errs _
        | exact getSlice_errs _ _
     · exact fun _ => rfl)
  | with_reducible refine Agrees.ofRes (S := fun _ => False) (RErrIn.setIndex _ _ _) (fun _ h => h.elim))

namespace Algorithms
theorem readResponsesT_agrees : ∀ n i rs, Agrees (fun e d => e = ParseAlgorithmsError.flat d) (readResponses n i rs) (readResponsesT n i rs)
  | 0, _, rs => .pure rs
  | n + 1, i, rs => by
    simp only [readResponses, readResponsesT]
    refine Agrees.bind (AlgorithmRequest.readT_agrees.via fun _ _ h => h) fun a => ?_
    refine Agrees.bind (by agree_step) fun rs => ?_
    unfold ensureOnlyOneBitSet
    refine .check ?_ (readResponsesT_agrees n (i + 1) rs)
    cases a.kind <;> rfl

theorem bits8_agrees {mask v : UInt8} {e : Err} {d : ParseAlgorithmsError} (h : e = d.flat) :
    Agrees (fun e d => e = ParseAlgorithmsError.flat d) (M.lift (fromBits8 mask v e) : M Reader UInt8) (bitsT (fromBits8 mask v e) d) :=
  .lift (.liftOf (S := fun x => x = e) (by unfold fromBits8; exact .ite (.ok _) (.err rfl)) fun _ hx => hx.trans h)

theorem bits32_agrees {mask v : UInt32} {e : Err} {d : ParseAlgorithmsError} (h : e = d.flat) :
    Agrees (fun e d => e = ParseAlgorithmsError.flat d) (M.lift (fromBits32 mask v e) : M Reader UInt32) (bitsT (fromBits32 mask v e) d) :=
  .lift (.liftOf (S := fun x => x = e) (by unfold fromBits32; exact .ite (.ok _) (.err rfl)) fun _ hx => hx.trans h)

theorem readT_agrees : Agrees (fun e d => e = ParseAlgorithmsError.flat d) read readT := by
  unfold read readT
  repeat' first
    | agree_step
    | with_reducible exact readResponsesT_agrees _ _ _
    | exact bits8_agrees rfl
    | exact bits32_agrees rfl
end Algorithms

theorem VendorId.readT_agrees (len : UInt8) : Agrees (fun e d => e = ParseVendorIdError.flat d) (VendorId.read len) (VendorId.readT len) := by
  unfold VendorId.read VendorId.readT
  repeat' agree_step

theorem OpaqueElement.readT_agrees (c : Cfg) : Agrees (fun e d => e = ParseOpaqueElementError.flat d) (OpaqueElement.read c) (OpaqueElement.readT c) := by
  unfold OpaqueElement.read OpaqueElement.readT
  refine Agrees.bind (by agree_step) fun b => ?_
  rcases VendorRegistryId.tryFrom b with _ | id
  · exact .fail rfl
  · refine Agrees.bind (by agree_step) fun vlen => ?_
    unfold OpaqueElement.ensureVendorIdLen
    refine .checkNot rfl ?_
    refine Agrees.bind ((VendorId.readT_agrees vlen).via fun _ _ h => h) fun vid => ?_
    repeat' agree_step

theorem OpaqueData.readElementsT_agrees (c : Cfg) : ∀ n i es, Agrees (fun e d => e = ParseOpaqueDataError.flat d) (OpaqueData.readElements c n i es) (OpaqueData.readElementsT c n i es)
  | 0, _, es => .pure es
  | n + 1, i, es => by
    simp only [OpaqueData.readElements, OpaqueData.readElementsT]
    refine Agrees.bind ((OpaqueElement.readT_agrees c).via fun _ _ h => h) fun e => ?_
    exact Agrees.bind (by agree_step) fun es => OpaqueData.readElementsT_agrees c n (i + 1) es

theorem OpaqueData.readT_agrees (c : Cfg) : Agrees (fun e d => e = ParseOpaqueDataError.flat d) (OpaqueData.read c) (OpaqueData.readT c) := by
  unfold OpaqueData.read OpaqueData.readT
  repeat' first
    | agree_step
    | with_reducible exact OpaqueData.readElementsT_agrees c _ _ _

theorem ChallengeAuth.readT_agrees (c : Cfg) (ds ss : Nat) : Agrees (fun e d => e = ParseChallengeAuthError.flat d) (ChallengeAuth.read c ds ss) (ChallengeAuth.readT c ds ss) := by
  unfold ChallengeAuth.read ChallengeAuth.readT
  repeat' first
    | agree_step
    | exact (OpaqueData.readT_agrees c).via fun _ _ h => h
    | exact Agrees.read (by unfold Nonce.read; exact getSlice_errs _ _) (fun _ => rfl)

end Spdm

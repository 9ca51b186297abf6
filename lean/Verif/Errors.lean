import Verif.Requester
/-!
# The error values of the public API

The rest of the model has one flat type of errors, `Err`, with the wrappers of the Rust enums dropped.  Here are the enums as callers see and match them, with the
`From` conversions of every `?`, and the state machines once more with these errors.  `TM ε σ α` is `M σ α` with errors of type `ε`.
Verif/Lemmas/Errors.lean shows that both machines do the same.
-/
namespace Spdm

/-! ## The enums -/

/-- `ParseVersionError`, src/msgs/version.rs 106-113. -/
inductive ParseVersionError
  | tooManyVersionsReceived
  | read (e : ReadError)
  deriving DecidableEq, Repr

/-- `ParseGetCapabilitiesError`, src/msgs/capabilities.rs 63-67. -/
inductive ParseGetCapabilitiesError
  | invalidBitsSet
  | read (e : ReadError)
  deriving DecidableEq, Repr

/-- `ParseAlgorithmRequestError`, src/msgs/algorithms.rs 246-252. -/
inductive ParseAlgorithmRequestError
  | incorrectFixedAlgCount
  | invalidFixedAlgorithm
  | invalidAlgorithmType
  | read (e : ReadError)
  deriving DecidableEq, Repr

/-- `ParseNegotiateAlgorithmsError`, src/msgs/algorithms.rs 387-396. -/
inductive ParseNegotiateAlgorithmsError
  | tooLarge
  | maxAlgorithmRequestsExceeded
  | invalidMeasurementSpec
  | invalidBaseAsymAlgo
  | invalidBaseHashAlgo
  | read (e : ReadError)
  | algorithmRequest (e : ParseAlgorithmRequestError)
  deriving DecidableEq, Repr

/-- `ParseAlgorithmResponseError`, src/msgs/algorithms.rs 585-591. -/
inductive ParseAlgorithmResponseError
  | moreThanOneDheAlgoSelected
  | moreThanOneAeadAlgoSelected
  | moreThanOneBaseAsymAlgoSelected
  | moreThanOneKeySchedule
  deriving DecidableEq, Repr

/-- `ParseAlgorithmsError`, src/msgs/algorithms.rs 548-562. -/
inductive ParseAlgorithmsError
  | maxAlgorithmResponsesExceeded
  | invalidMeasurementSpecSelected
  | moreThanOneMeasurementSpecSelected
  | invalidMeasurementHashAlgoSelected
  | moreThanOneMeasurementHashAlgoSelected
  | invalidBaseAsymAlgoSelected
  | moreThanOneBaseAsymAlgoSelected
  | invalidBaseHashAlgoSelected
  | moreThanOneBaseHashAlgoSelected
  | algorithmsResponse (e : ParseAlgorithmResponseError)
  | algorithmsRequest (e : ParseAlgorithmRequestError)
  | read (e : ReadError)
  deriving DecidableEq, Repr

/-- `ParseCertificateError`, src/msgs/certificates.rs 82-86. -/
inductive ParseCertificateError
  | tooLarge
  | read (e : ReadError)
  deriving DecidableEq, Repr

/-- `WriteCertificateChainError`, src/msgs/certificates.rs 149-153. -/
inductive WriteCertificateChainError
  | maxSizeExceeded
  | bufferFull
  deriving DecidableEq, Repr

/-- `ParseCertificateChainError`, src/msgs/certificates.rs 161-167. -/
inductive ParseCertificateChainError
  | badDerEncoding
  | lengthMismatch
  | maxDepthExceeded
  | read (e : ReadError)
  deriving DecidableEq, Repr

/-- `ParseVendorIdError`, src/msgs/common.rs 215-221. -/
inductive ParseVendorIdError
  | read (e : ReadError)
  | invalidLen
  deriving DecidableEq, Repr

/-- `ParseOpaqueElementError`, src/msgs/common.rs 81-90. -/
inductive ParseOpaqueElementError
  | read (e : ReadError)
  | invalidVendorId
  | parseVendorRegistryId
  | parseVendorId (e : ParseVendorIdError)
  deriving DecidableEq, Repr

/-- `ParseOpaqueDataError`, src/msgs/common.rs 12-16. -/
inductive ParseOpaqueDataError
  | read (e : ReadError)
  | parseOpaqueElement (e : ParseOpaqueElementError)
  deriving DecidableEq, Repr

/-- `WriteOpaqueElementError`, src/msgs/common.rs 67-73. -/
inductive WriteOpaqueElementError
  | bufferFull
  | invalidVendorId
  deriving DecidableEq, Repr

/-- `ParseChallengeError`, src/msgs/challenge.rs 45-49. -/
inductive ParseChallengeError
  | invalidMeasurementHashType
  | read (e : ReadError)
  deriving DecidableEq, Repr

/-- `WriteChallengeAuthError`, src/msgs/challenge.rs 101-107. -/
inductive WriteChallengeAuthError
  | maxSlotNumberExceeded
  | maxOpaqueDataSizeExceeded
  | bufferFull
  | writeOpaqueElement (e : WriteOpaqueElementError)
  deriving DecidableEq, Repr

/-- `ParseChallengeAuthError`, src/msgs/challenge.rs 121-127. -/
inductive ParseChallengeAuthError
  | maxSlotNumberExceeded
  | maxOpaqueDataSizeExceeded
  | parseOpaqueData (e : ParseOpaqueDataError)
  | read (e : ReadError)
  deriving DecidableEq, Repr

/-- `pki::Error`, src/crypto/pki.rs 9-13. -/
inductive PkiError
  | invalidCert
  | validationFailed
  deriving DecidableEq, Repr

/-- `ChallengeAuthError`, src/requester/challenge.rs 40-60. -/
inductive ChallengeAuthError
  | incorrectSlot
  | slotNotInMask
  | digestMismatch
  | invalidSignature
  | parseChallengeAuth (e : ParseChallengeAuthError)
  | pki (e : PkiError)
  deriving DecidableEq, Repr

/-- `RequesterError`, src/requester/error.rs 20-79. -/
inductive RequesterError
  | read (e : ReadError)
  | bufferFull
  | unexpectedMsgCode (expected got : UInt8)
  | noSupportedVersions (received : Version)
  | selectedAlgorithmNotRequested
  | challengeAuth (e : ChallengeAuthError)
  | parseCert (e : ParseCertificateError)
  | invalidCert
  | parseAlgorithms (e : ParseAlgorithmsError)
  | parseBaseAsymAlgo
  | parseBaseHashAlgo
  | parseCapabilities
  | parseCapability
  | initializationComplete
  | parseChallengeAuth (e : ParseChallengeAuthError)
  | parseHeader
  | parseVersion (e : ParseVersionError)
  | parseCertChain (e : ParseCertificateChainError)
  deriving DecidableEq, Repr

/-- `ResponderError`, src/responder/error.rs 15-52. -/
inductive ResponderError
  | parseHeader
  | read (e : ReadError)
  | bufferFull
  | unexpectedMsgCode (expected got : UInt8)
  | invalidSlot
  | signingFailed
  | writeCertChain (e : WriteCertificateChainError)
  | parseNegotiateAlgorithms (e : ParseNegotiateAlgorithmsError)
  | parseGetCapabilities (e : ParseGetCapabilitiesError)
  | parseCapability
  | parseChallenge (e : ParseChallengeError)
  | writeChallengeAuth (e : WriteChallengeAuthError)
  deriving DecidableEq, Repr

/-! ## Programs with these errors -/

/-- Outcome of a call with errors of type `ε`.  For example src/requester.rs 39. -/
inductive Out (ε α : Type)
  | ok (a : α)
  | err (e : ε)
  | panic (k : PanicKind)
  deriving DecidableEq, Repr

/-- A method taking `&mut self` with errors of type `ε`.  For example src/requester/version.rs 14-18. -/
def TM (ε σ α : Type) := σ → Out ε α × σ

namespace TM
variable {ε δ σ α β : Type}

/-- `Ok(a)`, for example src/requester.rs 41. -/
def pure (a : α) : TM ε σ α := fun s => (.ok a, s)

/-- Sequencing (`?` where the error types agree).  For example src/requester/version.rs 33. -/
def bind (m : TM ε σ α) (f : α → TM ε σ β) : TM ε σ β := fun s =>
  match m s with
  | (.ok a, s') => f a s'
  | (.err e, s') => (.err e, s')
  | (.panic k, s') => (.panic k, s')

/-- Sequencing with `?`, for example src/requester/version.rs 33. -/
instance : Monad (TM ε σ) where
  pure := pure
  bind := bind

/-- `return Err(e)`.  For example src/requester/version.rs 42. -/
def fail (e : ε) : TM ε σ α := fun s => (.err e, s)
/-- a panic.  For example src/requester.rs 111. -/
def die (k : PanicKind) : TM ε σ α := fun s => (.panic k, s)
/-- an outcome that does not touch the state.  For example src/requester/version.rs 33. -/
def lift (x : Out ε α) : TM ε σ α := fun s => (x, s)
/-- Reading the fields of `self`, for example src/requester/algorithms.rs 82. -/
def get : TM ε σ σ := fun s => (.ok s, s)

/-- `m?` inside a function with errors of type `ε`, where `f` is `ε::from`.  The conversions: src/requester/error.rs 81-163, src/responder/error.rs 54-106. -/
def via (f : δ → ε) (m : TM δ σ α) : TM ε σ α := fun s =>
  match m s with
  | (.ok a, s') => (.ok a, s')
  | (.err e, s') => (.err (f e), s')
  | (.panic k, s') => (.panic k, s')

/-- A call of the flat model whose errors have one wrapping, `f`.  The conversions: src/requester/error.rs 81-163, src/responder/error.rs 54-106. -/
def of (f : Err → ε) (m : M σ α) : TM ε σ α := fun s =>
  match m s with
  | (.ok a, s') => (.ok a, s')
  | (.err e, s') => (.err (f e), s')
  | (.panic k, s') => (.panic k, s')
end TM

/-- The same for outcomes.  The conversions: src/requester/error.rs 81-163, src/responder/error.rs 54-106. -/
def Out.of {ε α : Type} (f : Err → ε) : Res α → Out ε α
  | .ok a => .ok a
  | .err e => .err (f e)
  | .panic k => .panic k

/-- A call that returns a `ReadError`, converted by `g`.  The last line is for errors such a call does not have.  `ReadError`: src/msgs/encoding.rs 103-120. -/
def fromRead {ε : Type} (g : ReadError → ε) : Err → ε
  | .read e => g e
  | _ => g .unaligned

/-- A call without errors.  The value is not used.  For example src/requester/version.rs 22. -/
def noErr {ε : Type} (e : ε) : Err → ε := fun _ => e

/-! ## The parsers whose `ReadError`s have several wrappings -/

/-- `ParseVersionError` of `Version::parse_body`, src/msgs/version.rs 121-149. -/
def ParseVersionError.from : Err → ParseVersionError
  | .read e => .read e
  | _ => .tooManyVersionsReceived

/-- `ParseGetCapabilitiesError` of `GetCapabilities::parse_body`, src/msgs/capabilities.rs 99-113. -/
def ParseGetCapabilitiesError.from : Err → ParseGetCapabilitiesError
  | .read e => .read e
  | _ => .invalidBitsSet

/-- `ParseCertificateError` of `Certificate::parse_body`, src/msgs/certificates.rs 95-110. -/
def ParseCertificateError.from : Err → ParseCertificateError
  | .read e => .read e
  | _ => .tooLarge

/-- `WriteCertificateChainError` of `CertificateChain::write`, src/msgs/certificates.rs 221-245. -/
def WriteCertificateChainError.from : Err → WriteCertificateChainError
  | .bufferFull => .bufferFull
  | _ => .maxSizeExceeded

/-- `ParseCertificateChainError` of `CertificateChain::parse`, src/msgs/certificates.rs 246-331. -/
def ParseCertificateChainError.from : Err → ParseCertificateChainError
  | .read e => .read e
  | .badDerEncoding => .badDerEncoding
  | .lengthMismatch => .lengthMismatch
  | _ => .maxDepthExceeded

/-- `ParseChallengeError` of `Challenge::parse_body`, src/msgs/challenge.rs 92-99. -/
def ParseChallengeError.from : Err → ParseChallengeError
  | .read e => .read e
  | _ => .invalidMeasurementHashType

/-- `ParseAlgorithmRequestError` of `AlgorithmRequest::read`, src/msgs/algorithms.rs 303-384. -/
def ParseAlgorithmRequestError.from : Err → ParseAlgorithmRequestError
  | .read e => .read e
  | .incorrectFixedAlgCount => .incorrectFixedAlgCount
  | .invalidFixedAlgorithm => .invalidFixedAlgorithm
  | _ => .invalidAlgorithmType

/-- `ParseNegotiateAlgorithmsError` of `NegotiateAlgorithms::parse_body`, src/msgs/algorithms.rs 453-536.  The flat model already tells a `ReadError` inside an algorithm structure
from one outside. -/
def ParseNegotiateAlgorithmsError.from : Err → ParseNegotiateAlgorithmsError
  | .read e => .read e
  | .algorithmRequestRead e => .algorithmRequest (.read e)
  | .incorrectFixedAlgCount => .algorithmRequest .incorrectFixedAlgCount
  | .invalidFixedAlgorithm => .algorithmRequest .invalidFixedAlgorithm
  | .invalidAlgorithmType => .algorithmRequest .invalidAlgorithmType
  | .tooLarge => .tooLarge
  | .maxAlgorithmRequestsExceeded => .maxAlgorithmRequestsExceeded
  | .invalidMeasurementSpec => .invalidMeasurementSpec
  | .invalidBaseAsymAlgo => .invalidBaseAsymAlgo
  | _ => .invalidBaseHashAlgo

/-- `WriteChallengeAuthError` of `ChallengeAuth::write`, src/msgs/challenge.rs 159-194 with src/msgs/common.rs 46-53, 166-183. -/
def WriteChallengeAuthError.from : Err → WriteChallengeAuthError
  | .maxSlotNumberExceeded => .maxSlotNumberExceeded
  | .maxOpaqueDataSizeExceeded => .maxOpaqueDataSizeExceeded
  | .bufferFull => .bufferFull
  | .opaqueFull => .writeOpaqueElement .bufferFull
  | _ => .writeOpaqueElement .invalidVendorId

namespace AlgorithmRequest
/-- `AlgorithmRequest::read`, src/msgs/algorithms.rs 303-384. -/
def readT : TM ParseAlgorithmRequestError Reader AlgorithmRequest := .of ParseAlgorithmRequestError.from AlgorithmRequest.read
end AlgorithmRequest

namespace Algorithms
/-- The error of `ensure_only_one_bit_set` per kind, src/msgs/algorithms.rs 741-766. -/
def moreThanOneT : AlgKind → ParseAlgorithmResponseError
  | .dhe => .moreThanOneDheAlgoSelected
  | .aead => .moreThanOneAeadAlgoSelected
  | .reqBaseAsym => .moreThanOneBaseAsymAlgoSelected
  | .keySchedule => .moreThanOneKeySchedule

/-- `read_algorithm_responses`, src/msgs/algorithms.rs 725-735, with `ensure_only_one_bit_set`, 737-769. -/
def readResponsesT : Nat → Nat → List AlgorithmRequest → TM ParseAlgorithmsError Reader (List AlgorithmRequest)
  | 0, _, rs => pure rs
  | n + 1, i, rs => do
    let a ← TM.via .algorithmsRequest AlgorithmRequest.readT
    let rs ← TM.of (noErr (.read .unaligned)) (M.lift (setIndex rs i a))
    if countOnes a.supported.toNat 16 ≠ 1 then TM.fail (.algorithmsResponse (moreThanOneT a.kind))
    else readResponsesT n (i + 1) rs

/-- `T::from_bits(v).ok_or_else(|| e)?`, src/msgs/algorithms.rs 648-680. -/
def bitsT {α : Type} (x : Res α) (e : ParseAlgorithmsError) : TM ParseAlgorithmsError Reader α := TM.lift (Out.of (fun _ => e) x)

/-- `parse_body`, src/msgs/algorithms.rs 635-705. -/
def readT : TM ParseAlgorithmsError Reader Algorithms := do
  let num ← TM.of (fromRead .read) Reader.getByte
  if num.toNat > maxAlgorithmRequests then TM.fail .maxAlgorithmResponsesExceeded
  else
    TM.of (fromRead .read) (Reader.skipReserved 1)
    let _length ← TM.of (fromRead .read) Reader.getU16
    let spec ← TM.of (fromRead .read) Reader.getByte
    let spec ← bitsT (fromBits8 measurementSpecDmtf spec .invalidMeasurementSpecSelected) .invalidMeasurementSpecSelected
    if countOnes spec.toNat 8 ≠ 1 then TM.fail .moreThanOneMeasurementSpecSelected
    else
      TM.of (fromRead .read) (Reader.skipReserved 1)
      let mh ← TM.of (fromRead .read) Reader.getU32
      let mh ← bitsT (fromBits32 BaseHashAlgo.all mh .invalidMeasurementHashAlgoSelected) .invalidMeasurementHashAlgoSelected
      if countOnes mh.toNat 32 ≠ 1 then TM.fail .moreThanOneMeasurementHashAlgoSelected
      else
        let asym ← TM.of (fromRead .read) Reader.getU32
        let asym ← bitsT (fromBits32 BaseAsymAlgo.all asym .invalidBaseAsymAlgoSelected) .invalidBaseAsymAlgoSelected
        if countOnes asym.toNat 32 ≠ 1 then TM.fail .moreThanOneBaseAsymAlgoSelected
        else
          let hash ← TM.of (fromRead .read) Reader.getU32
          let hash ← bitsT (fromBits32 BaseHashAlgo.all hash .invalidBaseHashAlgoSelected) .invalidBaseHashAlgoSelected
          if countOnes hash.toNat 32 ≠ 1 then TM.fail .moreThanOneBaseHashAlgoSelected
          else
            TM.of (fromRead .read) (Reader.skipReserved 12)
            TM.of (fromRead .read) (Reader.skipReserved 1)
            TM.of (fromRead .read) (Reader.skipReserved 1)
            TM.of (fromRead .read) (Reader.skipReserved 2)
            let rs ← readResponsesT num.toNat 0 (List.replicate maxAlgorithmRequests AlgorithmRequest.dflt)
            pure ⟨spec, mh, asym, hash, num, rs⟩

/-- `parse_body`, src/msgs/algorithms.rs 635-705. -/
def parseBodyT (buf : Bytes) : Out ParseAlgorithmsError Algorithms := (readT (Reader.new buf)).1
end Algorithms

namespace VendorId
/-- `read`, src/msgs/common.rs 259-273. -/
def readT (len : UInt8) : TM ParseVendorIdError Reader VendorId :=
  if len = 0 then pure empty
  else if len = 2 then do
    let v ← TM.of (fromRead .read) Reader.getU16
    pure (u16 v)
  else if len = 4 then do
    let v ← TM.of (fromRead .read) Reader.getU32
    pure (u32 v)
  else TM.fail .invalidLen
end VendorId

namespace OpaqueElement
/-- `read`, src/msgs/common.rs 185-201, with `ensure_vendor_id_len_matches_registry_id`, 204-213. -/
def readT (c : Cfg) : TM ParseOpaqueElementError Reader OpaqueElement := do
  let b ← TM.of (fromRead .read) Reader.getByte
  match VendorRegistryId.tryFrom b with
  | none => TM.fail .parseVendorRegistryId
  | some id =>
    let vlen ← TM.of (fromRead .read) Reader.getByte
    if vlen = id.vendorIdLen then
      let vid ← TM.via .parseVendorId (VendorId.readT vlen)
      let dlen ← TM.of (fromRead .read) Reader.getU16
      let d ← TM.of (fromRead .read) (Reader.getSlice dlen.toNat c.maxOpaqueElementDataSize)
      TM.of (fromRead .read) (Reader.skipReserved (padding (4 + vlen.toNat + dlen.toNat)))
      pure ⟨id, vid, dlen, zeroPad c.maxOpaqueElementDataSize d⟩
    else TM.fail .invalidVendorId
end OpaqueElement

namespace OpaqueData
/-- The loop of src/msgs/common.rs 60-62. -/
def readElementsT (c : Cfg) : Nat → Nat → List OpaqueElement → TM ParseOpaqueDataError Reader (List OpaqueElement)
  | 0, _, es => pure es
  | n + 1, i, es => do
    let e ← TM.via .parseOpaqueElement (OpaqueElement.readT c)
    let es ← TM.of (noErr (.read .unaligned)) (M.lift (setIndex es i e))
    readElementsT c n (i + 1) es

/-- `read`, src/msgs/common.rs 55-64. -/
def readT (c : Cfg) : TM ParseOpaqueDataError Reader OpaqueData := do
  let total ← TM.of (fromRead .read) Reader.getByte
  TM.of (fromRead .read) (Reader.skipReserved 3)
  let es ← readElementsT c total.toNat 0 (dflt c).elements
  pure ⟨total, es⟩
end OpaqueData

namespace ChallengeAuth
/-- `parse_body`, src/msgs/challenge.rs 226-261.  A slot that is too large is reported as `MaxOpaqueDataSizeExceeded` (line 234). -/
def readT (c : Cfg) (digestSize sigSize : Nat) : TM ParseChallengeAuthError Reader ChallengeAuth := do
  let slot ← TM.of (fromRead .read) (Reader.getBits 4)
  if slot.toNat > c.numSlots then TM.fail .maxOpaqueDataSizeExceeded
  else
    let _ ← TM.of (fromRead .read) (Reader.getBits 3)
    let bit ← TM.of (fromRead .read) Reader.getBit
    let mask ← TM.of (fromRead .read) Reader.getByte
    let cch ← TM.of (fromRead .read) (Reader.getSlice digestSize digestSize)
    let nonce ← TM.of (fromRead .read) (Nonce.read c)
    let msh ← TM.of (fromRead .read) (Reader.getSlice digestSize digestSize)
    let olen ← TM.of (fromRead .read) Reader.getU16
    if olen.toNat > maxOpaqueDataSize then TM.fail .maxOpaqueDataSizeExceeded
    else
      let od ← TM.via .parseOpaqueData (OpaqueData.readT c)
      let sig ← TM.of (fromRead .read) (Reader.getSlice sigSize sigSize)
      pure ⟨slot, mask, bit == 1, cch, nonce, msh, od, sig⟩

/-- `parse_body`, src/msgs/challenge.rs 226-261. -/
def parseBodyT (c : Cfg) (buf : Bytes) (digestSize sigSize : Nat) : Out ParseChallengeAuthError ChallengeAuth := (readT c digestSize sigSize (Reader.new buf)).1
end ChallengeAuth

/-! ## The requester -/

namespace Requester

/-- `RequesterError` of `expect`, src/requester.rs 39-48. -/
def expectErr : Err → RequesterError
  | .unexpectedMsg x g => .unexpectedMsgCode x g
  | _ => .parseHeader

/-- A call that returns no error.  For example src/requester/version.rs 22. -/
def quiet {σ α : Type} (m : M σ α) : TM RequesterError σ α := TM.of (noErr .parseHeader) m

/-- `transcript.extend(bs)?`: `From<BufferFullError>`, src/requester/error.rs 81-85. -/
def extendT (bs : Bytes) : TM RequesterError Requester Unit := TM.of (noErr .bufferFull) (extend bs)

/-- `verify_cert_chain_and_signature`, src/requester/challenge.rs 185-214.  A `pki::Error` becomes `InvalidCert`, whatever it says (src/requester/error.rs 93-97). -/
def verifyT (c : Cfg) (cr : Crypto) (s : ReqChallenge) (digestSize : Nat) (m2Hash signature root : Bytes) : TM RequesterError Requester Unit := do
  let chainBuf ← quiet (M.lift (sliceTo s.certChain s.certChainSize.toNat))
  let chain ← TM.of (fun e => .parseCertChain (.from e)) (M.lift (CertificateChain.parse c chainBuf digestSize))
  let leaf ← TM.of (noErr .invalidCert) (M.lift (cr.newEndEntityCert c chain.leafCert))
  TM.of (noErr .invalidCert) (M.lift (cr.verifyChainOfTrust c leaf s.algorithms.baseAsymAlgoSelected chain.intermediateCerts root unixTime))
  let ok ← quiet (M.lift (cr.verifySignature c leaf s.algorithms.baseAsymAlgoSelected m2Hash signature))
  if ok then pure () else TM.fail (.challengeAuth .invalidSignature)

/-- The slot and slot mask checks, src/requester/challenge.rs 145-154. -/
def checkSlotT (certSlot : UInt8) (rsp : ChallengeAuth) : TM RequesterError Requester Unit :=
  if rsp.slot ≠ certSlot then TM.fail (.challengeAuth .incorrectSlot)
  else if rsp.slot ≠ 0x0F then do
    let bit ← quiet (M.lift (slotBit rsp.slot))
    if rsp.slotMask &&& bit = 0 then TM.fail (.challengeAuth .slotNotInMask) else pure ()
  else pure ()

/-- `challenge::State::handle_msg`, src/requester/challenge.rs 127-183. -/
def challengeHandleT (c : Cfg) (cr : Crypto) (s : ReqChallenge) (buf : Bytes) : TM RequesterError Requester Unit := do
  TM.of expectErr (M.lift (Responder.expect .challengeAuth buf))
  let digestSize ← quiet (M.lift (BaseHashAlgo.getDigestSize c s.algorithms.baseHashAlgoSelected))
  let sigSize ← quiet (M.lift (BaseAsymAlgo.getSignatureSize c s.algorithms.baseAsymAlgoSelected))
  let body ← quiet (M.lift (sliceFrom buf headerSize))
  let rsp ← TM.via .parseChallengeAuth (TM.lift (ChallengeAuth.parseBodyT c body digestSize sigSize))
  checkSlotT s.certSlot rsp
  let chainBuf ← quiet (M.lift (sliceTo s.certChain s.certChainSize.toNat))
  let digest ← quiet (M.lift (cr.digest c s.algorithms.baseHashAlgoSelected chainBuf))
  if rsp.certChainHash ≠ digest then TM.fail (.challengeAuth .digestMismatch)
  else
    let sigStart ← quiet (M.lift (Responder.subChecked buf.length sigSize))
    let m2 ← quiet (M.lift (sliceTo buf sigStart))
    extendT m2
    let r ← TM.get
    let m2Hash ← quiet (M.lift (cr.digest c s.algorithms.baseHashAlgoSelected r.transcript.get))
    verifyT c cr s digestSize m2Hash rsp.signature r.rootCert

/-- `ensure_valid_algorithms_selected`, src/requester/algorithms.rs 77-176: one error value. -/
def ensureT (negotiate : Option NegotiateAlgorithms) (a : Algorithms) : TM RequesterError Requester Unit :=
  TM.of (noErr .selectedAlgorithmNotRequested) (M.lift (ensureValidAlgorithmsSelected negotiate a))

/-- `AllStates::handle_msg`, src/requester.rs 248-295, with the `handle_*` methods (see `Requester.handle`). -/
def handleT (c : Cfg) (cr : Crypto) (st : ReqState) (buf : Bytes) : TM RequesterError Requester ReqState :=
  match st with
  | .version => do
    TM.of expectErr (M.lift (Responder.expect .version buf))
    let body ← quiet (M.lift (sliceFrom buf headerSize))
    let v ← TM.of (fun e => .parseVersion (.from e)) (M.lift (Version.parseBody body))
    let e ← quiet (M.lift (findMaxMatchingVersion v))
    match e with
    | some e =>
      extendT buf
      pure (.capabilities e none none)
    | none => TM.fail (.noSupportedVersions v)
  | .capabilities v ct cap => do
    TM.of expectErr (M.lift (Responder.expect .capabilities buf))
    let body ← quiet (M.lift (sliceFrom buf headerSize))
    let msg ← TM.of (noErr .parseCapabilities) (M.lift (Capabilities.parseBody body))
    extendT buf
    let ct ← quiet (M.lift (unwrap ct))
    let cap ← quiet (M.lift (unwrap cap))
    pure (.algorithms v ⟨ct, cap, msg.ctExponent, msg.flags⟩ none)
  | .algorithms v caps negotiate => do
    TM.of expectErr (M.lift (Responder.expect .algorithms buf))
    let body ← quiet (M.lift (sliceFrom buf headerSize))
    let a ← TM.via .parseAlgorithms (TM.lift (Algorithms.parseBodyT body))
    ensureT negotiate a
    extendT buf
    pure (if bothHave caps ReqFlags.certCap RspFlags.certCap then .idAuth v caps a none else .newSession)
  | .idAuth v caps a none => do
    TM.of expectErr (M.lift (Responder.expect .digests buf))
    let size ← quiet (M.lift (BaseHashAlgo.getDigestSize c a.baseHashAlgoSelected))
    let body ← quiet (M.lift (sliceFrom buf headerSize))
    let d ← TM.of (fromRead .read) (M.lift (Digests.parseBody c size body))
    extendT buf
    pure (.idAuth v caps a (some d))
  | .idAuth v caps a (some _) => do
    TM.of expectErr (M.lift (Responder.expect .certificate buf))
    let body ← quiet (M.lift (sliceFrom buf headerSize))
    let cert ← TM.of (fun e => .parseCert (.from e)) (M.lift (Certificate.parseBody c body))
    extendT buf
    pure (if bothHave caps ReqFlags.chalCap RspFlags.chalCap then
        .challenge ⟨v, caps, a, cert.slot, cert.certChain, cert.portionLength, none⟩
      else .newSession)
  | .challenge s => do
    challengeHandleT c cr s buf
    pure .newSession
  | .error => TM.die .unimplemented
  | .newSession => TM.die .unimplemented

/-- `handle_msg`, src/requester.rs 123-146. -/
def handleMsgT (c : Cfg) (cr : Crypto) (rsp : Bytes) : TM RequesterError Requester Bool := fun r =>
  match r.state with
  | none => (.panic .unwrapNone, r)
  | some st =>
    match handleT c cr st rsp { r with state := none } with
    | (.ok st', r) => (.ok (st' = .newSession), { r with state := some st' })
    | (.err e, r) => (.err e, { r with state := some .error })
    | (.panic k, r) => (.panic k, r)

/-- `msg.write(buf)?` for a request: `From<BufferFullError>`, src/requester/error.rs 81-85. -/
def writeToT (t : MsgType) (body : W Nat) (buf : Bytes) : TM RequesterError Requester Bytes := TM.of (noErr .bufferFull) (M.lift (writeTo t body buf))

/-- `AllStates::write_req`, src/requester.rs 216-246, with the `write_*` methods (see `Requester.writeReq`).  A name the configuration should not contain is `ParseCapability` or
`ParseBaseAsymAlgo` (src/requester/error.rs 111-115, 129-133). -/
def writeReqT (c : Cfg) (env : Env) (st : ReqState) (buf : Bytes) : TM RequesterError Requester Bytes :=
  match st with
  | .version => do
    let out ← writeToT .getVersion GetVersion.writeBody buf
    quiet clear
    extendT out
    pure out
  | .capabilities v _ _ => do
    let msg ← TM.of (noErr .parseCapability) (M.lift (configToGetCapabilities c))
    let out ← writeToT .getCapabilities msg.writeBody buf
    extendT out
    quiet (setState (.capabilities v (some msg.ctExponent) (some msg.flags)))
    pure out
  | .algorithms v caps _ => do
    let msg ← TM.of (noErr .parseBaseAsymAlgo) (M.lift (configToNegotiateAlgorithms c))
    let out ← writeToT .negotiateAlgorithms msg.writeBody buf
    quiet (setState (.algorithms v caps (some msg)))
    extendT out
    pure out
  | .idAuth _ _ _ none => do
    let out ← writeToT .getDigests GetDigests.writeBody buf
    extendT out
    pure out
  | .idAuth _ _ _ (some _) =>
    if ¬ (0 < c.numSlots) then TM.die .assertion
    else do
      let msg : GetCertificate := ⟨0, 0, UInt16.ofNat c.maxCertChainSize⟩
      let out ← writeToT .getCertificate msg.writeBody buf
      extendT out
      pure out
  | .challenge s => do
    quiet (setState (.challenge { s with nonce := some env.nonce }))
    let msg : Challenge := ⟨s.certSlot, .none, env.nonce⟩
    let out ← writeToT .challenge msg.writeBody buf
    extendT out
    pure out
  | .error => TM.die .unimplemented
  | .newSession => TM.die .unimplemented

/-- `next_request`, src/requester.rs 107-116. -/
def nextRequestT (c : Cfg) (env : Env) (buf : Bytes) : TM RequesterError Requester Bytes := fun r =>
  match r.state with
  | none => (.panic .unwrapNone, r)
  | some .newSession => (.err .initializationComplete, r)
  | some st => writeReqT c env st buf r

end Requester

/-! ## The responder -/

namespace Responder

/-- `ResponderError` of `expect` and of the header checks, src/responder.rs 221-254 and src/responder/version.rs 14-28. -/
def expectErr : Err → ResponderError
  | .unexpectedMsg x g => .unexpectedMsgCode x g
  | _ => .parseHeader

/-- A call that returns no error.  For example src/responder/version.rs 39. -/
def quiet {α : Type} (m : H α) : TM ResponderError HState α := TM.of (noErr .parseHeader) m

/-- `transcript.extend(bs)?` and `msg.write(rsp)?`: `From<BufferFullError>`, src/responder/error.rs 54-58. -/
def full {α : Type} (m : H α) : TM ResponderError HState α := TM.of (noErr .bufferFull) m

/-- `version::State::handle_get_version`, src/responder/version.rs 30-46. -/
def handleGetVersionT (req : Bytes) : TM ResponderError HState (Nat × RspState) := do
  let body ← quiet (M.lift (sliceFrom req headerSize))
  let _ ← TM.of (fromRead .read) (M.lift (GetVersion.parseBody body))
  quiet H.clear
  full (H.extend req)
  let size ← full (H.write .version Version.default.writeBody)
  let out ← quiet (H.rspTo size)
  full (H.extend out)
  pure (size, .capabilities)

/-- `version::State::handle_msg`, src/responder/version.rs 14-28. -/
def versionHandleT (req : Bytes) : TM ResponderError HState (Nat × RspState) :=
  match MsgType.getVersion.parseHeader req with
  | .ok true => handleGetVersionT req
  | .ok false => do
    let got ← quiet (M.lift (index req 0))
    TM.fail (.unexpectedMsgCode MsgType.getVersion.spdmCode got)
  | .err _ => TM.fail .parseHeader
  | .panic k => TM.die k

/-- `reset_on_get_version!`, src/responder.rs 221-237. -/
def resetOnGetVersionT (req : Bytes) (rest : TM ResponderError HState (Nat × RspState)) : TM ResponderError HState (Nat × RspState) :=
  match MsgType.getVersion.parseHeader req with
  | .ok true => versionHandleT req
  | .ok false => rest
  | .err _ => TM.fail .parseHeader
  | .panic k => TM.die k

/-- `capabilities::State::handle_msg`, src/responder/capabilities.rs 33-54. -/
def capabilitiesHandleT (c : Cfg) (req : Bytes) : TM ResponderError HState (Nat × RspState) :=
  resetOnGetVersionT req do
    TM.of expectErr (M.lift (expect .getCapabilities req))
    let body ← quiet (M.lift (sliceFrom req headerSize))
    let getCap ← TM.of (fun e => .parseGetCapabilities (.from e)) (M.lift (GetCapabilities.parseBody body))
    full (H.extend req)
    let supported ← TM.of (noErr .parseCapability) (M.lift (configToCapabilities c))
    let size ← full (H.write .capabilities supported.writeBody)
    let out ← quiet (H.rspTo size)
    full (H.extend out)
    pure (size, .algorithms ⟨getCap.ctExponent, getCap.flags, supported.ctExponent, supported.flags⟩)

/-- `algorithms::State::handle_msg`, src/responder/algorithms.rs 37-55. -/
def algorithmsHandleT (caps : Caps) (req : Bytes) : TM ResponderError HState (Nat × RspState) :=
  resetOnGetVersionT req do
    TM.of expectErr (M.lift (expect .negotiateAlgorithms req))
    let body ← quiet (M.lift (sliceFrom req headerSize))
    let msg ← TM.of (fun e => .parseNegotiateAlgorithms (.from e)) (M.lift (NegotiateAlgorithms.parseBody body))
    full (H.extend req)
    let algorithms ← quiet (M.lift (chooseAlgorithms msg))
    let size ← full (H.write .algorithms algorithms.writeBody)
    let out ← quiet (H.rspTo size)
    full (H.extend out)
    pure (size, .idAuth ⟨caps, algorithms⟩)

/-- `handle_get_digests`, src/responder/id_auth.rs 113-153. -/
def handleGetDigestsT (c : Cfg) (cr : Crypto) (n : Negotiated) (chains : List (Option CertificateChain)) (req : Bytes) : TM ResponderError HState (Nat × RspState) := do
  let mask ← quiet (M.lift (createSlotMask c chains))
  let digests ← TM.of (fun e => .writeCertChain (.from e)) (M.lift (hashCertChains c cr n.algorithms.baseHashAlgoSelected chains))
  let size ← full (H.write .digests (Digests.writeBody c ⟨mask, digests⟩))
  full (H.extend req)
  let out ← quiet (H.rspTo size)
  full (H.extend out)
  pure (size, .idAuth n)

/-- `handle_get_certificate`, src/responder/id_auth.rs 78-111. -/
def handleGetCertificateT (c : Cfg) (n : Negotiated) (chains : List (Option CertificateChain)) (req : Bytes) : TM ResponderError HState (Nat × RspState) := do
  let body ← quiet (M.lift (sliceFrom req headerSize))
  let getCert ← TM.of (fromRead .read) (M.lift (GetCertificate.parseBody body))
  if getCert.slot.toNat ≥ c.numSlots then TM.fail .invalidSlot
  else
    let (certChain, portion) ← TM.of (fun e => .writeCertChain (.from e)) (M.lift (certPortion c chains getCert.slot))
    let size ← full (H.write .certificate (Certificate.writeBody ⟨getCert.slot, portion, 0, certChain⟩))
    full (H.extend req)
    let out ← quiet (H.rspTo size)
    full (H.extend out)
    pure (size, .challenge n)

/-- `id_auth::State::handle_msg`, src/responder/id_auth.rs 59-76. -/
def idAuthHandleT (c : Cfg) (cr : Crypto) (n : Negotiated) (chains : List (Option CertificateChain)) (req : Bytes) : TM ResponderError HState (Nat × RspState) :=
  resetOnGetVersionT req do
    let isDigests ← TM.of expectErr (M.lift (MsgType.getDigests.parseHeader req))
    if isDigests then handleGetDigestsT c cr n chains req
    else
      TM.of expectErr (M.lift (expect .getCertificate req))
      handleGetCertificateT c n chains req

/-- `challenge::State::handle_msg`, src/responder/challenge.rs 45-134. -/
def challengeHandleT (c : Cfg) (cr : Crypto) (env : Env) (n : Negotiated) (slots : List (Option FilledSlot)) (req : Bytes) : TM ResponderError HState (Nat × RspState) :=
  resetOnGetVersionT req do
    TM.of expectErr (M.lift (expect .challenge req))
    let digestSize ← quiet (M.lift (BaseHashAlgo.getDigestSize c n.algorithms.baseHashAlgoSelected))
    let sigSize ← quiet (M.lift (BaseAsymAlgo.getSignatureSize c n.algorithms.baseAsymAlgoSelected))
    let body ← quiet (M.lift (sliceFrom req headerSize))
    let msg ← TM.of (fun e => .parseChallenge (.from e)) (M.lift (Challenge.parseBody c body))
    let slot ← TM.of (noErr .invalidSlot) (M.lift (slotAt slots msg.slot.toNat))
    let digest ← TM.of (fun e => .writeCertChain (.from e)) (M.lift (chainDigest c cr n.algorithms.baseHashAlgoSelected slot.certChain))
    full (H.extend req)
    let mask ← quiet (M.lift (createSlotMask c slots))
    let auth ← quiet (M.lift (ChallengeAuth.new c msg.slot mask (useMutualAuth n.caps) digest env.nonce
      (List.replicate digestSize 0) (OpaqueData.dflt c) (List.replicate sigSize 0)))
    let size ← TM.of (fun e => .writeChallengeAuth (.from e)) (H.write .challengeAuth (auth.writeBody c))
    let sigStart ← quiet (M.lift (subChecked size sigSize))
    let out ← quiet (H.rspTo sigStart)
    full (H.extend out)
    let t ← quiet H.transcript
    let m1 ← quiet (M.lift (cr.digest c n.algorithms.baseHashAlgoSelected t))
    let sig ← TM.of (noErr .signingFailed) (signWith msg.slot.toNat slot env.seed m1)
    quiet (patchRsp sigStart size sig)
    pure (size, .challenge n)

/-- `msgs::Error::from(&ResponderError)`, src/responder/error.rs 108-151. -/
def errorOf : ResponderError → ErrorMsg
  | .parseHeader => .unexpectedRequest
  | .bufferFull => .largeResponse 0
  | .read e => readErrorToMsg e
  | .unexpectedMsgCode _ _ => .unexpectedRequest
  | .invalidSlot => .invalidRequest
  | .signingFailed => .unspecified
  | .writeCertChain _ => .largeResponse 0
  | .parseCapability => .unspecified
  | .parseGetCapabilities .invalidBitsSet => .invalidRequest
  | .parseGetCapabilities (.read e) => readErrorToMsg e
  | .parseNegotiateAlgorithms (.read e) => readErrorToMsg e
  | .parseNegotiateAlgorithms .tooLarge => .requestTooLarge
  | .parseNegotiateAlgorithms _ => .invalidRequest
  | .parseChallenge .invalidMeasurementHashType => .invalidRequest
  | .parseChallenge (.read e) => readErrorToMsg e
  | .writeChallengeAuth .bufferFull => .responseTooLarge 0
  | .writeChallengeAuth _ => .invalidRequest

/-- The dispatch of `AllStates::handle`, src/responder.rs 100-120. -/
def dispatchT (c : Cfg) (cr : Crypto) (env : Env) (slots : List (Option FilledSlot)) (st : RspState) (req : Bytes) : TM ResponderError HState (Nat × RspState) :=
  match st with
  | .version => versionHandleT req
  | .capabilities => capabilitiesHandleT c req
  | .algorithms caps => algorithmsHandleT caps req
  | .idAuth n => idAuthHandleT c cr n (slots.map (fun s => s.map (·.certChain))) req
  | .challenge n => challengeHandleT c cr env n slots req
  | .error => TM.die .unimplemented

/-- What `handle_msg` returns: the slice of the response buffer and the `Result` (`none` is `Ok(())`).  src/responder.rs 177-187. -/
structure OutputT where
  out : Bytes
  error : Option ResponderError
  deriving DecidableEq, Repr

/-- `AllStates::handle`, src/responder.rs 93-139. -/
def handleT (c : Cfg) (cr : Crypto) (env : Env) (slots : List (Option FilledSlot)) (st : RspState) (req : Bytes) : TM ResponderError HState (OutputT × RspState) := fun h =>
  match dispatchT c cr env slots st req h with
  | (.ok (size, st'), h) =>
    match sliceTo h.rsp size with
    | .ok out => (.ok (⟨out, none⟩, st'), h)
    | .err e => (.err (expectErr e), h)
    | .panic k => (.panic k, h)
  | (.err e, h) =>
    match H.write .error (errorOf e).writeBody h with
    | (.ok size, h) =>
      match sliceTo h.rsp size with
      | .ok out => (.ok (⟨out, some e⟩, .error), h)
      | .err e => (.err (expectErr e), h)
      | .panic k => (.panic k, h)
    | (.err _, h) => (.ok (⟨[], some e⟩, .error), h)
    | (.panic k, h) => (.panic k, h)
  | (.panic k, h) => (.panic k, h)

/-- `Responder::handle_msg`, src/responder.rs 177-187. -/
def handleMsgT (c : Cfg) (cr : Crypto) (env : Env) (req rsp : Bytes) : TM ResponderError Responder OutputT := fun r =>
  match r.state with
  | none => (.panic .unwrapNone, r)
  | some st =>
    match handleT c cr env r.slots st req ⟨rsp, r.transcript, r.signed⟩ with
    | (.ok (o, st'), h) => (.ok o, { r with transcript := h.tr, signed := h.signed, state := some st' })
    | (.err e, h) => (.err e, { r with transcript := h.tr, signed := h.signed, state := none })
    | (.panic k, h) => (.panic k, { r with transcript := h.tr, signed := h.signed, state := none })

end Responder
end Spdm

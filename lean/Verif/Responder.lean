import Verif.Transcript
import Verif.Pki
import Verif.Msgs.Version
import Verif.Msgs.Capabilities
import Verif.Msgs.Algorithms
import Verif.Msgs.Digest
import Verif.Msgs.Certificates
import Verif.Msgs.Challenge
import Verif.Msgs.Error
/-!
# The responder: src/responder.rs, src/responder/*.rs
-/
namespace Spdm

/-- `FilledSlot`, src/crypto/slot.rs 28-33.  `signingAlgorithm` and `hashAlgorithm` are single bits of the masks of src/msgs/algorithms.rs; the library
never reads them (C91).  `sign` is the `Signer` (src/crypto/signing.rs 15-19): `none` is its error; the first argument is the entropy of the call, so
signers may be randomised. -/
structure FilledSlot where
  signingAlgorithm : UInt32
  hashAlgorithm : UInt32
  certChain : CertificateChain
  sign : Nat → Bytes → Option Bytes

/-- What the environment provides to one call: the bytes `Nonce::new()` would draw
(src/crypto/nonce.rs 20-24) and the entropy of the signer. -/
structure Env where
  nonce : Bytes
  seed : Nat
  deriving DecidableEq, Repr

/-- The capability fields carried by the states (src/responder/algorithms.rs 14-19). -/
structure Caps where
  requesterCt : UInt8
  requesterCap : UInt32
  responderCt : UInt8
  responderCap : UInt32
  deriving DecidableEq, Repr

/-- The fields of `id_auth::State` and `challenge::State`, src/responder/id_auth.rs 33-40,
src/responder/challenge.rs 20-27. -/
structure Negotiated where
  caps : Caps
  algorithms : Algorithms
  deriving DecidableEq, Repr

/-- `AllStates`, src/responder.rs 51-60.  The `Option` fields of `capabilities::State`
(src/responder/capabilities.rs 14-20) and `algorithms::State::algorithms` (src/responder/algorithms.rs 19) are `None` whenever
the state is stored and are left out. -/
inductive RspState
  | error
  | version
  | capabilities
  | algorithms (caps : Caps)
  | idAuth (n : Negotiated)
  | challenge (n : Negotiated)
  deriving DecidableEq, Repr

/-- What the `handle_msg` methods of the states can change: the response buffer and the
transcript.  `signed` is a ghost log of the signer calls (slot, message).  Parameters of src/responder.rs 93-99. -/
structure HState where
  rsp : Bytes
  tr : Transcript
  signed : List (Nat × Bytes)
  deriving DecidableEq, Repr

/-- Methods like src/responder/version.rs 14-28. -/
abbrev H := M HState

namespace H

/-- `msg.write(rsp)`, src/msgs/mod.rs 83-87. -/
def write (t : MsgType) (body : W Nat) : H Nat := fun h =>
  let (res, buf) := t.write body h.rsp
  (res, { h with rsp := buf })

/-- `transcript.extend(bs)`.  For example src/responder/version.rs 40. -/
def extend (bs : Bytes) : H Unit := fun h =>
  let (res, t) := Transcript.extend bs h.tr
  (res, { h with tr := t })

/-- `transcript.clear()`.  src/responder/version.rs 39. -/
def clear : H Unit := fun h => (.ok (), { h with tr := h.tr.clear })

/-- `&rsp[..n]`.  For example src/responder/version.rs 43. -/
def rspTo (n : Nat) : H Bytes := fun h => (sliceTo h.rsp n, h)

/-- `transcript.get()`.  src/responder/challenge.rs 114. -/
def transcript : H Bytes := fun h => (.ok h.tr.get, h)

end H

namespace Responder

/-- `expect`, src/responder.rs 245-254 (the requester's copy, src/requester.rs 39-48, is the same
code). -/
def expect (t : MsgType) (buf : Bytes) : Res Unit :=
  match t.parseHeader buf with
  | .ok true => .ok ()
  | .ok false => do
    let got ← index buf 0
    .err (.unexpectedMsg t.spdmCode got)
  | .err e => .err e
  | .panic k => .panic k

/-- `version::State::handle_get_version`, src/responder/version.rs 30-46. -/
def handleGetVersion (req : Bytes) : H (Nat × RspState) := do
  let body ← M.lift (sliceFrom req headerSize)
  let _ ← M.lift (GetVersion.parseBody body)
  H.clear
  H.extend req
  let size ← H.write .version Version.default.writeBody
  let out ← H.rspTo size
  H.extend out
  pure (size, .capabilities)

/-- `version::State::handle_msg`, src/responder/version.rs 14-28. -/
def versionHandle (req : Bytes) : H (Nat × RspState) :=
  match MsgType.getVersion.parseHeader req with
  | .ok true => handleGetVersion req
  | .ok false => do
    let got ← M.lift (index req 0)
    M.fail (.unexpectedMsg MsgType.getVersion.spdmCode got)
  | .err e => M.fail e
  | .panic k => M.die k

/-- `reset_on_get_version!`, src/responder.rs 221-237, followed by the rest of the handler. -/
def resetOnGetVersion (req : Bytes) (rest : H (Nat × RspState)) : H (Nat × RspState) :=
  match MsgType.getVersion.parseHeader req with
  | .ok true => versionHandle req
  | .ok false => rest
  | .err e => M.fail e
  | .panic k => M.die k

/-- The loop `for s in CAPABILITIES { flags |= s.parse()?; }`, src/responder/capabilities.rs 60-63 and
src/requester/capabilities.rs 63-66. -/
def parseFlags (parse : String → Res UInt32) : List String → UInt32 → Res UInt32
  | [], acc => .ok acc
  | s :: ss, acc => do
    let f ← parse s
    parseFlags parse ss (acc ||| f)

/-- `config_to_capabilities_msg`, src/responder/capabilities.rs 59-70. -/
def configToCapabilities (c : Cfg) : Res Capabilities := do
  let flags ← parseFlags RspFlags.fromStr c.capabilities 0
  pure ⟨12, flags⟩

/-- `capabilities::State::handle_msg`, src/responder/capabilities.rs 33-54 (with
`algorithms::State::from`, src/responder/algorithms.rs 22-32). -/
def capabilitiesHandle (c : Cfg) (req : Bytes) : H (Nat × RspState) :=
  resetOnGetVersion req do
    M.lift (expect .getCapabilities req)
    let body ← M.lift (sliceFrom req headerSize)
    let getCap ← M.lift (GetCapabilities.parseBody body)
    H.extend req
    let supported ← M.lift (configToCapabilities c)
    let size ← H.write .capabilities supported.writeBody
    let out ← H.rspTo size
    H.extend out
    pure (size, .algorithms ⟨getCap.ctExponent, getCap.flags, supported.ctExponent, supported.flags⟩)

/-- `T::from_bits(1 << bits.trailing_zeros()).unwrap()` on a `width`-bit type, for instance
src/responder/algorithms.rs 71-73.  Shifting by the full width panics (overflow checks on). -/
def firstBit (width mask bits : Nat) : Res Nat :=
  let k := trailingZeros width bits
  if k < width then
    if mask.testBit k then .ok (2 ^ k) else .panic .unwrapNone
  else .panic .overflow

/-- The loop of `choose_algorithms`, src/responder/algorithms.rs 83-121 (the four arms are the same
code, each with its own type and mask). -/
def chooseResponses (reqs : List AlgorithmRequest) :
    Nat → Nat → List AlgorithmRequest → Res (List AlgorithmRequest)
  | 0, _, rs => .ok rs
  | n + 1, i, rs => do
    let a ← index reqs i
    let b ← firstBit 16 a.kind.mask.toNat a.supported.toNat
    let rs ← setIndex rs i ⟨a.kind, UInt16.ofNat b⟩
    chooseResponses reqs n (i + 1) rs

/-- `choose_algorithms`, src/responder/algorithms.rs 66-124. -/
def chooseAlgorithms (req : NegotiateAlgorithms) : Res Algorithms := do
  let hash ← firstBit 32 BaseHashAlgo.all.toNat req.baseHashAlgo.toNat
  let asym ← firstBit 32 BaseAsymAlgo.all.toNat req.baseAsymAlgo.toNat
  let rs ← chooseResponses req.algorithmRequests req.numAlgorithmRequests.toNat 0
    (List.replicate maxAlgorithmRequests AlgorithmRequest.dflt)
  pure ⟨req.measurementSpec, UInt32.ofNat hash, UInt32.ofNat asym, UInt32.ofNat hash,
    req.numAlgorithmRequests, rs⟩

/-- `algorithms::State::handle_msg`, src/responder/algorithms.rs 37-55. -/
def algorithmsHandle (caps : Caps) (req : Bytes) : H (Nat × RspState) :=
  resetOnGetVersion req do
    M.lift (expect .negotiateAlgorithms req)
    let body ← M.lift (sliceFrom req headerSize)
    let msg ← M.lift (NegotiateAlgorithms.parseBody body)
    H.extend req
    let algorithms ← M.lift (chooseAlgorithms msg)
    let size ← H.write .algorithms algorithms.writeBody
    let out ← H.rspTo size
    H.extend out
    pure (size, .idAuth ⟨caps, algorithms⟩)

/-- The loop of `create_slot_mask`, src/responder/id_auth.rs 23-27; `n` iterations left, next
index `i`. -/
def slotMaskLoop {α : Type} (slots : List (Option α)) : Nat → Nat → UInt8 → Res UInt8
  | 0, _, bits => .ok bits
  | n + 1, i, bits => do
    let s ← index slots i
    if s.isSome then
      if i < 8 then slotMaskLoop slots n (i + 1) (bits ||| UInt8.ofNat (2 ^ i))
      else .panic .overflow
    else slotMaskLoop slots n (i + 1) bits

/-- `create_slot_mask`, src/responder/id_auth.rs 21-29. -/
def createSlotMask {α : Type} (c : Cfg) (slots : List (Option α)) : Res UInt8 :=
  slotMaskLoop slots c.numSlots 0 0

/-- `chain.write(&mut Writer::new(&mut buf))`: outcome and buffer afterwards.  src/responder/id_auth.rs 140-146, src/responder/challenge.rs 66-72. -/
def writeChain (ch : CertificateChain) (buf : Bytes) : Res Nat × Bytes :=
  let (res, w) := ch.write (Writer.new buf)
  (res, w.buf)

/-- The loop of `hash_cert_chains`, src/responder/id_auth.rs 140-151.  The buffer is reused from one
slot to the next. -/
def hashLoop (c : Cfg) (cr : Crypto) (algo : UInt32) (chains : List (Option CertificateChain)) :
    Nat → Nat → Bytes → List (Option Bytes) → Res (List (Option Bytes))
  | 0, _, _, ds => .ok ds
  | n + 1, i, buf, ds => do
    let ch ← index chains i
    match ch with
    | none => hashLoop c cr algo chains n (i + 1) buf ds
    | some ch =>
      let (res, buf) := writeChain ch buf
      let size ← res
      let data ← sliceTo buf size
      let d ← cr.digest c algo data
      let ds ← setIndex ds i (some d)
      hashLoop c cr algo chains n (i + 1) buf ds

/-- `hash_cert_chains`, src/responder/id_auth.rs 132-153. -/
def hashCertChains (c : Cfg) (cr : Crypto) (algo : UInt32)
    (chains : List (Option CertificateChain)) : Res (List (Option Bytes)) :=
  hashLoop c cr algo chains c.numSlots 0 (List.replicate c.maxCertChainSize 0)
    (List.replicate c.numSlots none)

/-- `handle_get_digests`, src/responder/id_auth.rs 113-130. -/
def handleGetDigests (c : Cfg) (cr : Crypto) (n : Negotiated)
    (chains : List (Option CertificateChain)) (req : Bytes) : H (Nat × RspState) := do
  let mask ← M.lift (createSlotMask c chains)
  let digests ← M.lift (hashCertChains c cr n.algorithms.baseHashAlgoSelected chains)
  let size ← H.write .digests (Digests.writeBody c ⟨mask, digests⟩)
  H.extend req
  let out ← H.rspTo size
  H.extend out
  pure (size, .idAuth n)

/-- The chain lookup and serialisation of src/responder/id_auth.rs 92-97: the buffer and the
`portion_length` (cast to `u16`). -/
def certPortion (c : Cfg) (chains : List (Option CertificateChain)) (slot : UInt8) :
    Res (Bytes × UInt16) := do
  let ch ← index chains slot.toNat
  match ch with
  | none => .ok (List.replicate c.maxCertChainSize 0, 0)
  | some ch =>
    let (res, buf) := writeChain ch (List.replicate c.maxCertChainSize 0)
    let size ← res
    pure (buf, UInt16.ofNat size)

/-- `handle_get_certificate`, src/responder/id_auth.rs 78-111. -/
def handleGetCertificate (c : Cfg) (n : Negotiated)
    (chains : List (Option CertificateChain)) (req : Bytes) : H (Nat × RspState) := do
  let body ← M.lift (sliceFrom req headerSize)
  let getCert ← M.lift (GetCertificate.parseBody body)
  if getCert.slot.toNat ≥ c.numSlots then M.fail .invalidSlot
  else
    let (certChain, portion) ← M.lift (certPortion c chains getCert.slot)
    let size ← H.write .certificate (Certificate.writeBody ⟨getCert.slot, portion, 0, certChain⟩)
    H.extend req
    let out ← H.rspTo size
    H.extend out
    pure (size, .challenge n)

/-- `id_auth::State::handle_msg`, src/responder/id_auth.rs 59-76. -/
def idAuthHandle (c : Cfg) (cr : Crypto) (n : Negotiated)
    (chains : List (Option CertificateChain)) (req : Bytes) : H (Nat × RspState) :=
  resetOnGetVersion req do
    let isDigests ← M.lift (MsgType.getDigests.parseHeader req)
    if isDigests then handleGetDigests c cr n chains req
    else
      M.lift (expect .getCertificate req)
      handleGetCertificate c n chains req

/-- `self.requester_cap.contains(MUT_AUTH_CAP) && self.responder_cap.contains(MUT_AUTH_CAP)`,
src/responder/challenge.rs 79-81. -/
def useMutualAuth (caps : Caps) : Bool :=
  (caps.requesterCap &&& ReqFlags.mutAuthCap == ReqFlags.mutAuthCap) &&
    (caps.responderCap &&& RspFlags.mutAuthCap == RspFlags.mutAuthCap)

/-- `ResponderError::from(WriteChallengeAuthError)`, src/responder/error.rs 103-107 with src/msgs/challenge.rs
102-118: a full buffer is reported as its own error. -/
def wrapChallengeAuth : Err → Err
  | .bufferFull => .challengeAuthFull
  | e => e

/-- `signer.sign(msg).map_err(|_| SigningFailed)`, src/responder/challenge.rs 123-125. -/
def signWith (slotNo : Nat) (slot : FilledSlot) (seed : Nat) (msg : Bytes) : H Bytes := fun h =>
  let h := { h with signed := h.signed ++ [(slotNo, msg)] }
  match slot.sign seed msg with
  | some s => (.ok s, h)
  | none => (.err .sign, h)

/-- `rsp[i..j].copy_from_slice(bs)`, src/responder/challenge.rs 128. -/
def patchRsp (i j : Nat) (bs : Bytes) : H Unit := fun h =>
  if i ≤ j ∧ j ≤ h.rsp.length then
    if bs.length = j - i then (.ok (), { h with rsp := h.rsp.take i ++ bs ++ h.rsp.drop j })
    else (.panic .copyLength, h)
  else (.panic .indexOutOfBounds, h)

/-- `size - n` on `usize`.  src/responder/challenge.rs 109. -/
def subChecked (a b : Nat) : Res Nat := if b ≤ a then .ok (a - b) else .panic .overflow

/-- The slot lookup of src/responder/challenge.rs 61-77: `slots.get(i)` is `Some(Some(slot))`. -/
def slotAt (slots : List (Option FilledSlot)) (i : Nat) : Res FilledSlot :=
  match slots[i]? with
  | some (some s) => .ok s
  | _ => .err .invalidSlot

/-- The serialisation and hashing of the slot's chain, src/responder/challenge.rs 63-74. -/
def chainDigest (c : Cfg) (cr : Crypto) (algo : UInt32) (ch : CertificateChain) : Res Bytes := do
  let (res, buf) := writeChain ch (List.replicate c.maxCertChainSize 0)
  let size ← res
  let data ← sliceTo buf size
  cr.digest c algo data

/-- `challenge::State::handle_msg`, src/responder/challenge.rs 45-134. -/
def challengeHandle (c : Cfg) (cr : Crypto) (env : Env) (n : Negotiated)
    (slots : List (Option FilledSlot)) (req : Bytes) : H (Nat × RspState) :=
  resetOnGetVersion req do
    M.lift (expect .challenge req)
    let digestSize ← M.lift (BaseHashAlgo.getDigestSize c n.algorithms.baseHashAlgoSelected)
    let sigSize ← M.lift (BaseAsymAlgo.getSignatureSize c n.algorithms.baseAsymAlgoSelected)
    let body ← M.lift (sliceFrom req headerSize)
    let msg ← M.lift (Challenge.parseBody c body)
    let slot ← M.lift (slotAt slots msg.slot.toNat)
    let digest ← M.lift (chainDigest c cr n.algorithms.baseHashAlgoSelected slot.certChain)
    H.extend req
    let mask ← M.lift (createSlotMask c slots)
    let auth ← M.lift (ChallengeAuth.new c msg.slot mask (useMutualAuth n.caps) digest env.nonce
      (List.replicate digestSize 0) (OpaqueData.dflt c) (List.replicate sigSize 0))
    let size ← M.mapErr wrapChallengeAuth (H.write .challengeAuth (auth.writeBody c))
    let sigStart ← M.lift (subChecked size sigSize)
    let out ← H.rspTo sigStart
    H.extend out
    let t ← H.transcript
    let m1 ← M.lift (cr.digest c n.algorithms.baseHashAlgoSelected t)
    let sig ← signWith msg.slot.toNat slot env.seed m1
    patchRsp sigStart size sig
    pure (size, .challenge n)

/-- `read_error_to_msgs_error`, src/responder/error.rs 152-161. -/
def readErrorToMsg : ReadError → ErrorMsg
  | .bufferEmpty => .requestTooLarge
  | .reservedByteNotZero => .invalidRequest
  | .unaligned => .unspecified
  | .tooManyBits => .unspecified
  | .typeConversionFailed => .unspecified

/-- `msgs::Error::from(&ResponderError)`, src/responder/error.rs 109-151.  Errors the responder cannot
return (they belong to parsers and state machines it does not use) fall in the last case. -/
def errorToMsg : Err → ErrorMsg
  | .parseHeader => .unexpectedRequest
  | .bufferFull => .largeResponse 0
  | .read e => readErrorToMsg e
  | .unexpectedMsg _ _ => .unexpectedRequest
  | .invalidSlot => .invalidRequest
  | .sign => .unspecified
  | .maxSizeExceeded => .largeResponse 0
  | .parseName => .unspecified
  | .invalidBitsSet => .invalidRequest
  | .tooLarge => .requestTooLarge
  | .maxAlgorithmRequestsExceeded => .invalidRequest
  | .invalidMeasurementSpec => .invalidRequest
  | .invalidBaseAsymAlgo => .invalidRequest
  | .invalidBaseHashAlgo => .invalidRequest
  | .algorithmRequestRead _ => .invalidRequest
  | .incorrectFixedAlgCount => .invalidRequest
  | .invalidFixedAlgorithm => .invalidRequest
  | .invalidAlgorithmType => .invalidRequest
  | .invalidMeasurementHashType => .invalidRequest
  | .challengeAuthFull => .responseTooLarge 0
  | .opaqueFull => .invalidRequest
  | .maxSlotNumberExceeded => .invalidRequest
  | .maxOpaqueDataSizeExceeded => .invalidRequest
  | .opaqueInvalidVendorIdLength => .invalidRequest
  | _ => .unspecified

/-- The dispatch of `AllStates::handle`, src/responder.rs 100-120. -/
def dispatch (c : Cfg) (cr : Crypto) (env : Env) (slots : List (Option FilledSlot))
    (st : RspState) (req : Bytes) : H (Nat × RspState) :=
  match st with
  | .version => versionHandle req
  | .capabilities => capabilitiesHandle c req
  | .algorithms caps => algorithmsHandle caps req
  | .idAuth n => idAuthHandle c cr n (slots.map (fun s => s.map (·.certChain))) req
  | .challenge n => challengeHandle c cr env n slots req
  | .error => M.die .unimplemented

/-- What `handle_msg` returns: the slice of the response buffer and the `Result` (`none` is
`Ok(())`).  src/responder.rs 177-187. -/
structure Output where
  out : Bytes
  error : Option Err
  deriving DecidableEq, Repr

/-- `AllStates::handle`, src/responder.rs 93-139. -/
def handle (c : Cfg) (cr : Crypto) (env : Env) (slots : List (Option FilledSlot))
    (st : RspState) (req : Bytes) : H (Output × RspState) := fun h =>
  match dispatch c cr env slots st req h with
  | (.ok (size, st'), h) =>
    match sliceTo h.rsp size with
    | .ok out => (.ok (⟨out, none⟩, st'), h)
    | .err e => (.err e, h)
    | .panic k => (.panic k, h)
  | (.err e, h) =>
    match H.write .error (errorToMsg e).writeBody h with
    | (.ok size, h) =>
      match sliceTo h.rsp size with
      | .ok out => (.ok (⟨out, some e⟩, .error), h)
      | .err e => (.err e, h)
      | .panic k => (.panic k, h)
    | (.err _, h) => (.ok (⟨[], some e⟩, .error), h)
    | (.panic k, h) => (.panic k, h)
  | (.panic k, h) => (.panic k, h)

end Responder

/-- `Responder`, src/responder.rs 156-162.  `signed` is the ghost log of signer calls. -/
structure Responder where
  slots : List (Option FilledSlot)
  transcript : Transcript
  state : Option RspState
  signed : List (Nat × Bytes)

namespace Responder

/-- `Responder::new`, src/responder.rs 165-173. -/
def new (c : Cfg) (slots : List (Option FilledSlot)) : Responder :=
  { slots, transcript := Transcript.new c, state := some .version, signed := [] }

/-- `Responder::handle_msg`, src/responder.rs 177-187: the request, the response buffer and the
environment of the call.  When the call panics the state stays taken (`None`). -/
def handleMsg (c : Cfg) (cr : Crypto) (env : Env) (req rsp : Bytes) : M Responder Output := fun r =>
  match r.state with
  | none => (.panic .unwrapNone, r)
  | some st =>
    match handle c cr env r.slots st req ⟨rsp, r.transcript, r.signed⟩ with
    | (.ok (o, st'), h) =>
      (.ok o, { r with transcript := h.tr, signed := h.signed, state := some st' })
    | (.err e, h) => (.err e, { r with transcript := h.tr, signed := h.signed, state := none })
    | (.panic k, h) => (.panic k, { r with transcript := h.tr, signed := h.signed, state := none })

/-- `Responder::reset`, src/responder.rs 208-211. -/
def reset (r : Responder) : Responder :=
  { r with transcript := r.transcript.clear, state := some .version }

/-- `AllStates::name`, src/responder.rs 142-151. -/
def stateText : RspState → String
  | .error => "Error"
  | .version => "Version"
  | .capabilities => "Capabilities"
  | .algorithms _ => "Algorithms"
  | .idAuth _ => "IdAuth"
  | .challenge _ => "Challenge"

/-- `responder.state().name()`, src/responder.rs 193-195 and 142-151: `state()` unwraps the option. -/
def name (r : Responder) : Res String :=
  match r.state with
  | some st => .ok (stateText st)
  | none => .panic .unwrapNone

end Responder
end Spdm

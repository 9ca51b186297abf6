import Verif.Requester
/-!
# The protocol states in full: src/requester.rs, src/requester/*.rs, src/responder.rs, src/responder/*.rs

`Requester.lean` and `Responder.lean` leave out the fields that are `None` whenever a state is stored and the requester's slots.  Here the public state structures have all their fields
and each public method is a function of its own, as a user can call it by hand; on top of them the endpoints are built once more.
-/
namespace Spdm

/-! ### The requester -/

namespace ReqFull
open Requester (writeTo configToGetCapabilities configToNegotiateAlgorithms unwrap ensureValidAlgorithmsSelected findMaxMatchingVersion checkSlot verifyCertChainAndSignature)

/-- Methods that take `self` or `&self` and the transcript.  For example src/requester/version.rs 14-25. -/
abbrev T := M Transcript

/-- Methods that take `&mut self` and the transcript.  For example src/requester/capabilities.rs 29-40. -/
abbrev S (σ : Type) := M (σ × Transcript)

/-- `transcript.extend(bs)?` in a `&mut self` method.  For example src/requester/capabilities.rs 36. -/
def extend {σ : Type} (bs : Bytes) : S σ Unit := fun p =>
  let (res, t) := Transcript.extend bs p.2
  (res, (p.1, t))

/-- Assignment to a field of `self`.  For example src/requester/capabilities.rs 37-38. -/
def assign {σ : Type} (f : σ → σ) : S σ Unit := fun p => (.ok (), (f p.1, p.2))

/-- `self`.  For example src/requester/challenge.rs 109-121. -/
def self {σ : Type} : S σ σ := fun p => (.ok p.1, p)

/-- `requester::capabilities::State`, src/requester/capabilities.rs 15-21. -/
structure Capabilities where
  version : VersionEntry
  requesterCt : Option UInt8
  requesterCap : Option UInt32
  responderCt : Option UInt8
  responderCap : Option UInt32
  deriving DecidableEq, Repr

/-- `requester::algorithms::State`, src/requester/algorithms.rs 19-27. -/
structure Algorithms where
  version : VersionEntry
  requesterCt : UInt8
  requesterCap : UInt32
  responderCt : UInt8
  responderCap : UInt32
  negotiateAlgorithms : Option NegotiateAlgorithms
  algorithms : Option Spdm.Algorithms
  deriving DecidableEq, Repr

/-- `requester::id_auth::State`, src/requester/id_auth.rs 31-44. -/
structure IdAuth where
  version : VersionEntry
  requesterCt : UInt8
  requesterCap : UInt32
  responderCt : UInt8
  responderCap : UInt32
  algorithms : Spdm.Algorithms
  digests : Option Digests
  certChain : Option Certificate
  deriving DecidableEq, Repr

/-- `requester::challenge::State`, src/requester/challenge.rs 77-88. -/
structure Challenge where
  version : VersionEntry
  requesterCt : UInt8
  requesterCap : UInt32
  responderCt : UInt8
  responderCap : UInt32
  algorithms : Spdm.Algorithms
  certSlot : UInt8
  certChain : Bytes
  certChainSize : UInt16
  nonce : Option Bytes
  deriving DecidableEq, Repr

/-- `algorithms::State::from(capabilities::State)`, src/requester/algorithms.rs 29-41. -/
def Algorithms.from (s : Capabilities) : Res Algorithms := do
  let requesterCt ← unwrap s.requesterCt
  let requesterCap ← unwrap s.requesterCap
  let responderCt ← unwrap s.responderCt
  let responderCap ← unwrap s.responderCap
  pure ⟨s.version, requesterCt, requesterCap, responderCt, responderCap, none, none⟩

/-- `id_auth::State::from(algorithms::State)`, src/requester/id_auth.rs 46-59. -/
def IdAuth.from (s : Algorithms) : Res IdAuth := do
  let algorithms ← unwrap s.algorithms
  pure ⟨s.version, s.requesterCt, s.requesterCap, s.responderCt, s.responderCap, algorithms, none, none⟩

/-- `challenge::State::from(id_auth::State)`, src/requester/challenge.rs 90-105. -/
def Challenge.from (s : IdAuth) : Res Challenge := do
  let cert ← unwrap s.certChain
  pure ⟨s.version, s.requesterCt, s.requesterCap, s.responderCt, s.responderCap, s.algorithms, cert.slot, cert.certChain, cert.portionLength, none⟩

/-- `transcript.clear()`.  src/requester/version.rs 22. -/
def clear : T Unit := fun t => (.ok (), t.clear)

/-- `version::State::write_get_version`, src/requester/version.rs 14-25. -/
def writeGetVersion (buf : Bytes) : T Bytes := do
  let out ← M.lift (writeTo .getVersion GetVersion.writeBody buf)
  clear
  Transcript.extend out
  pure out

/-- `version::State::handle_msg`, src/requester/version.rs 28-43. -/
def versionHandle (buf : Bytes) : T Capabilities := do
  M.lift (Responder.expect .version buf)
  let body ← M.lift (sliceFrom buf headerSize)
  let v ← M.lift (Version.parseBody body)
  let e ← M.lift (findMaxMatchingVersion v)
  match e with
  | some e =>
    Transcript.extend buf
    pure ⟨e, none, none, none, none⟩
  | none => M.fail .noSupportedVersions

/-- `capabilities::State::write_msg`, src/requester/capabilities.rs 29-40. -/
def Capabilities.writeMsg (c : Cfg) (buf : Bytes) : S Capabilities Bytes := do
  let msg ← M.lift (configToGetCapabilities c)
  let out ← M.lift (writeTo .getCapabilities msg.writeBody buf)
  extend out
  assign fun s => { s with requesterCt := some msg.ctExponent }
  assign fun s => { s with requesterCap := some msg.flags }
  pure out

/-- `capabilities::State::handle_msg`, src/requester/capabilities.rs 43-57. -/
def Capabilities.handleMsg (s : Capabilities) (buf : Bytes) : T Algorithms := do
  M.lift (Responder.expect .capabilities buf)
  let body ← M.lift (sliceFrom buf headerSize)
  let msg ← M.lift (Spdm.Capabilities.parseBody body)
  let s := { s with responderCt := some msg.ctExponent, responderCap := some msg.flags }
  Transcript.extend buf
  M.lift (Algorithms.from s)

/-- `algorithms::State::write_msg`, src/requester/algorithms.rs 46-56. -/
def Algorithms.writeMsg (c : Cfg) (buf : Bytes) : S Algorithms Bytes := do
  let msg ← M.lift (configToNegotiateAlgorithms c)
  let out ← M.lift (writeTo .negotiateAlgorithms msg.writeBody buf)
  assign fun s => { s with negotiateAlgorithms := some msg }
  extend out
  pure out

/-- `algorithms::State::handle_msg`, src/requester/algorithms.rs 62-73. -/
def Algorithms.handleMsg (buf : Bytes) : S Algorithms Unit := do
  M.lift (Responder.expect .algorithms buf)
  let body ← M.lift (sliceFrom buf headerSize)
  let a ← M.lift (Spdm.Algorithms.parseBody body)
  let s ← self
  M.lift (ensureValidAlgorithmsSelected s.negotiateAlgorithms a)
  assign fun s => { s with algorithms := some a }
  extend buf

/-- `id_auth::State::write_get_digests_msg`, src/requester/id_auth.rs 67-75. -/
def IdAuth.writeGetDigests (buf : Bytes) : S IdAuth Bytes := do
  let out ← M.lift (writeTo .getDigests GetDigests.writeBody buf)
  extend out
  pure out

/-- `id_auth::State::handle_digests`, src/requester/id_auth.rs 82-94. -/
def IdAuth.handleDigests (c : Cfg) (buf : Bytes) : S IdAuth Unit := do
  M.lift (Responder.expect .digests buf)
  let s ← self
  let size ← M.lift (BaseHashAlgo.getDigestSize c s.algorithms.baseHashAlgoSelected)
  let body ← M.lift (sliceFrom buf headerSize)
  let d ← M.lift (Digests.parseBody c size body)
  assign fun s => { s with digests := some d }
  extend buf

/-- `id_auth::State::write_get_certificate_msg`, src/requester/id_auth.rs 98-116, for any slot. -/
def IdAuth.writeGetCertificate (c : Cfg) (slot : UInt8) (buf : Bytes) : S IdAuth Bytes :=
  if ¬ (slot.toNat < c.numSlots) then M.die .assertion
  else do
    let msg : GetCertificate := ⟨slot, 0, UInt16.ofNat c.maxCertChainSize⟩
    let out ← M.lift (writeTo .getCertificate msg.writeBody buf)
    extend out
    pure out

/-- `id_auth::State::handle_certificate`, src/requester/id_auth.rs 119-129. -/
def IdAuth.handleCertificate (c : Cfg) (buf : Bytes) : S IdAuth Unit := do
  M.lift (Responder.expect .certificate buf)
  let body ← M.lift (sliceFrom buf headerSize)
  let cert ← M.lift (Certificate.parseBody c body)
  assign fun s => { s with certChain := some cert }
  extend buf

/-- The fields the verification uses, as the type `Requester.lean` uses for them (src/requester/challenge.rs 185-214). -/
def Challenge.toModel (s : Challenge) : ReqChallenge :=
  ⟨s.version, ⟨s.requesterCt, s.requesterCap, s.responderCt, s.responderCap⟩, s.algorithms, s.certSlot, s.certChain, s.certChainSize, s.nonce⟩

/-- `challenge::State::write_msg`, src/requester/challenge.rs 109-122. -/
def Challenge.writeMsg (env : Env) (buf : Bytes) : S Challenge Bytes := do
  let s ← self
  let msg : Spdm.Challenge := ⟨s.certSlot, .none, env.nonce⟩
  assign fun s => { s with nonce := some env.nonce }
  let out ← M.lift (writeTo .challenge msg.writeBody buf)
  extend out
  pure out

/-- `challenge::State::handle_msg`, src/requester/challenge.rs 127-183. -/
def Challenge.handleMsg (c : Cfg) (cr : Crypto) (s : Challenge) (buf root : Bytes) : T Unit := do
  M.lift (Responder.expect .challengeAuth buf)
  let digestSize ← M.lift (BaseHashAlgo.getDigestSize c s.algorithms.baseHashAlgoSelected)
  let sigSize ← M.lift (BaseAsymAlgo.getSignatureSize c s.algorithms.baseAsymAlgoSelected)
  let body ← M.lift (sliceFrom buf headerSize)
  let rsp ← M.lift (ChallengeAuth.parseBody c body digestSize sigSize)
  M.lift (checkSlot s.certSlot rsp)
  let chainBuf ← M.lift (sliceTo s.certChain s.certChainSize.toNat)
  let digest ← M.lift (cr.digest c s.algorithms.baseHashAlgoSelected chainBuf)
  if rsp.certChainHash ≠ digest then M.fail .digestMismatch
  else
    let sigStart ← M.lift (Responder.subChecked buf.length sigSize)
    let m2 ← M.lift (sliceTo buf sigStart)
    Transcript.extend m2
    let t ← M.get
    let m2Hash ← M.lift (cr.digest c s.algorithms.baseHashAlgoSelected t.get)
    M.lift (verifyCertChainAndSignature c cr s.toModel digestSize m2Hash rsp.signature root)

/-- `AllStates` of the requester, src/requester.rs 172-184. -/
inductive AllStates
  | error
  | version
  | capabilities (s : Capabilities)
  | algorithms (s : Algorithms)
  | idAuth (s : IdAuth)
  | challenge (s : Challenge)
  | newSession
  deriving DecidableEq, Repr

/-- A method of a state, called on the state inside `AllStates` (`match self { AllStates::X(state) => state.method(..) }` with `&mut self`).  src/requester.rs 216-246. -/
def AllStates.via {σ α : Type} (wrap : σ → AllStates) (s : σ) (m : S σ α) (t : Transcript) : Res α × AllStates × Transcript :=
  let (res, (s', t')) := m (s, t)
  (res, wrap s', t')

/-- `AllStates::write_req`, src/requester.rs 216-246. -/
def AllStates.writeReq (c : Cfg) (env : Env) (st : AllStates) (buf : Bytes) (t : Transcript) : Res Bytes × AllStates × Transcript :=
  match st with
  | .version => let (res, t') := writeGetVersion buf t; (res, .version, t')
  | .capabilities s => via .capabilities s (Capabilities.writeMsg c buf) t
  | .algorithms s => via .algorithms s (Algorithms.writeMsg c buf) t
  | .idAuth s => if s.digests.isNone then via .idAuth s (IdAuth.writeGetDigests buf) t else via .idAuth s (IdAuth.writeGetCertificate c 0 buf) t
  | .challenge s => via .challenge s (Challenge.writeMsg env buf) t
  | .error => (.panic .unimplemented, st, t)
  | .newSession => (.panic .unimplemented, st, t)

/-- A `&mut self` method called on a state that is owned (`mut state`): the state afterwards is the result.  src/requester.rs 248-296. -/
def owned {σ : Type} (s : σ) (m : S σ Unit) : T σ := fun t =>
  match m (s, t) with
  | (.ok _, (s', t')) => (.ok s', t')
  | (.err e, (_, t')) => (.err e, t')
  | (.panic k, (_, t')) => (.panic k, t')

/-- `AllStates::handle_msg`, src/requester.rs 248-295. -/
def AllStates.handleMsg (c : Cfg) (cr : Crypto) (st : AllStates) (rsp root : Bytes) : T AllStates :=
  match st with
  | .version => do
    let s ← versionHandle rsp
    pure (.capabilities s)
  | .capabilities s => do
    let s ← s.handleMsg rsp
    pure (.algorithms s)
  | .algorithms s => do
    let s ← owned s (Algorithms.handleMsg rsp)
    if (s.requesterCap &&& ReqFlags.certCap == ReqFlags.certCap) && (s.responderCap &&& RspFlags.certCap == RspFlags.certCap) then do
      let s ← M.lift (IdAuth.from s)
      pure (.idAuth s)
    else pure .newSession
  | .idAuth s =>
    if s.digests.isNone then do
      let s ← owned s (IdAuth.handleDigests c rsp)
      pure (.idAuth s)
    else do
      let s ← owned s (IdAuth.handleCertificate c rsp)
      if (s.requesterCap &&& ReqFlags.chalCap == ReqFlags.chalCap) && (s.responderCap &&& RspFlags.chalCap == RspFlags.chalCap) then do
        let s ← M.lift (Challenge.from s)
        pure (.challenge s)
      else pure .newSession
  | .challenge s => do
    s.handleMsg c cr rsp root
    pure .newSession
  | .error => M.die .unimplemented
  | .newSession => M.die .unimplemented

/-- `RequesterInit` with its `RequesterData`, src/requester.rs 51-71. -/
structure Requester where
  rootCert : Bytes
  slots : List (Option FilledSlot)
  transcript : Transcript
  state : Option AllStates

/-- `RequesterInit::new`, src/requester.rs 87-99. -/
def Requester.new (c : Cfg) (rootCert : Bytes) (slots : List (Option FilledSlot)) : Requester := ⟨rootCert, slots, Transcript.new c, some .version⟩

/-- `next_request`, src/requester.rs 107-116. -/
def Requester.nextRequest (c : Cfg) (env : Env) (buf : Bytes) : M Requester Bytes := fun r =>
  match r.state with
  | none => (.panic .unwrapNone, r)
  | some .newSession => (.err .initializationComplete, r)
  | some st =>
    let (res, st', t') := st.writeReq c env buf r.transcript
    (res, { r with state := some st', transcript := t' })

/-- `handle_msg`, src/requester.rs 123-146. -/
def Requester.handleMsg (c : Cfg) (cr : Crypto) (rsp : Bytes) : M Requester Bool := fun r =>
  match r.state with
  | none => (.panic .unwrapNone, r)
  | some st =>
    match st.handleMsg c cr rsp r.rootCert r.transcript with
    | (.ok st', t') => (.ok (st' = .newSession), { r with transcript := t', state := some st' })
    | (.err e, t') => (.err e, { r with transcript := t', state := some .error })
    | (.panic k, t') => (.panic k, { r with transcript := t', state := none })

end ReqFull

/-! ### The responder -/

namespace RspFull
open Responder (expect configToCapabilities chooseAlgorithms)

/-- `responder::capabilities::State`, src/responder/capabilities.rs 14-20. -/
structure Capabilities where
  requesterCt : Option UInt8
  requesterCap : Option UInt32
  responderCt : Option UInt8
  responderCap : Option UInt32
  deriving DecidableEq, Repr

/-- `responder::algorithms::State`, src/responder/algorithms.rs 13-20. -/
structure Algorithms where
  requesterCt : UInt8
  requesterCap : UInt32
  responderCt : UInt8
  responderCap : UInt32
  algorithms : Option Spdm.Algorithms
  deriving DecidableEq, Repr

/-- `responder::id_auth::State`, src/responder/id_auth.rs 33-40. -/
structure IdAuth where
  requesterCt : UInt8
  requesterCap : UInt32
  responderCt : UInt8
  responderCap : UInt32
  algorithms : Spdm.Algorithms
  deriving DecidableEq, Repr

/-- `responder::challenge::State`, src/responder/challenge.rs 20-27. -/
structure Challenge where
  requesterCt : UInt8
  requesterCap : UInt32
  responderCt : UInt8
  responderCap : UInt32
  algorithms : Spdm.Algorithms
  deriving DecidableEq, Repr

/-- `AllStates` of the responder, src/responder.rs 51-60. -/
inductive AllStates
  | error
  | version
  | capabilities (s : Capabilities)
  | algorithms (s : Algorithms)
  | idAuth (s : IdAuth)
  | challenge (s : Challenge)
  deriving DecidableEq, Repr

/-- `algorithms::State::from(capabilities::State)`, src/responder/algorithms.rs 22-32. -/
def Algorithms.from (s : Capabilities) : Res Algorithms := do
  let requesterCt ← Requester.unwrap s.requesterCt
  let requesterCap ← Requester.unwrap s.requesterCap
  let responderCt ← Requester.unwrap s.responderCt
  let responderCap ← Requester.unwrap s.responderCap
  pure ⟨requesterCt, requesterCap, responderCt, responderCap, none⟩

/-- `id_auth::State::from(algorithms::State)`, src/responder/id_auth.rs 42-52. -/
def IdAuth.from (s : Algorithms) : Res IdAuth := do
  let algorithms ← Requester.unwrap s.algorithms
  pure ⟨s.requesterCt, s.requesterCap, s.responderCt, s.responderCap, algorithms⟩

/-- `challenge::State::from(id_auth::State)`, src/responder/challenge.rs 29-39. -/
def Challenge.from (s : IdAuth) : Challenge := ⟨s.requesterCt, s.requesterCap, s.responderCt, s.responderCap, s.algorithms⟩

/-- `version::State::handle_get_version`, src/responder/version.rs 30-46. -/
def handleGetVersion (req : Bytes) : H (Nat × AllStates) := do
  let body ← M.lift (sliceFrom req headerSize)
  let _ ← M.lift (GetVersion.parseBody body)
  H.clear
  H.extend req
  let size ← H.write .version Version.default.writeBody
  let out ← H.rspTo size
  H.extend out
  pure (size, .capabilities ⟨none, none, none, none⟩)

/-- `version::State::handle_msg`, src/responder/version.rs 14-28. -/
def versionHandle (req : Bytes) : H (Nat × AllStates) :=
  match MsgType.getVersion.parseHeader req with
  | .ok true => handleGetVersion req
  | .ok false => do
    let got ← M.lift (index req 0)
    M.fail (.unexpectedMsg MsgType.getVersion.spdmCode got)
  | .err e => M.fail e
  | .panic k => M.die k

/-- `reset_on_get_version!`, src/responder.rs 221-237, followed by the rest of the handler. -/
def resetOnGetVersion (req : Bytes) (rest : H (Nat × AllStates)) : H (Nat × AllStates) :=
  match MsgType.getVersion.parseHeader req with
  | .ok true => versionHandle req
  | .ok false => rest
  | .err e => M.fail e
  | .panic k => M.die k

/-- `capabilities::State::handle_msg`, src/responder/capabilities.rs 33-54. -/
def Capabilities.handleMsg (c : Cfg) (s : Capabilities) (req : Bytes) : H (Nat × AllStates) :=
  resetOnGetVersion req do
    M.lift (expect .getCapabilities req)
    let body ← M.lift (sliceFrom req headerSize)
    let getCap ← M.lift (GetCapabilities.parseBody body)
    let s := { s with requesterCt := some getCap.ctExponent, requesterCap := some getCap.flags }
    H.extend req
    let supported ← M.lift (configToCapabilities c)
    let size ← H.write .capabilities supported.writeBody
    let out ← H.rspTo size
    H.extend out
    let s := { s with responderCt := some supported.ctExponent, responderCap := some supported.flags }
    let s ← M.lift (Algorithms.from s)
    pure (size, .algorithms s)

/-- `algorithms::State::handle_msg`, src/responder/algorithms.rs 37-55. -/
def Algorithms.handleMsg (s : Algorithms) (req : Bytes) : H (Nat × AllStates) :=
  resetOnGetVersion req do
    M.lift (expect .negotiateAlgorithms req)
    let body ← M.lift (sliceFrom req headerSize)
    let msg ← M.lift (NegotiateAlgorithms.parseBody body)
    H.extend req
    let algorithms ← M.lift (chooseAlgorithms msg)
    let size ← H.write .algorithms algorithms.writeBody
    let out ← H.rspTo size
    H.extend out
    let s := { s with algorithms := some algorithms }
    let s ← M.lift (IdAuth.from s)
    pure (size, .idAuth s)

/-- `handle_get_digests`, src/responder/id_auth.rs 113-130. -/
def IdAuth.handleGetDigests (c : Cfg) (cr : Crypto) (s : IdAuth) (chains : List (Option CertificateChain)) (req : Bytes) : H (Nat × AllStates) := do
  let mask ← M.lift (Responder.createSlotMask c chains)
  let digests ← M.lift (Responder.hashCertChains c cr s.algorithms.baseHashAlgoSelected chains)
  let size ← H.write .digests (Digests.writeBody c ⟨mask, digests⟩)
  H.extend req
  let out ← H.rspTo size
  H.extend out
  pure (size, .idAuth s)

/-- `handle_get_certificate`, src/responder/id_auth.rs 78-111. -/
def IdAuth.handleGetCertificate (c : Cfg) (s : IdAuth) (chains : List (Option CertificateChain)) (req : Bytes) : H (Nat × AllStates) := do
  let body ← M.lift (sliceFrom req headerSize)
  let getCert ← M.lift (GetCertificate.parseBody body)
  if getCert.slot.toNat ≥ c.numSlots then M.fail .invalidSlot
  else
    let (certChain, portion) ← M.lift (Responder.certPortion c chains getCert.slot)
    let size ← H.write .certificate (Certificate.writeBody ⟨getCert.slot, portion, 0, certChain⟩)
    H.extend req
    let out ← H.rspTo size
    H.extend out
    pure (size, .challenge (Challenge.from s))

/-- `id_auth::State::handle_msg`, src/responder/id_auth.rs 59-76. -/
def IdAuth.handleMsg (c : Cfg) (cr : Crypto) (s : IdAuth) (chains : List (Option CertificateChain)) (req : Bytes) : H (Nat × AllStates) :=
  resetOnGetVersion req do
    let isDigests ← M.lift (MsgType.getDigests.parseHeader req)
    if isDigests then s.handleGetDigests c cr chains req
    else
      M.lift (expect .getCertificate req)
      s.handleGetCertificate c chains req

/-- `challenge::State::handle_msg`, src/responder/challenge.rs 45-134. -/
def Challenge.handleMsg (c : Cfg) (cr : Crypto) (env : Env) (s : Challenge) (slots : List (Option FilledSlot)) (req : Bytes) : H (Nat × AllStates) :=
  resetOnGetVersion req do
    M.lift (expect .challenge req)
    let digestSize ← M.lift (BaseHashAlgo.getDigestSize c s.algorithms.baseHashAlgoSelected)
    let sigSize ← M.lift (BaseAsymAlgo.getSignatureSize c s.algorithms.baseAsymAlgoSelected)
    let body ← M.lift (sliceFrom req headerSize)
    let msg ← M.lift (Spdm.Challenge.parseBody c body)
    let slot ← M.lift (Responder.slotAt slots msg.slot.toNat)
    let digest ← M.lift (Responder.chainDigest c cr s.algorithms.baseHashAlgoSelected slot.certChain)
    let mutualAuth := (s.requesterCap &&& ReqFlags.mutAuthCap == ReqFlags.mutAuthCap) && (s.responderCap &&& RspFlags.mutAuthCap == RspFlags.mutAuthCap)
    H.extend req
    let mask ← M.lift (Responder.createSlotMask c slots)
    let auth ← M.lift (ChallengeAuth.new c msg.slot mask mutualAuth digest env.nonce
      (List.replicate digestSize 0) (OpaqueData.dflt c) (List.replicate sigSize 0))
    let size ← M.mapErr Responder.wrapChallengeAuth (H.write .challengeAuth (auth.writeBody c))
    let sigStart ← M.lift (Responder.subChecked size sigSize)
    let out ← H.rspTo sigStart
    H.extend out
    let t ← H.transcript
    let m1 ← M.lift (cr.digest c s.algorithms.baseHashAlgoSelected t)
    let sig ← Responder.signWith msg.slot.toNat slot env.seed m1
    Responder.patchRsp sigStart size sig
    pure (size, .challenge s)

/-- The dispatch of `AllStates::handle`, src/responder.rs 100-120. -/
def dispatch (c : Cfg) (cr : Crypto) (env : Env) (slots : List (Option FilledSlot)) (st : AllStates) (req : Bytes) : H (Nat × AllStates) :=
  match st with
  | .version => versionHandle req
  | .capabilities s => s.handleMsg c req
  | .algorithms s => s.handleMsg req
  | .idAuth s => s.handleMsg c cr (slots.map (fun s => s.map (·.certChain))) req
  | .challenge s => s.handleMsg c cr env slots req
  | .error => M.die .unimplemented

/-- `AllStates::handle`, src/responder.rs 93-139. -/
def handle (c : Cfg) (cr : Crypto) (env : Env) (slots : List (Option FilledSlot)) (st : AllStates) (req : Bytes) : H (Responder.Output × AllStates) := fun h =>
  match dispatch c cr env slots st req h with
  | (.ok (size, st'), h) =>
    match sliceTo h.rsp size with
    | .ok out => (.ok (⟨out, none⟩, st'), h)
    | .err e => (.err e, h)
    | .panic k => (.panic k, h)
  | (.err e, h) =>
    match H.write .error (Responder.errorToMsg e).writeBody h with
    | (.ok size, h) =>
      match sliceTo h.rsp size with
      | .ok out => (.ok (⟨out, some e⟩, .error), h)
      | .err e => (.err e, h)
      | .panic k => (.panic k, h)
    | (.err _, h) => (.ok (⟨[], some e⟩, .error), h)
    | (.panic k, h) => (.panic k, h)
  | (.panic k, h) => (.panic k, h)

/-- `Responder`, src/responder.rs 156-162, with the ghost log of signer calls. -/
structure Responder where
  slots : List (Option FilledSlot)
  transcript : Transcript
  state : Option AllStates
  signed : List (Nat × Bytes)

/-- `Responder::new`, src/responder.rs 165-173. -/
def Responder.new (c : Cfg) (slots : List (Option FilledSlot)) : Responder := ⟨slots, Transcript.new c, some .version, []⟩

/-- `Responder::handle_msg`, src/responder.rs 177-187. -/
def Responder.handleMsg (c : Cfg) (cr : Crypto) (env : Env) (req rsp : Bytes) : M Responder Spdm.Responder.Output := fun r =>
  match r.state with
  | none => (.panic .unwrapNone, r)
  | some st =>
    match handle c cr env r.slots st req ⟨rsp, r.transcript, r.signed⟩ with
    | (.ok (o, st'), h) => (.ok o, { r with transcript := h.tr, signed := h.signed, state := some st' })
    | (.err e, h) => (.err e, { r with transcript := h.tr, signed := h.signed, state := none })
    | (.panic k, h) => (.panic k, { r with transcript := h.tr, signed := h.signed, state := none })

/-- `Responder::reset`, src/responder.rs 208-211. -/
def Responder.reset (r : Responder) : Responder := { r with transcript := r.transcript.clear, state := some .version }

end RspFull
end Spdm

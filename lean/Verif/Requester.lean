import Verif.Responder
/-!
# The requester: src/requester.rs, src/requester/*.rs
-/
namespace Spdm

/-- `challenge::State` of the requester, src/requester/challenge.rs 77-88. -/
structure ReqChallenge where
  version : VersionEntry
  caps : Caps
  algorithms : Algorithms
  certSlot : UInt8
  certChain : Bytes
  certChainSize : UInt16
  nonce : Option Bytes
  deriving DecidableEq, Repr

/-- `AllStates` of the requester, src/requester.rs 172-184, with the fields of the state structs:
capabilities (src/requester/capabilities.rs 15-21; the responder fields are `None` while stored and
left out), algorithms (src/requester/algorithms.rs 19-27; `algorithms` is `None` while stored and left
out), id_auth (src/requester/id_auth.rs 31-44; `cert_chain` is `None` while stored and left out). -/
inductive ReqState
  | error
  | version
  | capabilities (version : VersionEntry) (ct : Option UInt8) (cap : Option UInt32)
  | algorithms (version : VersionEntry) (caps : Caps) (negotiate : Option NegotiateAlgorithms)
  | idAuth (version : VersionEntry) (caps : Caps) (algorithms : Algorithms)
      (digests : Option Digests)
  | challenge (s : ReqChallenge)
  | newSession
  deriving DecidableEq, Repr

/-- `RequesterInit` with its `RequesterData`, src/requester.rs 51-71.  `slots` (unused, "will
eventually be used for mutual auth") is left out. -/
structure Requester where
  rootCert : Bytes
  transcript : Transcript
  state : Option ReqState
  deriving DecidableEq, Repr

namespace Requester

/-- `RequesterInit::new`, src/requester.rs 87-99. -/
def new (c : Cfg) (rootCert : Bytes) : Requester :=
  { rootCert, transcript := Transcript.new c, state := some .version }

/-- `let size = msg.write(buf)?; … &buf[..size]`: the slice of the caller's buffer that holds the
serialised message.  For example src/requester/version.rs 19-24. -/
def writeTo (t : MsgType) (body : W Nat) (buf : Bytes) : Res Bytes :=
  let (res, buf) := t.write body buf
  do
    let size ← res
    sliceTo buf size

/-- `PartialOrd` derived for `VersionEntry`, src/msgs/version.rs 41-48: lexicographic in declaration
order (major, minor, update, alpha). -/
def versionLt (a b : VersionEntry) : Bool :=
  if a.major ≠ b.major then a.major < b.major
  else if a.minor ≠ b.minor then a.minor < b.minor
  else if a.update ≠ b.update then a.update < b.update
  else a.alpha < b.alpha

/-- The loop of `find_max_matching_version`, src/requester/version.rs 49-58 (inner loop 51-56: the
entry is one of the expected ones). -/
def findMaxLoop (entries expected : List VersionEntry) :
    Nat → Nat → VersionEntry → Res VersionEntry
  | 0, _, found => .ok found
  | n + 1, i, found => do
    let e ← index entries i
    let found := if versionLt found e then (if expected.contains e then e else found) else found
    findMaxLoop entries expected n (i + 1) found

/-- `find_max_matching_version`, src/requester/version.rs 45-65. -/
def findMaxMatchingVersion (v : Version) : Res (Option VersionEntry) := do
  let expected := Version.default.entries.take Version.default.numEntries.toNat
  let found ← findMaxLoop v.entries expected v.numEntries.toNat 0 VersionEntry.zero
  pure (if found = VersionEntry.zero then none else some found)

/-- `config_to_get_capabilities_msg`, src/requester/capabilities.rs 62-73. -/
def configToGetCapabilities (c : Cfg) : Res GetCapabilities := do
  let flags ← Responder.parseFlags ReqFlags.fromStr c.capabilities 0
  pure ⟨12, flags⟩

/-- The four requests of src/requester/algorithms.rs 200-216: DHE `FFDHE_3072 | SECP_384_R1`,
AEAD `AES_256_GCM | CHACHA20_POLY1305`, `ECDSA_ECC_NIST_P384 | ECDSA_ECC_NIST_P256`, `SPDM`
(bit values: src/msgs/algorithms.rs 137-144, 163-167, 186-196, 214-216). -/
def offeredRequests : List AlgorithmRequest :=
  [⟨.dhe, 0x02 ||| 0x10⟩, ⟨.aead, 0x02 ||| 0x04⟩, ⟨.reqBaseAsym, 0x80 ||| 0x10⟩, ⟨.keySchedule, 0x01⟩]

/-- `config_to_negotiate_algorithms_msg`, src/requester/algorithms.rs 183-218. -/
def configToNegotiateAlgorithms (c : Cfg) : Res NegotiateAlgorithms := do
  let asym ← Responder.parseFlags BaseAsymAlgo.fromStr c.asymSigning 0
  pure ⟨measurementSpecDmtf, asym, Crypto.supportedHashes c, 4, offeredRequests⟩

/-- Run `transcript.extend(bs)?` on a requester.  For example src/requester/version.rs 23. -/
def extend (bs : Bytes) : M Requester Unit := fun r =>
  let (res, t) := Transcript.extend bs r.transcript
  (res, { r with transcript := t })

/-- `transcript.clear()`.  src/requester/version.rs 22. -/
def clear : M Requester Unit := fun r => (.ok (), { r with transcript := r.transcript.clear })

/-- Assignment to the current state (`&mut self` of the state structs).  For example src/requester/capabilities.rs 37-38. -/
def setState (s : ReqState) : M Requester Unit := fun r => (.ok (), { r with state := some s })

/-- `AllStates::write_req`, src/requester.rs 216-246, with the `write_*` methods:
version (src/requester/version.rs 14-25), capabilities (src/requester/capabilities.rs 29-40), algorithms
(src/requester/algorithms.rs 46-56), id_auth (src/requester/id_auth.rs 67-75, 98-116; the slot is 0),
challenge (src/requester/challenge.rs 109-122). -/
def writeReq (c : Cfg) (env : Env) (st : ReqState) (buf : Bytes) : M Requester Bytes :=
  match st with
  | .version => do
    let out ← M.lift (writeTo .getVersion GetVersion.writeBody buf)
    clear
    extend out
    pure out
  | .capabilities v _ _ => do
    let msg ← M.lift (configToGetCapabilities c)
    let out ← M.lift (writeTo .getCapabilities msg.writeBody buf)
    extend out
    setState (.capabilities v (some msg.ctExponent) (some msg.flags))
    pure out
  | .algorithms v caps _ => do
    let msg ← M.lift (configToNegotiateAlgorithms c)
    let out ← M.lift (writeTo .negotiateAlgorithms msg.writeBody buf)
    setState (.algorithms v caps (some msg))
    extend out
    pure out
  | .idAuth _ _ _ none => do
    let out ← M.lift (writeTo .getDigests GetDigests.writeBody buf)
    extend out
    pure out
  | .idAuth _ _ _ (some _) =>
    if ¬ (0 < c.numSlots) then M.die .assertion
    else do
      let msg : GetCertificate := ⟨0, 0, UInt16.ofNat c.maxCertChainSize⟩
      let out ← M.lift (writeTo .getCertificate msg.writeBody buf)
      extend out
      pure out
  | .challenge s => do
    setState (.challenge { s with nonce := some env.nonce })
    let msg : Challenge := ⟨s.certSlot, .none, env.nonce⟩
    let out ← M.lift (writeTo .challenge msg.writeBody buf)
    extend out
    pure out
  | .error => M.die .unimplemented
  | .newSession => M.die .unimplemented

/-- `next_request`, src/requester.rs 107-116. -/
def nextRequest (c : Cfg) (env : Env) (buf : Bytes) : M Requester Bytes := fun r =>
  match r.state with
  | none => (.panic .unwrapNone, r)
  | some .newSession => (.err .initializationComplete, r)
  | some st => writeReq c env st buf r

/-- `ensure_algorithm_response_is_valid`, src/requester/algorithms.rs 122-176: every request of the
same kind must share a bit with the response (the four arms are the same code). -/
def ensureResponseLoop (reqs : List AlgorithmRequest) (rsp : AlgorithmRequest) :
    Nat → Nat → Res Unit
  | 0, _ => .ok ()
  | n + 1, i => do
    let a ← index reqs i
    if a.kind = rsp.kind ∧ a.supported &&& rsp.supported = 0 then
      .err (.selectedAlgorithmNotRequested 5)
    else ensureResponseLoop reqs rsp n (i + 1)

/-- The loop of src/requester/algorithms.rs 113-117. -/
def ensureResponses (requested : NegotiateAlgorithms) (rsps : List AlgorithmRequest) :
    Nat → Nat → Res Unit
  | 0, _ => .ok ()
  | n + 1, i => do
    let a ← index rsps i
    ensureResponseLoop requested.algorithmRequests a requested.numAlgorithmRequests.toNat 0
    ensureResponses requested rsps n (i + 1)

/-- `ensure_valid_algorithms_selected`, src/requester/algorithms.rs 77-120.  The number in the error
only tells the model's branches apart; the code has one error value. -/
def ensureValidAlgorithmsSelected (negotiate : Option NegotiateAlgorithms) (a : Algorithms) :
    Res Unit :=
  match negotiate with
  | none => .panic .unwrapNone
  | some requested =>
    if requested.measurementSpec ≠ a.measurementSpecSelected then
      .err (.selectedAlgorithmNotRequested 1)
    else if requested.baseAsymAlgo &&& a.baseAsymAlgoSelected = 0 then
      .err (.selectedAlgorithmNotRequested 2)
    else if requested.baseHashAlgo &&& a.baseHashAlgoSelected = 0 then
      .err (.selectedAlgorithmNotRequested 3)
    else if requested.baseHashAlgo &&& a.measurementHashAlgoSelected = 0 then
      .err (.selectedAlgorithmNotRequested 4)
    else ensureResponses requested a.algorithmResponses a.numAlgorithmResponses.toNat 0

/-- `self.requester_cap.contains(..) && self.responder_cap.contains(..)`, src/requester.rs
263-264, 278-279. -/
def bothHave (caps : Caps) (req rsp : UInt32) : Bool :=
  (caps.requesterCap &&& req == req) && (caps.responderCap &&& rsp == rsp)

/-- `UNIX_TIME`, src/requester/challenge.rs 35. -/
def unixTime : Nat := 1638316800

/-- `Option::unwrap`.  For example src/requester/algorithms.rs 33-36. -/
def unwrap {α : Type} : Option α → Res α
  | some a => .ok a
  | none => .panic .unwrapNone

/-- `verify_cert_chain_and_signature`, src/requester/challenge.rs 185-214. -/
def verifyCertChainAndSignature (c : Cfg) (cr : Crypto) (s : ReqChallenge) (digestSize : Nat)
    (m2Hash signature root : Bytes) : Res Unit := do
  let chainBuf ← sliceTo s.certChain s.certChainSize.toNat
  let chain ← CertificateChain.parse c chainBuf digestSize
  let leaf ← cr.newEndEntityCert c chain.leafCert
  cr.verifyChainOfTrust c leaf s.algorithms.baseAsymAlgoSelected chain.intermediateCerts root unixTime
  let ok ← cr.verifySignature c leaf s.algorithms.baseAsymAlgoSelected m2Hash signature
  if ok then .ok () else .err .invalidSignature

/-- `1 << slot` on `u8` (overflow checks on), src/requester/challenge.rs 151. -/
def slotBit (slot : UInt8) : Res UInt8 :=
  if slot.toNat < 8 then .ok (UInt8.ofNat (2 ^ slot.toNat)) else .panic .overflow

/-- The slot and slot mask checks, src/requester/challenge.rs 145-154 (`PROVISIONED_MASK` is 0x0F). -/
def checkSlot (certSlot : UInt8) (rsp : ChallengeAuth) : Res Unit :=
  if rsp.slot ≠ certSlot then .err .incorrectSlot
  else if rsp.slot ≠ 0x0F then do
    let bit ← slotBit rsp.slot
    if rsp.slotMask &&& bit = 0 then .err .slotNotInMask else .ok ()
  else .ok ()

/-- `challenge::State::handle_msg`, src/requester/challenge.rs 127-183. -/
def challengeHandle (c : Cfg) (cr : Crypto) (s : ReqChallenge) (buf : Bytes) :
    M Requester Unit := do
  M.lift (Responder.expect .challengeAuth buf)
  let digestSize ← M.lift (BaseHashAlgo.getDigestSize c s.algorithms.baseHashAlgoSelected)
  let sigSize ← M.lift (BaseAsymAlgo.getSignatureSize c s.algorithms.baseAsymAlgoSelected)
  let body ← M.lift (sliceFrom buf headerSize)
  let rsp ← M.lift (ChallengeAuth.parseBody c body digestSize sigSize)
  M.lift (checkSlot s.certSlot rsp)
  let chainBuf ← M.lift (sliceTo s.certChain s.certChainSize.toNat)
  let digest ← M.lift (cr.digest c s.algorithms.baseHashAlgoSelected chainBuf)
  if rsp.certChainHash ≠ digest then M.fail .digestMismatch
  else
    let sigStart ← M.lift (Responder.subChecked buf.length sigSize)
    let m2 ← M.lift (sliceTo buf sigStart)
    extend m2
    let r ← M.get
    let m2Hash ← M.lift (cr.digest c s.algorithms.baseHashAlgoSelected r.transcript.get)
    M.lift (verifyCertChainAndSignature c cr s digestSize m2Hash rsp.signature r.rootCert)

/-- `AllStates::handle_msg`, src/requester.rs 248-295, with the `handle_*` methods: version
(src/requester/version.rs 28-43), capabilities (src/requester/capabilities.rs 43-57, src/requester/algorithms.rs 29-41),
algorithms (src/requester/algorithms.rs 62-73), id_auth (src/requester/id_auth.rs 82-94, 119-129,
src/requester/challenge.rs 90-105). -/
def handle (c : Cfg) (cr : Crypto) (st : ReqState) (buf : Bytes) : M Requester ReqState :=
  match st with
  | .version => do
    M.lift (Responder.expect .version buf)
    let body ← M.lift (sliceFrom buf headerSize)
    let v ← M.lift (Version.parseBody body)
    let e ← M.lift (findMaxMatchingVersion v)
    match e with
    | some e =>
      extend buf
      pure (.capabilities e none none)
    | none => M.fail .noSupportedVersions
  | .capabilities v ct cap => do
    M.lift (Responder.expect .capabilities buf)
    let body ← M.lift (sliceFrom buf headerSize)
    let msg ← M.lift (Capabilities.parseBody body)
    extend buf
    let ct ← M.lift (unwrap ct)
    let cap ← M.lift (unwrap cap)
    pure (.algorithms v ⟨ct, cap, msg.ctExponent, msg.flags⟩ none)
  | .algorithms v caps negotiate => do
    M.lift (Responder.expect .algorithms buf)
    let body ← M.lift (sliceFrom buf headerSize)
    let a ← M.lift (Algorithms.parseBody body)
    M.lift (ensureValidAlgorithmsSelected negotiate a)
    extend buf
    pure (if bothHave caps ReqFlags.certCap RspFlags.certCap then .idAuth v caps a none
      else .newSession)
  | .idAuth v caps a none => do
    M.lift (Responder.expect .digests buf)
    let size ← M.lift (BaseHashAlgo.getDigestSize c a.baseHashAlgoSelected)
    let body ← M.lift (sliceFrom buf headerSize)
    let d ← M.lift (Digests.parseBody c size body)
    extend buf
    pure (.idAuth v caps a (some d))
  | .idAuth v caps a (some _) => do
    M.lift (Responder.expect .certificate buf)
    let body ← M.lift (sliceFrom buf headerSize)
    let cert ← M.lift (Certificate.parseBody c body)
    extend buf
    pure (if bothHave caps ReqFlags.chalCap RspFlags.chalCap then
        .challenge ⟨v, caps, a, cert.slot, cert.certChain, cert.portionLength, none⟩
      else .newSession)
  | .challenge s => do
    challengeHandle c cr s buf
    pure .newSession
  | .error => M.die .unimplemented
  | .newSession => M.die .unimplemented

/-- `handle_msg`, src/requester.rs 123-146.  When the call panics the state stays taken. -/
def handleMsg (c : Cfg) (cr : Crypto) (rsp : Bytes) : M Requester Bool := fun r =>
  match r.state with
  | none => (.panic .unwrapNone, r)
  | some st =>
    match handle c cr st rsp { r with state := none } with
    | (.ok st', r) => (.ok (st' = .newSession), { r with state := some st' })
    | (.err e, r) => (.err e, { r with state := some .error })
    | (.panic k, r) => (.panic k, r)

/-- `AllStates::name`, src/requester.rs 298-308. -/
def stateText : ReqState → String
  | .error => "Error"
  | .version => "Version"
  | .capabilities .. => "Capabilities"
  | .algorithms .. => "Algorithms"
  | .idAuth .. => "IdAuth"
  | .challenge .. => "Challenge"
  | .newSession => "NewSession"

/-- `requester.state().name()`, src/requester.rs 154-156 and 298-308: `state()` unwraps the option. -/
def name (r : Requester) : Res String := do
  let st ← unwrap r.state
  pure (stateText st)

end Requester
end Spdm

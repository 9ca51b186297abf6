import Verif.Requester
/-!
# The endpoints compiled without overflow checks

Cargo's release profile does not check arithmetic for overflow: `a - b` wraps and the shift amount of `1 << k` is taken modulo the width.  The rest of the model is the build
with overflow checks, where these operations panic.  Here are the functions of the code that contain such an operation on data of the peer, as the release profile executes them, and
the functions that call them.  The other sites are not repeated: the shifts of `Reader::get_bits` are by less than 8 (C04), those of `create_slot_mask`, `write_digests` and
`read_digests` by less than NUM_SLOTS, at most 8 (C53), and no other operation wraps in either profile (Verif/Basic.lean).
-/
namespace Spdm
namespace Unchecked

/-- `T::from_bits(1 << bits.trailing_zeros()).unwrap()` without the overflow check, src/responder/algorithms.rs 71-73 and the same expression in 77-79, 86-89, 94-97, 102-106, 111-115:
the trailing zeros of 0 are `width`, and `1 << width` is `1 << 0`. -/
def firstBit (width mask bits : Nat) : Res Nat :=
  let k := trailingZeros width bits % width
  if mask.testBit k then .ok (2 ^ k) else .panic .unwrapNone

/-- The loop of `choose_algorithms`, src/responder/algorithms.rs 83-121. -/
def chooseResponses (reqs : List AlgorithmRequest) : Nat → Nat → List AlgorithmRequest → Res (List AlgorithmRequest)
  | 0, _, rs => .ok rs
  | n + 1, i, rs => do
    let a ← index reqs i
    let b ← firstBit 16 a.kind.mask.toNat a.supported.toNat
    let rs ← setIndex rs i ⟨a.kind, UInt16.ofNat b⟩
    chooseResponses reqs n (i + 1) rs

/-- `choose_algorithms`, src/responder/algorithms.rs 66-124. -/
def chooseAlgorithms (req : NegotiateAlgorithms) : Res Algorithms := do
  let hash ← firstBit 32 BaseHashAlgo.all.toNat req.baseHashAlgo.toNat
  let asym ← firstBit 32 BaseAsymAlgo.all.toNat req.baseAsymAlgo.toNat
  let rs ← chooseResponses req.algorithmRequests req.numAlgorithmRequests.toNat 0 (List.replicate maxAlgorithmRequests AlgorithmRequest.dflt)
  pure ⟨req.measurementSpec, UInt32.ofNat hash, UInt32.ofNat asym, UInt32.ofNat hash, req.numAlgorithmRequests, rs⟩

/-- `size - n` on a 64-bit `usize`, wrapping: src/responder/challenge.rs 109, src/requester/challenge.rs 171. -/
def sub (a b : Nat) : Nat := if b ≤ a then a - b else a + 2 ^ 64 - b

/-- `algorithms::State::handle_msg`, src/responder/algorithms.rs 37-55. -/
def algorithmsHandle (caps : Caps) (req : Bytes) : H (Nat × RspState) :=
  Responder.resetOnGetVersion req do
    M.lift (Responder.expect .negotiateAlgorithms req)
    let body ← M.lift (sliceFrom req headerSize)
    let msg ← M.lift (NegotiateAlgorithms.parseBody body)
    H.extend req
    let algorithms ← M.lift (chooseAlgorithms msg)
    let size ← H.write .algorithms algorithms.writeBody
    let out ← H.rspTo size
    H.extend out
    pure (size, .idAuth ⟨caps, algorithms⟩)

/-- `challenge::State::handle_msg`, src/responder/challenge.rs 45-134. -/
def rspChallengeHandle (c : Cfg) (cr : Crypto) (env : Env) (n : Negotiated) (slots : List (Option FilledSlot)) (req : Bytes) : H (Nat × RspState) :=
  Responder.resetOnGetVersion req do
    M.lift (Responder.expect .challenge req)
    let digestSize ← M.lift (BaseHashAlgo.getDigestSize c n.algorithms.baseHashAlgoSelected)
    let sigSize ← M.lift (BaseAsymAlgo.getSignatureSize c n.algorithms.baseAsymAlgoSelected)
    let body ← M.lift (sliceFrom req headerSize)
    let msg ← M.lift (Challenge.parseBody c body)
    let slot ← M.lift (Responder.slotAt slots msg.slot.toNat)
    let digest ← M.lift (Responder.chainDigest c cr n.algorithms.baseHashAlgoSelected slot.certChain)
    H.extend req
    let mask ← M.lift (Responder.createSlotMask c slots)
    let auth ← M.lift (ChallengeAuth.new c msg.slot mask (Responder.useMutualAuth n.caps) digest env.nonce
      (List.replicate digestSize 0) (OpaqueData.dflt c) (List.replicate sigSize 0))
    let size ← M.mapErr Responder.wrapChallengeAuth (H.write .challengeAuth (auth.writeBody c))
    let sigStart ← M.lift (.ok (sub size sigSize))
    let out ← H.rspTo sigStart
    H.extend out
    let t ← H.transcript
    let m1 ← M.lift (cr.digest c n.algorithms.baseHashAlgoSelected t)
    let sig ← Responder.signWith msg.slot.toNat slot env.seed m1
    Responder.patchRsp sigStart size sig
    pure (size, .challenge n)

/-- The dispatch of `AllStates::handle`, src/responder.rs 100-120. -/
def dispatch (c : Cfg) (cr : Crypto) (env : Env) (slots : List (Option FilledSlot)) (st : RspState) (req : Bytes) : H (Nat × RspState) :=
  match st with
  | .version => Responder.versionHandle req
  | .capabilities => Responder.capabilitiesHandle c req
  | .algorithms caps => algorithmsHandle caps req
  | .idAuth n => Responder.idAuthHandle c cr n (slots.map (fun s => s.map (·.certChain))) req
  | .challenge n => rspChallengeHandle c cr env n slots req
  | .error => M.die .unimplemented

/-- `AllStates::handle`, src/responder.rs 93-139. -/
def rspHandle (c : Cfg) (cr : Crypto) (env : Env) (slots : List (Option FilledSlot)) (st : RspState) (req : Bytes) : H (Responder.Output × RspState) := fun h =>
  match dispatch c cr env slots st req h with
  | (.ok (size, st'), h) =>
    match sliceTo h.rsp size with
    | .ok out => (.ok (⟨out, none⟩, st'), h)
    | .err e => (.err e, h)
    | .panic k => (.panic k, h)
  | (.err e, h) =>
    match H.write .error (Responder.errorToMsg e).writeBody h with
    | (.ok size, h) =>
      match sliceTo h.rsp size with
      | .ok out => (.ok (⟨out, some e⟩, .error), h)
      | .err e => (.err e, h)
      | .panic k => (.panic k, h)
    | (.err _, h) => (.ok (⟨[], some e⟩, .error), h)
    | (.panic k, h) => (.panic k, h)
  | (.panic k, h) => (.panic k, h)

/-- `Responder::handle_msg`, src/responder.rs 177-187. -/
def respond (c : Cfg) (cr : Crypto) (env : Env) (req rsp : Bytes) : M Responder Responder.Output := fun r =>
  match r.state with
  | none => (.panic .unwrapNone, r)
  | some st =>
    match rspHandle c cr env r.slots st req ⟨rsp, r.transcript, r.signed⟩ with
    | (.ok (o, st'), h) => (.ok o, { r with transcript := h.tr, signed := h.signed, state := some st' })
    | (.err e, h) => (.err e, { r with transcript := h.tr, signed := h.signed, state := none })
    | (.panic k, h) => (.panic k, { r with transcript := h.tr, signed := h.signed, state := none })

/-- `1 << slot` on `u8` without the overflow check, src/requester/challenge.rs 151. -/
def slotBit (slot : UInt8) : UInt8 := UInt8.ofNat (2 ^ (slot.toNat % 8))

/-- The slot and slot mask checks, src/requester/challenge.rs 145-154. -/
def checkSlot (certSlot : UInt8) (rsp : ChallengeAuth) : Res Unit :=
  if rsp.slot ≠ certSlot then .err .incorrectSlot
  else if rsp.slot ≠ 0x0F then if rsp.slotMask &&& slotBit rsp.slot = 0 then .err .slotNotInMask else .ok ()
  else .ok ()

/-- `challenge::State::handle_msg`, src/requester/challenge.rs 127-183. -/
def reqChallengeHandle (c : Cfg) (cr : Crypto) (s : ReqChallenge) (buf : Bytes) : M Requester Unit := do
  M.lift (Responder.expect .challengeAuth buf)
  let digestSize ← M.lift (BaseHashAlgo.getDigestSize c s.algorithms.baseHashAlgoSelected)
  let sigSize ← M.lift (BaseAsymAlgo.getSignatureSize c s.algorithms.baseAsymAlgoSelected)
  let body ← M.lift (sliceFrom buf headerSize)
  let rsp ← M.lift (ChallengeAuth.parseBody c body digestSize sigSize)
  M.lift (checkSlot s.certSlot rsp)
  let chainBuf ← M.lift (sliceTo s.certChain s.certChainSize.toNat)
  let digest ← M.lift (cr.digest c s.algorithms.baseHashAlgoSelected chainBuf)
  if rsp.certChainHash ≠ digest then M.fail .digestMismatch
  else
    let sigStart ← M.lift (.ok (sub buf.length sigSize))
    let m2 ← M.lift (sliceTo buf sigStart)
    Requester.extend m2
    let r ← M.get
    let m2Hash ← M.lift (cr.digest c s.algorithms.baseHashAlgoSelected r.transcript.get)
    M.lift (Requester.verifyCertChainAndSignature c cr s digestSize m2Hash rsp.signature r.rootCert)

/-- `AllStates::handle_msg`, src/requester.rs 248-295: only the challenge state contains such an operation. -/
def reqHandle (c : Cfg) (cr : Crypto) (st : ReqState) (buf : Bytes) : M Requester ReqState :=
  match st with
  | .challenge s => do
    reqChallengeHandle c cr s buf
    pure .newSession
  | st => Requester.handle c cr st buf

/-- `handle_msg`, src/requester.rs 123-146. -/
def receive (c : Cfg) (cr : Crypto) (rsp : Bytes) : M Requester Bool := fun r =>
  match r.state with
  | none => (.panic .unwrapNone, r)
  | some st =>
    match reqHandle c cr st rsp { r with state := none } with
    | (.ok st', r) => (.ok (st' = .newSession), { r with state := some st' })
    | (.err e, r) => (.err e, { r with state := some .error })
    | (.panic k, r) => (.panic k, r)

end Unchecked
end Spdm

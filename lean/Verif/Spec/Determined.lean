import Verif.Spec.Errors
/-!
# Everything a responder checks, in order

One table per request: what has to hold, in the order in which it is looked at, and what happens if it is the first thing that does not - an error, or an abort.  The tables of the
parsers are those of Spec/Faults.lean.  Everything is said in terms of the bytes of the request, the conversation, the slots and the room.
-/
namespace Spdm.Spec
open Faults

/-- The code that `UnexpectedMsgCode` names as expected: the one request besides GET_VERSION that may come, or GET_CERTIFICATE where GET_DIGESTS may come, too. -/
def namedCode : Option UInt8 → UInt8
  | none => 0x84
  | some k => if k = 0x84 then 0xE1 else if k = 0xE1 then 0xE3 else if k = 0xE3 ∨ k = 0x81 then 0x82 else 0x83

/-- A chain can be sent: it is shorter than 64 KiB and fits MAX_CERT_CHAIN_SIZE. -/
def chainChecks (c : Cfg) (o : Option FilledSlot) (rest : Checks ResponderError) : Checks ResponderError :=
  need ((chainBytes o).length ≤ 65535) (.writeCertChain .maxSizeExceeded) <|
  need ((chainBytes o).length ≤ c.maxCertChainSize) (.writeCertChain .bufferFull) rest

/-- GET_DIGESTS looks at the chains one after the other: each can be sent and hashed. -/
def digestChecks (c : Cfg) (cr : Crypto) (h : Nat) : List (Option FilledSlot) → Checks ResponderError → Checks ResponderError
  | [], rest => rest
  | none :: slots, rest => digestChecks c cr h slots rest
  | some s :: slots, rest => chainChecks c (some s) <| orAbort (Digestible c cr h (Wire.chain s.certChain)) <| digestChecks c cr h slots rest

section
variable (c : Cfg) (cr : Crypto) (env : Env) (slots : List (Option FilledSlot)) (mask : UInt8) (room : Nat) (prev : Option UInt8) (l : Log) (req : Bytes)

/-- The reply (Spec/Reply.lean) fits the buffer, and with the request the transcript. -/
def replyChecks : Checks ResponderError :=
  need (∀ out, Reply c cr env slots prev l req out → out.length ≤ room) .bufferFull <|
  need (∀ out, Reply c cr env slots prev l req out → ((l.add req).add out).text.length ≤ c.transcriptSize) .bufferFull []

/-- CHALLENGE for the slot `s`, number `i`: the chain, the request in the transcript, the reply in the buffer (its opaque data are four bytes at the end of the unsigned part), the
unsigned reply in the transcript, and the signature. -/
def challengeChecks (i : UInt8) (s : FilledSlot) : Checks ResponderError :=
  let part := unsignedReply cr env l i mask s
  let text := l.text ++ req ++ part
  let signature := s.sign env.seed (cr.hash (UInt32.ofNat l.hash) text)
  chainChecks c (some s) <|
  orAbort (Digestible c cr l.hash (Wire.chain s.certChain)) <|
  need ((l.text ++ req).length ≤ c.transcriptSize) .bufferFull <|
  need (part.length ≤ room + 4) (.writeChallengeAuth .bufferFull) <|
  need (part.length ≤ room) (.writeChallengeAuth (.writeOpaqueElement .bufferFull)) <|
  need (part.length + sizeFor signatureSizes l.asym ≤ room) (.writeChallengeAuth .bufferFull) <|
  need (text.length ≤ c.transcriptSize) .bufferFull <|
  orAbort (Digestible c cr l.hash text) <|
  need (signature ≠ none) .signingFailed <|
  orAbort (∀ sig, signature = some sig → sig.length = sizeFor signatureSizes l.asym) []

/-- After the header of the request of code `k`. -/
def bodyChecks (k : UInt8) : Checks ResponderError :=
  if k = 0x84 then
    within .read (twoReserved (req.drop 2)) <| replyChecks c cr env slots room prev l req
  else if k = 0xE1 then
    within .parseGetCapabilities (getCapabilities (req.drop 2)) <| replyChecks c cr env slots room prev l req
  else if k = 0xE3 then
    within .parseNegotiateAlgorithms (negotiateAlgorithms (req.drop 2)) <|
    need ((l.text ++ req).length ≤ c.transcriptSize) .bufferFull <|
    orAbort (∀ m bs tail, req = [0x11, 0xE3] ++ bs ++ tail → Denotes c ⟨0, 0, false⟩ bs (.negotiateAlgorithms m) → NonEmptyOffer m) <|
    replyChecks c cr env slots room prev l req
  else if k = 0x81 then
    digestChecks c cr l.hash slots <| replyChecks c cr env slots room prev l req
  else if k = 0x82 then
    within .read (getCertificate (req.drop 2)) <|
    match slots[(req.getD 2 0).toNat]? with
    | none => need False .invalidSlot []
    | some o => chainChecks c o <| replyChecks c cr env slots room prev l req
  else
    orAbort (DigestUsable c l.hash) <|
    orAbort (SignatureUsable c l.asym) <|
    within .parseChallenge (challenge c (req.drop 2)) <|
    match slots[(req.getD 2 0).toNat]? with
    | some (some s) => challengeChecks c cr env mask room l req (req.getD 2 0) s
    | _ => need False .invalidSlot []

/-- Everything a responder checks about a request. -/
def requestChecks : Checks ResponderError :=
  orAbort (3 ≤ req.length) <|
  need (∃ k, code req = some k ∧ allowed prev k = true) (.unexpectedMsgCode (namedCode prev) (req.getD 0 0)) <|
  need (Awaited prev req) .parseHeader <|
  bodyChecks c cr env slots mask room prev l req (req.getD 1 0)

end
end Spdm.Spec

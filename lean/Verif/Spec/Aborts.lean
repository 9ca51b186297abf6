import Verif.Spec.Session
import Verif.Spec.Der
/-!
# What an endpoint needs to answer without aborting
-/
namespace Spdm.Spec

/-- The session's hash (word `h` of ALGORITHMS) is one the crypto provider computes: SHA-256, SHA-384 or SHA-512, and its digests fit
MAX_DIGEST_SIZE. -/
structure HashUsable (c : Cfg) (cr : Crypto) (h : Nat) : Prop where
  provider : c.provider = true
  known : h = 1 ∨ h = 2 ∨ h = 4
  size : sizeFor digestSizes h ≤ c.maxDigestSize
  fits : ∀ msg, (cr.hash (UInt32.ofNat h) msg).length ≤ c.maxDigestSize

/-- The session's signature algorithm (word `a` of ALGORITHMS) is a defined one whose signatures fit MAX_SIGNATURE_SIZE. -/
def SignatureUsable (c : Cfg) (a : Nat) : Prop :=
  ∃ i n : Nat, a = 2 ^ i ∧ signatureSizes[i]? = some n ∧ n ≤ c.maxSignatureSize

/-- Some slot holds a certificate chain. -/
def AnyFilled (slots : List (Option FilledSlot)) : Prop := ∃ s, some s ∈ slots

/-- The signer of every filled slot, asked to sign a digest, fails or produces a signature of `n` bytes. -/
def SignersFit (cr : Crypto) (slots : List (Option FilledSlot)) (seed h n : Nat) : Prop :=
  ∀ s data sig, some s ∈ slots → s.sign seed (cr.hash (UInt32.ofNat h) data) = some sig → sig.length = n

/-- What `req` needs in the conversation `l` so that the responder can answer it or refuse it: NEGOTIATE_ALGORITHMS must offer something in
every mask; GET_DIGESTS needs a usable hash if some slot is filled; CHALLENGE a usable hash and signature algorithm and signers that
produce signatures of the right length. -/
structure Answerable (c : Cfg) (cr : Crypto) (slots : List (Option FilledSlot)) (env : Env) (l : Log) (req : Bytes) : Prop where
  long : 3 ≤ req.length
  offer : code req = some 0xE3 → ∀ m, NegotiateAlgorithms.parseBody (req.drop 2) = .ok m → NonEmptyOffer m
  digests : code req = some 0x81 → AnyFilled slots → HashUsable c cr l.hash
  challenge : code req = some 0x83 → HashUsable c cr l.hash ∧ SignatureUsable c l.asym ∧ SignersFit cr slots env.seed l.hash (sizeFor signatureSizes l.asym)

/-! ### Requester -/

/-- A request has been sent, and no response accepted since. -/
def pending (es : List ReqEvent) : Bool :=
  es.foldl (fun b e => match e with | .next _ _ (.ok _) => true | .recv _ (.ok _) => false | _ => b) false

/-- The certificate chain bytes of the CERTIFICATE message `m`: as many bytes from byte 8 as the field at byte 4 says. -/
def carriedChain (m : Bytes) : Bytes := (m.drop 8).take (leVal (field m 4 2))

/-- MAX_SIGNATURE_SIZE is one for which the buffer for DER signatures suffices (C51). -/
def EncoderFits (c : Cfg) : Prop :=
  c.maxSignatureSize < 65000 ∧ c.maxSignatureSize % 2 = 0 ∧ c.maxSignatureSize ≠ 254 ∧ c.maxSignatureSize ≠ 510

/-- What the CHALLENGE_AUTH `rsp` and the CERTIFICATE message `cert` before it must be like so that the requester can accept or refuse the
CHALLENGE_AUTH; `ds` and `ss` are the digest and signature sizes of the session. -/
structure AuthData (c : Cfg) (ds ss : Nat) (cert rsp : Bytes) : Prop where
  /-- the opaque data of the response do not overflow the fixed-size arrays -/
  parse : (ChallengeAuth.parseBody c (rsp.drop 2) ds ss).isPanic = false
  /-- the response is not about slot 8 -/
  slot : ∀ b, rsp[2]? = some b → b.toNat % 16 ≠ 8
  /-- the certificates start with a SEQUENCE tag -/
  chain : (CertificateChain.parse c (carriedChain cert) ds).isPanic = false
  /-- neither half of the signature is zero -/
  halves : ∀ m, ChallengeAuth.parseBody c (rsp.drop 2) ds ss = .ok m → rawR m.signature ≠ 0 ∧ rawS m.signature ≠ 0

/-- What the CHALLENGE_AUTH `rsp` needs in the conversation `l`, after the CERTIFICATE message `cert`, so that the requester can accept it
or refuse it. -/
structure AuthReceivable (c : Cfg) (cr : Crypto) (l : Log) (cert rsp : Bytes) : Prop where
  hash : HashUsable c cr l.hash
  signature : SignatureUsable c l.asym
  /-- P-256 and P-384 are the algorithms the crypto provider verifies -/
  verifier : l.asym = 16 ∨ l.asym = 128
  encoder : EncoderFits c
  data : AuthData c (sizeFor digestSizes l.hash) (sizeFor signatureSizes l.asym) cert rsp

/-- What the response `rsp` needs after the history `es` so that the requester can accept it or refuse it. -/
structure Receivable (c : Cfg) (cr : Crypto) (es : List ReqEvent) (rsp : Bytes) : Prop where
  long : 3 ≤ rsp.length
  asked : pending es = true
  digests : code rsp = some 0x01 → sizeFor digestSizes (conversation (reqMsgs es)).hash ≤ c.maxDigestSize
  auth : code rsp = some 0x03 → ∀ cert, (accepted es)[4]? = some cert → AuthReceivable c cr (conversation (reqMsgs es)) cert rsp

end Spdm.Spec

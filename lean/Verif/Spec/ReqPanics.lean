import Verif.Spec.Panics
import Verif.Spec.Auth
import Verif.Spec.ParserPanics
/-!
# The responses that abort a requester

`ResponseAborts c cr root sent offered acc l rsp`: after the responses `acc` were accepted, in the conversation `l`, the response `rsp` aborts a requester that trusts `root`; `sent`
says whether a request is outstanding, `offered` whether a NEGOTIATE_ALGORITHMS request has been written since the last response. Everything is said in terms of bytes and of the conversation.
-/
namespace Spdm.Spec

/-- Since the last accepted response, a request was asked for with a buffer of at least the 48 bytes of NEGOTIATE_ALGORITHMS. -/
def offerMade (es : List ReqEvent) : Bool :=
  es.foldl (fun b e => match e with | .next _ buf _ => b || decide (48 ≤ buf.length) | .recv _ (.ok _) => false | _ => b) false

/-- What the signature in the CHALLENGE_AUTH `rsp` is over, in the conversation `l`. -/
def signedText (l : Log) (rsp : Bytes) : Bytes := l.text ++ rsp.take (rsp.length - sizeFor signatureSizes l.asym)

/-- The CHALLENGE_AUTH `rsp` with the fields of `m` is well-formed, for the slot of the CERTIFICATE message `cert`, which is marked as provisioned, and has the hash of the chain in it. -/
structure AuthMatches (c : Cfg) (cr : Crypto) (l : Log) (cert : Bytes) (m : ChallengeAuth) : Prop where
  slot : cert[2]? = some m.slot
  mask : m.slot.toNat < 8 ∧ m.slotMask.toNat.testBit m.slot.toNat = true
  digestible : Digestible c cr l.hash (carriedChain cert)
  hash : m.certChainHash = cr.hash (UInt32.ofNat l.hash) (carriedChain cert)

/-- The CHALLENGE_AUTHs that abort a requester in the conversation `l` after the CERTIFICATE message `cert`. -/
inductive AuthAborts (c : Cfg) (cr : Crypto) (root : Bytes) (l : Log) (cert : Bytes) : Bytes → Prop
  /-- Any, of at least three bytes, if the selected algorithms' digests or signatures do not fit the build's buffers. -/
  | sizes {tail : Bytes} (ht : tail ≠ []) (h : ¬ DigestUsable c l.hash ∨ ¬ SignatureUsable c l.asym) : AuthAborts c cr root l cert ([0x11, 0x03] ++ tail)
  /-- One that aborts the parser. -/
  | parser {bs tail : Bytes} (h1 : DigestUsable c l.hash) (h2 : SignatureUsable c l.asym)
      (h : BodyAborts c ⟨sizeFor digestSizes l.hash, sizeFor signatureSizes l.asym, false⟩ .challengeAuth bs) : AuthAborts c cr root l cert ([0x11, 0x03] ++ bs ++ tail)
  /-- One for slot 8, if the CERTIFICATE was for slot 8. -/
  | slot {bs tail : Bytes} {m : ChallengeAuth} (h1 : DigestUsable c l.hash) (h2 : SignatureUsable c l.asym)
      (hd : Denotes c ⟨sizeFor digestSizes l.hash, sizeFor signatureSizes l.asym, false⟩ bs (.challengeAuth m)) (hs : cert[2]? = some m.slot) (h8 : m.slot.toNat = 8) :
      AuthAborts c cr root l cert ([0x11, 0x03] ++ bs ++ tail)
  /-- One for the right slot, if the chain cannot be hashed. -/
  | chain {bs tail : Bytes} {m : ChallengeAuth} (h1 : DigestUsable c l.hash) (h2 : SignatureUsable c l.asym)
      (hd : Denotes c ⟨sizeFor digestSizes l.hash, sizeFor signatureSizes l.asym, false⟩ bs (.challengeAuth m)) (hs : cert[2]? = some m.slot)
      (hm : m.slot.toNat < 8 ∧ m.slotMask.toNat.testBit m.slot.toNat = true) (hx : ¬ Digestible c cr l.hash (carriedChain cert)) :
      AuthAborts c cr root l cert ([0x11, 0x03] ++ bs ++ tail)
  /-- One with the right slot and chain hash whose transcript fits but cannot be hashed. -/
  | text {bs tail : Bytes} {m : ChallengeAuth} (h1 : DigestUsable c l.hash) (h2 : SignatureUsable c l.asym)
      (hd : Denotes c ⟨sizeFor digestSizes l.hash, sizeFor signatureSizes l.asym, false⟩ bs (.challengeAuth m)) (hm : AuthMatches c cr l cert m)
      (ht : (signedText l ([0x11, 0x03] ++ bs ++ tail)).length ≤ c.transcriptSize) (hx : ¬ Digestible c cr l.hash (signedText l ([0x11, 0x03] ++ bs ++ tail))) :
      AuthAborts c cr root l cert ([0x11, 0x03] ++ bs ++ tail)
  /-- One with the right slot and chain hash, after a CERTIFICATE whose chain aborts the chain parser. -/
  | certs {bs tail : Bytes} {m : ChallengeAuth} (h1 : DigestUsable c l.hash) (h2 : SignatureUsable c l.asym)
      (hd : Denotes c ⟨sizeFor digestSizes l.hash, sizeFor signatureSizes l.asym, false⟩ bs (.challengeAuth m)) (hm : AuthMatches c cr l cert m)
      (ht : (signedText l ([0x11, 0x03] ++ bs ++ tail)).length ≤ c.transcriptSize) (hx : Digestible c cr l.hash (signedText l ([0x11, 0x03] ++ bs ++ tail)))
      (hc : ChainAborts c (sizeFor digestSizes l.hash) (carriedChain cert)) : AuthAborts c cr root l cert ([0x11, 0x03] ++ bs ++ tail)
  /-- One with the right slot and chain hash, after a CERTIFICATE with a readable chain and leaf, if the trust anchor is readable and the selected signature algorithm is not P-256 or P-384. -/
  | algorithm {bs tail : Bytes} {m : ChallengeAuth} {chain : CertificateChain} (h1 : DigestUsable c l.hash) (h2 : SignatureUsable c l.asym)
      (hd : Denotes c ⟨sizeFor digestSizes l.hash, sizeFor signatureSizes l.asym, false⟩ bs (.challengeAuth m)) (hm : AuthMatches c cr l cert m)
      (ht : (signedText l ([0x11, 0x03] ++ bs ++ tail)).length ≤ c.transcriptSize) (hx : Digestible c cr l.hash (signedText l ([0x11, 0x03] ++ bs ++ tail)))
      (hw : ChainWF c (sizeFor digestSizes l.hash) chain) (hc : carriedChain cert = Wire.chain chain) (leaf : cr.certOk chain.leafCert = true) (anchor : cr.anchorOk root = true)
      (ha : l.asym ≠ 16 ∧ l.asym ≠ 128) : AuthAborts c cr root l cert ([0x11, 0x03] ++ bs ++ tail)
  /-- One with the right slot and chain hash and a trusted chain, if half of the signature is zero. -/
  | signature {bs tail : Bytes} {m : ChallengeAuth} {chain : CertificateChain} (h1 : DigestUsable c l.hash) (h2 : SignatureUsable c l.asym)
      (hd : Denotes c ⟨sizeFor digestSizes l.hash, sizeFor signatureSizes l.asym, false⟩ bs (.challengeAuth m)) (hm : AuthMatches c cr l cert m)
      (ht : (signedText l ([0x11, 0x03] ++ bs ++ tail)).length ≤ c.transcriptSize) (hx : Digestible c cr l.hash (signedText l ([0x11, 0x03] ++ bs ++ tail)))
      (hw : ChainWF c (sizeFor digestSizes l.hash) chain) (hc : carriedChain cert = Wire.chain chain) (leaf : cr.certOk chain.leafCert = true) (anchor : cr.anchorOk root = true)
      (ha : l.asym = 16 ∨ l.asym = 128) (trust : cr.chainOk chain.leafCert (UInt32.ofNat l.asym) root chain.intermediateCerts 1638316800 = true)
      (hz : rawR m.signature = 0 ∨ rawS m.signature = 0) : AuthAborts c cr root l cert ([0x11, 0x03] ++ bs ++ tail)

inductive ResponseAborts (c : Cfg) (cr : Crypto) (root : Bytes) (sent offered : Bool) : List Bytes → Log → Bytes → Prop
  /-- Less than three bytes, at any time. -/
  | short {acc : List Bytes} {l : Log} {rsp : Bytes} (h : rsp.length < 3) : ResponseAborts c cr root sent offered acc l rsp
  /-- Any response after the last one of the handshake. -/
  | finished {acc : List Bytes} {l : Log} {rsp : Bytes} (h : acc.length = (path l).length) : ResponseAborts c cr root sent offered acc l rsp
  /-- CAPABILITIES, well-formed and fitting the transcript, that was not asked for. -/
  | capabilities {l : Log} {m0 tail : Bytes} {m : Capabilities} (hs : sent = false) (hm : OnlyBits rspFlagBit m.flags.toNat)
      (ht : l.text.length + ([0x11, 0x61] ++ Wire.capabilities m ++ tail).length ≤ c.transcriptSize) :
      ResponseAborts c cr root sent offered [m0] l ([0x11, 0x61] ++ Wire.capabilities m ++ tail)
  /-- ALGORITHMS, well-formed, before an offer was written. -/
  | algorithms {l : Log} {m0 m1 bs tail : Bytes} {a : Algorithms} (hs : offered = false) (hd : Denotes c ⟨0, 0, false⟩ bs (.algorithms a)) :
      ResponseAborts c cr root sent offered [m0, m1] l ([0x11, 0x63] ++ bs ++ tail)
  /-- Any DIGESTS, of at least three bytes, if the selected hash's digests do not fit the build's buffer. -/
  | digests {l : Log} {m0 m1 m2 tail : Bytes} (ht : tail ≠ []) (hb : l.both 1 = true) (h : ¬ DigestUsable c l.hash) :
      ResponseAborts c cr root sent offered [m0, m1, m2] l ([0x11, 0x01] ++ tail)
  /-- CHALLENGE_AUTH: see `AuthAborts`. -/
  | auth {l : Log} {m0 m1 m2 m3 cert rsp : Bytes} (hb : l.both 1 = true ∧ l.both 2 = true) (h : AuthAborts c cr root l cert rsp) :
      ResponseAborts c cr root sent offered [m0, m1, m2, m3, cert] l rsp

end Spdm.Spec

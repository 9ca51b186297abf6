import Verif.Spec.Reply
import Verif.Spec.Choice
/-!
# The requests that abort a responder

`RequestAborts c cr env slots room prev l req`: after the accepted request of code `prev`, in the conversation `l`, the request `req` aborts a responder whose response buffer has
`room` bytes. Everything is said in terms of bytes, the conversation and the slots.
-/
namespace Spdm.Spec

/-- The session's hash (word `h` of ALGORITHMS) is a defined one whose digests fit MAX_DIGEST_SIZE. -/
def DigestUsable (c : Cfg) (h : Nat) : Prop := ∃ i n : Nat, h = 2 ^ i ∧ digestSizes[i]? = some n ∧ n ≤ c.maxDigestSize

/-- A CHALLENGE with a tail. -/
def challengeBytes (i : UInt8) (t : MeasurementHashType) (nonce tail : Bytes) : Bytes := [0x11, 0x83, i, Wire.hashType t] ++ nonce ++ tail

/-- The reply to a CHALLENGE for the slot `s`, number `i`, up to the signature. -/
def unsignedReply (cr : Crypto) (env : Env) (l : Log) (i mask : UInt8) (s : FilledSlot) : Bytes :=
  authPart l i mask (cr.hash (UInt32.ofNat l.hash) (Wire.chain s.certChain)) env.nonce

inductive RequestAborts (c : Cfg) (cr : Crypto) (env : Env) (slots : List (Option FilledSlot)) (room : Nat) : Option UInt8 → Log → Bytes → Prop
  /-- Less than three bytes, at any time. -/
  | short {prev : Option UInt8} {l : Log} {req : Bytes} (h : req.length < 3) : RequestAborts c cr env slots room prev l req
  /-- NEGOTIATE_ALGORITHMS, after GET_CAPABILITIES, that offers nothing in some mask and fits the transcript. -/
  | emptyOffer {l : Log} {m : NegotiateAlgorithms} {bs tail : Bytes} (hm : Denotes c ⟨0, 0, false⟩ bs (.negotiateAlgorithms m)) (he : ¬ NonEmptyOffer m)
      (ht : l.text.length + ([0x11, 0xE3] ++ bs ++ tail).length ≤ c.transcriptSize) :
      RequestAborts c cr env slots room (some 0xE1) l ([0x11, 0xE3] ++ bs ++ tail)
  /-- GET_DIGESTS, after NEGOTIATE_ALGORITHMS or GET_DIGESTS, if the chain of some slot fits but cannot be hashed, and nothing is wrong with the slots before it. -/
  | digests {prev : UInt8} {l : Log} {tail : Bytes} {k : Nat} {s : FilledSlot} (hp : prev = 0xE3 ∨ prev = 0x81) (ht : tail ≠ []) (hs : slots[k]? = some (some s))
      (before : ∀ j s', j < k → slots[j]? = some (some s') → ChainFits c (some s') ∧ Digestible c cr l.hash (Wire.chain s'.certChain))
      (hfit : ChainFits c (some s)) (hd : ¬ Digestible c cr l.hash (Wire.chain s.certChain)) :
      RequestAborts c cr env slots room (some prev) l ([0x11, 0x81] ++ tail)
  /-- Any CHALLENGE, of at least one more byte, after GET_CERTIFICATE or CHALLENGE, if the selected algorithms' digests or signatures do not fit the build's buffers. -/
  | sizes {prev : UInt8} {l : Log} {tail : Bytes} (hp : prev = 0x82 ∨ prev = 0x83) (ht : tail ≠ []) (h : ¬ DigestUsable c l.hash ∨ ¬ SignatureUsable c l.asym) :
      RequestAborts c cr env slots room (some prev) l ([0x11, 0x83] ++ tail)
  /-- CHALLENGE for a filled slot whose chain fits but cannot be hashed. -/
  | chain {prev i : UInt8} {l : Log} {t : MeasurementHashType} {nonce tail : Bytes} {s : FilledSlot} (hp : prev = 0x82 ∨ prev = 0x83) (hn : nonce.length = c.nonceSize)
      (hs : slots[i.toNat]? = some (some s)) (hfit : ChainFits c (some s)) (hd : ¬ Digestible c cr l.hash (Wire.chain s.certChain)) :
      RequestAborts c cr env slots room (some prev) l (challengeBytes i t nonce tail)
  /-- CHALLENGE for a filled slot, if the reply fits the buffer and the transcript, and the transcript cannot be hashed or the signature is not of the right length. -/
  | sign {prev i mask : UInt8} {l : Log} {t : MeasurementHashType} {nonce tail : Bytes} {s : FilledSlot} (hp : prev = 0x82 ∨ prev = 0x83) (hn : nonce.length = c.nonceSize)
      (hs : slots[i.toNat]? = some (some s)) (hfit : ChainFits c (some s)) (hmask : MaskOf slots mask) (hd : Digestible c cr l.hash (Wire.chain s.certChain))
      (hb : (unsignedReply cr env l i mask s).length + sizeFor signatureSizes l.asym ≤ room)
      (ht : (l.text ++ challengeBytes i t nonce tail ++ unsignedReply cr env l i mask s).length ≤ c.transcriptSize)
      (hbad : ¬ Digestible c cr l.hash (l.text ++ challengeBytes i t nonce tail ++ unsignedReply cr env l i mask s) ∨
        ∃ sig, s.sign env.seed (cr.hash (UInt32.ofNat l.hash) (l.text ++ challengeBytes i t nonce tail ++ unsignedReply cr env l i mask s)) = some sig ∧
          sig.length ≠ sizeFor signatureSizes l.asym) :
      RequestAborts c cr env slots room (some prev) l (challengeBytes i t nonce tail)

end Spdm.Spec

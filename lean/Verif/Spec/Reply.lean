import Verif.Spec.Accepts
import Verif.Spec.Aborts
import Verif.Spec.Replay
import Verif.Spec.Config
/-!
# The replies of a responder

`Reply c cr env slots prev l req out`: after the accepted request of code `prev`, in the conversation `l`, the reply to `req` is `out`.
Everything is said in terms of bytes, the conversation and the slots.
-/
namespace Spdm.Spec

/-- The word with the bits of the named capabilities and no others. -/
def CapabilitiesWord (names : List String) (w : Nat) : Prop := w < 2 ^ 32 ∧ ∀ k, w.testBit k = true ↔ ∃ a ∈ names, (a, k) ∈ capabilityBits

/-- The serialised chain fits the build's buffer and the length field of CERTIFICATE. -/
def ChainFits (c : Cfg) (o : Option FilledSlot) : Prop := (chainBytes o).length ≤ c.maxCertChainSize ∧ (chainBytes o).length ≤ 65535

/-- The crypto provider computes digest `h` (SHA-256, SHA-384 or SHA-512) of `data`, and the digest fits MAX_DIGEST_SIZE. -/
def Digestible (c : Cfg) (cr : Crypto) (h : Nat) (data : Bytes) : Prop :=
  c.provider = true ∧ (h = 1 ∨ h = 2 ∨ h = 4) ∧ (cr.hash (UInt32.ofNat h) data).length ≤ c.maxDigestSize

inductive Reply (c : Cfg) (cr : Crypto) (env : Env) (slots : List (Option FilledSlot)) : Option UInt8 → Log → Bytes → Bytes → Prop
  /-- GET_VERSION, at any time: VERSION with 1.0 and 1.1. -/
  | version {prev : Option UInt8} {l : Log} {tail : Bytes} :
      Reply c cr env slots prev l ([0x10, 0x84, 0, 0] ++ tail) [0x10, 0x04, 0, 0, 0, 2, 0, 0x10, 0, 0x11]
  /-- GET_CAPABILITIES with defined flags, after GET_VERSION: the configured capabilities. -/
  | capabilities {l : Log} {m : GetCapabilities} {w : Nat} {tail : Bytes} (hm : OnlyBits reqFlagBit m.flags.toNat) (hw : CapabilitiesWord c.capabilities w) :
      Reply c cr env slots (some 0x84) l ([0x11, 0xE1] ++ Wire.getCapabilities m ++ tail) ([0x11, 0x61, 0, 0, 0, 12, 0, 0] ++ le 4 w)
  /-- NEGOTIATE_ALGORITHMS, after GET_CAPABILITIES: the lowest offered bit everywhere. -/
  | algorithms {l : Log} {m : NegotiateAlgorithms} {a : Algorithms} {bs tail : Bytes} (hm : Denotes c ⟨0, 0, false⟩ bs (.negotiateAlgorithms m)) (ha : Answers m a) :
      Reply c cr env slots (some 0xE1) l ([0x11, 0xE3] ++ bs ++ tail) ([0x11, 0x63] ++ Wire.algorithms a)
  /-- GET_DIGESTS, of at least one more byte, after NEGOTIATE_ALGORITHMS or GET_DIGESTS: mask and digests of the filled slots. -/
  | digests {prev mask : UInt8} {l : Log} {tail : Bytes} (hp : prev = 0xE3 ∨ prev = 0x81) (ht : tail ≠ []) (hmask : MaskOf slots mask)
      (hfit : ∀ s, some s ∈ slots → ChainFits c (some s) ∧ Digestible c cr l.hash (Wire.chain s.certChain)) :
      Reply c cr env slots (some prev) l ([0x11, 0x81] ++ tail) ([0x11, 0x01, 0, mask] ++ digestsOf (cr.hash (UInt32.ofNat l.hash)) slots)
  /-- GET_CERTIFICATE, after NEGOTIATE_ALGORITHMS or GET_DIGESTS, for a slot that exists: its whole chain, nothing if it is empty. -/
  | certificate {prev i : UInt8} {l : Log} {offset length : UInt16} {slot : Option FilledSlot} {tail : Bytes} (hp : prev = 0xE3 ∨ prev = 0x81)
      (hs : slots[i.toNat]? = some slot) (hfit : ChainFits c slot) :
      Reply c cr env slots (some prev) l ([0x11, 0x82, i, 0] ++ le 2 offset.toNat ++ le 2 length.toNat ++ tail)
        ([0x11, 0x02, i, 0] ++ le 2 (chainBytes slot).length ++ [0, 0] ++ chainBytes slot)
  /-- CHALLENGE, after GET_CERTIFICATE or CHALLENGE, for a filled slot, if the selected algorithms are usable: hash of the chain, nonce, and the
  slot's signature, of the right length, over the hash of the conversation. -/
  | challenge {prev i mask : UInt8} {l : Log} {t : MeasurementHashType} {nonce tail sig : Bytes} {slot : FilledSlot} (hp : prev = 0x82 ∨ prev = 0x83)
      (hn : nonce.length = c.nonceSize) (hs : slots[i.toNat]? = some (some slot)) (hfit : ChainFits c (some slot)) (hmask : MaskOf slots mask)
      (hds : sizeFor digestSizes l.hash ≤ c.maxDigestSize) (hss : SignatureUsable c l.asym)
      (hd : Digestible c cr l.hash (Wire.chain slot.certChain))
      (hd2 : Digestible c cr l.hash (l.text ++ ([0x11, 0x83, i, Wire.hashType t] ++ nonce ++ tail) ++ authPart l i mask (cr.hash (UInt32.ofNat l.hash) (Wire.chain slot.certChain)) env.nonce))
      (hsig : slot.sign env.seed (cr.hash (UInt32.ofNat l.hash)
        (l.text ++ ([0x11, 0x83, i, Wire.hashType t] ++ nonce ++ tail) ++ authPart l i mask (cr.hash (UInt32.ofNat l.hash) (Wire.chain slot.certChain)) env.nonce)) = some sig)
      (hsl : sig.length = sizeFor signatureSizes l.asym) :
      Reply c cr env slots (some prev) l ([0x11, 0x83, i, Wire.hashType t] ++ nonce ++ tail)
        (authPart l i mask (cr.hash (UInt32.ofNat l.hash) (Wire.chain slot.certChain)) env.nonce ++ sig)

end Spdm.Spec

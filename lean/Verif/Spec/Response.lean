import Verif.Spec.Reply
import Verif.Spec.Auth
/-!
# The responses a requester accepts

`Acceptable c cr root offer acc l rsp done`: with the responses `acc` accepted so far, in the conversation `l`, the response `rsp` is acceptable to a requester that
offered the algorithms `offer` and trusts `root`; `done` says whether the handshake is then complete.
-/
namespace Spdm.Spec

/-- What a requester offers that was built from the configuration `i`, with (`crypto`) or without a crypto provider: P-256 if it may sign, SHA-256, SHA-384 and SHA-512
(SHA-256 only without a provider), DHE FFDHE-3072 and SECP384R1, AEAD AES-256-GCM and CHACHA20, P-256 and P-384 in the other direction, the SPDM key schedule. -/
def builtOffer (crypto : Bool) (i : SpdmConfig) : NegotiateAlgorithms :=
  ⟨1, if i.asymmetricSigning = [] then 0 else 0x10, if crypto then 7 else 1, 4, [⟨.dhe, 0x12⟩, ⟨.aead, 6⟩, ⟨.reqBaseAsym, 0x90⟩, ⟨.keySchedule, 1⟩]⟩

inductive Acceptable (c : Cfg) (cr : Crypto) (root : Bytes) (offer : NegotiateAlgorithms) : List Bytes → Log → Bytes → Bool → Prop
  /-- VERSION that lists 1.0 or 1.1. -/
  | version {l : Log} {v : Version} {bs tail : Bytes} (hd : Denotes c ⟨0, 0, false⟩ bs (.version v)) (hv : ∃ e ∈ listed v, e ∈ supportedVersions) :
      Acceptable c cr root offer [] l ([0x10, 0x04] ++ bs ++ tail) false
  /-- CAPABILITIES with defined flags. -/
  | capabilities {l : Log} {m0 tail : Bytes} {m : Capabilities} (hm : OnlyBits rspFlagBit m.flags.toNat) :
      Acceptable c cr root offer [m0] l ([0x11, 0x61] ++ Wire.capabilities m ++ tail) false
  /-- ALGORITHMS that selects only what was offered; the last response if one side cannot do certificates. -/
  | algorithms {l : Log} {m0 m1 bs tail : Bytes} {a : Algorithms} (hd : Denotes c ⟨0, 0, false⟩ bs (.algorithms a)) (hs : SelectedFrom offer a) :
      Acceptable c cr root offer [m0, m1] l ([0x11, 0x63] ++ bs ++ tail) (! l.both 1)
  /-- DIGESTS with digests of the selected algorithm's size; none is checked here. -/
  | digests {l : Log} {m0 m1 m2 bs tail : Bytes} {d : Digests} (hz : sizeFor digestSizes l.hash ≤ c.maxDigestSize)
      (hd : Denotes c ⟨sizeFor digestSizes l.hash, 0, false⟩ bs (.digests d)) :
      Acceptable c cr root offer [m0, m1, m2] l ([0x11, 0x01] ++ bs ++ tail) false
  /-- CERTIFICATE whose portion fits the buffer; the last response if one side cannot do challenges. -/
  | certificate {l : Log} {m0 m1 m2 m3 tail portion : Bytes} {slot : UInt8} {remainder : Nat} (hp : portion.length ≤ c.maxCertChainSize) (h16 : portion.length < 65536)
      (hr : remainder < 65536) :
      Acceptable c cr root offer [m0, m1, m2, m3] l ([0x11, 0x02, slot, 0] ++ le 2 portion.length ++ le 2 remainder ++ portion ++ tail) (! l.both 2)
  /-- CHALLENGE_AUTH for the slot of the CERTIFICATE message, with the hash of the chain in it, signed by the chain's leaf over the hash of the conversation. -/
  | auth {l : Log} {m0 m1 m2 m3 cert bs tail tail' : Bytes} {slot : UInt8} {rem : Nat} {chain : CertificateChain} {m : ChallengeAuth} {der : Bytes}
      (hcert : cert = [0x11, 0x02, slot, 0] ++ le 2 (Wire.chain chain).length ++ le 2 rem ++ Wire.chain chain ++ tail')
      (hchain : ChainWF c (sizeFor digestSizes l.hash) chain)
      (hds : sizeFor digestSizes l.hash ≤ c.maxDigestSize) (hss : sizeFor signatureSizes l.asym ≤ c.maxSignatureSize) (ha : l.asym = 16 ∨ l.asym = 128)
      (hd : Denotes c ⟨sizeFor digestSizes l.hash, sizeFor signatureSizes l.asym, false⟩ bs (.challengeAuth m))
      (hslot : m.slot = slot) (hmask : m.slot.toNat < 8 ∧ m.slotMask.toNat.testBit m.slot.toNat = true)
      (hh : Digestible c cr l.hash (Wire.chain chain)) (hash : m.certChainHash = cr.hash (UInt32.ofNat l.hash) (Wire.chain chain))
      (hm2 : Digestible c cr l.hash (l.text ++ ([0x11, 0x03] ++ bs ++ tail).take (([0x11, 0x03] ++ bs ++ tail).length - sizeFor signatureSizes l.asym)))
      (leaf : cr.certOk chain.leafCert = true) (anchor : cr.anchorOk root = true)
      (trust : cr.chainOk chain.leafCert (UInt32.ofNat l.asym) root chain.intermediateCerts 1638316800 = true)
      (hder : IsDerSignature der (rawR m.signature) (rawS m.signature))
      (sig : cr.sigOk chain.leafCert (UInt32.ofNat l.asym) (cr.hash (UInt32.ofNat l.hash)
        (l.text ++ ([0x11, 0x03] ++ bs ++ tail).take (([0x11, 0x03] ++ bs ++ tail).length - sizeFor signatureSizes l.asym))) der = true) :
      Acceptable c cr root offer [m0, m1, m2, m3, cert] l ([0x11, 0x03] ++ bs ++ tail) true

end Spdm.Spec

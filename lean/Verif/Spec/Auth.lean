import Verif.Spec.Session
import Verif.Spec.Der
/-!
# What an accepted CHALLENGE_AUTH establishes
-/
namespace Spdm.Spec

/-- What the requester knows once it has accepted the CHALLENGE_AUTH `rsp` in the conversation `l`, after the CERTIFICATE response `cert`:
both messages are about `slot`; the CERTIFICATE carries the chain `chain`; the CHALLENGE_AUTH has the slot's bit in its mask, carries the
hash of that very chain, and `sig`; the verifier accepts the leaf, the trust anchor `root`, the path from the leaf to the anchor, and the DER
form of `sig` as the leaf's signature over the hash of the transcript up to the signature. -/
structure Authenticated (c : Cfg) (cr : Crypto) (root : Bytes) (l : Log) (cert rsp : Bytes) (slot : UInt8) (chain : CertificateChain) (nonce sig : Bytes) : Prop where
  certificate : ∃ rem tail, cert = [0x11, 0x02, slot, 0] ++ le 2 (Wire.chain chain).length ++ le 2 rem ++ Wire.chain chain ++ tail
  chainSize : (Wire.chain chain).length < 65536
  slotOk : slot.toNat < 8 ∧ slot.toNat ≤ c.numSlots
  response : ∃ (b mask : UInt8) (summary : Bytes) (olen : Nat) (opq tail : Bytes), rsp = [0x11, 0x03, b, mask] ++
      cr.hash (UInt32.ofNat l.hash) (Wire.chain chain) ++ nonce ++ summary ++ le 2 olen ++ opq ++ sig ++ tail ∧
    b.toNat % 16 = slot.toNat ∧ mask.toNat.testBit slot.toNat = true ∧ summary.length = sizeFor digestSizes l.hash
  nonceSize : nonce.length = c.nonceSize
  hashSize : (cr.hash (UInt32.ofNat l.hash) (Wire.chain chain)).length = sizeFor digestSizes l.hash
  sigSize : sig.length = sizeFor signatureSizes l.asym
  leaf : cr.certOk chain.leafCert = true
  anchor : cr.anchorOk root = true
  trust : cr.chainOk chain.leafCert (UInt32.ofNat l.asym) root chain.intermediateCerts 1638316800 = true
  signature : ∃ der, IsDerSignature der (rawR sig) (rawS sig) ∧
    cr.sigOk chain.leafCert (UInt32.ofNat l.asym) (cr.hash (UInt32.ofNat l.hash) (l.text ++ rsp.take (rsp.length - sig.length))) der = true

end Spdm.Spec

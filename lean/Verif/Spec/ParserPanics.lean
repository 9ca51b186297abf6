import Verif.Spec.Accepts
/-!
# Bytes that abort a parser

Stated with the layouts of `Wire`; none of the parsers is used.
-/
namespace Spdm.Spec

/-- Opaque data that overflow the fixed arrays: after the count and three reserved bytes come elements that are fine, and then ... -/
inductive OpaqueOverflow (c : Cfg) : Bytes → Prop
  /-- ... an announced element with more data than MAX_OPAQUE_ELEMENT_DATA_SIZE, all of it present; -/
  | data {count : UInt8} {es : List OpaqueElement} {id : VendorRegistryId} {v : VendorId} {d : Bytes} (hc : es.length < count.toNat) (hm : es.length ≤ c.maxOpaqueElements)
      (he : ∀ e ∈ es, OpaqueElementWF c e) (hv : Wire.vendorIdLen v = Wire.registryIdLen id) (hd : c.maxOpaqueElementDataSize < d.length) (h16 : d.length < 65536) :
      OpaqueOverflow c ([count] ++ zeros 3 ++ es.flatMap Wire.opaqueElement ++ [Wire.registry id] ++ Wire.vendorId v ++ le 2 d.length ++ d)
  /-- ... one element more than MAX_OPAQUE_ELEMENTS, announced by the count. -/
  | count {count : UInt8} {es : List OpaqueElement} (hc : es.length ≤ count.toNat) (hm : es.length = c.maxOpaqueElements + 1) (he : ∀ e ∈ es, OpaqueElementWF c e) :
      OpaqueOverflow c ([count] ++ zeros 3 ++ es.flatMap Wire.opaqueElement)

/-- The first bytes of a body of type `t` that abort its parser. -/
inductive BodyAborts (c : Cfg) (x : Ctx) : MsgType → Bytes → Prop
  /-- CHALLENGE_AUTH with overflowing opaque data. -/
  | challengeAuth {b mask : UInt8} {hash nonce sum od : Bytes} {len : Nat} (hs : b.toNat % 16 ≤ c.numSlots) (h1 : hash.length = x.digestSize) (h2 : nonce.length = c.nonceSize)
      (h3 : sum.length = x.digestSize) (hl : len ≤ 1024) (ho : OpaqueOverflow c od) :
      BodyAborts c x .challengeAuth ([b, mask] ++ hash ++ nonce ++ sum ++ le 2 len ++ od)
  /-- MEASUREMENTS with one block more than MAX_MEASUREMENT_BLOCKS, announced by the block count. -/
  | blocks {total b num : UInt8} {size : Nat} {bs : List MeasurementBlock} (ht : total.toNat ≤ c.maxMeasurementBlocks) (hs : b.toNat % 16 ≤ c.numSlots) (hcc : b.toNat / 16 % 4 ≠ 3)
      (hz : size ≤ c.maxMeasurementSize * c.maxMeasurementBlocks) (h24 : size < 2 ^ 24) (hn : bs.length ≤ num.toNat) (hm : bs.length = c.maxMeasurementBlocks + 1)
      (hb : ∀ y ∈ bs, BlockWF c y) : BodyAborts c x .measurements ([total, b, num] ++ le 3 size ++ bs.flatMap Wire.measurementBlock)
  /-- MEASUREMENTS with overflowing opaque data. -/
  | measurements {total b : UInt8} {m : MeasurementBlocks} {nonce od : Bytes} {len : Nat} (ht : total.toNat ≤ c.maxMeasurementBlocks) (hs : b.toNat % 16 ≤ c.numSlots)
      (hcc : b.toNat / 16 % 4 ≠ 3) (hb : BlocksWF c m) (hz : ((Wire.blockList m).flatMap Wire.measurementBlock).length ≤ c.maxMeasurementSize * c.maxMeasurementBlocks)
      (h24 : ((Wire.blockList m).flatMap Wire.measurementBlock).length < 2 ^ 24) (h2 : nonce.length = c.nonceSize) (hl : len ≤ 1024) (ho : OpaqueOverflow c od) :
      BodyAborts c x .measurements ([total, b] ++ Wire.measurementBlocks m ++ nonce ++ le 2 len ++ od)

/-- A certificate chain buffer that aborts the chain parser: the right total length, two reserved bytes, the root hash, at most MAX_CERT_CHAIN_DEPTH certificates, and
where the next one should start, a byte that is not the tag of a DER SEQUENCE. -/
def ChainAborts (c : Cfg) (digestSize : Nat) (buf : Bytes) : Prop :=
  ∃ (root : Bytes) (certs : List Bytes) (tag : UInt8) (rest : Bytes), root.length = digestSize ∧ certs.length ≤ c.maxCertChainDepth ∧ (∀ x ∈ certs, IsSequence x) ∧
    tag ≠ 0x30 ∧ buf.length < 65536 ∧ buf = le 2 buf.length ++ zeros 2 ++ root ++ certs.flatten ++ [tag] ++ rest

end Spdm.Spec

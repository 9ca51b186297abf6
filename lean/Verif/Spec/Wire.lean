import Verif.Spec
import Verif.Msgs.Version
import Verif.Msgs.Capabilities
import Verif.Msgs.Algorithms
import Verif.Msgs.Digest
import Verif.Msgs.Certificates
import Verif.Msgs.Challenge
import Verif.Msgs.Error
import Verif.Msgs.Measurements
/-!
# Wire layouts

The byte layout of every message body (everything after the two header bytes), written down
directly from the message descriptions, and the well-formedness conditions of messages.
Only the data types of the model are used, none of its functions.
-/
namespace Spdm.Spec

/-- Two 4-bit fields in one byte. -/
def nibbles (lo hi : UInt8) : UInt8 := UInt8.ofNat (lo.toNat + 16 * hi.toNat)

namespace Wire

/-- Protocol version and request/response code of each message. -/
def header : MsgType → Bytes
  | .getVersion => [0x10, 0x84] | .version => [0x10, 0x04]
  | .getCapabilities => [0x11, 0xE1] | .capabilities => [0x11, 0x61]
  | .negotiateAlgorithms => [0x11, 0xE3] | .algorithms => [0x11, 0x63]
  | .getDigests => [0x11, 0x81] | .digests => [0x11, 0x01]
  | .getCertificate => [0x11, 0x82] | .certificate => [0x11, 0x02]
  | .challenge => [0x11, 0x83] | .challengeAuth => [0x11, 0x03]
  | .getMeasurements => [0x12, 0xE0] | .measurements => [0x12, 0x60]
  | .error => [0x12, 0x7F]

def getVersion : Bytes := zeros 2

def versionEntry (e : VersionEntry) : Bytes := [nibbles e.alpha e.update, nibbles e.minor e.major]

def version (m : Version) : Bytes := zeros 3 ++ [m.numEntries] ++ m.entries.flatMap versionEntry

def getCapabilities (m : GetCapabilities) : Bytes :=
  zeros 3 ++ [m.ctExponent] ++ zeros 2 ++ le 4 m.flags.toNat

def capabilities (m : Capabilities) : Bytes :=
  zeros 3 ++ [m.ctExponent] ++ zeros 2 ++ le 4 m.flags.toNat

/-- Type code of the algorithm structure. -/
def algType : AlgKind → UInt8
  | .dhe => 2 | .aead => 3 | .reqBaseAsym => 4 | .keySchedule => 5

/-- One algorithm structure: type, count (no external algorithms, two fixed bytes), bits. -/
def alg (a : AlgorithmRequest) : Bytes := [algType a.kind, 0x20] ++ le 2 a.supported.toNat

/-- NEGOTIATE_ALGORITHMS with the first `n` structures in use. -/
def negotiateAlgorithms (m : NegotiateAlgorithms) : Bytes :=
  let n := m.numAlgorithmRequests.toNat
  [m.numAlgorithmRequests] ++ zeros 1 ++ le 2 (32 + 4 * n) ++ [m.measurementSpec] ++ zeros 1 ++
    le 4 m.baseAsymAlgo.toNat ++ le 4 m.baseHashAlgo.toNat ++ zeros 12 ++ [0, 0] ++ zeros 2 ++
    (m.algorithmRequests.take n).flatMap alg

def algorithms (m : Algorithms) : Bytes :=
  let n := m.numAlgorithmResponses.toNat
  [m.numAlgorithmResponses] ++ zeros 1 ++ le 2 (36 + 4 * n) ++ [m.measurementSpecSelected] ++
    zeros 1 ++ le 4 m.measurementHashAlgoSelected.toNat ++ le 4 m.baseAsymAlgoSelected.toNat ++
    le 4 m.baseHashAlgoSelected.toNat ++ zeros 12 ++ [0, 0] ++ zeros 2 ++
    (m.algorithmResponses.take n).flatMap alg

def getDigests : Bytes := zeros 2

/-- DIGESTS: the mask, then the digests of the filled slots in slot order. -/
def digests (m : Digests) : Bytes :=
  zeros 1 ++ [m.slotMask] ++ m.digests.flatMap (fun d => d.getD [])

def getCertificate (m : GetCertificate) : Bytes :=
  [m.slot] ++ zeros 1 ++ le 2 m.offset.toNat ++ le 2 m.length.toNat

def certificate (m : Certificate) : Bytes :=
  [m.slot] ++ zeros 1 ++ le 2 m.portionLength.toNat ++ le 2 m.remainderLength.toNat ++
    m.certChain.take m.portionLength.toNat

/-- Certificate chain: total length, reserved, root hash, intermediates, leaf. -/
def chain (ch : CertificateChain) : Bytes :=
  le 2 (4 + (ch.rootHash ++ ch.intermediateCerts.flatten ++ ch.leafCert).length) ++ zeros 2 ++
    (ch.rootHash ++ ch.intermediateCerts.flatten ++ ch.leafCert)

/-- Type of the measurement summary hash. -/
def hashType : MeasurementHashType → UInt8
  | .none => 0 | .tcb => 1 | .all => 0xFF

def challenge (m : Challenge) : Bytes := [m.slot, hashType m.measurementHashType] ++ m.nonce

/-- Registry ids, DSP0274 table "Registry or standards body ID". -/
def registry : VendorRegistryId → UInt8
  | .dmtf => 0 | .tcg => 1 | .usb => 2 | .pciSig => 3 | .iana => 4 | .hdBaseT => 5 | .mipi => 6
  | .cxl => 7 | .jedec => 8

/-- Length of the vendor id of a registry. -/
def registryIdLen : VendorRegistryId → Nat
  | .dmtf => 0 | .tcg => 2 | .usb => 2 | .pciSig => 2 | .iana => 4 | .hdBaseT => 4 | .mipi => 2
  | .cxl => 2 | .jedec => 2

/-- Length byte and value of a vendor id. -/
def vendorId : VendorId → Bytes
  | .empty => [0]
  | .u16 v => [2] ++ le 2 v.toNat
  | .u32 v => [4] ++ le 4 v.toNat

def vendorIdLen : VendorId → Nat
  | .empty => 0 | .u16 _ => 2 | .u32 _ => 4

/-- An opaque element before padding. -/
def opaqueElementRaw (e : OpaqueElement) : Bytes :=
  [registry e.registryId] ++ vendorId e.vendorId ++ le 2 e.dataLen.toNat ++
    e.data.take e.dataLen.toNat

/-- An opaque element, padded with zeros to a multiple of four bytes. -/
def opaqueElement (e : OpaqueElement) : Bytes :=
  opaqueElementRaw e ++ zeros ((4 - (opaqueElementRaw e).length % 4) % 4)

def opaqueData (d : OpaqueData) : Bytes :=
  [d.totalElements] ++ zeros 3 ++ (d.elements.take d.totalElements.toNat).flatMap opaqueElement

/-- CHALLENGE_AUTH: slot in bits 0-3, mutual authentication in bit 7. -/
def challengeAuth (m : ChallengeAuth) : Bytes :=
  [UInt8.ofNat (m.slot.toNat + if m.useMutualAuth then 128 else 0), m.slotMask] ++
    m.certChainHash ++ m.nonce ++ m.measurementSummaryHash ++
    le 2 (opaqueData m.opaqueData).length ++ opaqueData m.opaqueData ++ m.signature

/-- Error code byte and error data byte, then extended data. -/
def error : ErrorMsg → Bytes
  | .invalidRequest => [0x01, 0]
  | .busy => [0x03, 0]
  | .unexpectedRequest => [0x04, 0]
  | .unspecified => [0x05, 0]
  | .decryptError => [0x06, 0]
  | .unsupportedRequest code => [0x07, code]
  | .requestInFlight => [0x08, 0]
  | .invalidResponseCode => [0x09, 0]
  | .sessionLimitExceeded => [0x0A, 0]
  | .sessionRequired => [0x0B, 0]
  | .resetRequired => [0x0C, 0]
  | .responseTooLarge n => [0x0D, 0] ++ le 4 n.toNat
  | .requestTooLarge => [0x0E, 0]
  | .largeResponse h => [0x0F, 0, h]
  | .messageLost => [0x10, 0]
  | .versionMismatch => [0x41, 0]
  | .responseNotReady a b c d => [0x42, 0, a, b, c, d]
  | .requestResynch => [0x43, 0]
  | .vendorDefined id v => [0xFF, registry id] ++ vendorId v.vendorId ++ v.opaqueErrorData.take v.opaqueLen

/-- Measurement index. -/
def measurementIndex : MeasurementIndex → UInt8
  | .totalNumberOfMeasurementsAvailable => 0
  | .allMeasurements => 0xFF
  | .implementationDefined i => i
  | .reserved i => i
  | .measurementManifest => 0xFD
  | .deviceMode => 0xFE

def getMeasurements (m : GetMeasurements) : Bytes :=
  [UInt8.ofNat ((if m.attributes.signatureRequested then 1 else 0) +
      (if m.attributes.rawBitStreamRequested then 2 else 0)), measurementIndex m.index] ++
    (if m.attributes.signatureRequested then m.nonce.getD [] ++ [m.slotId] else [])

def valueType : ValueType → Nat
  | .immutableRom => 0 | .mutableFirmware => 1 | .hardwareConfig => 2 | .firmwareConfig => 3
  | .measurementManifest => 4 | .deviceMode => 5 | .mutableFirmwareVersion => 6
  | .mutableFirmwareSecurityVersion => 7

def valueBytes : MeasurementValue → Bytes
  | .digest bs => bs
  | .bitStream bs => bs

/-- The representation bit, in place. -/
def repBit : ValueRepresentation → Nat
  | .digest => 0 | .rawBitStream => 128

/-- DMTF measurement: representation in bit 7, type in bits 0-6, size, value. -/
def dmtfMeasurement (m : DmtfMeasurement) : Bytes :=
  [UInt8.ofNat (valueType m.valueType + repBit m.valueRepresentation)] ++
    le 2 (valueBytes m.value).length ++ valueBytes m.value

def measurementBlock (b : MeasurementBlock) : Bytes :=
  [b.index, b.measurementSpecSelected] ++ le 2 (dmtfMeasurement b.measurement).length ++
    dmtfMeasurement b.measurement

/-- The blocks in use. -/
def blockList (m : MeasurementBlocks) : List MeasurementBlock := (m.blocks.take m.len).filterMap id

def measurementBlocks (m : MeasurementBlocks) : Bytes :=
  [UInt8.ofNat m.len] ++ le 3 ((blockList m).flatMap measurementBlock).length ++
    (blockList m).flatMap measurementBlock

/-- The content-changed field, in place. -/
def ccBits : ContentChanged → Nat
  | .notSupported => 0 | .true => 16 | .false => 32

/-- MEASUREMENTS: content-changed in bits 4-5 and slot in bits 0-3 of the second byte. -/
def measurements (m : Measurements) : Bytes :=
  [m.totalBlocks, UInt8.ofNat (ccBits m.contentChanged +
      (if m.signature.isSome then m.slotId.toNat else 0))] ++
    measurementBlocks m.blocks ++ m.nonce ++ le 2 (opaqueData m.opaqueData).length ++
    opaqueData m.opaqueData ++ m.signature.getD []

end Wire

/-! ## Well-formedness -/

/-- A VERSION message as the API builds it: two array entries, 4-bit fields, unused entries zero. -/
structure VersionWF (m : Version) : Prop where
  len : m.entries.length = 2
  num : m.numEntries.toNat ≤ 2
  nib : ∀ e ∈ m.entries, e.alpha < 16 ∧ e.update < 16 ∧ e.minor < 16 ∧ e.major < 16
  unused : ∀ i e, m.entries[i]? = some e → m.numEntries.toNat ≤ i → e = ⟨0, 0, 0, 0⟩

/-- Flag bits defined for a requester: 1, 2, 6 to 16. -/
def reqFlagBit (i : Nat) : Prop := i = 1 ∨ i = 2 ∨ 6 ≤ i ∧ i ≤ 16
/-- Flag bits defined for a responder: 0 to 16. -/
def rspFlagBit (i : Nat) : Prop := i ≤ 16

/-- Only bits satisfying `P` are set. -/
def OnlyBits (P : Nat → Prop) (n : Nat) : Prop := ∀ i, n.testBit i = true → P i

/-- Number of defined bits of an algorithm structure. -/
def algBits : AlgKind → Nat
  | .dhe => 6 | .aead => 3 | .reqBaseAsym => 9 | .keySchedule => 1

/-- Exactly one bit is set, and it is below `k`. -/
def OneBit (k n : Nat) : Prop := ∃ i, i < k ∧ n = 2 ^ i

/-- NEGOTIATE_ALGORITHMS as the API builds it: an array of four structures, `num` in use, the unused
ones default; only defined bits. -/
structure NegotiateWF (m : NegotiateAlgorithms) : Prop where
  len : m.algorithmRequests.length = 4
  num : m.numAlgorithmRequests.toNat ≤ 4
  unused : ∀ i a, m.algorithmRequests[i]? = some a → m.numAlgorithmRequests.toNat ≤ i → a = ⟨.dhe, 0⟩
  bits : ∀ a ∈ m.algorithmRequests, a.supported.toNat < 2 ^ algBits a.kind
  spec : m.measurementSpec.toNat < 2
  asym : m.baseAsymAlgo.toNat < 2 ^ 9
  hash : m.baseHashAlgo.toNat < 2 ^ 6

/-- ALGORITHMS selecting one algorithm everywhere. -/
structure AlgorithmsWF (m : Algorithms) : Prop where
  len : m.algorithmResponses.length = 4
  num : m.numAlgorithmResponses.toNat ≤ 4
  unused : ∀ i a, m.algorithmResponses[i]? = some a → m.numAlgorithmResponses.toNat ≤ i → a = ⟨.dhe, 0⟩
  bits : ∀ i a, m.algorithmResponses[i]? = some a → i < m.numAlgorithmResponses.toNat →
    OneBit (algBits a.kind) a.supported.toNat
  spec : OneBit 1 m.measurementSpecSelected.toNat
  mhash : OneBit 6 m.measurementHashAlgoSelected.toNat
  asym : OneBit 9 m.baseAsymAlgoSelected.toNat
  hash : OneBit 6 m.baseHashAlgoSelected.toNat

/-- DIGESTS whose mask names exactly the slots that hold a digest, all of `size` bytes. -/
structure DigestsWF (c : Cfg) (size : Nat) (m : Digests) : Prop where
  slots : c.numSlots ≤ 8
  len : m.digests.length = c.numSlots
  mask : ∀ i, i < 8 → (m.slotMask.toNat.testBit i = true ↔ ∃ d, m.digests[i]? = some (some d))
  size : ∀ d, some d ∈ m.digests → d.length = size

/-- CERTIFICATE as the API builds it: an array of MAX_CERT_CHAIN_SIZE bytes, zero after the portion. -/
structure CertificateWF (c : Cfg) (m : Certificate) : Prop where
  len : m.certChain.length = c.maxCertChainSize
  portion : m.portionLength.toNat ≤ c.maxCertChainSize
  zero : m.certChain.drop m.portionLength.toNat = zeros (c.maxCertChainSize - m.portionLength.toNat)

/-- DER length octets, at most two bytes of length. -/
def derLen (n : Nat) : Bytes :=
  if n < 128 then [UInt8.ofNat n]
  else if n < 256 then [0x81, UInt8.ofNat n]
  else [0x82, UInt8.ofNat (n / 256), UInt8.ofNat n]

/-- A DER SEQUENCE with fewer than 2^16 content bytes. -/
def IsSequence (cert : Bytes) : Prop :=
  ∃ content : Bytes, content.length < 65536 ∧ cert = [0x30] ++ derLen content.length ++ content

/-- An opaque element as the API builds it. -/
structure OpaqueElementWF (c : Cfg) (e : OpaqueElement) : Prop where
  vendor : Wire.vendorIdLen e.vendorId = Wire.registryIdLen e.registryId
  len : e.data.length = c.maxOpaqueElementDataSize
  dlen : e.dataLen.toNat ≤ c.maxOpaqueElementDataSize
  zero : e.data.drop e.dataLen.toNat = zeros (c.maxOpaqueElementDataSize - e.dataLen.toNat)

/-- Opaque data: an array of MAX_OPAQUE_ELEMENTS elements, `totalElements` in use, the others default. -/
structure OpaqueDataWF (c : Cfg) (d : OpaqueData) : Prop where
  len : d.elements.length = c.maxOpaqueElements
  total : d.totalElements.toNat ≤ c.maxOpaqueElements
  used : ∀ e ∈ d.elements, OpaqueElementWF c e
  unused : ∀ i e, d.elements[i]? = some e → d.totalElements.toNat ≤ i →
    e = ⟨.dmtf, .empty, 0, zeros c.maxOpaqueElementDataSize⟩

/-! ## Round trip -/

/-- A message of type `t` with body writer `body` travels: in a large enough buffer it is written as the two header
bytes followed by `layout`, leaving the rest of the buffer alone; in a smaller buffer writing fails; and the receiver's
parser recovers `m` from the layout, whatever follows it. -/
def Travels {α : Type} (t : MsgType) (body : W Nat) (parse : Bytes → Res α) (layout : Bytes) (m : α) :
    Prop :=
  (∀ buf : Bytes, 2 + layout.length ≤ buf.length →
    t.write body buf = (.ok (2 + layout.length),
      Wire.header t ++ layout ++ buf.drop (2 + layout.length))) ∧
  (∀ buf : Bytes, buf.length < 2 + layout.length → ∃ e, (t.write body buf).1 = .err e) ∧
  (∀ suf : Bytes, parse (layout ++ suf) = .ok m)

end Spdm.Spec

namespace Spdm.Spec

/-- CHALLENGE_AUTH as the API builds it. -/
structure ChallengeAuthWF (c : Cfg) (digestSize sigSize : Nat) (m : ChallengeAuth) : Prop where
  slots : c.numSlots ≤ 8
  slot : m.slot.toNat < c.numSlots
  cch : m.certChainHash.length = digestSize
  nonce : m.nonce.length = c.nonceSize
  msh : m.measurementSummaryHash.length = digestSize
  opq : OpaqueDataWF c m.opaqueData
  opqLen : (Wire.opaqueData m.opaqueData).length ≤ 1024
  sig : m.signature.length = sigSize

/-- An ERROR message without vendor opaque data. -/
def ErrorWF : ErrorMsg → Prop
  | .vendorDefined _ v => v.opaqueLen = 0 ∧ v.opaqueErrorData = zeros 32
  | _ => True

/-- A measurement index whose payload is in its documented range. -/
def IndexWF : MeasurementIndex → Prop
  | .implementationDefined i => 0x01 ≤ i ∧ i ≤ 0xEF
  | .reserved i => 0xF0 ≤ i ∧ i ≤ 0xFC
  | _ => True

/-- GET_MEASUREMENTS as built by `GetMeasurements::new`: a nonce exactly when a signature is
requested, and a slot number below NUM_SLOTS.  (Without signature the slot is not transmitted and reads back 0.) -/
structure GetMeasurementsWF (c : Cfg) (m : GetMeasurements) : Prop where
  index : IndexWF m.index
  slot : m.slotId.toNat < c.numSlots
  nonce : m.attributes.signatureRequested = true → ∃ n, m.nonce = some n ∧ n.length = c.nonceSize
  plain : m.attributes.signatureRequested = false → m.nonce = none ∧ m.slotId = 0

/-- A block as the API builds it: DMTF, value of the announced representation, within the size limits. -/
structure BlockWF (c : Cfg) (b : MeasurementBlock) : Prop where
  spec : b.measurementSpecSelected = 1
  fits : match b.measurement.valueRepresentation, b.measurement.value with
    | .digest, .digest bs => bs.length ≤ c.maxDigestSize ∧ bs.length + 3 < 65536
    | .rawBitStream, .bitStream bs => bs.length ≤ c.maxMeasurementSize ∧ bs.length + 3 < 65536
    | _, _ => False

/-- A block array: MAX_MEASUREMENT_BLOCKS entries, the first `len` filled, the others empty. -/
structure BlocksWF (c : Cfg) (m : MeasurementBlocks) : Prop where
  alen : m.blocks.length = c.maxMeasurementBlocks
  max : m.len < 256
  len : m.len ≤ c.maxMeasurementBlocks
  used : ∀ i, i < m.len → ∃ b, m.blocks[i]? = some (some b) ∧ BlockWF c b
  unused : ∀ i o, m.blocks[i]? = some o → m.len ≤ i → o = none

/-- MEASUREMENTS as the API builds it.  The last two conditions exclude messages the code writes but does not read back. -/
structure MeasurementsWF (c : Cfg) (sigSize : Nat) (m : Measurements) : Prop where
  total : m.totalBlocks.toNat ≤ c.maxMeasurementBlocks
  slots : c.numSlots ≤ 8
  slot : m.slotId.toNat < c.numSlots
  blocks : BlocksWF c m.blocks
  nonce : m.nonce.length = c.nonceSize
  opq : OpaqueDataWF c m.opaqueData
  opqMax : (Wire.opaqueData m.opaqueData).length < 65536
  sig : ∀ s, m.signature = some s → s.length = sigSize

/-- What MEASUREMENTS round trips need beyond well-formedness: the blocks fit in MAX_MEASUREMENT_SIZE * MAX_MEASUREMENT_BLOCKS *including
their seven header bytes each*, opaque data of at most 1024 bytes, and the slot number is zero when there is no signature. -/
structure MeasurementsReadable (c : Cfg) (m : Measurements) : Prop where
  blocksLen : ((Wire.blockList m.blocks).flatMap Wire.measurementBlock).length ≤
    c.maxMeasurementSize * c.maxMeasurementBlocks
  blocks24 : ((Wire.blockList m.blocks).flatMap Wire.measurementBlock).length < 2 ^ 24
  opqLen : (Wire.opaqueData m.opaqueData).length ≤ 1024
  slot : m.signature = none → m.slotId = 0

/-- A certificate chain as the API builds it. -/
structure ChainWF (c : Cfg) (digestSize : Nat) (ch : CertificateChain) : Prop where
  root : ch.rootHash.length = digestSize
  depth : ch.intermediateCerts.length ≤ c.maxCertChainDepth
  inter : ∀ x ∈ ch.intermediateCerts, IsSequence x
  leaf : IsSequence ch.leafCert
  size : 4 + (ch.rootHash ++ ch.intermediateCerts.flatten ++ ch.leafCert).length ≤ 65535

/-! ### Error codes -/

/-- The kinds of ERROR messages. -/
inductive ErrorKind
  | invalidRequest | busy | unexpectedRequest | unspecified | decryptError | unsupportedRequest | requestInFlight | invalidResponseCode
  | sessionLimitExceeded | sessionRequired | resetRequired | responseTooLarge | requestTooLarge | largeResponse | messageLost | versionMismatch
  | responseNotReady | requestResynch | vendorDefined
  deriving DecidableEq, Repr

/-- The error codes of DSP0274. -/
def ErrorKind.byte : ErrorKind → UInt8
  | invalidRequest => 0x01 | busy => 0x03 | unexpectedRequest => 0x04 | unspecified => 0x05 | decryptError => 0x06 | unsupportedRequest => 0x07
  | requestInFlight => 0x08 | invalidResponseCode => 0x09 | sessionLimitExceeded => 0x0A | sessionRequired => 0x0B | resetRequired => 0x0C
  | responseTooLarge => 0x0D | requestTooLarge => 0x0E | largeResponse => 0x0F | messageLost => 0x10 | versionMismatch => 0x41
  | responseNotReady => 0x42 | requestResynch => 0x43 | vendorDefined => 0xFF

/-- Kind of a message. -/
def ErrorKind.of : ErrorMsg → ErrorKind
  | .invalidRequest => invalidRequest | .busy => busy | .unexpectedRequest => unexpectedRequest | .unspecified => unspecified
  | .decryptError => decryptError | .unsupportedRequest _ => unsupportedRequest | .requestInFlight => requestInFlight
  | .invalidResponseCode => invalidResponseCode | .sessionLimitExceeded => sessionLimitExceeded | .sessionRequired => sessionRequired
  | .resetRequired => resetRequired | .responseTooLarge _ => responseTooLarge | .requestTooLarge => requestTooLarge
  | .largeResponse _ => largeResponse | .messageLost => messageLost | .versionMismatch => versionMismatch
  | .responseNotReady _ _ _ _ => responseNotReady | .requestResynch => requestResynch | .vendorDefined _ _ => vendorDefined

end Spdm.Spec

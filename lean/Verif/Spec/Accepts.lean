import Verif.Spec.Any
/-!
# What the parsers accept

For every message type, exactly which body bytes are accepted and what they mean.  Bytes that do not influence the message (length fields the
parser does not use, external algorithms, unused bits, ignored error data) are existentially quantified: they are free.
Only data types of the model and the layouts of `Wire` are used, none of the parsers.
-/
namespace Spdm.Spec

/-- Bytes of one algorithm structure: type, a count byte (fixed count 2 in the upper half, number of external algorithms in the
lower half), the supported bits, and four free bytes per external algorithm. -/
def AlgStructure (a : AlgorithmRequest) (bs : Bytes) : Prop :=
  ∃ (count : UInt8) (ext : Bytes), bs = [Wire.algType a.kind, count] ++ le 2 a.supported.toNat ++ ext ∧
    count.toNat / 16 = 2 ∧ ext.length = 4 * (count.toNat % 16)

/-- A sequence of algorithm structures. -/
def AlgStructures : List AlgorithmRequest → Bytes → Prop
  | [], bs => bs = []
  | a :: as, bs => ∃ b1 b2, bs = b1 ++ b2 ∧ AlgStructure a b1 ∧ AlgStructures as b2

/-- ERROR bodies: the error data byte is free except for UnsupportedRequest and vendor-defined errors; the vendor id may have any of the
three lengths, whatever the registry; opaque error data is not read. -/
def ErrorBytes (m : ErrorMsg) (bs : Bytes) : Prop :=
  match m with
  | .unsupportedRequest code => bs = [0x07, code]
  | .responseTooLarge n => ∃ d, bs = [0x0D, d] ++ le 4 n.toNat
  | .largeResponse h => ∃ d, bs = [0x0F, d, h]
  | .responseNotReady e r t f => ∃ d, bs = [0x42, d, e, r, t, f]
  | .vendorDefined id v => v.opaqueLen = 0 ∧ v.opaqueErrorData = zeros 32 ∧ bs = [0xFF, Wire.registry id] ++ Wire.vendorId v.vendorId
  | m => ∃ d, bs = [(ErrorKind.of m).byte, d]

/-- Exactly the body bytes `bs` that make the parser of the message's type accept, and the message `m` they mean. -/
def Denotes (c : Cfg) (x : Ctx) (bs : Bytes) : AnyMsg → Prop
  | .getVersion => bs = Wire.getVersion
  | .version m => VersionWF m ∧ bs = zeros 3 ++ [m.numEntries] ++ (m.entries.take m.numEntries.toNat).flatMap Wire.versionEntry
  | .getCapabilities m => OnlyBits reqFlagBit m.flags.toNat ∧ bs = Wire.getCapabilities m
  | .capabilities m => OnlyBits rspFlagBit m.flags.toNat ∧ bs = Wire.capabilities m
  | .negotiateAlgorithms m => NegotiateWF m ∧ ∃ (len : Nat) (ea eh : UInt8) (extAsym extHash algs : Bytes),
      len ≤ 128 ∧ extAsym.length = 4 * ea.toNat ∧ extHash.length = 4 * eh.toNat ∧
      AlgStructures (m.algorithmRequests.take m.numAlgorithmRequests.toNat) algs ∧
      bs = [m.numAlgorithmRequests] ++ zeros 1 ++ le 2 len ++ [m.measurementSpec] ++ zeros 1 ++ le 4 m.baseAsymAlgo.toNat ++
        le 4 m.baseHashAlgo.toNat ++ zeros 12 ++ [ea, eh] ++ zeros 2 ++ extAsym ++ extHash ++ algs
  | .algorithms m => AlgorithmsWF m ∧ ∃ (len : Nat) (algs : Bytes), len < 65536 ∧
      AlgStructures (m.algorithmResponses.take m.numAlgorithmResponses.toNat) algs ∧
      bs = [m.numAlgorithmResponses] ++ zeros 1 ++ le 2 len ++ [m.measurementSpecSelected] ++ zeros 1 ++
        le 4 m.measurementHashAlgoSelected.toNat ++ le 4 m.baseAsymAlgoSelected.toNat ++ le 4 m.baseHashAlgoSelected.toNat ++
        zeros 16 ++ algs
  | .getDigests => bs = Wire.getDigests
  | .digests m => m.digests.length = c.numSlots ∧
      (∀ i, i < c.numSlots → (m.slotMask.toNat.testBit i = true ↔ ∃ d, m.digests[i]? = some (some d))) ∧
      (∀ d, some d ∈ m.digests → d.length = x.digestSize) ∧ bs = Wire.digests m
  | .getCertificate m => bs = Wire.getCertificate m
  | .certificate m => CertificateWF c m ∧ bs = Wire.certificate m
  | .challenge m => m.nonce.length = c.nonceSize ∧ bs = Wire.challenge m
  | .challengeAuth m => ∃ (b : UInt8) (len : Nat), m.slot.toNat = b.toNat % 16 ∧ (m.useMutualAuth = true ↔ 128 ≤ b.toNat) ∧
      m.slot.toNat ≤ c.numSlots ∧ m.certChainHash.length = x.digestSize ∧ m.nonce.length = c.nonceSize ∧
      m.measurementSummaryHash.length = x.digestSize ∧ OpaqueDataWF c m.opaqueData ∧ m.signature.length = x.sigSize ∧ len ≤ 1024 ∧
      bs = [b, m.slotMask] ++ m.certChainHash ++ m.nonce ++ m.measurementSummaryHash ++ le 2 len ++ Wire.opaqueData m.opaqueData ++ m.signature
  | .getMeasurements m => GetMeasurementsWF c m ∧ bs = Wire.getMeasurements m
  | .measurements m => ∃ (b : UInt8) (len : Nat), m.totalBlocks.toNat ≤ c.maxMeasurementBlocks ∧ m.slotId.toNat = b.toNat % 16 ∧
      16 * (b.toNat / 16 % 4) = Wire.ccBits m.contentChanged ∧ m.slotId.toNat ≤ c.numSlots ∧ BlocksWF c m.blocks ∧
      ((Wire.blockList m.blocks).flatMap Wire.measurementBlock).length ≤ c.maxMeasurementSize * c.maxMeasurementBlocks ∧
      ((Wire.blockList m.blocks).flatMap Wire.measurementBlock).length < 2 ^ 24 ∧
      m.nonce.length = c.nonceSize ∧ OpaqueDataWF c m.opaqueData ∧ len ≤ 1024 ∧ m.signature.isSome = x.sigRequested ∧
      (∀ s, m.signature = some s → s.length = x.sigSize) ∧
      bs = [m.totalBlocks, b] ++ Wire.measurementBlocks m.blocks ++ m.nonce ++ le 2 len ++ Wire.opaqueData m.opaqueData ++ m.signature.getD []
  | .error m => ErrorBytes m bs

end Spdm.Spec

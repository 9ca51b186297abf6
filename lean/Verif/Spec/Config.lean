import Verif.BuildCfg
/-!
# What a build configuration may say
-/
namespace Spdm.Spec

/-- Capability names a configuration may list, with their flag bit (DSP0274, CAPABILITIES flags: the same bits in requests and responses). -/
def capabilityBits : List (String × Nat) :=
  [("CERT_CAP", 1), ("CHAL_CAP", 2), ("ENCRYPT_CAP", 6), ("MAC_CAP", 7), ("MUT_AUTH_CAP", 8), ("KEY_EX_CAP", 9), ("KEY_UPD_CAP", 14)]

/-- The configurations the build should accept; `crypto` says whether a crypto provider is enabled. -/
structure ValidConfig (crypto : Bool) (i : SpdmConfig) : Prop where
  slots : 1 ≤ i.numSlots ∧ i.numSlots ≤ 8
  chain : i.certBufSize ≤ 65536
  depth : i.maxDepth ≤ 24
  signing : ∀ a ∈ i.asymmetricSigning, a = "ECDSA_ECC_NIST_P256"
  names : ∀ a ∈ i.capabilities, ∃ k, (a, k) ∈ capabilityBits
  provider : crypto = false → i.capabilities = []

/-- `c` holds exactly the configured values, 64 byte signatures, and the crypto provider if there is one. -/
structure Built (crypto : Bool) (i : SpdmConfig) (nonceSize : Nat) (c : Cfg) : Prop where
  numSlots : c.numSlots = i.numSlots
  maxCertChainSize : c.maxCertChainSize = i.certBufSize
  maxCertChainDepth : c.maxCertChainDepth = i.maxDepth
  transcriptSize : c.transcriptSize = i.transcriptBufSize
  maxDigestSize : c.maxDigestSize = i.maxDigestSize
  maxSignatureSize : c.maxSignatureSize = 64
  maxOpaqueElementDataSize : c.maxOpaqueElementDataSize = i.maxElementDataSize
  maxOpaqueElements : c.maxOpaqueElements = i.maxElements
  maxMeasurementBlocks : c.maxMeasurementBlocks = i.maxBlocks
  maxMeasurementSize : c.maxMeasurementSize = i.maxSize
  nonceSize : c.nonceSize = nonceSize
  capabilities : c.capabilities = i.capabilities
  asymSigning : c.asymSigning = i.asymmetricSigning
  provider : c.provider = crypto

end Spdm.Spec

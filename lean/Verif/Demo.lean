import Verif.Basic
/-! A small configuration used by the examples beside the theorems. -/
namespace Spdm

/-- Two slots, small buffers, three capabilities. -/
def demoCfg : Cfg :=
  { numSlots := 2, maxCertChainSize := 64, maxCertChainDepth := 2, transcriptSize := 512
    maxDigestSize := 64, maxSignatureSize := 132, maxOpaqueElementDataSize := 8, maxOpaqueElements := 2
    maxMeasurementBlocks := 2, maxMeasurementSize := 8, nonceSize := 4
    capabilities := ["CERT_CAP", "CHAL_CAP"], asymSigning := ["ECDSA_ECC_NIST_P256"] }

end Spdm

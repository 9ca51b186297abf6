import Verif.Spec.Config
/-!
# Configurations that say the same
-/
namespace Spdm.Spec

/-- Two configurations that agree except for the order and the repetition of names, and the two limits on measurements (`max_blocks`, `max_size`), which may differ. -/
structure SameSettings (i i' : SpdmConfig) : Prop where
  numSlots : i'.numSlots = i.numSlots
  certBufSize : i'.certBufSize = i.certBufSize
  maxDepth : i'.maxDepth = i.maxDepth
  transcriptBufSize : i'.transcriptBufSize = i.transcriptBufSize
  maxDigestSize : i'.maxDigestSize = i.maxDigestSize
  maxElements : i'.maxElements = i.maxElements
  maxElementDataSize : i'.maxElementDataSize = i.maxElementDataSize
  capabilities : ∀ a, a ∈ i'.capabilities ↔ a ∈ i.capabilities
  asymmetricSigning : ∀ a, a ∈ i'.asymmetricSigning ↔ a ∈ i.asymmetricSigning

end Spdm.Spec

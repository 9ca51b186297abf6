import Verif.Spec.Replay
/-!
# Builds with more room

Two builds of the library that differ only in their limits, one with limits at least as large as the other.
-/
namespace Spdm.Spec

/-- The build `c'` is like `c`, but its limits may be larger: the transcript buffer, the longest certificate chain in bytes and in certificates, the largest digest and
signature, and the limits for opaque data and measurements.  The number of slots, the size of a nonce, the capabilities, the signing algorithms and the crypto
provider are the same. -/
structure Roomier (c c' : Cfg) : Prop where
  slots : c'.numSlots = c.numSlots
  nonce : c'.nonceSize = c.nonceSize
  capabilities : c'.capabilities = c.capabilities
  signing : c'.asymSigning = c.asymSigning
  provider : c'.provider = c.provider
  transcript : c.transcriptSize ≤ c'.transcriptSize
  chain : c.maxCertChainSize ≤ c'.maxCertChainSize
  depth : c.maxCertChainDepth ≤ c'.maxCertChainDepth
  digest : c.maxDigestSize ≤ c'.maxDigestSize
  signature : c.maxSignatureSize ≤ c'.maxSignatureSize
  opaqueSize : c.maxOpaqueElementDataSize ≤ c'.maxOpaqueElementDataSize
  opaqueElements : c.maxOpaqueElements ≤ c'.maxOpaqueElements
  blocks : c.maxMeasurementBlocks ≤ c'.maxMeasurementBlocks
  measurement : c.maxMeasurementSize ≤ c'.maxMeasurementSize

/-- Every request was answered. -/
def AllAnswered (es : List RspEvent) : Prop := ∀ env req buf res, RspEvent.call env req buf res ∈ es → ∃ out, res = .ok ⟨out, none⟩

/-- Every request was written and every response accepted. -/
def AllSucceeded (es : List ReqEvent) : Prop :=
  (∀ env buf res, ReqEvent.next env buf res ∈ es → ∃ out, res = .ok out) ∧ ∀ rsp res, ReqEvent.recv rsp res ∈ es → ∃ b, res = .ok b

end Spdm.Spec

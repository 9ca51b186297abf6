import Verif.Provider
/-!
# What a streaming hash is
-/
namespace Spdm.Spec

/-- The hash implementation depends only on the bytes fed to it, not on how they are cut: feeding nothing changes nothing, feeding `a` then `b` is feeding `a ++ b`. -/
structure Streaming (H : HashImpl) : Prop where
  nil : ∀ s, H.update s [] = s
  append : ∀ s a b, H.update (H.update s a) b = H.update s (a ++ b)

/-- The hash function it computes. -/
def hashOf (H : HashImpl) (algo : UInt32) (data : Bytes) : Bytes := H.finalize (H.update (H.init algo) data)

/-- SHA-256, SHA-384 and SHA-512: bits 0 to 2. -/
def isSha2 (algo : UInt32) : Prop := algo.toNat = 2 ^ 0 ∨ algo.toNat = 2 ^ 1 ∨ algo.toNat = 2 ^ 2

/-- ECDSA P-256 and P-384: bits 4 and 7. -/
def isEcdsa (algo : UInt32) : Prop := algo.toNat = 2 ^ 4 ∨ algo.toNat = 2 ^ 7

end Spdm.Spec

import Verif.Spec.Wire
/-!
# Negotiation vocabulary

Versions, algorithm selection and the size tables of the SPDM specification.
-/
namespace Spdm.Spec

/-- The versions this implementation speaks: 1.0 and 1.1. -/
def supportedVersions : List VersionEntry := [⟨1, 0, 0, 0⟩, ⟨1, 1, 0, 0⟩]

/-- The versions a VERSION message lists. -/
def listed (v : Version) : List VersionEntry := v.entries.take v.numEntries.toNat

/-- Rank of a version: major, then minor, then update, then alpha. -/
def rank (e : VersionEntry) : Nat :=
  ((e.major.toNat * 256 + e.minor.toNat) * 256 + e.update.toNat) * 256 + e.alpha.toNat

/-- `e` is the greatest version that both sides list. -/
def HighestCommon (v : Version) (e : VersionEntry) : Prop :=
  e ∈ listed v ∧ e ∈ supportedVersions ∧ ∀ e' ∈ listed v, e' ∈ supportedVersions → rank e' ≤ rank e

/-- Bit `k` is the lowest bit set in `n`. -/
def LowestBit (n k : Nat) : Prop := n.testBit k = true ∧ ∀ j, j < k → n.testBit j = false

/-- `sel` is exactly one of the offered bits, the lowest. -/
def Lowest (offered sel : Nat) : Prop := ∃ k, LowestBit offered k ∧ sel = 2 ^ k

/-- `sel` is exactly one bit, and an offered one. -/
def Offered (offered sel : Nat) : Prop := ∃ k, offered.testBit k = true ∧ sel = 2 ^ k

/-- An offer that leaves the responder something to choose everywhere. -/
structure NonEmptyOffer (m : NegotiateAlgorithms) : Prop where
  asym : m.baseAsymAlgo.toNat ≠ 0
  hash : m.baseHashAlgo.toNat ≠ 0
  algs : ∀ i a, m.algorithmRequests[i]? = some a → i < m.numAlgorithmRequests.toNat → a.supported.toNat ≠ 0

/-- `a` answers the offer `m` with the lowest offered bit in every field, the algorithm structures in the same order and of the same types. -/
structure Answers (m : NegotiateAlgorithms) (a : Algorithms) : Prop where
  spec : a.measurementSpecSelected = m.measurementSpec
  mhash : Lowest m.baseHashAlgo.toNat a.measurementHashAlgoSelected.toNat
  asym : Lowest m.baseAsymAlgo.toNat a.baseAsymAlgoSelected.toNat
  hash : Lowest m.baseHashAlgo.toNat a.baseHashAlgoSelected.toNat
  num : a.numAlgorithmResponses = m.numAlgorithmRequests
  len : a.algorithmResponses.length = 4
  algs : ∀ i, i < m.numAlgorithmRequests.toNat → ∃ q p, m.algorithmRequests[i]? = some q ∧ a.algorithmResponses[i]? = some p ∧
    p.kind = q.kind ∧ Lowest q.supported.toNat p.supported.toNat
  unused : ∀ i p, a.algorithmResponses[i]? = some p → m.numAlgorithmRequests.toNat ≤ i → p = ⟨.dhe, 0⟩

/-- Every selection of `a` was offered in `m`. -/
structure SelectedFrom (m : NegotiateAlgorithms) (a : Algorithms) : Prop where
  spec : a.measurementSpecSelected = m.measurementSpec
  mhash : Offered m.baseHashAlgo.toNat a.measurementHashAlgoSelected.toNat
  asym : Offered m.baseAsymAlgo.toNat a.baseAsymAlgoSelected.toNat
  hash : Offered m.baseHashAlgo.toNat a.baseHashAlgoSelected.toNat
  algs : ∀ i p, a.algorithmResponses[i]? = some p → i < a.numAlgorithmResponses.toNat →
    ∃ q ∈ m.algorithmRequests.take m.numAlgorithmRequests.toNat, q.kind = p.kind ∧ Offered q.supported.toNat p.supported.toNat

/-- The algorithm structures of the offer are of different types. -/
def DistinctKinds (m : NegotiateAlgorithms) : Prop :=
  ∀ i j a b, i < m.numAlgorithmRequests.toNat → j < m.numAlgorithmRequests.toNat → m.algorithmRequests[i]? = some a →
    m.algorithmRequests[j]? = some b → a.kind = b.kind → i = j

/-- Digest sizes, DSP0274: SHA-256, SHA-384, SHA-512, SHA3-256, SHA3-384, SHA3-512 (bits 0 to 5). -/
def digestSizes : List Nat := [32, 48, 64, 32, 48, 64]

/-- Signature sizes, DSP0274: RSASSA-2048, RSAPSS-2048, RSASSA-3072, RSAPSS-3072, ECDSA P-256, RSASSA-4096, RSAPSS-4096,
ECDSA P-384, ECDSA P-521 (bits 0 to 8). -/
def signatureSizes : List Nat := [256, 256, 384, 384, 64, 512, 512, 96, 132]

end Spdm.Spec

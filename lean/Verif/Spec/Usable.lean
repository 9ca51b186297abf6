import Verif.Spec.Response
/-!
# Which algorithms an endpoint can use, and what a slot says about its own
-/
namespace Spdm.Spec

/-- A build from configuration `i` with the crypto provider can sign and verify with `asym` and hash with `hash`: ECDSA P-256 (bit 4) if it is configured,
SHA-256, SHA-384 and SHA-512 (bits 0 to 2) if their digests fit. -/
structure Usable (i : SpdmConfig) (asym hash : Nat) : Prop where
  asym : asym = 2 ^ 4 ∧ "ECDSA_ECC_NIST_P256" ∈ i.asymmetricSigning
  hash : ∃ k n, k < 3 ∧ hash = 2 ^ k ∧ digestSizes[k]? = some n ∧ n ≤ i.maxDigestSize

/-- The slots hold the same chains and signers; what they declare about their algorithms may differ. -/
def SameButDeclared (slots slots' : List (Option FilledSlot)) : Prop :=
  slots.map (Option.map fun s => (s.certChain, s.sign)) = slots'.map (Option.map fun s => (s.certChain, s.sign))

/-- Slot `k` is declared for signature algorithm `asym` and hash `hash`. -/
def DeclaredFor (slots : List (Option FilledSlot)) (k asym hash : Nat) : Prop :=
  ∃ s : FilledSlot, slots[k]? = some (some s) ∧ s.signingAlgorithm.toNat = asym ∧ s.hashAlgorithm.toNat = hash

end Spdm.Spec

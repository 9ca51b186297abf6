import Verif.Spec.Pair
import Verif.Spec.Replay
import Verif.Spec.Config
import Verif.Spec.Der
/-!
# The honest handshake
-/
namespace Spdm.Spec

/-- Everybody does their job: slot 0 holds a well-formed chain that fits the configured buffer (as do the chains of the other slots), digests of
32 bytes can be stored, SHA-256 (selection 1) gives 32 bytes, the verifier accepts the leaf, the anchor and the path between them for ECDSA P-256 (selection
16), and slot 0 signs with 64 byte signatures with non-zero halves whose DER form the verifier accepts. -/
structure Honest (c : Cfg) (cr : Crypto) (root : Bytes) (slots : List (Option FilledSlot)) (slot : FilledSlot) : Prop where
  number : slots.length = c.numSlots
  filled : slots[0]? = some (some slot)
  fits : ∀ s, some s ∈ slots → (Wire.chain s.certChain).length ≤ c.maxCertChainSize ∧ (Wire.chain s.certChain).length ≤ 65535
  chain : ChainWF c 32 slot.certChain
  digest : 32 ≤ c.maxDigestSize
  hash : ∀ msg, (cr.hash 1 msg).length = 32
  leaf : cr.certOk slot.certChain.leafCert = true
  anchor : cr.anchorOk root = true
  trust : cr.chainOk slot.certChain.leafCert 16 root slot.certChain.intermediateCerts 1638316800 = true
  sign : ∀ seed msg, ∃ sig, slot.sign seed msg = some sig ∧ sig.length = 64 ∧ rawR sig ≠ 0 ∧ rawS sig ≠ 0 ∧
    ∀ der, IsDerSignature der (rawR sig) (rawS sig) → cr.sigOk slot.certChain.leafCert 16 msg der = true

/-- The buffers of an exchange hold every message, and the nonces have the configured size. -/
structure Room (c : Cfg) (cr : Crypto) (slots : List (Option FilledSlot)) (slot : FilledSlot) (x : Round) : Prop where
  reqNonce : x.reqEnv.nonce.length = c.nonceSize
  rspNonce : x.rspEnv.nonce.length = c.nonceSize
  /-- NEGOTIATE_ALGORITHMS -/
  negotiate : 48 ≤ x.reqBuf.length
  /-- CHALLENGE -/
  challenge : 4 + c.nonceSize ≤ x.reqBuf.length
  /-- ALGORITHMS -/
  algorithms : 52 ≤ x.rspBuf.length
  /-- DIGESTS -/
  digests : 4 + (digestsOf (cr.hash 1) slots).length ≤ x.rspBuf.length
  /-- CERTIFICATE -/
  certificate : 8 + (Wire.chain slot.certChain).length ≤ x.rspBuf.length
  /-- CHALLENGE_AUTH -/
  auth : 138 + c.nonceSize ≤ x.rspBuf.length

/-- The exchanges needed with these capabilities on both sides: version, capabilities and algorithms; digests and certificate with CERT_CAP;
challenge with CERT_CAP and CHAL_CAP. -/
def exchangesNeeded (capabilities : List String) : Nat :=
  if "CERT_CAP" ∈ capabilities then (if "CHAL_CAP" ∈ capabilities then 6 else 5) else 3

end Spdm.Spec

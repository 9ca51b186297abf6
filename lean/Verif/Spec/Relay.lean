import Verif.Spec.Network
import Verif.Spec.Lossy
import Verif.Spec.Config
/-!
# Many endpoints on a network that does not alter messages
-/
namespace Spdm.Spec

/-- The network loses, delays, repeats, reorders and misdelivers as it likes, but it makes no messages: what a requester's `handle_msg` is called with is something some responder's
`handle_msg` returned, and what a responder's is called with is something some requester's `next_request` wrote. -/
structure Relayed (t : List NetEvent) : Prop where
  responses : ∀ i rsp res, .req i (.recv rsp res) ∈ t → ∃ k env req buf err, .rsp k (.call env req buf (.ok ⟨rsp, err⟩)) ∈ t
  requests : ∀ k env req buf res, .rsp k (.call env req buf res) ∈ t → ∃ i env' buf', .req i (.next env' buf' (.ok req)) ∈ t

/-- What the build script ensures of a requester (C53): P-256 is the only signing algorithm. -/
def ReqSetup.Usual (Q : ReqSetup) : Prop := Q.cfg.numSlots ≤ 8 ∧ ∀ a ∈ Q.cfg.asymSigning, a = "ECDSA_ECC_NIST_P256"

/-- What the build script ensures of a responder (C53), as many slots as its build says, and a SHA-256 of 32 bytes. -/
def RspSetup.Usual (R : RspSetup) : Prop :=
  R.Proper ∧ 0 < R.cfg.numSlots ∧ (∀ a ∈ R.cfg.capabilities, ∃ k, (a, k) ∈ capabilityBits) ∧ ∀ m, (R.crypto.hash 1 m).length = 32

end Spdm.Spec

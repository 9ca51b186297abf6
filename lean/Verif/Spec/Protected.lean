import Verif.Spec.Session
/-!
# What it takes for the negotiation to be protected
-/
namespace Spdm.Spec

/-- A request of the negotiation has no bytes behind its end: GET_VERSION is 4 bytes, GET_CAPABILITIES 12, and NEGOTIATE_ALGORITHMS 32 and four for each of the structures it
announces in byte 2.  (Nothing is said of the other requests.) -/
def ExactRequest (req : Bytes) : Prop :=
  (code req = some 0x84 → req.length = 4) ∧ (code req = some 0xE1 → req.length = 12) ∧ (code req = some 0xE3 → req.length = 32 + 4 * leVal (field req 2 1))

/-- The bytes of `m` stand in `text` somewhere from byte `i` on. -/
def OccursFrom (i : Nat) (m text : Bytes) : Prop := ∃ pre post, text = pre ++ m ++ post ∧ i ≤ pre.length

/-- Two conversations agree on the capabilities of both sides and on the algorithms. -/
def Agree (l l' : Log) : Prop := l.reqCaps = l'.reqCaps ∧ l.rspCaps = l'.rspCaps ∧ l.hash = l'.hash ∧ l.asym = l'.asym

end Spdm.Spec

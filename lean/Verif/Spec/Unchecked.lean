import Verif.Unchecked
import Verif.Spec.Choice
import Verif.Spec.Session
/-!
# Vocabulary for the build without overflow checks

Histories of a responder of that build, offers with an empty mask, and the selection that build makes for them.
-/
namespace Spdm.Spec

/-- Histories of a responder compiled without overflow checks, from its creation. -/
inductive UncheckedRun (c : Cfg) (cr : Crypto) (slots : List (Option FilledSlot)) : List RspEvent → Responder → Prop
  | new : UncheckedRun c cr slots [] (Responder.new c slots)
  | call {es : List RspEvent} {r : Responder} (env : Env) (req buf : Bytes) : UncheckedRun c cr slots es r →
      UncheckedRun c cr slots (es ++ [.call env req buf (Unchecked.respond c cr env req buf r).1]) (Unchecked.respond c cr env req buf r).2
  | reset {es : List RspEvent} {r : Responder} : UncheckedRun c cr slots es r → UncheckedRun c cr slots (es ++ [.reset]) r.reset

/-- A NEGOTIATE_ALGORITHMS request that offers nothing in some mask. -/
def EmptyOffer (req : Bytes) : Prop :=
  3 ≤ req.length ∧ req.take 2 = [0x11, 0xE3] ∧ ∃ m, NegotiateAlgorithms.parseBody (req.drop 2) = .ok m ∧ ¬ NonEmptyOffer m

/-- `sel` is the lowest offered bit, or bit 0 if nothing is offered. -/
def LowestOrFirst (offered sel : Nat) : Prop := Lowest offered sel ∨ (offered = 0 ∧ sel = 1)

/-- `a` answers the offer `m` with the lowest offered bit in every field, and with bit 0 where the offer is empty. -/
structure AnswersAnyway (m : NegotiateAlgorithms) (a : Algorithms) : Prop where
  spec : a.measurementSpecSelected = m.measurementSpec
  mhash : LowestOrFirst m.baseHashAlgo.toNat a.measurementHashAlgoSelected.toNat
  asym : LowestOrFirst m.baseAsymAlgo.toNat a.baseAsymAlgoSelected.toNat
  hash : LowestOrFirst m.baseHashAlgo.toNat a.baseHashAlgoSelected.toNat
  num : a.numAlgorithmResponses = m.numAlgorithmRequests
  len : a.algorithmResponses.length = 4
  algs : ∀ i, i < m.numAlgorithmRequests.toNat → ∃ q p, m.algorithmRequests[i]? = some q ∧ a.algorithmResponses[i]? = some p ∧
    p.kind = q.kind ∧ LowestOrFirst q.supported.toNat p.supported.toNat

/-- A CHALLENGE_AUTH message for slot number 8. -/
def NamesSlotEight (rsp : Bytes) : Prop := rsp.take 2 = [0x11, 0x03] ∧ ∃ b, rsp[2]? = some b ∧ b.toNat % 16 = 8

end Spdm.Spec

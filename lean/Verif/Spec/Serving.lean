import Verif.Spec.Interop
import Verif.Spec.Config
import Verif.Spec.Replay
/-!
# One responder, many requesters
-/
namespace Spdm.Spec

/-- A visit of a requester to a responder: how the requester was built, its verifier and root, what its exchanges are run with; and what the responder is called with
before: `none` for nothing, otherwise any calls whatever, after which it is reset. -/
structure Visit where
  config : SpdmConfig
  build : Cfg
  verifier : Crypto
  root : Bytes
  rounds : List Round
  before : Option (List RspCall)

/-- The calls before the visit. -/
def Visit.calls (v : Visit) : List RspCall :=
  match v.before with
  | none => []
  | some calls => calls ++ [.reset]

/-- The responder is visited by new requesters, one after the other.  The completion flags of every visit; nothing if a call of a visit fails. -/
def visits (c' : Cfg) (cr' : Crypto) : List Visit → Responder → Option (List (List Bool) × Responder)
  | [], q => some ([], q)
  | v :: vs, q =>
    match talk v.build c' v.verifier cr' v.rounds (Requester.new v.build v.root, after c' cr' q v.calls) with
    | none => none
    | some (flags, ends) =>
      match visits c' cr' vs ends.2 with
      | none => none
      | some (rest, q) => some (flags :: rest, q)

/-- What a visit needs (see C97): a valid configuration with a signing algorithm, an honest pair, as many exchanges as the common capabilities call for, and room for the messages. -/
structure Visit.Fair (i' : SpdmConfig) (c' : Cfg) (cr' : Crypto) (slots : List (Option FilledSlot)) (slot : FilledSlot) (n : Nat) (v : Visit) : Prop where
  valid : ValidConfig true v.config
  built : Built true v.config n v.build
  signing : v.config.asymmetricSigning ≠ []
  honest : HonestPair v.build c' v.verifier cr' v.root slots slot
  number : v.rounds.length = exchangesNeeded (common v.config.capabilities i'.capabilities)
  nonces : ∀ x ∈ v.rounds, x.reqEnv.nonce.length = n ∧ x.rspEnv.nonce.length = n
  room : EnoughRoom v.build c' n (digestsOf (v.verifier.hash 1) slots).length (Wire.chain slot.certChain).length v.rounds

end Spdm.Spec

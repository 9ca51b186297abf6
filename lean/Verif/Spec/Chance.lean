import Verif.Spec.Replay
/-!
# What trust, keys and random numbers may influence
-/
namespace Spdm.Spec

/-- The two calls differ at most in the random numbers (which have the same size), and no CHALLENGE_AUTH (0x03) is received. -/
def SameButChance : ReqCall → ReqCall → Prop
  | .next env buf, .next env' buf' => env.nonce.length = env'.nonce.length ∧ buf = buf'
  | .recv rsp, .recv rsp' => rsp = rsp' ∧ code rsp ≠ some 0x03
  | _, _ => False

/-- The calls returned the same thing; or each wrote a CHALLENGE, for the same slot, with the random number drawn for it. -/
def SameButNonce : ReqEvent → ReqEvent → Prop
  | .next env _ res, .next env' _ res' =>
    res = res' ∨ ∃ slot : UInt8, res = .ok ([0x11, 0x83, slot, 0] ++ env.nonce) ∧ res' = .ok ([0x11, 0x83, slot, 0] ++ env'.nonce)
  | .recv _ res, .recv _ res' => res = res'
  | _, _ => False

/-- The root certificates are usable or not, and vouch for the same chains (at the time the code fixes, C73). -/
def SameTrust (cr : Crypto) (root root' : Bytes) : Prop :=
  cr.anchorOk root = cr.anchorOk root' ∧ ∀ leaf algo inters, cr.chainOk leaf algo root inters 1638316800 = cr.chainOk leaf algo root' inters 1638316800

/-- The slots hold the same certificate chains in the same places; the keys and the algorithms declared for them may differ. -/
def SameChains (slots slots' : List (Option FilledSlot)) : Prop :=
  slots.map (Option.map FilledSlot.certChain) = slots'.map (Option.map FilledSlot.certChain)

/-- The same call but for the random numbers, and not a CHALLENGE (0x83). -/
def SameRequest : RspCall → RspCall → Prop
  | .call _ req buf, .call _ req' buf' => req = req' ∧ buf = buf' ∧ code req ≠ some 0x83
  | .reset, .reset => True
  | _, _ => False

/-- What a call of the responder returned. -/
def RspEvent.result : RspEvent → Option (Res Responder.Output)
  | .call _ _ _ res => some res
  | .reset => none

end Spdm.Spec

import Verif.Spec.Replay
/-!
# What a responder signs
-/
namespace Spdm.Spec

/-- `auth` is the CHALLENGE_AUTH, up to the signature, that a responder with these slots makes when it is called with the CHALLENGE `req` after the history `es`: the slot is
the one `req` names, and it is filled. -/
def AuthFor (cr : Crypto) (slots : List (Option FilledSlot)) (es : List RspEvent) (env : Env) (req auth : Bytes) : Prop :=
  ∃ (b mask : UInt8) (s : FilledSlot), req[2]? = some b ∧ slots[b.toNat]? = some (some s) ∧ MaskOf slots mask ∧
    auth = authPart (conversation (rspMsgs es)) b mask (cr.hash (UInt32.ofNat (conversation (rspMsgs es)).hash) (Wire.chain s.certChain)) env.nonce

end Spdm.Spec

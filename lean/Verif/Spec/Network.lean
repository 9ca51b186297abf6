import Verif.Spec.Replay
/-!
# Many endpoints, one clock

Any number of requesters and responders, each with its own build, provider, trust anchor or slots.  What happens is one list of events; the network
between the endpoints is arbitrary, so the only rule is that the calls of each endpoint are a history of that endpoint.
-/
namespace Spdm.Spec

/-- A requester as its user sets it up. -/
structure ReqSetup where
  cfg : Cfg
  crypto : Crypto
  root : Bytes

/-- A responder as its user sets it up. -/
structure RspSetup where
  cfg : Cfg
  crypto : Crypto
  slots : List (Option FilledSlot)

/-- The endpoints, by number. -/
structure Network where
  requester : Nat → ReqSetup
  responder : Nat → RspSetup

/-- An API call of one of the endpoints. -/
inductive NetEvent
  | req (i : Nat) (e : ReqEvent)
  | rsp (k : Nat) (e : RspEvent)
  deriving DecidableEq

/-- The calls of requester `i`. -/
def reqOf (i : Nat) (t : List NetEvent) : List ReqEvent :=
  t.filterMap fun e => match e with | .req j x => if j = i then some x else none | .rsp _ _ => none

/-- The calls of responder `k`. -/
def rspOf (k : Nat) (t : List NetEvent) : List RspEvent :=
  t.filterMap fun e => match e with | .rsp j x => if j = k then some x else none | .req _ _ => none

/-- The calls of every endpoint are one of its histories.  Nothing relates what one endpoint receives to what another one sent. -/
structure Happens (N : Network) (t : List NetEvent) : Prop where
  req : ∀ i, ∃ r, ReqRun (N.requester i).cfg (N.requester i).crypto (N.requester i).root (reqOf i t) r
  rsp : ∀ k, ∃ r, RspRun (N.responder k).cfg (N.responder k).crypto (N.responder k).slots (rspOf k t) r

/-- Responder `k` has, with the key of slot `j`, signed `m` at some time in `t`. -/
def HasSigned (N : Network) (k j : Nat) (t : List NetEvent) (m : Bytes) : Prop :=
  ∃ r, RspRun (N.responder k).cfg (N.responder k).crypto (N.responder k).slots (rspOf k t) r ∧ (j, m) ∈ r.signed

/-- In `t`, signatures cannot be forged: what requester `i`'s verifier accepts under a leaf certificate for which its root vouches was signed, at some
time in `t`, by a responder that has the leaf in one of its slots, with the key of that slot. -/
def Unforgeable (N : Network) (i : Nat) (t : List NetEvent) : Prop :=
  ∀ leaf inters a m der, (N.requester i).crypto.chainOk leaf a (N.requester i).root inters 1638316800 = true → (N.requester i).crypto.sigOk leaf a m der = true →
    ∃ (k j : Nat) (s : FilledSlot), (N.responder k).slots[j]? = some (some s) ∧ s.certChain.leafCert = leaf ∧ HasSigned N k j t m

/-- What responder `R` signs when it is called with the request `req` after the history `es`: its conversation, the CHALLENGE and its CHALLENGE_AUTH
for slot `j`, in which `s` is, up to the signature. -/
def SignedText (R : RspSetup) (es : List RspEvent) (env : Env) (req : Bytes) (j : Nat) (s : FilledSlot) (text : Bytes) : Prop :=
  ∃ (b mask : UInt8), req[2]? = some b ∧ b.toNat = j ∧ R.slots[j]? = some (some s) ∧ MaskOf R.slots mask ∧
    text = (conversation (rspMsgs es)).text ++ req ++ authPart (conversation (rspMsgs es)) b mask
      (R.crypto.hash (UInt32.ofNat (conversation (rspMsgs es)).hash) (Wire.chain s.certChain)) env.nonce

/-- As many slots as the build says, at most eight. -/
def RspSetup.Proper (R : RspSetup) : Prop := R.slots.length = R.cfg.numSlots ∧ R.cfg.numSlots ≤ 8

end Spdm.Spec

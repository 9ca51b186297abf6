import Verif.Spec.Accepts
import Verif.Spec.Session
import Verif.Spec.Exact
/-!
# What `state()` shows

Both endpoints let their user look at the current protocol state and at what was negotiated (`RequesterSession::state`, `Responder::state`; the fields of the state structures are
public).  This file says, in terms of the messages that crossed the API and of the histories of calls alone, what those fields have to be.
-/
namespace Spdm.Spec

/-- The message `msg` is of `m`'s type and means `m` (bytes behind its end are ignored). -/
def Says (c : Cfg) (x : Ctx) (msg : Bytes) (m : AnyMsg) : Prop := ∃ bs tail, msg = Wire.header m.ty ++ bs ++ tail ∧ Denotes c x bs m

/-- The nonce of the last `next_request` since the last accepted response, whether that call succeeded or not. -/
def drawn (es : List ReqEvent) : Option Bytes :=
  es.foldl (fun o e => match e with | .next env _ _ => some env.nonce | .recv _ (.ok _) => none | _ => o) none

/-- What a live requester shows: the responses accepted so far are exactly those its state calls for, and every field is what one of the messages said. -/
def ReqShown (c : Cfg) (es : List ReqEvent) : ReqState → Prop
  | .version => accepted es = []
  | .capabilities v ct cap => ∃ m0, accepted es = [m0] ∧ VersionShown m0 v ∧
      (ct = none ∧ cap = none ∧ (∀ m ∈ reqMsgs es, code m ≠ some 0xE1) ∨ ∃ a f, ct = some a ∧ cap = some f ∧ Asked a f)
  | .algorithms v caps o => ∃ m0 m1, accepted es = [m0, m1] ∧ VersionShown m0 v ∧ CapsShown m1 caps ∧
      (∀ q, o = some q → Requester.configToNegotiateAlgorithms c = .ok q) ∧
      (∀ msg ∈ reqMsgs es, code msg = some 0xE3 → ∃ q, o = some q ∧ msg = [0x11, 0xE3] ++ Wire.negotiateAlgorithms q)
  | .idAuth v caps a none => ∃ m0 m1 m2, accepted es = [m0, m1, m2] ∧ VersionShown m0 v ∧ CapsShown m1 caps ∧ Says c ⟨0, 0, false⟩ m2 (.algorithms a)
  | .idAuth v caps a (some d) => ∃ m0 m1 m2 m3, accepted es = [m0, m1, m2, m3] ∧ VersionShown m0 v ∧ CapsShown m1 caps ∧ Says c ⟨0, 0, false⟩ m2 (.algorithms a) ∧
      Says c ⟨sizeFor digestSizes a.baseHashAlgoSelected.toNat, 0, false⟩ m3 (.digests d)
  | .challenge s => ∃ m0 m1 m2 m3 m4, accepted es = [m0, m1, m2, m3, m4] ∧ VersionShown m0 s.version ∧ CapsShown m1 s.caps ∧ Says c ⟨0, 0, false⟩ m2 (.algorithms s.algorithms) ∧
      (∃ cert, Says c ⟨0, 0, false⟩ m4 (.certificate cert) ∧ s.certSlot = cert.slot ∧ s.certChain = cert.certChain ∧ s.certChainSize = cert.portionLength) ∧
      s.nonce = drawn es
  | .newSession => (accepted es).map code = (path (conversation (reqMsgs es))).map some
  | .error => False
where
  /-- The version is the highest one common to the VERSION message and the versions implemented. -/
  VersionShown (m0 : Bytes) (v : VersionEntry) : Prop := ∃ vs, Says c ⟨0, 0, false⟩ m0 (.version vs) ∧ HighestCommon vs v
  /-- Every GET_CAPABILITIES sent, and there was one, has these fields. -/
  Asked (ct : UInt8) (cap : UInt32) : Prop :=
    (∃ m ∈ reqMsgs es, code m = some 0xE1) ∧ ∀ m ∈ reqMsgs es, code m = some 0xE1 → m = [0x11, 0xE1] ++ Wire.getCapabilities ⟨ct, cap⟩
  /-- The requester's capabilities are those it sent, the responder's those of the CAPABILITIES message. -/
  CapsShown (m1 : Bytes) (caps : Caps) : Prop :=
    Asked caps.requesterCt caps.requesterCap ∧ Says c ⟨0, 0, false⟩ m1 (.capabilities ⟨caps.responderCt, caps.responderCap⟩)

/-- What a live responder shows of the messages `ms` of the accepted exchanges since the last GET_VERSION. -/
def RspShown (c : Cfg) (ms : List Bytes) : RspState → Prop
  | .version => ms = []
  | .capabilities => ∃ q p, ms = [q, p]
  | .algorithms caps => ∃ q p m1 m2, ms = [q, p, m1, m2] ∧ CapsShown m1 m2 caps
  | .idAuth n => ∃ q p m1 m2 m3 more, ms = [q, p, m1, m2, m3, [0x11, 0x63] ++ Wire.algorithms n.algorithms] ++ more ∧ CapsShown m1 m2 n.caps ∧
      AlgorithmsShown m3 n.algorithms ∧ ∀ m ∈ more, code m = some 0x81 ∨ code m = some 0x01
  | .challenge n => ∃ q p m1 m2 m3 more, ms = [q, p, m1, m2, m3, [0x11, 0x63] ++ Wire.algorithms n.algorithms] ++ more ∧ CapsShown m1 m2 n.caps ∧
      AlgorithmsShown m3 n.algorithms ∧ ∃ m ∈ more, code m = some 0x82
  | .error => False
where
  /-- The requester's capabilities are those of the GET_CAPABILITIES message, the responder's those it sent. -/
  CapsShown (m1 m2 : Bytes) (caps : Caps) : Prop :=
    Says c ⟨0, 0, false⟩ m1 (.getCapabilities ⟨caps.requesterCt, caps.requesterCap⟩) ∧ m2 = [0x11, 0x61] ++ Wire.capabilities ⟨caps.responderCt, caps.responderCap⟩
  /-- The algorithms are a choice among those the NEGOTIATE_ALGORITHMS message offers. -/
  AlgorithmsShown (m3 : Bytes) (a : Algorithms) : Prop := ∃ q, Says c ⟨0, 0, false⟩ m3 (.negotiateAlgorithms q) ∧ Answers q a

end Spdm.Spec

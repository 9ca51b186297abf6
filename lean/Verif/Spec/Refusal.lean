import Verif.Spec.Accepts
import Verif.Spec.Replay
/-!
# Why a responder refuses a request

Four exclusive reasons, each about the bytes of the request and the slots: the request is not one that may come now, it is not a valid
encoding of its message, it names a slot the responder does not have, or it is in order and only the resources or the signer stand in
the way.
-/
namespace Spdm.Spec

/-- The first two bytes of the request of code `k`: only GET_VERSION is sent under version 1.0. -/
def requestHeader (k : UInt8) : Bytes := [if k = 0x84 then 0x10 else 0x11, k]

/-- The request is, by its header, one that may follow the last accepted one. -/
def Awaited (prev : Option UInt8) (req : Bytes) : Prop := ∃ k, allowed prev k = true ∧ req.take 2 = requestHeader k

/-- The request is a valid encoding of some request message, whatever follows.  GET_DIGESTS is answered whatever its body is. -/
def WellFormed (c : Cfg) (req : Bytes) : Prop :=
  (∃ body, req = [0x11, 0x81] ++ body) ∨
  ∃ (m : AnyMsg) (bs tail : Bytes), req = Wire.header m.ty ++ bs ++ tail ∧ Denotes c ⟨0, 0, false⟩ bs m

/-- The request asks for a slot that does not exist (GET_CERTIFICATE) or holds no chain (CHALLENGE). -/
def SlotMissing (c : Cfg) (slots : List (Option FilledSlot)) (req : Bytes) : Prop :=
  ∃ i, req[2]? = some i ∧
    (code req = some 0x82 ∧ c.numSlots ≤ i.toNat ∨ code req = some 0x83 ∧ ∀ s : FilledSlot, slots[i.toNat]? ≠ some (some s))

/-- The bytes the request needs at least, after its code.  NEGOTIATE_ALGORITHMS announces its external algorithms in bytes 28 and 29. -/
def neededBytes (c : Cfg) (req : Bytes) : UInt8 → Nat
  | 0x84 => 4
  | 0xE1 => 12
  | 0xE3 => 32 + 4 * (leVal (field req 28 1) + leVal (field req 29 1))
  | 0x82 => 8
  | 0x83 => 4 + c.nonceSize
  | _ => 0

/-- The request ends too early, or is a NEGOTIATE_ALGORITHMS that announces more than 128 bytes. -/
def CutShort (c : Cfg) (req : Bytes) : Prop :=
  ∃ k, code req = some k ∧ (req.length < neededBytes c req k ∨ k = 0xE3 ∧ 128 < leVal (field req 4 2))

/-- A response buffer of `room` bytes that ends inside the four bytes of (empty) opaque data, the last ones of the CHALLENGE_AUTH before its
signature. -/
def EndsInOpaque (l : Log) (chainHash nonce : Bytes) (room : Nat) : Prop :=
  (authPart l 0 0 chainHash nonce).length ≤ room + 4 ∧ room < (authPart l 0 0 chainHash nonce).length

end Spdm.Spec

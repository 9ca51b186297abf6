import Verif.Spec.Reply
/-!
# What a peer can tell about slots it does not ask for
-/
namespace Spdm.Spec

/-- As many slots, filled in the same places. -/
structure SameOccupancy (slots slots' : List (Option FilledSlot)) : Prop where
  len : slots.length = slots'.length
  filled : ∀ j : Nat, (slots[j]?).map Option.isSome = (slots'[j]?).map Option.isSome

/-- The request is a GET_CERTIFICATE (0x82) or CHALLENGE (0x83) whose third byte, the slot number, is `k`. -/
def NamesSlot (req : Bytes) (k : Nat) : Prop := (code req = some 0x82 ∨ code req = some 0x83) ∧ ∃ b : UInt8, req[2]? = some b ∧ b.toNat = k

/-- Corresponding chains fit the build's buffer and have the same SHA-256, SHA-384 and SHA-512 digests. -/
def DigestsAgree (c : Cfg) (cr : Crypto) (slots slots' : List (Option FilledSlot)) : Prop :=
  ∀ (j : Nat) (a b : FilledSlot), slots[j]? = some (some a) → slots'[j]? = some (some b) →
    ChainFits c (some a) ∧ ChainFits c (some b) ∧
    ∀ h : Nat, h = 1 ∨ h = 2 ∨ h = 4 → cr.hash (UInt32.ofNat h) (Wire.chain a.certChain) = cr.hash (UInt32.ofNat h) (Wire.chain b.certChain)

/-- The call asks nothing on which the two responders should differ: a slot it names is the same in both, and if it is GET_DIGESTS (0x81) the digests are. -/
def AsksSame (c : Cfg) (cr : Crypto) (slots slots' : List (Option FilledSlot)) : RspCall → Prop
  | .reset => True
  | .call _ req _ => (∀ k, NamesSlot req k → slots[k]? = slots'[k]?) ∧ (code req = some 0x81 → DigestsAgree c cr slots slots')

end Spdm.Spec

import Verif.Spec.Any
/-!
# The messages that survive being written and read

Of all values of the message types, those that come back unchanged.  Only the data types of the model and the layouts of `Spec/Wire.lean` are used.
-/
namespace Spdm.Spec

/-- DIGESTS: one entry per slot of the build, filled exactly for the slots the mask names, digests of the negotiated size.  (Bits of the mask for slots
the build does not have are free.) -/
def DigestsFaithful (c : Cfg) (size : Nat) (m : Digests) : Prop :=
  m.digests.length = c.numSlots ∧ (∀ i, i < c.numSlots → (m.slotMask.toNat.testBit i = true ↔ ∃ d, m.digests[i]? = some (some d))) ∧
    ∀ d, some d ∈ m.digests → d.length = size

/-- MEASUREMENTS: as `MeasurementsWF` and `MeasurementsReadable`, but a signed message may also name the slot number NUM_SLOTS, which no build has. -/
structure MeasurementsFaithful (c : Cfg) (x : Ctx) (m : Measurements) : Prop where
  total : m.totalBlocks.toNat ≤ c.maxMeasurementBlocks
  slot : m.slotId.toNat ≤ c.numSlots
  blocks : BlocksWF c m.blocks
  nonce : m.nonce.length = c.nonceSize
  opq : OpaqueDataWF c m.opaqueData
  asked : m.signature.isSome = x.sigRequested
  sig : ∀ s, m.signature = some s → s.length = x.sigSize
  readable : MeasurementsReadable c m

/-- The messages that come back unchanged, where the receiver knows `x`. -/
def Faithful (c : Cfg) (x : Ctx) : AnyMsg → Prop
  | .digests m => DigestsFaithful c x.digestSize m
  | .measurements m => MeasurementsFaithful c x m
  | m => MsgWF c x m

end Spdm.Spec

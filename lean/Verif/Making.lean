import Verif.Requester
import Verif.Msgs.Measurements
/-!
# Constructors of messages and of the session object

src/msgs/measurements.rs, src/msgs/challenge.rs, src/requester.rs
-/
namespace Spdm

/-- `BitStream::new`, src/msgs/measurements.rs 331-335: `buf[..data.len()]` of an array of `MAX_MEASUREMENT_SIZE` bytes. -/
def BitStream.new (c : Cfg) (data : Bytes) : Res MeasurementValue :=
  if data.length ≤ c.maxMeasurementSize then .ok (.bitStream data) else .panic .indexOutOfBounds

/-- `Measurements::new_with_num_measurements`, src/msgs/measurements.rs 750-768. -/
def Measurements.newWithNumMeasurements (c : Cfg) (totalBlocks : UInt8) (contentChanged : ContentChanged) (slotId : UInt8) (nonce : Bytes) (opaqueData : OpaqueData)
    (signature : Option Bytes) : Res Measurements :=
  if slotId.toNat < c.numSlots then .ok ⟨totalBlocks, contentChanged, slotId, MeasurementBlocks.dflt c, nonce, opaqueData, signature⟩
  else .panic .assertion

/-- `Measurements::new_with_measurements`, src/msgs/measurements.rs 772-791. -/
def Measurements.newWithMeasurements (c : Cfg) (contentChanged : ContentChanged) (slotId : UInt8) (blocks : MeasurementBlocks) (nonce : Bytes) (opaqueData : OpaqueData)
    (signature : Option Bytes) : Res Measurements :=
  if slotId.toNat < c.numSlots then .ok ⟨0, contentChanged, slotId, blocks, nonce, opaqueData, signature⟩
  else .panic .assertion

/-- `Challenge::new`, src/msgs/challenge.rs 72-74; `freshNonce` stands for `Nonce::new()`. -/
def Challenge.new (slot : UInt8) (measurementHashType : MeasurementHashType) (freshNonce : Bytes) : Challenge := ⟨slot, measurementHashType, freshNonce⟩

/-- `RequesterSession`, src/requester.rs 76-78. -/
structure RequesterSession where
  data : Requester

/-- `begin_session`, src/requester.rs 149-151 with `From`, 80-84: takes the requester by value, without looking at its state. -/
def Requester.beginSession (r : Requester) : RequesterSession := ⟨r⟩

end Spdm

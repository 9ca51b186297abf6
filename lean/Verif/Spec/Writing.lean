import Verif.Spec.Any
/-!
# What writing a message does

For every value of every message type, including the ones a careful caller would not build (a count beyond the array,
a slot mask that names an empty slot, an opaque element whose vendor id does not fit its registry, …): the bytes that are
put into the buffer and how the writing ends.  Only the data types of the model and the layouts of `Spec/Wire.lean` are used.
-/
namespace Spdm.Spec

/-- How writing a message ends, given room for its bytes. -/
inductive Ending
  /-- all bytes are written -/
  | done
  /-- the writer reports this error -/
  | refused (e : Err)
  /-- the writer aborts -/
  | aborted
  deriving DecidableEq, Repr

/-- The bytes put into the buffer, and how the writing ends once they are there. -/
structure Text where
  bytes : Bytes
  ending : Ending
  deriving DecidableEq, Repr

namespace Text
/-- Just these bytes. -/
def put (bs : Bytes) : Text := ⟨bs, .done⟩
/-- An error, with nothing written. -/
def refuse (e : Err) : Text := ⟨[], .refused e⟩
/-- An abort, with nothing written. -/
def abort : Text := ⟨[], .aborted⟩
/-- One text after another; nothing follows a text that does not end well. -/
def seq (a b : Text) : Text :=
  match a.ending with
  | .done => ⟨a.bytes ++ b.bytes, b.ending⟩
  | _ => a
/-- Several texts in a row. -/
def all : List Text → Text
  | [] => put []
  | a :: l => a.seq (all l)
/-- `a` if `p`, otherwise `b`. -/
def need (p : Prop) [Decidable p] (otherwise : Text) (a : Text) : Text := if p then a else otherwise
end Text

open Text

/-- One version entry: two pairs of 4-bit fields.  (Values of 16 and more spill into the neighbouring field.) -/
def versionEntryText (e : VersionEntry) : Text := put [e.alpha ||| (e.update <<< 4), e.minor ||| (e.major <<< 4)]

/-- Size of an opaque element as announced: registry, vendor id length, vendor id, length, data, padded to a multiple of four. -/
def elementSize (e : OpaqueElement) : Nat :=
  (4 + Wire.registryIdLen e.registryId + e.dataLen.toNat + 3) / 4 * 4

/-- Size of opaque data as announced, `n` elements in use. -/
def opaqueSize (d : OpaqueData) : Nat := 4 + ((d.elements.take d.totalElements.toNat).map elementSize).sum

/-- An opaque element: refused if the vendor id does not have the length of its registry, aborted if it claims more data than its
array holds. -/
def elementText (e : OpaqueElement) : Text :=
  (put ([Wire.registry e.registryId] ++ Wire.vendorId e.vendorId)).seq <|
    need (Wire.vendorIdLen e.vendorId = Wire.registryIdLen e.registryId) (refuse .opaqueInvalidVendorIdLength) <|
      (put (le 2 e.dataLen.toNat)).seq <| need (e.dataLen.toNat ≤ e.data.length) abort <|
        put (e.data.take e.dataLen.toNat ++ zeros (elementSize e - (4 + Wire.registryIdLen e.registryId + e.dataLen.toNat)))

/-- Opaque data: aborted if more elements are claimed than there are. -/
def opaqueText (d : OpaqueData) : Text :=
  (put ([d.totalElements] ++ zeros 3)).seq <| need (d.totalElements.toNat ≤ d.elements.length) abort <|
    all ((d.elements.take d.totalElements.toNat).map elementText)

/-- The slots below NUM_SLOTS that a mask names, in increasing order. -/
def namedSlots (numSlots : Nat) (mask : UInt8) : List Nat := (List.range numSlots).filter fun k => mask.toNat.testBit k

/-- The digest of a slot; aborted if the slot holds none. -/
def digestText (m : Digests) (k : Nat) : Text :=
  match m.digests[k]? with
  | some (some d) => put d
  | _ => abort

/-- A measurement block; aborted if the value is too large for the 16-bit size field. -/
def blockText (b : MeasurementBlock) : Text :=
  (put [b.index, b.measurementSpecSelected]).seq <| need (3 + (Wire.valueBytes b.measurement.value).length < 65536) abort <|
    put (le 2 (3 + (Wire.valueBytes b.measurement.value).length) ++ Wire.dmtfMeasurement b.measurement)

/-- The blocks in use; aborted if more are claimed than fit the count byte or the array, or if one of them is missing. -/
def blocksText (m : MeasurementBlocks) : Text :=
  need (m.len < 256) abort <| (put [UInt8.ofNat m.len]).seq <|
    need (m.len ≤ m.blocks.length ∧ ∀ b ∈ m.blocks.take m.len, b.isSome = true) abort <|
      (put (le 3 ((Wire.blockList m).map fun b => 7 + (Wire.valueBytes b.measurement.value).length).sum)).seq <|
        all ((Wire.blockList m).map blockText)

/-- The second byte of MEASUREMENTS. -/
def measurementsParam2 (m : Measurements) : UInt8 :=
  UInt8.ofNat (Wire.ccBits m.contentChanged) ||| (if m.signature.isSome then m.slotId else 0)

/-- The text of the body of each message. -/
def text (c : Cfg) : AnyMsg → Text
  | .getVersion => put Wire.getVersion
  | .version m => (put (zeros 3 ++ [m.numEntries])).seq (all (m.entries.map versionEntryText))
  | .getCapabilities m => put (Wire.getCapabilities m)
  | .capabilities m => put (Wire.capabilities m)
  | .negotiateAlgorithms m =>
    (put ([m.numAlgorithmRequests] ++ zeros 1)).seq <|
      need (m.numAlgorithmRequests.toNat ≤ m.algorithmRequests.length) abort <|
        put ((Wire.negotiateAlgorithms m).drop 2)
  | .algorithms m =>
    (put ([m.numAlgorithmResponses] ++ zeros 1)).seq <|
      need (m.numAlgorithmResponses.toNat ≤ m.algorithmResponses.length) abort <|
        put ((Wire.algorithms m).drop 2)
  | .getDigests => put Wire.getDigests
  | .digests m => (put (zeros 1 ++ [m.slotMask])).seq (all ((namedSlots c.numSlots m.slotMask).map (digestText m)))
  | .getCertificate m => put (Wire.getCertificate m)
  | .certificate m =>
    (put ([m.slot] ++ zeros 1 ++ le 2 m.portionLength.toNat ++ le 2 m.remainderLength.toNat)).seq <|
      need (m.portionLength.toNat ≤ m.certChain.length) abort <| put (m.certChain.take m.portionLength.toNat)
  | .challenge m => put (Wire.challenge m)
  | .challengeAuth m =>
    need (m.slot.toNat < c.numSlots) (refuse .maxSlotNumberExceeded) <|
      need (m.opaqueData.totalElements.toNat ≤ m.opaqueData.elements.length) abort <|
        need (opaqueSize m.opaqueData ≤ 1024) (refuse .maxOpaqueDataSizeExceeded) <|
          (put ([if m.useMutualAuth then m.slot &&& 0x80 else m.slot, m.slotMask] ++ m.certChainHash ++ m.nonce ++
            m.measurementSummaryHash ++ le 2 (opaqueSize m.opaqueData))).seq <| (opaqueText m.opaqueData).seq (put m.signature)
  | .getMeasurements m =>
    (put [UInt8.ofNat ((if m.attributes.signatureRequested then 1 else 0) +
        (if m.attributes.rawBitStreamRequested then 2 else 0))]).seq <|
      match m.index with
      | .implementationDefined i => need (0x01 ≤ i ∧ i ≤ 0xEF) (refuse .invalidImplementationDefinedIndex) (tail m)
      | .reserved i => need (0xF0 ≤ i ∧ i ≤ 0xFC) (refuse .invalidReservedIndex) (tail m)
      | _ => tail m
  | .measurements m =>
    (put [m.totalBlocks, measurementsParam2 m]).seq <| (blocksText m.blocks).seq <| (put m.nonce).seq <|
      need (m.opaqueData.totalElements.toNat ≤ m.opaqueData.elements.length ∧ opaqueSize m.opaqueData < 65536) abort <|
        (put (le 2 (opaqueSize m.opaqueData))).seq <| (opaqueText m.opaqueData).seq (put (m.signature.getD []))
  | .error (.vendorDefined id v) =>
    (put ([0xFF, Wire.registry id] ++ Wire.vendorId v.vendorId)).seq <|
      need (v.opaqueLen ≤ v.opaqueErrorData.length) abort <| put (v.opaqueErrorData.take v.opaqueLen)
  | .error m => put (Wire.error m)
where
  /-- The index of GET_MEASUREMENTS and what follows it: the nonce (aborted if there is none) and the slot if a signature is requested. -/
  tail (m : GetMeasurements) : Text :=
    (put [Wire.measurementIndex m.index]).seq <|
      if m.attributes.signatureRequested then
        match m.nonce with
        | none => abort
        | some n => put (n ++ [m.slotId])
      else put []

/-- The text of a certificate chain: refused if it is too long for its 16-bit length field. -/
def chainText (ch : CertificateChain) : Text :=
  need ((Wire.chain ch).length ≤ 65535) (refuse .maxSizeExceeded) (put (Wire.chain ch))

/-- The errors that report a full buffer: the plain one, and the one that wraps it while opaque data is written. -/
def ReportsFull (e : Err) : Prop := e = .bufferFull ∨ e = .opaqueFull ∨ e = .challengeAuthFull

/-! ## Which messages can be written at all -/

/-- Opaque data that can be written. -/
def OpaqueWritable (d : OpaqueData) : Prop :=
  d.totalElements.toNat ≤ d.elements.length ∧ ∀ e ∈ d.elements.take d.totalElements.toNat,
    Wire.vendorIdLen e.vendorId = Wire.registryIdLen e.registryId ∧ e.dataLen.toNat ≤ e.data.length

/-- A message that can be written, given a large enough buffer. -/
def Writable (c : Cfg) : AnyMsg → Prop
  | .negotiateAlgorithms m => m.numAlgorithmRequests.toNat ≤ m.algorithmRequests.length
  | .algorithms m => m.numAlgorithmResponses.toNat ≤ m.algorithmResponses.length
  | .digests m => ∀ k, k < c.numSlots → m.slotMask.toNat.testBit k = true → ∃ d, m.digests[k]? = some (some d)
  | .certificate m => m.portionLength.toNat ≤ m.certChain.length
  | .challengeAuth m => m.slot.toNat < c.numSlots ∧ OpaqueWritable m.opaqueData ∧ opaqueSize m.opaqueData ≤ 1024
  | .getMeasurements m => IndexWF m.index ∧ (m.attributes.signatureRequested = true → m.nonce ≠ none)
  | .measurements m => m.blocks.len < 256 ∧ m.blocks.len ≤ m.blocks.blocks.length ∧
      (∀ b ∈ m.blocks.blocks.take m.blocks.len, ∃ x, b = some x ∧ 3 + (Wire.valueBytes x.measurement.value).length < 65536) ∧
      OpaqueWritable m.opaqueData ∧ opaqueSize m.opaqueData < 65536
  | .error (.vendorDefined _ v) => v.opaqueLen ≤ v.opaqueErrorData.length
  | _ => True

end Spdm.Spec

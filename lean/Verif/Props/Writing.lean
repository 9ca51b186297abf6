import Verif.Lemmas.Writing
import Verif.Props.Messages
/-! # C85: what writing a message does, for every value of every message -/
namespace Spdm
open Spec

/-! ## How a text ends -/

theorem Text.seq_done {a b : Text} : (a.seq b).ending = .done ↔ a.ending = .done ∧ b.ending = .done := by
  rcases a with ⟨ab, ae⟩
  cases ae <;> simp [Text.seq]

theorem Text.need_done {p : Prop} [Decidable p] {o a : Text} (ho : o.ending ≠ .done) :
    (Text.need p o a).ending = .done ↔ p ∧ a.ending = .done := by
  unfold Text.need
  split <;> simp_all

theorem Text.put_done (bs : Bytes) : (Text.put bs).ending = .done := rfl
theorem Text.abort_not_done : Text.abort.ending ≠ .done := by decide
theorem Text.refuse_not_done (e : Err) : (Text.refuse e).ending ≠ .done := fun h => by cases h

theorem Text.all_done (l : List Text) : (Text.all l).ending = .done ↔ ∀ t ∈ l, t.ending = .done := by
  induction l with
  | nil => simp [Text.all, Text.put]
  | cons a l ih => simp only [Text.all, Text.seq_done, ih, List.forall_mem_cons]

theorem elementText_done (e : OpaqueElement) : (elementText e).ending = .done ↔
    Wire.vendorIdLen e.vendorId = Wire.registryIdLen e.registryId ∧ e.dataLen.toNat ≤ e.data.length := by
  unfold elementText
  rw [Text.seq_done, Text.need_done (Text.refuse_not_done _), Text.seq_done, Text.need_done Text.abort_not_done]
  simp [Text.put_done]

theorem opaqueText_done (d : OpaqueData) : (opaqueText d).ending = .done ↔ OpaqueWritable d := by
  unfold opaqueText OpaqueWritable
  rw [Text.seq_done, Text.need_done Text.abort_not_done, Text.all_done]
  simp only [Text.put_done, true_and, List.forall_mem_map, elementText_done]

theorem blockText_done (b : MeasurementBlock) : (blockText b).ending = .done ↔
    3 + (Wire.valueBytes b.measurement.value).length < 65536 := by
  unfold blockText
  rw [Text.seq_done, Text.need_done Text.abort_not_done]
  simp [Text.put_done]

theorem blocksText_done (m : MeasurementBlocks) : (blocksText m).ending = .done ↔
    m.len < 256 ∧ m.len ≤ m.blocks.length ∧
      ∀ b ∈ m.blocks.take m.len, ∃ x, b = some x ∧ 3 + (Wire.valueBytes x.measurement.value).length < 65536 := by
  unfold blocksText
  rw [Text.need_done Text.abort_not_done, Text.seq_done, Text.need_done Text.abort_not_done, Text.seq_done, Text.all_done]
  simp only [Text.put_done, true_and, List.forall_mem_map, blockText_done]
  constructor
  · rintro ⟨h1, ⟨h2, h3⟩, h4⟩
    refine ⟨h1, h2, fun b hb => ?_⟩
    obtain ⟨x, hx⟩ := Option.isSome_iff_exists.mp (h3 b hb)
    exact ⟨x, hx, h4 x (by simp only [Wire.blockList, List.mem_filterMap, id]; exact ⟨b, hb, hx⟩)⟩
  · rintro ⟨h1, h2, h3⟩
    refine ⟨h1, ⟨h2, fun b hb => ?_⟩, fun x hx => ?_⟩
    · obtain ⟨x, hx, _⟩ := h3 b hb; simp [hx]
    · simp only [Wire.blockList, List.mem_filterMap, id] at hx
      obtain ⟨b, hb, hbx⟩ := hx
      obtain ⟨y, hy, hl⟩ := h3 b hb
      rw [hy] at hbx
      cases hbx
      exact hl

theorem namedSlots_mem (n : Nat) (mask : UInt8) (k : Nat) : k ∈ namedSlots n mask ↔ k < n ∧ mask.toNat.testBit k = true := by
  simp [namedSlots]

theorem digestText_done (m : Digests) (k : Nat) : (digestText m k).ending = .done ↔ ∃ d, m.digests[k]? = some (some d) := by
  unfold digestText
  split
  · rename_i d h; simp [h, Text.put]
  · rename_i h
    simp only [Text.abort, reduceCtorEq, false_iff, not_exists]
    exact fun d hd => h d hd

/-- A text ends well exactly if its message can be written. -/
theorem text_done (c : Cfg) (m : AnyMsg) : (text c m).ending = .done ↔ Writable c m := by
  cases m with
  | version m =>
    simp only [text, Writable, iff_true]
    rw [Text.seq_done, Text.all_done]
    refine ⟨rfl, ?_⟩
    simp only [List.forall_mem_map]
    exact fun _ _ => rfl
  | negotiateAlgorithms m =>
    simp only [text, Writable]
    rw [Text.seq_done, Text.need_done Text.abort_not_done]
    simp [Text.put_done]
  | algorithms m =>
    simp only [text, Writable]
    rw [Text.seq_done, Text.need_done Text.abort_not_done]
    simp [Text.put_done]
  | digests m =>
    simp only [text, Writable]
    rw [Text.seq_done, Text.all_done]
    simp only [Text.put_done, true_and, List.forall_mem_map, digestText_done, namedSlots_mem, and_imp]
  | certificate m =>
    simp only [text, Writable]
    rw [Text.seq_done, Text.need_done Text.abort_not_done]
    simp [Text.put_done]
  | challengeAuth m =>
    simp only [text, Writable]
    rw [Text.need_done (Text.refuse_not_done _), Text.need_done Text.abort_not_done, Text.need_done (Text.refuse_not_done _),
      Text.seq_done, Text.seq_done, opaqueText_done]
    simp only [Text.put_done, true_and, and_true]
    constructor
    · rintro ⟨h1, h2, h3, h4⟩; exact ⟨h1, h4, h3⟩
    · rintro ⟨h1, h2, h3⟩; exact ⟨h1, h2.1, h3, h2⟩
  | getMeasurements m =>
    have ht : (text.tail m).ending = .done ↔ (m.attributes.signatureRequested = true → m.nonce ≠ none) := by
      unfold text.tail
      rw [Text.seq_done]
      cases m.attributes.signatureRequested with
      | false => simp [Text.put_done]
      | true =>
        simp only [Text.put_done, true_and, if_true, true_implies]
        cases m.nonce with
        | none => simp [Text.abort]
        | some n => simp [Text.put]
    simp only [text, Writable]
    rw [Text.seq_done]
    simp only [Text.put_done, true_and]
    cases hi : m.index <;> simp only [IndexWF, ht, true_and, Text.need_done (Text.refuse_not_done _)]
  | measurements m =>
    simp only [text, Writable]
    rw [Text.seq_done, Text.seq_done, Text.seq_done, Text.need_done Text.abort_not_done, Text.seq_done, Text.seq_done,
      opaqueText_done, blocksText_done]
    simp only [Text.put_done, true_and, and_true]
    constructor
    · rintro ⟨⟨h1, h2, h3⟩, ⟨h4, h5⟩, h6⟩; exact ⟨h1, h2, h3, h6, h5⟩
    · rintro ⟨h1, h2, h3, h4, h5⟩; exact ⟨⟨h1, h2, h3⟩, ⟨h4.1, h5⟩, h4⟩
  | error m =>
    cases m with
    | vendorDefined id v =>
      simp only [text, Writable]
      rw [Text.seq_done, Text.need_done Text.abort_not_done]
      simp [Text.put_done]
    | _ => simp [text, Writable, Text.put]
  | _ => simp [text, Writable, Text.put]

/-! ## The property -/

theorem reportsFull {e : Err} (h : e.isFull = true) : ReportsFull e := by
  unfold ReportsFull
  cases e <;> simp_all [Err.isFull]


/-- **C85**, what writing does: for every value of every message and every buffer.  If the bytes of the message's text fit (behind the two
header bytes), writing ends as the text says: all bytes written and nothing behind them touched, or that error, or an abort.  If they do not
fit, writing reports a full buffer. -/
theorem c85_outcome (c : Cfg) (hc : c.numSlots ≤ 8) (m : AnyMsg) (buf : Bytes) :
    (2 + (text c m).bytes.length ≤ buf.length →
      match (text c m).ending with
      | .done => m.write c buf = (.ok (2 + (text c m).bytes.length),
          Wire.header m.ty ++ (text c m).bytes ++ buf.drop (2 + (text c m).bytes.length))
      | .refused e => (m.write c buf).1 = .err e
      | .aborted => ∃ k, (m.write c buf).1 = .panic k) ∧
    (buf.length < 2 + (text c m).bytes.length → ∃ e, ReportsFull e ∧ (m.write c buf).1 = .err e) :=
  ⟨((any_says c hc m).write buf).1, fun h => by
    obtain ⟨e, h1, h2⟩ := ((any_says c hc m).write (t := m.ty) buf).2 h
    exact ⟨e, reportsFull h1, h2⟩⟩

/-- **C85**, which messages can be written: writing succeeds exactly if the message can be written at all and its bytes fit. -/
theorem c85_written_iff (c : Cfg) (hc : c.numSlots ≤ 8) (m : AnyMsg) (buf : Bytes) :
    (∃ n, (m.write c buf).1 = .ok n) ↔ Writable c m ∧ 2 + (text c m).bytes.length ≤ buf.length := by
  obtain ⟨h1, h2⟩ := c85_outcome c hc m buf
  rw [← text_done c m]
  by_cases hl : 2 + (text c m).bytes.length ≤ buf.length
  · have := h1 hl
    cases he : (text c m).ending with
    | done => rw [he] at this; simp only at this; simp [this, hl]
    | refused e => rw [he] at this; simp only at this; simp [this]
    | aborted => rw [he] at this; obtain ⟨k, hk⟩ := this; simp [hk]
  · obtain ⟨e, _, he⟩ := h2 (by omega)
    simp [he, hl]

/-- **C85**: writing never aborts if the message can be written, whatever the buffer; and a message that cannot be written never is. -/
theorem c85_writable_no_abort (c : Cfg) (hc : c.numSlots ≤ 8) (m : AnyMsg) (hm : Writable c m) (buf : Bytes) :
    (m.write c buf).1.isPanic = false := by
  obtain ⟨h1, h2⟩ := c85_outcome c hc m buf
  by_cases hl : 2 + (text c m).bytes.length ≤ buf.length
  · have := h1 hl
    rw [(text_done c m).mpr hm] at this
    simp only at this
    rw [this]; rfl
  · obtain ⟨e, _, he⟩ := h2 (by omega)
    rw [he]; rfl

/-- **C85**: the text of a well-formed message is its documented layout. -/
theorem c85_layout (c : Cfg) (hc : c.numSlots ≤ 8) (x : Ctx) (m : AnyMsg) (hm : MsgWF c x m) : text c m = ⟨Wire.body m, .done⟩ := by
  have ht := any_travels hm
  obtain ⟨h1, h2⟩ := c85_outcome c hc m (zeros (2 + (Wire.body m).length + (text c m).bytes.length))
  have hfit := ht.1 (zeros (2 + (Wire.body m).length + (text c m).bytes.length)) (by simp)
  have hw : m.write c (zeros (2 + (Wire.body m).length + (text c m).bytes.length)) = _ := hfit
  have h3 := h1 (by simp)
  cases he : (text c m).ending with
  | refused e => rw [he] at h3; simp only at h3; rw [hw] at h3; cases h3
  | aborted => rw [he] at h3; obtain ⟨k, hk⟩ := h3; rw [hw] at hk; cases hk
  | done =>
    rw [he] at h3
    simp only at h3
    rw [hw] at h3
    obtain ⟨h4, h5⟩ := Prod.mk.inj h3
    have hlen : (Wire.body m).length = (text c m).bytes.length := by
      injection h4 with h4; omega
    have hb : (text c m).bytes = Wire.body m := by
      have h6 := congrArg (fun l => (l.drop 2).take (Wire.body m).length) h5
      simp only [List.append_assoc] at h6
      have hd : ∀ l : Bytes, (Wire.header m.ty ++ l).drop 2 = l := fun l => by
        rw [List.drop_append, List.drop_of_length_le (by simp)]; simp
      rw [hd, hd, List.take_left' rfl, List.take_left' hlen.symm] at h6
      exact h6.symm
    rw [← hb, ← he]

/-- **C85** for certificate chains: written according to their layout exactly if they fit the 16-bit length field and the buffer; a chain
that is too long is refused whatever the buffer. -/
theorem c85_chain (ch : CertificateChain) (w : Writer) (hw : w.offset ≤ w.buf.length) :
    ((Wire.chain ch).length ≤ 65535 → (Wire.chain ch).length ≤ w.buf.length - w.offset →
      ch.write w = (.ok (w.offset + (Wire.chain ch).length),
        ⟨w.buf.take w.offset ++ Wire.chain ch ++ w.buf.drop (w.offset + (Wire.chain ch).length), w.offset + (Wire.chain ch).length⟩)) ∧
    ((Wire.chain ch).length ≤ 65535 → w.buf.length - w.offset < (Wire.chain ch).length →
      ∃ e, ReportsFull e ∧ (ch.write w).1 = .err e) ∧
    (65535 < (Wire.chain ch).length → (ch.write w).1 = .err .maxSizeExceeded) := by
  obtain ⟨h1, h2⟩ := CertificateChain.says ch w hw
  refine ⟨fun hl hf => ?_, fun hl hf => ?_, fun hl => ?_⟩
  · simp only [chainText, Text.need, if_pos hl, Text.put] at h1
    exact h1 hf
  · simp only [chainText, Text.need, if_pos hl, Text.put] at h2
    obtain ⟨e, w', he, h⟩ := h2 hf
    exact ⟨e, reportsFull he, by rw [h]⟩
  · simp only [chainText, Text.need, if_neg (Nat.not_le.mpr hl), Text.refuse, List.length_nil] at h1
    obtain ⟨w', h⟩ := h1 (by omega)
    rw [h]

/-! ## Non-vacuity -/

/-- A CHALLENGE_AUTH for slot NUM_SLOTS is refused, whatever else it says, if the buffer has room for the header. -/
example (m : ChallengeAuth) (buf : Bytes) (h : 2 ≤ buf.length) :
    ((AnyMsg.challengeAuth { m with slot := 2 }).write demoCfg buf).1 = .err .maxSlotNumberExceeded := by
  have := (c85_outcome demoCfg (by decide) (.challengeAuth { m with slot := 2 }) buf).1
  simp only [text, Text.need, if_neg (show ¬(2 : UInt8).toNat < demoCfg.numSlots by decide), Text.refuse] at this
  exact this h

/-- A DIGESTS message whose mask names slots 0 and 1, of which only the first holds a digest: the first digest is written, then the writer aborts.
In a buffer without room for the first digest it reports a full buffer instead. -/
example : text demoCfg (.digests ⟨3, [some [7, 7], none]⟩) = ⟨[0, 3, 7, 7], .aborted⟩ ∧
    (∀ buf : Bytes, 6 ≤ buf.length → ∃ k, ((AnyMsg.digests ⟨3, [some [7, 7], none]⟩).write demoCfg buf).1 = .panic k) ∧
    ∀ buf : Bytes, buf.length < 6 → ∃ e, ReportsFull e ∧ ((AnyMsg.digests ⟨3, [some [7, 7], none]⟩).write demoCfg buf).1 = .err e := by
  have e : text demoCfg (.digests ⟨3, [some [7, 7], none]⟩) = ⟨[0, 3, 7, 7], .aborted⟩ := by decide +kernel
  refine ⟨e, fun buf h => ?_, fun buf h => ?_⟩
  · have := (c85_outcome demoCfg (by decide) (.digests ⟨3, [some [7, 7], none]⟩) buf).1
    rw [e] at this
    exact this h
  · have := (c85_outcome demoCfg (by decide) (.digests ⟨3, [some [7, 7], none]⟩) buf).2
    rw [e] at this
    exact this h

/-- An opaque element of registry TCG with an empty vendor id is refused after its two first bytes. -/
example : elementText ⟨.tcg, .empty, 0, []⟩ = ⟨[1, 0], .refused .opaqueInvalidVendorIdLength⟩ := by decide +kernel

/-- A MEASUREMENTS message that can be written, with one block, and one that cannot: its block is missing. -/
example : Writable demoCfg (.measurements ⟨1, .false, 0, ⟨1, [some ⟨1, 1, ⟨.digest, .immutableRom, .digest [1, 2]⟩⟩, none]⟩, [1, 2, 3, 4], ⟨0, []⟩, none⟩) ∧
    ¬Writable demoCfg (.measurements ⟨1, .false, 0, ⟨2, [some ⟨1, 1, ⟨.digest, .immutableRom, .digest [1, 2]⟩⟩, none]⟩, [1, 2, 3, 4], ⟨0, []⟩, none⟩) := by
  rw [← text_done, ← text_done]
  decide +kernel

end Spdm

import Verif.Equal
import Verif.Props.Encoding
import Verif.Props.Buffers
import Verif.Lemmas.Msgs3
import Verif.DemoSession
/-!
# C96: equality tests
-/
namespace Spdm
open Spec

/-! ## Transcripts -/

theorem extend_zeros {c : Cfg} {t : Transcript} (hl : t.buf.length = c.transcriptSize) (ho : t.offset ≤ c.transcriptSize)
    (hz : t.buf.drop t.offset = zeros (c.transcriptSize - t.offset)) (bs : Bytes) :
    (Transcript.extend bs t).2.buf.length = c.transcriptSize ∧ (Transcript.extend bs t).2.offset ≤ c.transcriptSize ∧
      (Transcript.extend bs t).2.buf.drop (Transcript.extend bs t).2.offset = zeros (c.transcriptSize - (Transcript.extend bs t).2.offset) := by
  unfold Transcript.extend
  dsimp only
  split
  · exact ⟨hl, ho, hz⟩
  · rename_i h
    refine ⟨?_, ?_, ?_⟩
    · simp only [List.length_append, List.length_take, List.length_drop]; omega
    · show t.offset + bs.length ≤ _
      omega
    · show List.drop (t.offset + bs.length) (t.buf.take t.offset ++ bs ++ t.buf.drop (t.offset + bs.length)) = _
      rw [List.drop_left' (by simp only [List.length_append, List.length_take]; omega), ← List.drop_drop, hz]
      simp only [zeros, List.drop_replicate]
      congr 1; omega

theorem extends_zeros {c : Cfg} : ∀ (xs : List Bytes) (t : Transcript), t.buf.length = c.transcriptSize → t.offset ≤ c.transcriptSize →
    t.buf.drop t.offset = zeros (c.transcriptSize - t.offset) →
    let u := (TOp.runAll (xs.map .extend) t).2
    u.buf.length = c.transcriptSize ∧ u.offset ≤ c.transcriptSize ∧ u.buf.drop u.offset = zeros (c.transcriptSize - u.offset)
  | [], _, hl, ho, hz => ⟨hl, ho, hz⟩
  | x :: xs, t, hl, ho, hz => by
    obtain ⟨h1, h2, h3⟩ := extend_zeros hl ho hz x
    exact extends_zeros xs _ h1 h2 h3

/-- **C96, part.** Transcripts that have never been cleared are equal exactly if they hold the same bytes.
Missing: a transcript that has been cleared, see `c96_transcript_stale`. -/
theorem c96_transcript_partial (c : Cfg) (xs ys : List Bytes) :
    let a := (TOp.runAll (xs.map .extend) (Transcript.new c)).2
    let b := (TOp.runAll (ys.map .extend) (Transcript.new c)).2
    a.eq b = true ↔ a.get = b.get := by
  intro a b
  have h0 : (Transcript.new c).buf.drop (Transcript.new c).offset = zeros (c.transcriptSize - (Transcript.new c).offset) := by simp [Transcript.new, zeros]
  obtain ⟨a1, a2, a3⟩ := extends_zeros (c := c) xs (Transcript.new c) (by simp [Transcript.new]) (by simp [Transcript.new]) h0
  obtain ⟨b1, b2, b3⟩ := extends_zeros (c := c) ys (Transcript.new c) (by simp [Transcript.new]) (by simp [Transcript.new]) h0
  change a.buf.length = _ at a1; change a.offset ≤ _ at a2; change a.buf.drop a.offset = _ at a3
  change b.buf.length = _ at b1; change b.offset ≤ _ at b2; change b.buf.drop b.offset = _ at b3
  unfold Transcript.eq Transcript.get
  simp only [Bool.and_eq_true, beq_iff_eq]
  constructor
  · rintro ⟨h1, h2⟩; rw [h1, h2]
  · intro h
    have ho : a.offset = b.offset := by
      have := congrArg List.length h
      simp only [List.length_take] at this; omega
    refine ⟨?_, ho⟩
    rw [← List.take_append_drop a.offset a.buf, ← List.take_append_drop b.offset b.buf, h, a3, b3, ho]

/-- **C96, the gap.** An emptied transcript is not equal to a new one, though both hold nothing, if anything but zeros has been written to it: for every
extension that fits and is not all zeros. -/
theorem c96_transcript_stale (c : Cfg) (x : Bytes) (hx : x.length ≤ c.transcriptSize) (hn : ∃ b ∈ x, b ≠ 0) :
    let t := (TOp.runAll [.extend x, .clear] (Transcript.new c)).2
    t.get = (Transcript.new c).get ∧ t.get = [] ∧ t.len = 0 ∧ t.eq (Transcript.new c) = false := by
  have hrun : TOp.run (.extend x) (Transcript.new c) = (.ok (), ⟨x ++ List.replicate (c.transcriptSize - x.length) 0, x.length⟩) := by
    simp only [TOp.run, Transcript.extend, Transcript.new, List.length_replicate, Nat.zero_add]
    rw [if_neg (by omega)]
    simp
  simp only [TOp.runAll, hrun]
  simp only [TOp.run, Transcript.clear, Transcript.get, Transcript.new, Transcript.len, List.take_zero, true_and]
  rw [Bool.eq_false_iff]
  intro h
  simp only [Transcript.eq, Bool.and_eq_true, beq_iff_eq, and_true] at h
  obtain ⟨b, hb, h0⟩ := hn
  have : b ∈ List.replicate c.transcriptSize (0 : UInt8) := h ▸ List.mem_append_left _ hb
  exact h0 (List.eq_of_mem_replicate this)

/-- A session leaves such a transcript: a responder that has answered and then been reset holds the empty transcript of a new responder, and is not equal to it. -/
example : let r := ((demoResponder 1).reset)
    r.transcript.get = (Transcript.new demoCfg).get ∧ r.transcript.eq (Transcript.new demoCfg) = false := by decide +kernel

/-- Two transcripts with the same bytes, extended differently. -/
example : let a := (TOp.runAll ([[1, 2], [3]].map .extend) (Transcript.new demoCfg)).2
    let b := (TOp.runAll ([[1], [2, 3]].map .extend) (Transcript.new demoCfg)).2
    a.eq b = true ∧ a.get = [1, 2, 3] := by decide +kernel

/-! ## Opaque data -/

theorem Reads.unique {α : Type} {p : R α} {bs : Bytes} {a b : α} (h : Reads p bs a) (g : Reads p bs b) : a = b := by
  have := (h [] []).symm.trans (g [] [])
  simpa using congrArg Prod.fst this

theorem element_eq {c : Cfg} {a b : OpaqueElement} (ha : OpaqueElementWF c a) (hb : OpaqueElementWF c b) : a.eq b = .ok (decide (a = b)) := by
  unfold OpaqueElement.eq
  by_cases h1 : a.registryId = b.registryId
  · by_cases h2 : a.vendorId = b.vendorId
    · by_cases h3 : a.dataLen = b.dataLen
      · rw [if_pos h1, if_pos h2, if_pos h3, sliceTo_ok (by rw [ha.len]; exact ha.dlen), sliceTo_ok (by rw [hb.len]; exact hb.dlen)]
        simp only [Res.ok_bind, Res.pure_eq, Res.ok.injEq]
        rw [beq_eq_decide]
        apply decide_eq_decide.2
        constructor
        · intro h
          have hd : a.data = b.data := by
            rw [← List.take_append_drop a.dataLen.toNat a.data, ← List.take_append_drop b.dataLen.toNat b.data, h, ha.zero, hb.zero, h3]
          cases a; cases b; simp_all
        · rintro rfl; rfl
      · rw [if_pos h1, if_pos h2, if_neg h3, decide_eq_false (by rintro rfl; exact h3 rfl)]
    · rw [if_pos h1, if_neg h2, decide_eq_false (by rintro rfl; exact h2 rfl)]
  · rw [if_neg h1, decide_eq_false (by rintro rfl; exact h1 rfl)]

/-- **C96.** Two opaque elements the API can build are compared without aborting, and are equal exactly if they travel as the same bytes. -/
theorem c96_element {c : Cfg} {a b : OpaqueElement} (ha : OpaqueElementWF c a) (hb : OpaqueElementWF c b) :
    a.eq b = .ok (decide (Wire.opaqueElement a = Wire.opaqueElement b)) := by
  rw [element_eq ha hb]
  congr 1
  apply decide_eq_decide.2
  constructor
  · rintro rfl; rfl
  · intro h; exact (OpaqueElement.reads ha).unique (h ▸ OpaqueElement.reads hb)

/-- **C96.** Whatever the arrays hold behind the data, elements with the same identifiers and the same data are equal, and others are not. -/
theorem c96_element_content (a b : OpaqueElement) (ha : a.dataLen.toNat ≤ a.data.length) (hb : b.dataLen.toNat ≤ b.data.length) :
    a.eq b = .ok (decide (a.registryId = b.registryId ∧ a.vendorId = b.vendorId ∧ a.data.take a.dataLen.toNat = b.data.take b.dataLen.toNat)) := by
  unfold OpaqueElement.eq
  by_cases h1 : a.registryId = b.registryId
  · by_cases h2 : a.vendorId = b.vendorId
    · by_cases h3 : a.dataLen = b.dataLen
      · rw [if_pos h1, if_pos h2, if_pos h3, sliceTo_ok ha, sliceTo_ok hb]
        simp only [Res.ok_bind, Res.pure_eq, Res.ok.injEq, h1, h2, true_and]
        rw [beq_eq_decide]
      · rw [if_pos h1, if_pos h2, if_neg h3, decide_eq_false]
        rintro ⟨_, _, h⟩
        have := congrArg List.length h
        simp only [List.length_take] at this
        exact h3 (UInt16.toNat_inj.1 (by omega))
    · rw [if_pos h1, if_neg h2, decide_eq_false fun h => h2 h.2.1]
  · rw [if_neg h1, decide_eq_false fun h => h1 h.1]

theorem elements_eq {c : Cfg} : ∀ (as bs : List OpaqueElement), (∀ e ∈ as, OpaqueElementWF c e) → (∀ e ∈ bs, OpaqueElementWF c e) →
    OpaqueData.eqElements as bs = .ok (decide (as = bs))
  | [], [], _, _ => rfl
  | [], _ :: _, _, _ => by simp [OpaqueData.eqElements]
  | _ :: _, [], _, _ => by simp [OpaqueData.eqElements]
  | a :: as, b :: bs, ha, hb => by
    unfold OpaqueData.eqElements
    rw [element_eq (ha a (by simp)) (hb b (by simp)), Res.ok_bind]
    by_cases h : a = b
    · subst h
      rw [decide_eq_true rfl, if_pos rfl, elements_eq as bs (fun e he => ha e (by simp [he])) (fun e he => hb e (by simp [he]))]
      simp
    · rw [decide_eq_false h, if_neg (by decide)]
      simp [h, Res.pure_eq]

/-- **C96.** Two opaque data lists the API can build are compared without aborting, and are equal exactly if they travel as the same bytes. -/
theorem c96_opaque {c : Cfg} {a b : OpaqueData} (ha : OpaqueDataWF c a) (hb : OpaqueDataWF c b) :
    a.eq b = .ok (decide (Wire.opaqueData a = Wire.opaqueData b)) := by
  have h : a.eq b = .ok (decide (a = b)) := by
    unfold OpaqueData.eq
    by_cases h : a.totalElements = b.totalElements
    · rw [if_pos h, elements_eq _ _ ha.used hb.used]
      congr 1; apply decide_eq_decide.2
      cases a; cases b; simp_all
    · rw [if_neg h, decide_eq_false (by rintro rfl; exact h rfl)]
  rw [h]
  congr 1
  apply decide_eq_decide.2
  constructor
  · rintro rfl; rfl
  · intro h; exact (OpaqueData.reads ha).unique (h ▸ OpaqueData.reads hb)

/-- Two elements that agree up to the bytes behind the data, and one with other data. -/
example : let a : OpaqueElement := ⟨.tcg, .u16 7, 2, [1, 2, 0, 0, 0, 0, 0, 0]⟩
    let b : OpaqueElement := ⟨.tcg, .u16 7, 2, [1, 2, 9, 9, 9, 9, 9, 9]⟩
    let d : OpaqueElement := ⟨.tcg, .u16 7, 2, [1, 3, 0, 0, 0, 0, 0, 0]⟩
    a.eq b = .ok true ∧ a.eq d = .ok false := by decide +kernel

example : OpaqueElementWF demoCfg ⟨.tcg, .u16 7, 2, [1, 2, 0, 0, 0, 0, 0, 0]⟩ := by constructor <;> decide +kernel

/-! ## Raw measurements -/

/-- Raw measurements as a user gets them: built from bytes, or read from a message. -/
inductive ArrStream.Made (c : Cfg) : ArrStream → Prop
  | new {data : Bytes} {s : ArrStream} (h : ArrStream.new c data = .ok s) : Made c s
  | read {len : Nat} {r r' : Reader} {s : ArrStream} (h : ArrStream.read c len r = (.ok s, r')) : Made c s

theorem getSlice_length {n cap : Nat} {r r' : Reader} {d : Bytes} (h : Reader.getSlice n cap r = (.ok d, r')) : d.length = n := by
  unfold Reader.getSlice at h
  split at h
  · cases h
  · split at h
    · cases h
    · rename_i hr
      split at h
      · cases h
        unfold Reader.remaining at hr
        rw [List.length_take, List.length_drop]; omega
      · cases h

theorem stream_made {c : Cfg} {s : ArrStream} (h : ArrStream.Made c s) : s.buf.length = c.maxMeasurementSize ∧ s.len ≤ c.maxMeasurementSize := by
  cases h with
  | new h =>
    unfold ArrStream.new at h
    split at h
    · cases h; refine ⟨?_, by assumption⟩
      simp; omega
    · cases h
  | read h =>
    unfold ArrStream.read at h
    split at h
    · cases h
    · rename_i hl
      obtain ⟨d, r1, e, h⟩ := M.bind_ok_inv h
      cases h
      have := getSlice_length e
      refine ⟨?_, by dsimp only; omega⟩
      simp [zeroPad]; omega

/-- **C96.** A raw measurement can be viewed without aborting, and reports the length of its contents. -/
theorem c96_stream_view {c : Cfg} {s : ArrStream} (h : ArrStream.Made c s) : ∃ v, s.asSlice = .ok v ∧ v.length = s.len ∧ s.len ≤ c.maxMeasurementSize := by
  obtain ⟨h1, h2⟩ := stream_made h
  exact ⟨s.buf.take s.len, sliceTo_ok (by omega), by rw [List.length_take]; omega, h2⟩

/-- **C96.** A raw measurement built from bytes shows these bytes; more than the configured maximum aborts. -/
theorem c96_stream_new (c : Cfg) (data : Bytes) :
    (data.length ≤ c.maxMeasurementSize → ∃ s, ArrStream.new c data = .ok s ∧ s.asSlice = .ok data) ∧
    (c.maxMeasurementSize < data.length → ∃ p, ArrStream.new c data = .panic p) := by
  unfold ArrStream.new
  refine ⟨fun h => ?_, fun h => ⟨.indexOutOfBounds, if_neg (by omega)⟩⟩
  rw [if_pos h]
  refine ⟨_, rfl, ?_⟩
  unfold ArrStream.asSlice
  rw [sliceTo_ok (by simp)]
  simp

/-- **C96.** A raw measurement read from a message shows the bytes of the message; one longer than the configured maximum and one longer than the message are refused, and nothing
else is. -/
theorem c96_stream_read (c : Cfg) (len : Nat) (buf : Bytes) (off : Nat) :
    (c.maxMeasurementSize < len → (ArrStream.read c len ⟨buf, off, 0⟩).1 = .err .bitStreamMaxSizeExceeded) ∧
    (len ≤ c.maxMeasurementSize → buf.length - off < len → (ArrStream.read c len ⟨buf, off, 0⟩).1 = .err (.read .bufferEmpty)) ∧
    (len ≤ c.maxMeasurementSize → len ≤ buf.length - off → ∃ s, ArrStream.read c len ⟨buf, off, 0⟩ = (.ok s, ⟨buf, off + len, 0⟩) ∧ s.asSlice = .ok ((buf.drop off).take len)) := by
  refine ⟨fun h => ?_, fun h1 h2 => ?_, fun h1 h2 => ?_⟩
  · simp only [ArrStream.read, if_pos h]; rfl
  · simp only [ArrStream.read, if_neg (show ¬ len > c.maxMeasurementSize by omega)]
    rw [M.run_bind_err (s' := ⟨buf, off, 0⟩) (e := .read .bufferEmpty)]
    simp [Reader.getSlice, Reader.isAligned, Reader.remaining, h2]
  · have hg : Reader.getSlice len c.maxMeasurementSize ⟨buf, off, 0⟩ = (.ok ((buf.drop off).take len), ⟨buf, off + len, 0⟩) := by
      simp [Reader.getSlice, Reader.isAligned, Reader.remaining, h1, Nat.not_lt.mpr h2]
    refine ⟨⟨len, zeroPad c.maxMeasurementSize ((buf.drop off).take len)⟩, ?_, ?_⟩
    · simp only [ArrStream.read, if_neg (show ¬ len > c.maxMeasurementSize by omega)]
      rw [M.run_bind_ok hg]
      rfl
    · have hl : ((buf.drop off).take len).length = len := by rw [List.length_take, List.length_drop]; omega
      unfold ArrStream.asSlice
      rw [sliceTo_ok (by simp [zeroPad]; omega)]
      simp only [zeroPad]
      rw [List.take_left' hl]

/-- **C96.** Two raw measurements are equal exactly if their contents are. -/
theorem c96_stream {c : Cfg} {a b : ArrStream} (ha : ArrStream.Made c a) (hb : ArrStream.Made c b) {x y : Bytes} (hx : a.asSlice = .ok x) (hy : b.asSlice = .ok y) :
    a.eq b = .ok (decide (x = y)) := by
  obtain ⟨v, h1, h2, _⟩ := c96_stream_view ha
  obtain ⟨u, h3, h4, _⟩ := c96_stream_view hb
  rw [hx] at h1; rw [hy] at h3
  cases h1; cases h3
  unfold ArrStream.eq
  split
  · rw [hx, hy]
    simp only [Res.ok_bind, Res.pure_eq, Res.ok.injEq]
    rw [beq_eq_decide]
  · rename_i hne
    rw [decide_eq_false]
    rintro rfl
    exact hne (h2.symm.trans h4)

/-- A measurement of three bytes, once built and once read from a message with other bytes behind it. -/
example : ∃ a b r, ArrStream.new demoCfg [1, 2, 3] = .ok a ∧ ArrStream.read demoCfg 3 ⟨[1, 2, 3, 9, 9], 0, 0⟩ = (.ok b, r) ∧ a.eq b = .ok true := by
  refine ⟨⟨3, [1, 2, 3, 0, 0, 0, 0, 0]⟩, ⟨3, [1, 2, 3, 0, 0, 0, 0, 0]⟩, ⟨[1, 2, 3, 9, 9], 3, 0⟩, ?_, ?_, ?_⟩ <;> decide +kernel

end Spdm

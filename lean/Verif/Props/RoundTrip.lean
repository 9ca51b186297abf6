import Verif.Spec.RoundTrip
import Verif.Props.Writing
import Verif.Props.Accepts
import Verif.Props.Parsers
import Verif.Props.ReqAborts
/-! # C105: exactly which messages survive being written and read -/
namespace Spdm
open Spec

/-- The bytes a message is written as determine its text. -/
theorem text_of_written {c : Cfg} (hc : c.numSlots ≤ 8) {m : AnyMsg} {layout : Bytes}
    (ht : ∀ buf : Bytes, 2 + layout.length ≤ buf.length → m.write c buf = (.ok (2 + layout.length), Wire.header m.ty ++ layout ++ buf.drop (2 + layout.length))) :
    text c m = ⟨layout, .done⟩ := by
  obtain ⟨h1, h2⟩ := c85_outcome c hc m (zeros (2 + layout.length + (text c m).bytes.length))
  have hw := ht (zeros (2 + layout.length + (text c m).bytes.length)) (by simp)
  have h3 := h1 (by simp)
  cases he : (text c m).ending with
  | refused e => rw [he] at h3; simp only at h3; rw [hw] at h3; cases h3
  | aborted => rw [he] at h3; obtain ⟨k, hk⟩ := h3; rw [hw] at hk; cases hk
  | done =>
    rw [he] at h3
    simp only at h3
    rw [hw] at h3
    obtain ⟨h4, h5⟩ := Prod.mk.inj h3
    have hlen : layout.length = (text c m).bytes.length := by
      injection h4 with h4; omega
    have hb : (text c m).bytes = layout := by
      have h6 := congrArg (fun l => (l.drop 2).take layout.length) h5
      simp only [List.append_assoc] at h6
      have hd : ∀ l : Bytes, (Wire.header m.ty ++ l).drop 2 = l := fun l => by
        rw [List.drop_append, List.drop_of_length_le (by simp)]; simp
      rw [hd, hd, List.take_left' rfl, List.take_left' hlen.symm] at h6
      exact h6.symm
    rw [← hb, ← he]

/-- What was written is the text. -/
theorem written_text {c : Cfg} (hc : c.numSlots ≤ 8) {m : AnyMsg} {buf out : Bytes} {n : Nat} (hw : m.write c buf = (.ok n, out)) :
    Writable c m ∧ (out.take n).drop 2 = (text c m).bytes := by
  obtain ⟨hm, hl⟩ := (c85_written_iff c hc m buf).mp ⟨n, by rw [hw]⟩
  refine ⟨hm, ?_⟩
  have h := (c85_outcome c hc m buf).1 hl
  rw [(text_done c m).mpr hm] at h
  simp only at h
  rw [hw] at h
  obtain ⟨h1, rfl⟩ := Prod.mk.inj h
  cases h1
  have hd : ∀ l : Bytes, (Wire.header m.ty ++ l).drop 2 = l := fun l => by
    rw [List.drop_append, List.drop_of_length_le (by simp)]; simp
  rw [List.take_left' (by simp), hd]

theorem Text.put_seq (bs : Bytes) (t : Text) : (Text.put bs).seq t = ⟨bs ++ t.bytes, t.ending⟩ := rfl

/-- The text of faithful DIGESTS. -/
theorem digests_text {c : Cfg} {x : Ctx} (hc : c.numSlots ≤ 8) {m : Digests} (h : DigestsFaithful c x.digestSize m) :
    text c (.digests m) = ⟨Wire.digests m, .done⟩ := by
  obtain ⟨h1, h2, h3⟩ := h
  -- the same message without the stray bits of the mask
  let m0 : Digests := ⟨UInt8.ofNat (m.slotMask.toNat % 2 ^ c.numSlots), m.digests⟩
  have hlt : m.slotMask.toNat % 2 ^ c.numSlots < 256 := Nat.lt_of_le_of_lt (Nat.mod_le _ _) m.slotMask.toNat_lt
  have hmask : m0.slotMask.toNat = m.slotMask.toNat % 2 ^ c.numSlots := by
    show (UInt8.ofNat _).toNat = _
    rw [UInt8.toNat_ofNat', Nat.mod_eq_of_lt hlt]
  have hbit : ∀ i, m0.slotMask.toNat.testBit i = (decide (i < c.numSlots) && m.slotMask.toNat.testBit i) := by
    intro i; rw [hmask, Nat.testBit_mod_two_pow]
  have hwf : MsgWF c x (.digests m0) := by
    refine ⟨hc, h1, fun i hi => ?_, h3⟩
    rw [hbit]
    by_cases hin : i < c.numSlots
    · simp only [hin, decide_true, Bool.true_and]; exact h2 i hin
    · simp only [hin, decide_false, Bool.false_and, Bool.false_eq_true, false_iff, not_exists]
      intro d hd
      have := (List.getElem?_eq_some_iff.mp hd).1
      exact absurd (h1 ▸ this) hin
  have ht := c85_layout c hc x (.digests m0) hwf
  have hnamed : namedSlots c.numSlots m0.slotMask = namedSlots c.numSlots m.slotMask := by
    unfold namedSlots
    apply List.filter_congr
    intro k hk
    rw [hbit, decide_eq_true (List.mem_range.mp hk), Bool.true_and]
  simp only [text] at ht ⊢
  rw [Text.put_seq, hnamed] at ht
  rw [Text.put_seq]
  have hd : digestText m0 = digestText m := rfl
  rw [hd] at ht
  obtain ⟨e1, e2⟩ := Text.mk.inj ht
  rw [e2]
  congr 1
  simp only [Wire.body, Wire.digests] at e1 ⊢
  simp only [zeros, List.replicate, List.cons_append, List.nil_append] at e1 ⊢
  have := (List.cons.inj (List.cons.inj e1).2).2
  rw [this]

/-- The text of MEASUREMENTS behind the second byte. -/
theorem measurements_text {c : Cfg} {x : Ctx} (hc : c.numSlots ≤ 8) (h0 : 0 < c.numSlots) {m : Measurements} (ht : m.totalBlocks.toNat ≤ c.maxMeasurementBlocks)
    (hb : BlocksWF c m.blocks) (hn : m.nonce.length = c.nonceSize) (ho : OpaqueDataWF c m.opaqueData) (hm : (Wire.opaqueData m.opaqueData).length < 65536)
    (hs : ∀ s, m.signature = some s → s.length = x.sigSize) :
    text c (.measurements m) = ⟨[m.totalBlocks, measurementsParam2 m] ++ Wire.measurementBlocks m.blocks ++ m.nonce ++ le 2 (Wire.opaqueData m.opaqueData).length ++
      Wire.opaqueData m.opaqueData ++ m.signature.getD [], .done⟩ := by
  let m0 : Measurements := { m with slotId := 0 }
  have hwf : MeasurementsWF c x.sigSize m0 := ⟨ht, hc, by simpa [m0] using h0, hb, hn, ho, hm, hs⟩
  have e := text_of_written (m := .measurements m0) (layout := Wire.measurements m0) hc fun buf hl => (travels_of (t := .measurements) (parse := fun _ => Res.ok ())
    (Measurements.writes hwf) (fun _ => rfl)).1 buf hl
  simp only [text] at e ⊢
  rw [Text.put_seq] at e ⊢
  obtain ⟨e1, e2⟩ := Text.mk.inj e
  simp only [m0] at e1 e2
  rw [e2]
  congr 1
  simp only [Wire.measurements, List.cons_append, List.nil_append] at e1 ⊢
  rw [(List.cons.inj (List.cons.inj e1).2).2]

theorem opaqueSize_length {c : Cfg} {d : OpaqueData} (h : OpaqueDataWF c d) : opaqueSize d = (Wire.opaqueData d).length := by
  have h1 := OpaqueData.serializedSize_eq h
  rw [opaqueSize_eq (by rw [h.len]; exact h.total)] at h1
  exact Res.ok.inj h1

theorem param2_cc (m : Measurements) (hs : m.signature = none) : (measurementsParam2 m).toNat = Wire.ccBits m.contentChanged := by
  unfold measurementsParam2
  rw [hs]
  simp only [Option.isSome_none, Bool.false_eq_true, if_false]
  cases m.contentChanged <;> rfl

/-- A faithful message denotes itself. -/
theorem faithful_denotes {c : Cfg} {x : Ctx} (h0 : 0 < c.numSlots) (h8 : c.numSlots ≤ 8) {m : AnyMsg} (h : Faithful c x m) :
    (text c m).ending = .done ∧ AnyMsg.parse c x m.ty (text c m).bytes = .ok m := by
  have hwf : MsgWF c x m → (text c m).ending = .done ∧ AnyMsg.parse c x m.ty (text c m).bytes = .ok m := by
    intro hm
    rw [c85_layout c h8 x m hm]
    exact ⟨rfl, by simpa using (any_travels hm).2.2 []⟩
  cases m with
  | digests m =>
    rw [digests_text h8 h]
    exact ⟨rfl, (c78_accepts_iff c x h0 h8 _ _ _).mpr ⟨rfl, _, [], (List.append_nil _).symm, h.1, h.2.1, h.2.2, rfl⟩⟩
  | measurements m =>
    have hr := h.readable
    rw [measurements_text (x := x) h8 h0 h.total h.blocks h.nonce h.opq (Nat.lt_of_le_of_lt hr.opqLen (by decide)) h.sig]
    refine ⟨rfl, (c78_accepts_iff c x h0 h8 _ _ _).mpr ⟨rfl, _, [], (List.append_nil _).symm, measurementsParam2 m, (Wire.opaqueData m.opaqueData).length, h.total, ?_, ?_, h.slot,
      h.blocks, hr.blocksLen, hr.blocks24, h.nonce, h.opq, hr.opqLen, h.asked, h.sig, rfl⟩⟩
    · cases hs : m.signature with
      | none => rw [param2_cc m hs, hr.slot hs]; cases m.contentChanged <;> rfl
      | some s =>
        have := h.slot
        have hl : m.slotId.toNat < 16 := by omega
        unfold measurementsParam2
        rw [hs]
        generalize m.slotId = sl at hl
        have : ∀ i : Fin 256, i.val < 16 → ∀ cc : Fin 3, i.val = (UInt8.ofNat (16 * cc.val) ||| UInt8.ofNat i.val).toNat % 16 := by decide +kernel
        have h1 := this ⟨sl.toNat, sl.toNat_lt⟩ hl
        simp only [UInt8.ofNat_toNat] at h1
        cases m.contentChanged with
        | notSupported => exact h1 0
        | true => exact h1 1
        | false => exact h1 2
    · cases hs : m.signature with
      | none => rw [param2_cc m hs]; cases m.contentChanged <;> rfl
      | some s =>
        have := h.slot
        have hl : m.slotId.toNat < 16 := by omega
        unfold measurementsParam2
        rw [hs]
        generalize m.slotId = sl at hl
        have : ∀ i : Fin 256, i.val < 16 → ∀ cc : Fin 3, 16 * ((UInt8.ofNat (16 * cc.val) ||| UInt8.ofNat i.val).toNat / 16 % 4) = 16 * cc.val := by decide +kernel
        have h1 := this ⟨sl.toNat, sl.toNat_lt⟩ hl
        simp only [UInt8.ofNat_toNat] at h1
        cases m.contentChanged with
        | notSupported => exact h1 0
        | true => exact h1 1
        | false => exact h1 2
  | _ => exact hwf h

/-- **C105.** A message comes back unchanged exactly if it is faithful.  For every value `m` of every message type, every configuration with 1 to 8 slots and everything the
receiver may know: a faithful message can be written, and whenever it is, reading what was written gives it back; and if any message is written into some buffer and reading what was
written gives that message back, it is faithful. -/
theorem c105_survives_iff (c : Cfg) (x : Ctx) (h0 : 0 < c.numSlots) (h8 : c.numSlots ≤ 8) (m : AnyMsg) :
    (Faithful c x m → (∃ size, ∀ buf : Bytes, size ≤ buf.length → ∃ n out, m.write c buf = (.ok n, out)) ∧
      ∀ buf out n, m.write c buf = (.ok n, out) → AnyMsg.parse c x m.ty ((out.take n).drop 2) = .ok m) ∧
    ((∃ buf out n, m.write c buf = (.ok n, out) ∧ AnyMsg.parse c x m.ty ((out.take n).drop 2) = .ok m) → Faithful c x m) := by
  constructor
  · intro h
    obtain ⟨h1, h2⟩ := faithful_denotes h0 h8 h
    refine ⟨⟨2 + (text c m).bytes.length, fun buf hl => ?_⟩, fun buf out n hw => ?_⟩
    · have := (c85_outcome c h8 m buf).1 hl
      rw [h1] at this
      exact ⟨_, _, this⟩
    · rw [(written_text h8 hw).2]; exact h2
  · rintro ⟨buf, out, n, hw, hp⟩
    obtain ⟨hm, ht⟩ := written_text h8 hw
    rw [ht] at hp
    obtain ⟨-, bs, rest, hbs, hd⟩ := (c78_accepts_iff c x h0 h8 _ _ _).mp hp
    cases m with
    | getVersion => trivial
    | version m => exact hd.1
    | getCapabilities m => exact hd.1
    | capabilities m => exact hd.1
    | negotiateAlgorithms m => exact hd.1
    | algorithms m => exact hd.1
    | getDigests => trivial
    | digests m => exact ⟨hd.1, hd.2.1, hd.2.2.1⟩
    | getCertificate m => trivial
    | certificate m => exact hd.1
    | challenge m => exact hd.1
    | challengeAuth m =>
      obtain ⟨b, len, d1, d2, d3, d4, d5, d6, d7, d8, d9, d10⟩ := hd
      have hwf : ChallengeAuthWF c x.digestSize x.sigSize m := ⟨h8, hm.1, d4, d5, d6, d7, by rw [← opaqueSize_length d7]; exact hm.2.2, d8⟩
      refine ⟨hwf, ?_⟩
      cases hu : m.useMutualAuth with
      | false => rfl
      | true =>
        have hl := c18_mutual_auth_lost c x.digestSize x.sigSize m hwf hu
        have e := text_of_written (m := .challengeAuth m) h8 hl.1
        rw [e] at hp
        have h3 := hl.2.2 []
        rw [List.append_nil] at h3
        simp only [AnyMsg.ty, AnyMsg.parse, h3, Res.map, Res.ok.injEq, AnyMsg.challengeAuth.injEq] at hp
        rw [← hp] at hu
        cases hu
    | getMeasurements m => exact hd.1
    | measurements m =>
      obtain ⟨b, len, d1, d2, d3, d4, d5, d6, d7, d8, d9, d10, d11, d12, d13⟩ := hd
      have hsz := opaqueSize_length d9
      have hwm := hm.2.2.2.2
      rw [measurements_text (x := x) h8 h0 d1 d5 d8 d9 (by omega) d12, d13] at hbs
      simp only [List.append_assoc, List.cons_append, List.nil_append] at hbs
      obtain ⟨-, hbs⟩ := List.cons.inj hbs
      obtain ⟨hb, hbs⟩ := List.cons.inj hbs
      have hbs := List.append_cancel_left (List.append_cancel_left hbs)
      have hlen : (Wire.opaqueData m.opaqueData).length = len := by
        have h1 := (List.append_inj hbs (by simp [le_length])).1
        have h2 := congrArg leVal h1
        rw [leVal_two _ (by omega), leVal_two _ (by omega)] at h2
        exact h2
      refine ⟨d1, d4, d5, d8, d9, d11, d12, d6, d7, by omega, fun hs => ?_⟩
      rw [← hb, param2_cc m hs] at d2
      have : m.slotId.toNat = 0 := by rw [d2]; cases m.contentChanged <;> rfl
      exact UInt8.toNat_inj.mp this
    | error m =>
      cases m with
      | vendorDefined id v => exact ⟨hd.1, hd.2.1⟩
      | _ => trivial

/-- **C105.** Two faithful messages that are written as the same bytes are the same message, whatever their types. -/
theorem c105_distinct (c : Cfg) (x : Ctx) (h0 : 0 < c.numSlots) (h8 : c.numSlots ≤ 8) (m m' : AnyMsg) (h : Faithful c x m) (h' : Faithful c x m')
    (buf buf' out out' : Bytes) (n n' : Nat) (hw : m.write c buf = (.ok n, out)) (hw' : m'.write c buf' = (.ok n', out')) (he : out.take n = out'.take n') : m = m' := by
  have hty : m.ty = m'.ty := by
    have key : ∀ (m : AnyMsg) (buf out : Bytes) (n : Nat), m.write c buf = (.ok n, out) → (out.take n).take 2 = Wire.header m.ty := by
      intro m buf out n hw
      obtain ⟨hm, hl⟩ := (c85_written_iff c h8 m buf).mp ⟨n, by rw [hw]⟩
      have h := (c85_outcome c h8 m buf).1 hl
      rw [(text_done c m).mpr hm] at h
      simp only at h
      rw [hw] at h
      obtain ⟨h1, rfl⟩ := Prod.mk.inj h
      cases h1
      rw [List.take_left' (by simp), List.take_left' (by simp)]
    have h1 := key m buf out n hw
    rw [he, key m' buf' out' n' hw'] at h1
    revert h1
    cases m.ty <;> cases m'.ty <;> decide
  have h1 := ((c105_survives_iff c x h0 h8 m).1 h).2 buf out n hw
  have h2 := ((c105_survives_iff c x h0 h8 m').1 h').2 buf' out' n' hw'
  rw [he, hty, h2] at h1
  exact (Res.ok.inj h1).symm

/-- **C105**, certificate chains: a chain comes back unchanged exactly if it is well-formed for the receiver's digest size. -/
theorem c105_chain_survives_iff (c : Cfg) (ds : Nat) (ch : CertificateChain) :
    (∃ buf n, (ch.write (Writer.new buf)).1 = .ok n ∧ CertificateChain.parse c ((ch.write (Writer.new buf)).2.buf.take n) ds = .ok ch) ↔ ChainWF c ds ch := by
  constructor
  · rintro ⟨buf, n, hw, hp⟩
    exact (CertificateChain.parse_inv hp).1
  · intro h
    obtain ⟨h1, -, h2, -⟩ := c15_chain_roundtrip c ds ch h
    obtain ⟨e1, e2⟩ := h1 (zeros (Wire.chain ch).length) (by simp [zeros])
    exact ⟨zeros (Wire.chain ch).length, _, e1, by rw [e2, List.take_left' rfl]; exact h2⟩

/-- What is well-formed in the sense of C06 to C22 is faithful. -/
theorem c105_well_formed (c : Cfg) (x : Ctx) (m : AnyMsg) (h : MsgWF c x m) : Faithful c x m := by
  cases m with
  | digests m => exact ⟨h.len, fun i hi => h.mask i (Nat.lt_of_lt_of_le hi h.slots), h.size⟩
  | measurements m => exact ⟨h.1.total, Nat.le_of_lt h.1.slot, h.1.blocks, h.1.nonce, h.1.opq, h.2.2, h.1.sig, h.2.1⟩
  | _ => exact h

/-! ### Cases -/

/-- Faithful, but outside what C13 and C22 describe: DIGESTS with a bit for slot 7 of a build with two slots. -/
example : Faithful demoCfg ⟨2, 3, true⟩ (.digests ⟨0x81, [some [1, 2], none]⟩) ∧
    ((AnyMsg.digests ⟨0x81, [some [1, 2], none]⟩).write demoCfg (zeros 10)) = (.ok 6, [0x11, 0x01, 0, 0x81, 1, 2, 0, 0, 0, 0]) ∧
    AnyMsg.parse demoCfg ⟨2, 3, true⟩ .digests [0, 0x81, 1, 2] = .ok (.digests ⟨0x81, [some [1, 2], none]⟩) := by
  have hw : (AnyMsg.digests ⟨0x81, [some [1, 2], none]⟩).write demoCfg (zeros 10) = (.ok 6, [0x11, 0x01, 0, 0x81, 1, 2, 0, 0, 0, 0]) := by decide +kernel
  have hp : AnyMsg.parse demoCfg ⟨2, 3, true⟩ .digests [0, 0x81, 1, 2] = .ok (.digests ⟨0x81, [some [1, 2], none]⟩) := by decide +kernel
  exact ⟨(c105_survives_iff demoCfg ⟨2, 3, true⟩ (by decide) (by decide) _).2 ⟨zeros 10, _, 6, hw, hp⟩, hw, hp⟩

/-- A signed MEASUREMENTS that names slot 2 of a build with the slots 0 and 1. -/
def strayMeasurements : Measurements := ⟨0, .true, 2, MeasurementBlocks.dflt demoCfg, [1, 2, 3, 4], OpaqueData.dflt demoCfg, some [7, 8, 9]⟩

/-- Finding: it is written, and accepted. -/
example : Faithful demoCfg ⟨2, 3, true⟩ (.measurements strayMeasurements) ∧
    ((AnyMsg.measurements strayMeasurements).write demoCfg (zeros 40)).1.isOk = true := by
  refine ⟨?_, by decide +kernel⟩
  refine (c105_survives_iff demoCfg ⟨2, 3, true⟩ (by decide) (by decide) _).2
    ⟨zeros 40, ((AnyMsg.measurements strayMeasurements).write demoCfg (zeros 40)).2, 21, (fun (p : Res Nat × Bytes) (n : Nat) (h : p.1 = .ok n) => (show p = (.ok n, p.2) by rw [← h])) _ _ ?_, ?_⟩
  · decide +kernel
  · decide +kernel

/-- Not faithful, though writable: a version entry with a field of 16, a certificate with bytes behind its portion, an algorithm structure with two bits. -/
example : ¬ Faithful demoCfg ⟨2, 3, true⟩ (.version ⟨1, [⟨1, 16, 0, 0⟩, ⟨0, 0, 0, 0⟩]⟩) ∧
    ((AnyMsg.version ⟨1, [⟨1, 16, 0, 0⟩, ⟨0, 0, 0, 0⟩]⟩).write demoCfg (zeros 20)).1.isOk = true ∧
    ¬ Faithful demoCfg ⟨2, 3, true⟩ (.certificate ⟨0, 1, 0, List.replicate 64 5⟩) ∧
    ((AnyMsg.certificate ⟨0, 1, 0, List.replicate 64 5⟩).write demoCfg (zeros 20)).1.isOk = true := by
  refine ⟨fun h => ?_, by decide +kernel, fun h => ?_, by decide +kernel⟩
  · have := (h.nib ⟨1, 16, 0, 0⟩ (by simp))
    revert this; decide
  · have := h.zero
    revert this; decide +kernel

end Spdm

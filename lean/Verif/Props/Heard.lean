import Verif.Spec.Heard
import Verif.Props.RoundTrip
/-!
# C123: what arrives of a message
-/
namespace Spdm
open Spec

variable {c : Cfg} {x : Ctx}

/-- The bytes of a message start with the bytes of what arrives; only the opaque data of a vendor-defined error follow. -/
theorem heard_text (h0 : 0 < c.numSlots) (h8 : c.numSlots ≤ 8) {m : AnyMsg} (hm : Writable c m) : (text c (heard m)).ending = .done ∧
    ∃ rest, (text c m).bytes = (text c (heard m)).bytes ++ rest ∧ ((∀ id v, m ≠ .error (.vendorDefined id v)) → rest = []) := by
  have same : ∀ m' : AnyMsg, text c m' = text c m → heard m = m' → (text c (heard m)).ending = .done ∧
      ∃ rest, (text c m).bytes = (text c (heard m)).bytes ++ rest ∧ ((∀ id v, m ≠ .error (.vendorDefined id v)) → rest = []) := by
    rintro m' h1 rfl
    rw [h1]
    exact ⟨(text_done c m).mpr hm, [], by simp, fun _ => rfl⟩
  cases m with
  | challengeAuth m =>
    cases hu : m.useMutualAuth with
    | false => exact same _ rfl (by simp [heard, hu])
    | true =>
      refine same (.challengeAuth { m with slot := 0, useMutualAuth := false }) ?_ (by simp [heard, hu])
      have h2 := hm.1
      have hz : m.slot &&& 0x80 = 0 := by
        apply UInt8.toNat_inj.mp
        rw [UInt8.toNat_and]
        have h3 : m.slot.toNat < 8 := by omega
        generalize m.slot.toNat = k at h3
        interval_cases k <;> rfl
      simp [text, hu, Text.need, h2, hz, h0]
  | measurements m =>
    cases hs : m.signature with
    | some s => exact same _ rfl (by simp [heard, hs])
    | none =>
      refine same (.measurements { m with slotId := 0 }) ?_ (by simp [heard, hs])
      simp [hs, text, measurementsParam2]
  | error m =>
    cases m with
    | vendorDefined id v =>
      have : v.opaqueLen ≤ v.opaqueErrorData.length := hm
      refine ⟨by simp [heard, text, Text.seq, Text.put, Text.need], v.opaqueErrorData.take v.opaqueLen, ?_, fun h => absurd rfl (h id v)⟩
      simp [heard, text, Text.seq, Text.put, Text.need, this]
    | _ => exact same _ rfl rfl
  | _ => exact same _ rfl rfl

/-- What is written starts with the header. -/
theorem written_header (h8 : c.numSlots ≤ 8) {m : AnyMsg} {buf out : Bytes} {n : Nat} (hw : m.write c buf = (.ok n, out)) : (out.take n).take 2 = Wire.header m.ty := by
  obtain ⟨hm, hl⟩ := (c85_written_iff c h8 m buf).mp ⟨n, by rw [hw]⟩
  have h := (c85_outcome c h8 m buf).1 hl
  rw [(text_done c m).mpr hm] at h
  simp only at h
  rw [hw] at h
  obtain ⟨h1, rfl⟩ := Prod.mk.inj h
  cases h1
  rw [List.take_left' (by simp), List.take_left' (by simp)]

theorem heard_ty (m : AnyMsg) : (heard m).ty = m.ty := by
  cases m with
  | error m => cases m <;> rfl
  | _ => rfl

theorem heard_heard (m : AnyMsg) : heard (heard m) = heard m := by
  cases m with
  | challengeAuth m => simp only [heard]; split <;> simp_all
  | measurements m => simp only [heard]; split <;> simp_all
  | error m => cases m <;> rfl
  | _ => rfl

/-- **C123.** Whatever message is written, what its receiver reads is `heard m`, exactly if that is faithful (C105). -/
theorem c123_heard_iff (c : Cfg) (x : Ctx) (h0 : 0 < c.numSlots) (h8 : c.numSlots ≤ 8) (m : AnyMsg) (buf out : Bytes) (n : Nat) (hw : m.write c buf = (.ok n, out)) :
    AnyMsg.parse c x m.ty ((out.take n).drop 2) = .ok (heard m) ↔ Faithful c x (heard m) := by
  obtain ⟨hm, ht⟩ := written_text h8 hw
  obtain ⟨hd, rest, hr, hrest⟩ := heard_text h0 h8 hm
  rw [ht, hr, ← heard_ty m]
  have hw' := (c85_outcome c h8 (heard m) (zeros (2 + (text c (heard m)).bytes.length))).1 (by simp)
  rw [hd] at hw'
  simp only at hw'
  have hb : ((Wire.header (heard m).ty ++ (text c (heard m)).bytes ++ (zeros (2 + (text c (heard m)).bytes.length)).drop (2 + (text c (heard m)).bytes.length)).take
      (2 + (text c (heard m)).bytes.length)).drop 2 = (text c (heard m)).bytes := (written_text h8 hw').2
  constructor
  · intro hp
    by_cases hv : ∃ id v, m = .error (.vendorDefined id v)
    · obtain ⟨id, v, rfl⟩ := hv
      exact ⟨rfl, rfl⟩
    · have hz := hrest fun id v he => hv ⟨id, v, he⟩
      rw [hz, List.append_nil] at hp
      exact (c105_survives_iff c x h0 h8 (heard m)).2 ⟨_, _, _, hw', by rw [hb]; exact hp⟩
  · intro h
    have := (faithful_denotes h0 h8 h).2
    obtain ⟨hty, bs, rest', hbs, hden⟩ := (c78_accepts_iff c x h0 h8 _ _ _).mp this
    exact (c78_accepts_iff c x h0 h8 _ _ _).mpr ⟨hty, bs, rest' ++ rest, by rw [hbs, List.append_assoc], hden⟩

/-- **C123.** Two messages whose bytes are the same, whatever their types, are heard as the same (if what is heard of them is faithful). -/
theorem c123_same_bytes (c : Cfg) (x : Ctx) (h0 : 0 < c.numSlots) (h8 : c.numSlots ≤ 8) (m m' : AnyMsg) (h : Faithful c x (heard m)) (h' : Faithful c x (heard m'))
    (buf buf' out out' : Bytes) (n n' : Nat) (hw : m.write c buf = (.ok n, out)) (hw' : m'.write c buf' = (.ok n', out')) (he : out.take n = out'.take n') :
    heard m = heard m' := by
  have hty : m.ty = m'.ty := by
    have h1 := written_header h8 hw
    rw [he, written_header h8 hw'] at h1
    revert h1
    cases m.ty <;> cases m'.ty <;> decide
  have h1 := (c123_heard_iff c x h0 h8 m buf out n hw).mpr h
  have h2 := (c123_heard_iff c x h0 h8 m' buf' out' n' hw').mpr h'
  rw [he, hty, h2] at h1
  exact (Res.ok.inj h1).symm

/-- **C123.** Conversely two messages that are heard as the same have the same bytes, except for the opaque data of vendor-defined errors: this says exactly which messages
C26 confuses. -/
theorem c123_confused_iff (c : Cfg) (x : Ctx) (h0 : 0 < c.numSlots) (h8 : c.numSlots ≤ 8) (m m' : AnyMsg) (h : Faithful c x (heard m)) (h' : Faithful c x (heard m'))
    (hv : ∀ id v, m ≠ .error (.vendorDefined id v)) (buf buf' out out' : Bytes) (n n' : Nat) (hw : m.write c buf = (.ok n, out)) (hw' : m'.write c buf' = (.ok n', out')) :
    out.take n = out'.take n' ↔ heard m = heard m' := by
  refine ⟨c123_same_bytes c x h0 h8 m m' h h' buf buf' out out' n n' hw hw', fun he => ?_⟩
  have hv' : ∀ id v, m' ≠ .error (.vendorDefined id v) := by
    rintro id v rfl
    cases m with
    | error m => cases m <;> simp_all [heard]
    | _ => simp [heard] at he
  have key : ∀ (m : AnyMsg) (_ : ∀ id v, m ≠ .error (.vendorDefined id v)) (buf out : Bytes) (n : Nat), m.write c buf = (.ok n, out) →
      out.take n = Wire.header (heard m).ty ++ (text c (heard m)).bytes := by
    intro m hv buf out n hw
    obtain ⟨hm, ht⟩ := written_text h8 hw
    obtain ⟨_, rest, hr, hrest⟩ := heard_text h0 h8 hm
    rw [hrest hv, List.append_nil] at hr
    rw [← hr, ← ht, heard_ty, ← written_header h8 hw, List.take_append_drop]
  rw [key m hv _ _ _ hw, key m' hv' _ _ _ hw', he]

/-! ### Cases -/

/-- A CHALLENGE_AUTH that asks for mutual authentication is heard as one that does not. -/
example : heard (.challengeAuth (demoAuth true)) = .challengeAuth { demoAuth true with slot := 0, useMutualAuth := false } ∧
    Faithful demoCfg ⟨2, 3, true⟩ (heard (.challengeAuth (demoAuth true))) ∧ ((AnyMsg.challengeAuth (demoAuth true)).write demoCfg (zeros 64)).1.isOk = true :=
  ⟨rfl, ⟨⟨by decide, by decide, rfl, rfl, rfl, demoOpaque_wf, by decide, rfl⟩, rfl⟩, by decide +kernel⟩
/-- A vendor-defined ERROR is heard without its data. -/
example : heard (.error (.vendorDefined .tcg ⟨.u16 7, 1, 5 :: zeros 31⟩)) = .error (.vendorDefined .tcg ⟨.u16 7, 0, zeros 32⟩) ∧
    Faithful demoCfg ⟨2, 3, true⟩ (heard (.error (.vendorDefined .tcg ⟨.u16 7, 1, 5 :: zeros 31⟩))) := ⟨rfl, rfl, rfl⟩

end Spdm

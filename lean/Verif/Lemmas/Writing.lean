import Verif.Lemmas.Machine
import Verif.Lemmas.Msgs4
import Verif.Lemmas.Chain
import Verif.Spec.Writing
/-! Lemmas for "what writing a message does". -/
namespace Spdm
open Spec

/-- `p`, started at `w`, puts the text `t`. -/
def SaysAt {α : Type} (p : W α) (f : Nat → α) (t : Text) (w : Writer) : Prop :=
  (t.bytes.length ≤ w.room →
    match t.ending with
    | .done => p w = (.ok (f (w.offset + t.bytes.length)), w.app t.bytes)
    | .refused e => ∃ w', p w = (.err e, w')
    | .aborted => ∃ k w', p w = (.panic k, w')) ∧
  (w.room < t.bytes.length → ∃ e w', e.isFull = true ∧ p w = (.err e, w'))

/-- `p` puts the text `t`. -/
def Says {α : Type} (p : W α) (f : Nat → α) (t : Text) : Prop := ∀ w : Writer, w.WF → SaysAt p f t w

theorem Writes.says {α : Type} {p : W α} {f : Nat → α} {bs : Bytes} (h : Writes p f bs) : Says p f (.put bs) := by
  intro w hw
  obtain ⟨h1, h2⟩ := h w hw
  refine ⟨h1, fun hl => ?_⟩
  obtain ⟨e, n, h3, _, h4⟩ := h2 hl
  exact ⟨e, _, h3, h4⟩

namespace Says
variable {α β : Type}

theorem congr {p : W α} {f : Nat → α} {s t : Text} (h : Says p f s) (e : s = t) : Says p f t := e ▸ h

theorem bindAt {p : W α} {q : α → W β} {f : Nat → α} {g : Nat → β} {s t : Text} {w : Writer} (hw : w.WF) (hp : SaysAt p f s w)
    (hq : s.ending = .done → s.bytes.length ≤ w.room → SaysAt (q (f (w.offset + s.bytes.length))) g t (w.app s.bytes)) :
    SaysAt (p >>= q) g (s.seq t) w := by
  obtain ⟨h1, h2⟩ := hp
  cases he : s.ending with
  | done =>
    have hs : s.seq t = ⟨s.bytes ++ t.bytes, t.ending⟩ := by simp [Text.seq, he]
    rw [hs]
    by_cases hb : s.bytes.length ≤ w.room
    · have h1' := h1 hb
      rw [he] at h1'
      obtain ⟨h3, h4⟩ := hq he hb
      rw [Writer.app_room hw hb] at h3 h4
      constructor
      · intro hl
        simp only [List.length_append] at hl
        have h5 := h3 (by omega)
        dsimp only
        cases ht : t.ending with
        | done =>
          rw [ht] at h5
          dsimp only at h5 ⊢
          rw [M.run_bind_ok h1', h5, Writer.app_app hw hb]
          simp [Nat.add_assoc]
        | refused e => rw [ht] at h5; dsimp only at h5 ⊢; rw [M.run_bind_ok h1']; exact h5
        | aborted => rw [ht] at h5; dsimp only at h5 ⊢; rw [M.run_bind_ok h1']; exact h5
      · intro hl
        simp only [List.length_append] at hl
        rw [M.run_bind_ok h1']
        exact h4 (by omega)
    · obtain ⟨e, w', h5, h6⟩ := h2 (by omega)
      constructor
      · intro hl; simp only [List.length_append] at hl; omega
      · intro _; exact ⟨e, w', h5, M.run_bind_err h6⟩
  | refused e =>
    have hs : s.seq t = s := by simp [Text.seq, he]
    rw [hs]
    refine ⟨fun hl => ?_, fun hl => ?_⟩
    · have := h1 hl
      rw [he] at this ⊢
      obtain ⟨w', h3⟩ := this
      exact ⟨w', M.run_bind_err h3⟩
    · obtain ⟨e', w', h3, h4⟩ := h2 hl
      exact ⟨e', w', h3, M.run_bind_err h4⟩
  | aborted =>
    have hs : s.seq t = s := by simp [Text.seq, he]
    rw [hs]
    refine ⟨fun hl => ?_, fun hl => ?_⟩
    · have := h1 hl
      rw [he] at this ⊢
      obtain ⟨k, w', h3⟩ := this
      exact ⟨k, w', M.run_bind_panic h3⟩
    · obtain ⟨e', w', h3, h4⟩ := h2 hl
      exact ⟨e', w', h3, M.run_bind_err h4⟩

theorem bind {p : W α} {q : α → W β} {f : Nat → α} {g : Nat → β} {s t : Text}
    (hp : Says p f s) (hq : ∀ n, Says (q (f n)) g t) : Says (p >>= q) g (s.seq t) := fun w hw =>
  bindAt hw (hp w hw) fun _ hb => hq _ _ (Writer.app_wf hw hb)

theorem lift_ok {x : Res α} {a : α} {q : α → W β} {g : Nat → β} {t : Text} (hx : x = .ok a)
    (hq : Says (q a) g t) : Says (M.lift x >>= q) g t := by subst hx; exact hq

theorem lift_err {x : Res α} {e : Err} {q : α → W β} {g : Nat → β} (hx : x = .err e) :
    Says (M.lift x >>= q) g (.refuse e) := by
  subst hx
  intro w _
  exact ⟨fun _ => ⟨w, rfl⟩, fun h => by simp [Text.refuse] at h⟩

theorem lift_panic {x : Res α} {k : PanicKind} {q : α → W β} {g : Nat → β} (hx : x = .panic k) :
    Says (M.lift x >>= q) g .abort := by
  subst hx
  intro w _
  exact ⟨fun _ => ⟨k, w, rfl⟩, fun h => by simp [Text.abort] at h⟩

theorem die (k : PanicKind) (g : Nat → β) : Says (M.die k : W β) g .abort := by
  intro w _
  exact ⟨fun _ => ⟨k, w, rfl⟩, fun h => by simp [Text.abort] at h⟩

theorem fail (e : Err) (g : Nat → β) : Says (M.fail e : W β) g (.refuse e) := by
  intro w _
  exact ⟨fun _ => ⟨w, rfl⟩, fun h => by simp [Text.refuse] at h⟩

theorem mapErr {p : W α} {f : Nat → α} {t : Text} (F : Err → Err) (hF : ∀ e, e.isFull = true → (F e).isFull = true)
    (ht : ∀ e, t.ending = .refused e → F e = e) (hp : Says p f t) : Says (M.mapErr F p) f t := by
  intro w hw
  obtain ⟨h1, h2⟩ := hp w hw
  refine ⟨fun hl => ?_, fun hl => ?_⟩
  · have := h1 hl
    cases he : t.ending with
    | done => rw [he] at this; simp only at this ⊢; simp [M.mapErr, this]
    | refused e => rw [he] at this; obtain ⟨w', h⟩ := this; exact ⟨w', by simp [M.mapErr, h, ht e he]⟩
    | aborted => rw [he] at this; obtain ⟨k, w', h⟩ := this; exact ⟨k, w', by simp [M.mapErr, h]⟩
  · obtain ⟨e, w', h3, h4⟩ := h2 hl
    exact ⟨F e, w', hF e h3, by simp [M.mapErr, h4]⟩

theorem msg {t : MsgType} {body : W Nat} {s : Text} (h : Says body id s) :
    Says (MsgType.writeMsg t body) id ((Text.put (Wire.header t)).seq s) := by
  have hh : Writes (MsgType.writeHeader t) id (Wire.header t) := by
    rw [header_eq]
    exact (Writes.put _).bind fun _ => (Writes.put _).congr (by simp)
  exact hh.says.bind fun _ => h

theorem need_pos {p : Prop} [Decidable p] {x : W α} {f : Nat → α} {o t : Text} (hp : p) (h : Says x f t) :
    Says x f (.need p o t) := by simp only [Text.need, if_pos hp]; exact h
theorem need_neg {p : Prop} [Decidable p] {x : W α} {f : Nat → α} {o t : Text} (hp : ¬p) (h : Says x f o) :
    Says x f (.need p o t) := by simp only [Text.need, if_neg hp]; exact h

end Says

theorem Text.seq_assoc (a b c : Text) : (a.seq b).seq c = a.seq (b.seq c) := by
  rcases a with ⟨ab, ae⟩
  rcases b with ⟨bb, be⟩
  cases ae <;> cases be <;> simp [Text.seq]

@[simp] theorem Text.put_seq_put (a b : Bytes) : (Text.put a).seq (.put b) = .put (a ++ b) := rfl
@[simp] theorem Text.put_nil_seq (a : Text) : (Text.put []).seq a = a := rfl

/-- The outcome of writing a message with a known text. -/
theorem Says.write {t : MsgType} {body : W Nat} {s : Text} (h : Says body id s) (buf : Bytes) :
    (2 + s.bytes.length ≤ buf.length →
      match s.ending with
      | .done => t.write body buf = (.ok (2 + s.bytes.length), Wire.header t ++ s.bytes ++ buf.drop (2 + s.bytes.length))
      | .refused e => (t.write body buf).1 = .err e
      | .aborted => ∃ k, (t.write body buf).1 = .panic k) ∧
    (buf.length < 2 + s.bytes.length → ∃ e, e.isFull = true ∧ (t.write body buf).1 = .err e) := by
  have hm := h.msg (t := t) (Writer.new buf) (by simp [Writer.WF, Writer.new])
  have hs : (Text.put (Wire.header t)).seq s = ⟨Wire.header t ++ s.bytes, s.ending⟩ := rfl
  rw [hs] at hm
  obtain ⟨h1, h2⟩ := hm
  simp only [List.length_append, header_length, Writer.room, Writer.new] at h1 h2
  constructor
  · intro hl
    have := h1 (by omega)
    cases he : s.ending with
    | done =>
      rw [he] at this
      simp only at this ⊢
      rw [MsgType.write]
      simp only [Writer.new, this]
      simp [Writer.app]
    | refused e =>
      rw [he] at this
      obtain ⟨w', hw⟩ := this
      simp [MsgType.write, Writer.new, hw]
    | aborted =>
      rw [he] at this
      obtain ⟨k, w', hw⟩ := this
      exact ⟨k, by simp [MsgType.write, Writer.new, hw]⟩
  · intro hl
    obtain ⟨e, w', h3, h4⟩ := h2 (by omega)
    exact ⟨e, h3, by simp [MsgType.write, Writer.new, h4]⟩

/-! ### The pieces -/

theorem sliceTo_panic {α : Type} {l : List α} {n : Nat} (h : ¬n ≤ l.length) : sliceTo l n = .panic .indexOutOfBounds := by
  simp [sliceTo, h]

theorem Version.saysEntries (es : List VersionEntry) :
    Says (Version.writeEntries es) id (.all (es.map versionEntryText)) := by
  induction es with
  | nil => exact Writes.offsetM.says
  | cons e es ih =>
    refine Says.congr ((Writes.put _).says.bind fun _ => (Writes.put _).says.bind fun _ => ih) ?_
    rw [← Text.seq_assoc]
    rfl

theorem Version.says (m : Version) : Says m.writeBody id (text c (.version m)) := by
  refine Says.congr ((Writes.put 0).says.bind fun _ => (Writes.put 0).says.bind fun _ => (Writes.put 0).says.bind fun _ =>
    (Writes.put _).says.bind fun _ => Version.saysEntries m.entries) ?_
  simp only [← Text.seq_assoc, Text.put_seq_put]
  rfl


theorem Text.seq_put_drop {a b : Bytes} (h : a.take 2 = b) : (Text.put b).seq (.put (a.drop 2)) = .put a := by
  rw [Text.put_seq_put, ← h, List.take_append_drop]

theorem NegotiateAlgorithms.writes' {m : NegotiateAlgorithms} (hn : m.numAlgorithmRequests.toNat ≤ m.algorithmRequests.length) :
    Writes m.writeBody id (Wire.negotiateAlgorithms m) := by
  have h8 := m.numAlgorithmRequests.toNat_lt
  have hlen : m.msgLength = .ok (UInt16.ofNat (32 + 4 * m.numAlgorithmRequests.toNat)) := by
    unfold NegotiateAlgorithms.msgLength
    rw [sliceTo_ok hn]
    simp [algsLength_eq, Nat.min_eq_left hn]
  have hmod : (32 + 4 * m.numAlgorithmRequests.toNat) % 2 ^ 16 = 32 + 4 * m.numAlgorithmRequests.toNat :=
    Nat.mod_eq_of_lt (by omega)
  refine Writes.congr ((Writes.put _).bind fun _ => (Writes.zeros 1).bind fun _ => Writes.lift_bind hlen <|
    (Writes.le16 _).bind fun _ => (Writes.put _).bind fun _ => (Writes.zeros 1).bind fun _ =>
    (Writes.le32 _).bind fun _ => (Writes.le32 _).bind fun _ => (Writes.zeros 12).bind fun _ =>
    (Writes.put _).bind fun _ => (Writes.put _).bind fun _ => (Writes.zeros 2).bind fun _ =>
    writesAlgs _ _ 0 (by omega)) ?_
  simp only [Wire.negotiateAlgorithms, UInt16.toNat_ofNat', hmod]
  simp

theorem NegotiateAlgorithms.says (c : Cfg) (m : NegotiateAlgorithms) : Says m.writeBody id (text c (.negotiateAlgorithms m)) := by
  simp only [text]
  by_cases hn : m.numAlgorithmRequests.toNat ≤ m.algorithmRequests.length
  · simp only [Text.need, if_pos hn]
    exact (NegotiateAlgorithms.writes' hn).says.congr (Text.seq_put_drop (by simp [Wire.negotiateAlgorithms, Spec.zeros, List.replicate])).symm
  · simp only [Text.need, if_neg hn]
    refine Says.congr ((Writes.put _).says.bind fun _ => (Writes.zeros 1).says.bind fun _ =>
      Says.lift_panic (x := m.msgLength) (k := .indexOutOfBounds) ?_) rfl
    unfold NegotiateAlgorithms.msgLength
    rw [sliceTo_panic hn]
    rfl

theorem Algorithms.writes' {m : Algorithms} (hn : m.numAlgorithmResponses.toNat ≤ m.algorithmResponses.length) :
    Writes m.writeBody id (Wire.algorithms m) := by
  have h8 := m.numAlgorithmResponses.toNat_lt
  have hlen : m.msgLength = .ok (UInt16.ofNat (36 + 4 * m.numAlgorithmResponses.toNat)) := by
    unfold Algorithms.msgLength
    rw [sliceTo_ok hn]
    simp [algsLength_eq, Nat.min_eq_left hn]
  have hmod : (36 + 4 * m.numAlgorithmResponses.toNat) % 2 ^ 16 = 36 + 4 * m.numAlgorithmResponses.toNat :=
    Nat.mod_eq_of_lt (by omega)
  refine Writes.congr ((Writes.put _).bind fun _ => (Writes.zeros 1).bind fun _ => Writes.lift_bind hlen <|
    (Writes.le16 _).bind fun _ => (Writes.put _).bind fun _ => (Writes.zeros 1).bind fun _ =>
    (Writes.le32 _).bind fun _ => (Writes.le32 _).bind fun _ => (Writes.le32 _).bind fun _ => (Writes.zeros 12).bind fun _ =>
    (Writes.put _).bind fun _ => (Writes.put _).bind fun _ => (Writes.zeros 2).bind fun _ =>
    writesAlgs _ _ 0 (by omega)) ?_
  simp only [Wire.algorithms, UInt16.toNat_ofNat', hmod]
  simp

theorem Algorithms.says (c : Cfg) (m : Algorithms) : Says m.writeBody id (text c (.algorithms m)) := by
  simp only [text]
  by_cases hn : m.numAlgorithmResponses.toNat ≤ m.algorithmResponses.length
  · simp only [Text.need, if_pos hn]
    exact (Algorithms.writes' hn).says.congr (Text.seq_put_drop (by simp [Wire.algorithms, Spec.zeros, List.replicate])).symm
  · simp only [Text.need, if_neg hn]
    refine Says.congr ((Writes.put _).says.bind fun _ => (Writes.zeros 1).says.bind fun _ =>
      Says.lift_panic (x := m.msgLength) (k := .indexOutOfBounds) ?_) rfl
    unfold Algorithms.msgLength
    rw [sliceTo_panic hn]
    rfl

theorem Certificate.says (c : Cfg) (m : Certificate) : Says m.writeBody id (text c (.certificate m)) := by
  simp only [text]
  by_cases hn : m.portionLength.toNat ≤ m.certChain.length
  · simp only [Text.need, if_pos hn]
    exact (Certificate.writes hn).says.congr (by simp [Wire.certificate])
  · simp only [Text.need, if_neg hn]
    refine Says.congr ((Writes.put _).says.bind fun _ => (Writes.zeros 1).says.bind fun _ => (Writes.le16 _).says.bind fun _ =>
      (Writes.le16 _).says.bind fun _ => Says.lift_panic (sliceTo_panic hn)) ?_
    simp only [← Text.seq_assoc, Text.put_seq_put, List.append_assoc]

theorem ErrorMsg.says (c : Cfg) (m : ErrorMsg) : Says m.writeBody id (text c (.error m)) := by
  cases m with
  | vendorDefined id v =>
    have hid : id.toU8 = Wire.registry id := by cases id <;> rfl
    simp only [text]
    by_cases hn : v.opaqueLen ≤ v.opaqueErrorData.length
    · simp only [Text.need, if_pos hn]
      refine Says.congr ((Writes.put _).says.bind fun _ => (Writes.put _).says.bind fun _ => (VendorId.writes _).says.bind fun _ =>
        Says.lift_ok (sliceTo_ok hn) (Writes.extend _).says) ?_
      simp [hid]
    · simp only [Text.need, if_neg hn]
      refine Says.congr ((Writes.put _).says.bind fun _ => (Writes.put _).says.bind fun _ => (VendorId.writes _).says.bind fun _ =>
        Says.lift_panic (sliceTo_panic hn)) ?_
      simp only [← Text.seq_assoc, Text.put_seq_put, hid]
      rfl
  | _ => exact (ErrorMsg.writes (fun _ _ h => by cases h)).says

theorem CertificateChain.says (ch : CertificateChain) : Says ch.write id (chainText ch) := by
  have hl : (Wire.chain ch).length = ch.wireLength := by
    rw [CertificateChain.wireLength_eq, Wire.chain]; simp [Spec.zeros]; omega
  unfold chainText
  by_cases h : (Wire.chain ch).length ≤ 65535
  · exact Says.need_pos h (CertificateChain.writes h).says
  · refine Says.need_neg h ?_
    unfold CertificateChain.write
    rw [if_pos (by omega)]
    exact Says.fail _ _

/-! ### Opaque data -/

theorem registryIdLen_toNat (id : VendorRegistryId) : id.vendorIdLen.toNat = Wire.registryIdLen id := by cases id <;> rfl

theorem elementSize_eq (e : OpaqueElement) : e.serializedSize = elementSize e := by
  unfold OpaqueElement.serializedSize elementSize
  rw [registryIdLen_toNat]
  dsimp only
  generalize 4 + Wire.registryIdLen e.registryId + e.dataLen.toNat = n
  unfold OpaqueElement.padding
  split <;> omega

theorem opaqueSize_eq {d : OpaqueData} (h : d.totalElements.toNat ≤ d.elements.length) : d.serializedSize = .ok (opaqueSize d) := by
  unfold OpaqueData.serializedSize opaqueSize
  rw [sliceTo_ok h]
  show Res.ok _ = _
  rw [foldl_add (fun e => OpaqueElement.serializedSize e)]
  simp [elementSize_eq]

theorem opaqueSize_panic {d : OpaqueData} (h : ¬d.totalElements.toNat ≤ d.elements.length) :
    d.serializedSize = .panic .indexOutOfBounds := by
  unfold OpaqueData.serializedSize
  rw [sliceTo_panic h]
  rfl

theorem ensureVendorIdLen_err {v : VendorId} {id : VendorRegistryId} (h : ¬Wire.vendorIdLen v = Wire.registryIdLen id) :
    OpaqueElement.ensureVendorIdLen (UInt8.ofNat (Wire.vendorIdLen v)) id = .err .opaqueInvalidVendorIdLength := by
  unfold OpaqueElement.ensureVendorIdLen
  rw [if_neg]
  intro he
  apply h
  rw [← vendorIdLen_toNat, he, registryIdLen_toNat]

theorem OpaqueElement.says (e : OpaqueElement) : Says e.write id (elementText e) := by
  have hid : e.registryId.toU8 = Wire.registry e.registryId := by cases e.registryId <;> rfl
  unfold elementText
  have hput : ∀ t, (Text.put ([Wire.registry e.registryId] ++ Wire.vendorId e.vendorId)).seq t =
      (Text.put [e.registryId.toU8]).seq ((Text.put (Wire.vendorId e.vendorId)).seq t) := by
    intro t; rw [← Text.seq_assoc, Text.put_seq_put, hid]
  rw [hput]
  refine (Writes.put _).says.bind fun _ => (VendorId.writes e.vendorId).says.bind fun _ => ?_
  by_cases hv : Wire.vendorIdLen e.vendorId = Wire.registryIdLen e.registryId
  · refine Says.need_pos hv (Says.lift_ok (ensureVendorIdLen_ok hv) ((Writes.le16 _).says.bind fun _ => ?_))
    by_cases hd : e.dataLen.toNat ≤ e.data.length
    · refine Says.need_pos hd (Says.lift_ok (sliceTo_ok hd) ?_)
      refine Says.congr ((Writes.extend _).says.bind fun _ => (Writes.zeros _).says) ?_
      rw [Text.put_seq_put, vendorIdLen_toNat, padding_eq, hv]
      congr 3
      unfold elementSize
      omega
    · exact Says.need_neg hd (Says.lift_panic (sliceTo_panic hd))
  · exact Says.need_neg hv (Says.lift_err (ensureVendorIdLen_err hv))

theorem OpaqueData.saysElements (es : List OpaqueElement) : Says (OpaqueData.writeElements es) id (.all (es.map elementText)) := by
  induction es with
  | nil => exact Writes.offsetM.says
  | cons e es ih => exact (OpaqueElement.says e).bind fun _ => ih

theorem Text.seq_refused {a b : Text} {e : Err} (h : (a.seq b).ending = .refused e) : a.ending = .refused e ∨ b.ending = .refused e := by
  unfold Text.seq at h
  split at h
  · exact .inr h
  · exact .inl h

theorem Text.need_refused {p : Prop} [Decidable p] {o a : Text} {e : Err} (h : (Text.need p o a).ending = .refused e) :
    o.ending = .refused e ∨ a.ending = .refused e := by
  unfold Text.need at h
  split at h
  · exact .inr h
  · exact .inl h

theorem Text.put_refused {bs : Bytes} {e : Err} (h : (Text.put bs).ending = .refused e) : False := by cases h
theorem Text.abort_refused {e : Err} (h : Text.abort.ending = .refused e) : False := by cases h

theorem elements_refused (es : List OpaqueElement) (e : Err) (h : (Text.all (es.map elementText)).ending = .refused e) :
    e = .opaqueInvalidVendorIdLength := by
  induction es with
  | nil => cases h
  | cons x es ih =>
    rcases Text.seq_refused h with h | h
    · unfold elementText at h
      rcases Text.seq_refused h with h | h
      · cases h
      · rcases Text.need_refused h with h | h
        · cases h; rfl
        · rcases Text.seq_refused h with h | h
          · cases h
          · rcases Text.need_refused h with h | h <;> cases h
    · exact ih h

theorem OpaqueData.says (d : OpaqueData) : Says d.write id (opaqueText d) := by
  unfold opaqueText
  refine Says.mapErr _ wrapFull_isFull ?_ ?_
  · intro e he
    have : e = .opaqueInvalidVendorIdLength := by
      rcases Text.seq_refused he with h | h
      · cases h
      · rcases Text.need_refused h with h | h
        · cases h
        · exact elements_refused _ e h
    rw [this]; rfl
  · rw [← Text.put_seq_put, Text.seq_assoc]
    refine (Writes.put _).says.bind fun _ => (Writes.zeros 3).says.bind fun _ => ?_
    by_cases h : d.totalElements.toNat ≤ d.elements.length
    · exact Says.need_pos h (Says.lift_ok (sliceTo_ok h) (OpaqueData.saysElements _))
    · exact Says.need_neg h (Says.lift_panic (sliceTo_panic h))


theorem ChallengeAuth.says (c : Cfg) (m : ChallengeAuth) : Says (m.writeBody c) id (text c (.challengeAuth m)) := by
  simp only [text]
  by_cases hs : m.slot.toNat < c.numSlots
  · refine Says.need_pos hs ?_
    by_cases ht : m.opaqueData.totalElements.toNat ≤ m.opaqueData.elements.length
    · refine Says.need_pos ht ?_
      have hsz := opaqueSize_eq ht
      by_cases ho : opaqueSize m.opaqueData ≤ 1024
      · refine Says.need_pos ho ?_
        have hv : m.validate c = .ok () := by
          unfold ChallengeAuth.validate
          rw [if_neg (by omega), hsz]
          show (if opaqueSize m.opaqueData > maxOpaqueDataSize then _ else _) = _
          rw [if_neg (by unfold maxOpaqueDataSize; omega)]
        refine Says.lift_ok hv ?_
        refine Says.congr ((Writes.put _).says.bind fun _ => (Writes.put _).says.bind fun _ => (Writes.extend _).says.bind fun _ =>
          (Writes.extend _).says.bind fun _ => (Writes.extend _).says.bind fun _ => Says.lift_ok hsz <|
          (Writes.le16 _).says.bind fun _ => (OpaqueData.says _).bind fun _ => (Writes.extend _).says.bind fun _ =>
          Writes.offsetM.says) ?_
        rw [ofNat_toNat16 (by omega)]
        have h80 : ((1 : UInt8) <<< 7) = 0x80 := by decide
        simp only [← Text.seq_assoc, Text.put_seq_put, List.append_assoc, h80]
        simp [Text.seq_assoc]
      · refine Says.need_neg ho (Says.lift_err ?_)
        unfold ChallengeAuth.validate
        rw [if_neg (by omega), hsz]
        show (if opaqueSize m.opaqueData > maxOpaqueDataSize then _ else _) = _
        rw [if_pos (by unfold maxOpaqueDataSize; omega)]
    · refine Says.need_neg ht (Says.lift_panic (k := .indexOutOfBounds) ?_)
      unfold ChallengeAuth.validate
      rw [if_neg (by omega), opaqueSize_panic ht]
      rfl
  · refine Says.need_neg hs (Says.lift_err ?_)
    unfold ChallengeAuth.validate
    rw [if_pos (by omega)]

theorem GetMeasurements.says (c : Cfg) (m : GetMeasurements) : Says m.writeBody id (text c (.getMeasurements m)) := by
  have ha : m.attributes.toU8 = UInt8.ofNat ((if m.attributes.signatureRequested then 1 else 0) +
      (if m.attributes.rawBitStreamRequested then 2 else 0)) := by
    rcases m.attributes with ⟨a, b⟩
    cases a <;> cases b <;> rfl
  have htail : ∀ i, i = Wire.measurementIndex m.index → Says (do
      let _ ← Writer.put i
      if m.attributes.signatureRequested then
        match m.nonce with
        | none => M.die .unwrapNone
        | some n =>
          let _ ← Writer.extend n
          let _ ← Writer.put m.slotId
          Writer.offsetM
      else Writer.offsetM : W Nat) id (text.tail m) := by
    intro i hi
    unfold text.tail
    rw [hi]
    refine (Writes.put _).says.bind fun _ => ?_
    split
    · cases m.nonce with
      | none => exact Says.die _ _
      | some n => exact Says.congr ((Writes.extend _).says.bind fun _ => (Writes.put _).says.bind fun _ => Writes.offsetM.says) (by simp)
    · exact Writes.offsetM.says
  simp only [text]
  unfold GetMeasurements.writeBody
  rw [ha]
  refine (Writes.put _).says.bind fun _ => ?_
  cases hi : m.index with
  | implementationDefined i =>
    by_cases h : 0x01 ≤ i ∧ i ≤ 0xEF
    · refine Says.need_pos h (Says.lift_ok (a := i) ?_ (htail i (by rw [hi]; rfl)))
      have : ¬(i < 0x1 ∨ i > 0xEF) := by
        obtain ⟨h1, h2⟩ := h
        rintro (h | h)
        · exact absurd (UInt8.le_iff_toNat_le.mp h1) (by have := UInt8.lt_iff_toNat_lt.mp h; omega)
        · exact absurd (UInt8.le_iff_toNat_le.mp h2) (by have := UInt8.lt_iff_toNat_lt.mp h; omega)
      simp only [MeasurementIndex.toU8]
      rw [if_neg this]
    · refine Says.need_neg h (Says.lift_err ?_)
      have : i < 0x1 ∨ i > 0xEF := by
        by_cases h1 : (0x01 : UInt8) ≤ i
        · right
          have h2 : ¬i ≤ 0xEF := fun h2 => h ⟨h1, h2⟩
          exact UInt8.not_le.mp h2
        · exact .inl (UInt8.not_le.mp h1)
      simp only [MeasurementIndex.toU8]
      rw [if_pos this]
  | reserved i =>
    by_cases h : 0xF0 ≤ i ∧ i ≤ 0xFC
    · refine Says.need_pos h (Says.lift_ok (a := i) ?_ (htail i (by rw [hi]; rfl)))
      have : ¬(i < 0xF0 ∨ i > 0xFC) := by
        obtain ⟨h1, h2⟩ := h
        rintro (h | h)
        · exact absurd (UInt8.le_iff_toNat_le.mp h1) (by have := UInt8.lt_iff_toNat_lt.mp h; omega)
        · exact absurd (UInt8.le_iff_toNat_le.mp h2) (by have := UInt8.lt_iff_toNat_lt.mp h; omega)
      simp only [MeasurementIndex.toU8]
      rw [if_neg this]
    · refine Says.need_neg h (Says.lift_err ?_)
      have : i < 0xF0 ∨ i > 0xFC := by
        by_cases h1 : (0xF0 : UInt8) ≤ i
        · right
          have h2 : ¬i ≤ 0xFC := fun h2 => h ⟨h1, h2⟩
          exact UInt8.not_le.mp h2
        · exact .inl (UInt8.not_le.mp h1)
      simp only [MeasurementIndex.toU8]
      rw [if_pos this]
  | totalNumberOfMeasurementsAvailable => exact Says.lift_ok rfl (htail _ (by rw [hi]; rfl))
  | allMeasurements => exact Says.lift_ok rfl (htail _ (by rw [hi]; rfl))
  | measurementManifest => exact Says.lift_ok rfl (htail _ (by rw [hi]; rfl))
  | deviceMode => exact Says.lift_ok rfl (htail _ (by rw [hi]; rfl))

/-! ### Measurement blocks -/

theorem MeasurementBlock.says (b : MeasurementBlock) : Says b.write id (blockText b) := by
  unfold blockText
  have hput : ∀ t, (Text.put [b.index, b.measurementSpecSelected]).seq t =
      (Text.put [b.index]).seq ((Text.put [b.measurementSpecSelected]).seq t) := by
    intro t; rw [← Text.seq_assoc, Text.put_seq_put]; rfl
  rw [hput]
  refine (Writes.put _).says.bind fun _ => (Writes.put _).says.bind fun _ => ?_
  have hsz : b.measurement.serializedSize = 3 + (Wire.valueBytes b.measurement.value).length := by
    unfold DmtfMeasurement.serializedSize; rw [valueBytes_eq]
  by_cases h : 3 + (Wire.valueBytes b.measurement.value).length < 65536
  · refine Says.need_pos h (Says.lift_ok (a := UInt16.ofNat (3 + (Wire.valueBytes b.measurement.value).length)) ?_ ?_)
    · unfold toU16Unwrap; rw [hsz, if_pos h]
    · refine Says.congr ((Writes.le16 _).says.bind fun _ => (Writes.put _).says.bind fun _ =>
        Says.lift_ok (a := UInt16.ofNat (Wire.valueBytes b.measurement.value).length) ?_ <|
        (Writes.le16 _).says.bind fun _ => (Writes.extend _).says) ?_
      · unfold toU16Unwrap; rw [valueBytes_eq, if_pos (by omega)]
      · rw [ofNat_toNat16 h, ofNat_toNat16 (by omega), valueBytes_eq]
        simp only [Text.put_seq_put, Wire.dmtfMeasurement, List.append_assoc]
        congr 4
        cases b.measurement.valueRepresentation <;> cases b.measurement.valueType <;> rfl
  · refine Says.need_neg h (Says.lift_panic (k := .unwrapNone) ?_)
    unfold toU16Unwrap; rw [hsz, if_neg h]

theorem sumSizes_ok (l : List (Option MeasurementBlock)) (h : ∀ b ∈ l, b.isSome = true) :
    MeasurementBlocks.sumSizes l = .ok ((l.filterMap id).map fun b => 7 + (Wire.valueBytes b.measurement.value).length).sum := by
  induction l with
  | nil => rfl
  | cons b l ih =>
    cases b with
    | none => exact absurd (h none (by simp)) (by simp)
    | some b =>
      simp only [MeasurementBlocks.sumSizes]
      rw [ih fun x hx => h x (by simp [hx])]
      show Res.ok _ = _
      congr 1
      simp only [List.filterMap_cons, id, List.map_cons, List.sum_cons]
      unfold MeasurementBlock.serializedSize DmtfMeasurement.serializedSize
      rw [valueBytes_eq]
      omega

theorem sumSizes_panic (l : List (Option MeasurementBlock)) (h : ¬∀ b ∈ l, b.isSome = true) :
    MeasurementBlocks.sumSizes l = .panic .unwrapNone := by
  induction l with
  | nil => exact absurd (by simp) h
  | cons b l ih =>
    cases b with
    | none => rfl
    | some b =>
      simp only [MeasurementBlocks.sumSizes]
      have hne : ¬∀ b ∈ l, b.isSome = true := by
        intro hl
        apply h
        intro x hx
        rcases List.mem_cons.mp hx with hx | hx
        · rw [hx]; rfl
        · exact hl x hx
      rw [ih hne]
      rfl

theorem MeasurementBlocks.saysLoop (bs : List (Option MeasurementBlock)) (n i : Nat) (hl : i + n ≤ bs.length)
    (h : ∀ b ∈ (bs.drop i).take n, b.isSome = true) :
    Says (MeasurementBlocks.writeLoop bs n i) id (.all ((((bs.drop i).take n).filterMap id).map blockText)) := by
  induction n generalizing i with
  | zero => exact Writes.offsetM.says.congr (by simp [Text.all])
  | succ n ih =>
    have hi : i < bs.length := by omega
    have hd : bs.drop i = bs[i] :: bs.drop (i + 1) := List.drop_eq_getElem_cons hi
    rw [hd] at h ⊢
    simp only [List.take_succ_cons] at h ⊢
    have hb := h bs[i] (by simp)
    obtain ⟨b, hb⟩ := Option.isSome_iff_exists.mp hb
    have hix : index bs i = .ok (some b) := by
      unfold index
      simp [List.getElem?_eq_getElem hi, hb]
    rw [hb]
    simp only [MeasurementBlocks.writeLoop, List.filterMap_cons, id, List.map_cons]
    refine Says.lift_ok hix ?_
    exact (MeasurementBlock.says b).bind fun _ => ih (i + 1) (by omega) fun x hx => h x (by simp [hx])

theorem MeasurementBlocks.says (m : MeasurementBlocks) : Says m.write id (blocksText m) := by
  unfold blocksText
  by_cases h : m.len < 256
  · refine Says.need_pos h (Says.lift_ok (if_pos h) ((Writes.put _).says.bind fun _ => ?_))
    by_cases hl : m.len ≤ m.blocks.length
    · by_cases hb : ∀ b ∈ m.blocks.take m.len, b.isSome = true
      · refine Says.need_pos ⟨hl, hb⟩ (Says.lift_ok (a := ((Wire.blockList m).map fun b => 7 + (Wire.valueBytes b.measurement.value).length).sum) ?_ ?_)
        · unfold MeasurementBlocks.serializedSize
          rw [sliceTo_ok hl]
          exact sumSizes_ok _ hb
        · exact (Writes.le24 _).says.bind fun _ => (MeasurementBlocks.saysLoop m.blocks m.len 0 (by omega) (by simpa using hb)).congr (by simp [Wire.blockList])
      · refine Says.need_neg (fun hh => hb hh.2) (Says.lift_panic (k := .unwrapNone) ?_)
        unfold MeasurementBlocks.serializedSize
        rw [sliceTo_ok hl]
        exact sumSizes_panic _ hb
    · refine Says.need_neg (fun hh => hl hh.1) (Says.lift_panic (k := .indexOutOfBounds) ?_)
      unfold MeasurementBlocks.serializedSize
      rw [sliceTo_panic hl]
      rfl
  · exact Says.need_neg h (Says.lift_panic (if_neg h))

theorem param2_eq (m : Measurements) : m.param2 = measurementsParam2 m := by
  unfold Measurements.param2 measurementsParam2
  cases m.contentChanged <;> rfl

theorem Measurements.says (c : Cfg) (m : Measurements) : Says m.writeBody id (text c (.measurements m)) := by
  simp only [text]
  have hput : ∀ t, (Text.put [m.totalBlocks, measurementsParam2 m]).seq t =
      (Text.put [m.totalBlocks]).seq ((Text.put [m.param2]).seq t) := by
    intro t; rw [← Text.seq_assoc, Text.put_seq_put, param2_eq]; rfl
  rw [hput]
  refine (Writes.put _).says.bind fun _ => (Writes.put _).says.bind fun _ => (MeasurementBlocks.says _).bind fun _ =>
    (Writes.extend _).says.bind fun _ => ?_
  by_cases ht : m.opaqueData.totalElements.toNat ≤ m.opaqueData.elements.length
  · by_cases ho : opaqueSize m.opaqueData < 65536
    · refine Says.need_pos ⟨ht, ho⟩ (Says.lift_ok (opaqueSize_eq ht) (Says.lift_ok (a := UInt16.ofNat (opaqueSize m.opaqueData)) (if_pos ho) ?_))
      have hsig : Says (match m.signature with
          | none => Writer.offsetM
          | some s => Writer.extend s : W Nat) id (.put (m.signature.getD [])) := by
        cases m.signature with
        | none => exact Writes.offsetM.says
        | some s => exact (Writes.extend s).says
      exact Says.congr ((Writes.le16 _).says.bind fun _ => (OpaqueData.says _).bind fun _ => hsig) (by rw [ofNat_toNat16 ho])
    · exact Says.need_neg (fun h => ho h.2) (Says.lift_ok (opaqueSize_eq ht) (Says.lift_panic (if_neg ho)))
  · exact Says.need_neg (fun h => ht h.1) (Says.lift_panic (opaqueSize_panic ht))

/-! ### Digests -/

theorem named_step : ∀ (b : Fin 256) (n : Fin 9),
    if trailingZeros 8 b.val < n.val then trailingZeros 8 b.val < 8 ∧ namedSlots n.val (UInt8.ofNat b.val) =
      trailingZeros 8 b.val :: namedSlots n.val (UInt8.ofNat b.val ^^^ UInt8.ofNat (2 ^ trailingZeros 8 b.val))
    else namedSlots n.val (UInt8.ofNat b.val) = [] := by decide +kernel

theorem Digests.saysLoop (c : Cfg) (hc : c.numSlots ≤ 8) (m : Digests) (fuel : Nat) (bits : UInt8)
    (hf : (namedSlots c.numSlots bits).length < fuel) (w : Writer) (hw : w.WF) :
    SaysAt (Digests.writeLoop c m.digests fuel bits w.offset) id (.all ((namedSlots c.numSlots bits).map (digestText m))) w := by
  induction fuel generalizing bits w with
  | zero => omega
  | succ fuel ih =>
    have hs := named_step ⟨bits.toNat, bits.toNat_lt⟩ ⟨c.numSlots, by omega⟩
    simp only [UInt8.ofNat_toNat] at hs
    by_cases hk : trailingZeros 8 bits.toNat < c.numSlots
    · rw [if_pos hk] at hs
      obtain ⟨h8, hn⟩ := hs
      rw [hn] at hf ⊢
      simp only [Digests.writeLoop, if_pos hk, List.map_cons, Text.all]
      generalize trailingZeros 8 bits.toNat = k at *
      cases hd : m.digests[k]? with
      | none =>
        have : index m.digests k = .panic .indexOutOfBounds := by simp [index, hd]
        have ht : digestText m k = .abort := by simp [digestText, hd]
        rw [ht]
        exact Says.lift_panic this w hw
      | some d =>
        have hix : index m.digests k = .ok d := by simp [index, hd]
        rw [hix]
        cases d with
        | none =>
          have ht : digestText m k = .abort := by simp [digestText, hd]
          rw [ht]
          exact Says.die _ _ w hw
        | some d =>
          have ht : digestText m k = .put d := by simp [digestText, hd]
          rw [ht]
          show SaysAt (do
            let offset ← Writer.extend d
            if k < 8 then Digests.writeLoop c m.digests fuel (bits ^^^ UInt8.ofNat (2 ^ k)) offset
              else M.die PanicKind.overflow) id _ w
          refine Says.bindAt hw ((Writes.extend d).says w hw) fun _ hb => ?_
          simp only [if_pos h8]
          have := ih (bits ^^^ UInt8.ofNat (2 ^ k)) (by simp at hf; omega) (w.app d) (Writer.app_wf hw hb)
          exact this
    · rw [if_neg hk] at hs
      rw [hs]
      simp only [Digests.writeLoop, if_neg hk, List.map_nil, Text.all]
      refine ⟨fun _ => ?_, fun h => by simp [Text.put] at h⟩
      simp [Text.put]

theorem namedSlots_length (n : Nat) (hn : n ≤ 8) (b : UInt8) : (namedSlots n b).length < 9 := by
  unfold namedSlots
  have := List.length_filter_le (fun k => b.toNat.testBit k) (List.range n)
  simp at this
  omega

theorem Digests.says (c : Cfg) (hc : c.numSlots ≤ 8) (m : Digests) : Says (m.writeBody c) id (text c (.digests m)) := by
  simp only [text]
  rw [← Text.put_seq_put, Text.seq_assoc]
  refine (Writes.zeros 1).says.bind fun _ => (Writes.put _).says.bind fun _ => ?_
  intro w hw
  have := Digests.saysLoop c hc m 9 m.slotMask (namedSlots_length _ hc _) w hw
  exact this

/-- Every message says its text. -/
theorem any_says (c : Cfg) (hc : c.numSlots ≤ 8) (m : AnyMsg) : Says (m.writeBody c) id (text c m) := by
  cases m with
  | getVersion => exact GetVersion.writes.says
  | version m => exact Version.says m
  | getCapabilities m => exact (GetCapabilities.writes m).says
  | capabilities m => exact (Capabilities.writes m).says
  | negotiateAlgorithms m => exact NegotiateAlgorithms.says c m
  | algorithms m => exact Algorithms.says c m
  | getDigests => exact GetDigests.writes.says
  | digests m => exact Digests.says c hc m
  | getCertificate m => exact (GetCertificate.writes m).says
  | certificate m => exact Certificate.says c m
  | challenge m => exact (Challenge.writes m).says
  | challengeAuth m => exact ChallengeAuth.says c m
  | getMeasurements m => exact GetMeasurements.says c m
  | measurements m => exact Measurements.says c m
  | error m => exact ErrorMsg.says c m

end Spdm

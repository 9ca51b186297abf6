import Verif.Lemmas.Stale
/-! What is written does not depend on the size of the buffer, as long as it fits. -/
namespace Spdm
open Spec

/-- If `p` succeeds from `w`, it only moves forward inside the buffer, and it does the same from every writer at the same place of the same text whose
buffer holds what is written. -/
def WGrow {α : Type} (p : W α) : Prop := ∀ w a v, w.offset ≤ w.buf.length → p w = (.ok a, v) →
  (w.offset ≤ v.offset ∧ v.offset ≤ v.buf.length ∧ v.buf.length = w.buf.length) ∧
  ∀ w', w'.offset = w.offset → w'.buf.take w.offset = w.buf.take w.offset → v.offset ≤ w'.buf.length →
    ∃ v', p w' = (.ok a, v') ∧ v'.offset = v.offset ∧ v'.buf.length = w'.buf.length ∧ v'.buf.take v.offset = v.buf.take v.offset

/-- Moreover the size returned is what has been written. -/
def WEnd (p : W Nat) : Prop := WGrow p ∧ ∀ w n v, p w = (.ok n, v) → n = v.offset

namespace WGrow
variable {α β : Type}

theorem pure (a : α) : WGrow (Pure.pure a : W α) := by
  intro w a' v hw e
  rw [M.run_pure, Prod.mk.injEq, Res.ok.injEq] at e
  obtain ⟨rfl, rfl⟩ := e
  exact ⟨⟨Nat.le_refl _, hw, rfl⟩, fun w' h1 h2 _ => ⟨w', rfl, h1, rfl, h2⟩⟩
theorem lift (x : Res α) : WGrow (M.lift x : W α) := by
  intro w a' v hw e
  rw [M.run_lift, Prod.mk.injEq] at e
  obtain ⟨rfl, rfl⟩ := e
  exact ⟨⟨Nat.le_refl _, hw, rfl⟩, fun w' h1 h2 _ => ⟨w', rfl, h1, rfl, h2⟩⟩
theorem fail (e : Err) : WGrow (M.fail e : W α) := fun _ _ _ _ h => (err_ok (congrArg Prod.fst h)).elim
theorem die (k : PanicKind) : WGrow (M.die k : W α) := fun _ _ _ _ h => (panic_ok (congrArg Prod.fst h)).elim

theorem bind {p : W α} {q : α → W β} (hp : WGrow p) (hq : ∀ a, WGrow (q a)) : WGrow (p >>= q) := by
  intro w b v hw e
  obtain ⟨a, u, e1, e2⟩ := M.bind_ok_inv e
  obtain ⟨⟨p1, p2, p3⟩, p4⟩ := hp w a u hw e1
  obtain ⟨⟨q1, q2, q3⟩, q4⟩ := hq a u b v p2 e2
  refine ⟨⟨by omega, q2, q3.trans p3⟩, fun w' h1 h2 h3 => ?_⟩
  obtain ⟨u', g1, g2, g3, g4⟩ := p4 w' h1 h2 (by omega)
  obtain ⟨v', k1, k2, k3, k4⟩ := q4 u' g2 g4 (by omega)
  exact ⟨v', by rw [M.run_bind_ok g1, k1], k2, k3.trans g3, k4⟩

theorem ite {c : Prop} [Decidable c] {p q : W α} (hp : WGrow p) (hq : WGrow q) : WGrow (if c then p else q) := by
  split <;> assumption

theorem mapErr {p : W α} (f : Err → Err) (hp : WGrow p) : WGrow (M.mapErr f p) := by
  intro w a v hw e
  have key : ∀ {w v}, p w = (.ok a, v) → M.mapErr f p w = (.ok a, v) := by
    intro w v h; unfold M.mapErr; rw [h]
  have inv : p w = (.ok a, v) := by
    unfold M.mapErr at e
    rcases hx : p w with ⟨r, s⟩
    rw [hx] at e
    cases r with
    | ok b => exact e
    | err b => exact (err_ok (congrArg Prod.fst e)).elim
    | panic b => exact (panic_ok (congrArg Prod.fst e)).elim
  obtain ⟨h1, h2⟩ := hp w a v hw inv
  refine ⟨h1, fun w' g1 g2 g3 => ?_⟩
  obtain ⟨v', k1, k2⟩ := h2 w' g1 g2 g3
  exact ⟨v', key k1, k2⟩

end WGrow

theorem WEnd.offsetM : WEnd Writer.offsetM := by
  refine ⟨fun w a v hw e => ?_, fun w n v e => ?_⟩ <;> simp only [Writer.offsetM, Prod.mk.injEq, Res.ok.injEq] at e <;> obtain ⟨rfl, rfl⟩ := e
  · exact ⟨⟨Nat.le_refl _, hw, rfl⟩, fun w' h1 h2 _ => ⟨w', by simp only [Writer.offsetM, h1], h1, rfl, h2⟩⟩
  · rfl

theorem WEnd.put (b : UInt8) : WEnd (Writer.put b) := by
  have e1 : ∀ (l : Bytes) (n : Nat), n < l.length → (l.set n b).take (n + 1) = l.take n ++ [b] := by
    intro l n hl
    rw [List.take_add_one, List.getElem?_set_self hl, List.take_set_of_le (Nat.le_refl _)]
    rfl
  have inv : ∀ {w : Writer} {n v}, Writer.put b w = (.ok n, v) → n = w.offset + 1 ∧ w.offset < w.buf.length ∧ v = ⟨w.buf.set w.offset b, w.offset + 1⟩ := by
    intro w n v e
    unfold Writer.put Writer.isFull at e
    split at e
    · exact (err_ok (congrArg Prod.fst e)).elim
    · split at e
      · rename_i h2
        simp only [Prod.mk.injEq, Res.ok.injEq] at e
        exact ⟨e.1.symm, h2, e.2.symm⟩
      · exact (panic_ok (congrArg Prod.fst e)).elim
  refine ⟨fun w n v hw e => ?_, fun w n v e => ?_⟩
  · obtain ⟨rfl, hl, rfl⟩ := inv e
    refine ⟨⟨by simp, by simp; omega, by simp⟩, fun w' h1 h2 h3 => ?_⟩
    simp only at h3
    refine ⟨⟨w'.buf.set w.offset b, w.offset + 1⟩, ?_, rfl, by simp, ?_⟩
    · unfold Writer.put Writer.isFull
      rw [h1]
      have : ¬ ((w.offset == w'.buf.length) = true) := by simp; omega
      rw [if_neg this, if_pos (by omega)]
    · simp only
      rw [e1 _ _ hl, e1 _ _ (by omega), h2]
  · obtain ⟨rfl, hl, rfl⟩ := inv e
    rfl

theorem WEnd.extend (bs : Bytes) : WEnd (Writer.extend bs) := by
  have e1 : ∀ (l : Bytes) (n : Nat), n ≤ l.length → (l.take n ++ bs ++ l.drop (n + bs.length)).take (n + bs.length) = l.take n ++ bs := by
    intro l n hl
    exact List.take_left' (by simp only [List.length_append, List.length_take]; omega)
  have inv : ∀ {w : Writer} {n v}, Writer.extend bs w = (.ok n, v) → n = w.offset + bs.length ∧ bs.length ≤ w.buf.length - w.offset ∧
      v = ⟨w.buf.take w.offset ++ bs ++ w.buf.drop (w.offset + bs.length), w.offset + bs.length⟩ := by
    intro w n v e
    unfold Writer.extend Writer.remaining at e
    split at e
    · exact (err_ok (congrArg Prod.fst e)).elim
    · rename_i h2
      simp only [Prod.mk.injEq, Res.ok.injEq] at e
      exact ⟨e.1.symm, by omega, e.2.symm⟩
  refine ⟨fun w n v hw e => ?_, fun w n v e => ?_⟩
  · obtain ⟨rfl, hl, rfl⟩ := inv e
    refine ⟨⟨by simp, by simp; omega, by simp; omega⟩, fun w' h1 h2 h3 => ?_⟩
    simp only at h3
    refine ⟨⟨w'.buf.take w.offset ++ bs ++ w'.buf.drop (w.offset + bs.length), w.offset + bs.length⟩, ?_, rfl, by simp; omega, ?_⟩
    · unfold Writer.extend Writer.remaining
      rw [h1, if_neg (by omega)]
    · simp only
      rw [e1 _ _ hw, e1 _ _ (by omega), h2]
  · obtain ⟨rfl, hl, rfl⟩ := inv e
    rfl

theorem WEnd.bind {α : Type} {p : W α} {q : α → W Nat} (hp : WGrow p) (hq : ∀ a, WEnd (q a)) : WEnd (p >>= q) := by
  refine ⟨hp.bind fun a => (hq a).1, fun w n v h => ?_⟩
  obtain ⟨a, u, _, e2⟩ := M.bind_ok_inv h
  exact (hq a).2 u n v e2

theorem WEnd.putAll : ∀ bs : Bytes, WEnd (Writer.putAll bs)
  | [] => offsetM
  | b :: bs => bind (put b).1 fun _ => putAll bs

namespace WGrow

theorem offsetM : WGrow Writer.offsetM := WEnd.offsetM.1
theorem put (b : UInt8) : WGrow (Writer.put b) := (WEnd.put b).1
theorem putAll (bs : Bytes) : WGrow (Writer.putAll bs) := (WEnd.putAll bs).1
theorem extend (bs : Bytes) : WGrow (Writer.extend bs) := (WEnd.extend bs).1

theorem vendorId : ∀ v : VendorId, WGrow v.write
  | .empty => (put _).bind fun _ => pure _
  | .u16 _ => (put _).bind fun _ => (putAll _).bind fun _ => pure _
  | .u32 _ => (put _).bind fun _ => (putAll _).bind fun _ => pure _

theorem opaqueElement (e : OpaqueElement) : WGrow e.write :=
  (put _).bind fun _ => (vendorId _).bind fun _ => (lift _).bind fun _ => (putAll _).bind fun _ => (lift _).bind fun _ => (extend _).bind fun _ => putAll _

theorem opaqueElements : ∀ es : List OpaqueElement, WGrow (OpaqueData.writeElements es)
  | [] => offsetM
  | e :: es => (opaqueElement e).bind fun _ => opaqueElements es

theorem opaqueData (d : OpaqueData) : WGrow d.write :=
  mapErr _ ((put _).bind fun _ => (putAll _).bind fun _ => (lift _).bind fun _ => opaqueElements _)

end WGrow

namespace WEnd

theorem versionEntries : ∀ es : List VersionEntry, WEnd (Version.writeEntries es)
  | [] => offsetM
  | _ :: es => bind (WGrow.put _) fun _ => bind (WGrow.put _) fun _ => versionEntries es

theorem version (v : Version) : WEnd v.writeBody :=
  bind (WGrow.put _) fun _ => bind (WGrow.put _) fun _ => bind (WGrow.put _) fun _ => bind (WGrow.put _) fun _ => versionEntries _

theorem getVersion : WEnd GetVersion.writeBody := putAll _
theorem getDigests : WEnd GetDigests.writeBody := putAll _

theorem getCapabilities (m : GetCapabilities) : WEnd m.writeBody :=
  bind (WGrow.putAll _) fun _ => bind (WGrow.put _) fun _ => bind (WGrow.putAll _) fun _ => putAll _

theorem capabilities (m : Capabilities) : WEnd m.writeBody :=
  bind (WGrow.putAll _) fun _ => bind (WGrow.put _) fun _ => bind (WGrow.putAll _) fun _ => putAll _

theorem algs (l : List AlgorithmRequest) : ∀ n i : Nat, WEnd (writeAlgs l n i)
  | 0, _ => offsetM
  | n + 1, i => bind (WGrow.lift _) fun _ => bind ((WGrow.put _).bind fun _ => (WGrow.put _).bind fun _ => WGrow.putAll _) fun _ => algs l n (i + 1)

theorem negotiateAlgorithms (m : NegotiateAlgorithms) : WEnd m.writeBody :=
  bind (WGrow.put _) fun _ => bind (WGrow.putAll _) fun _ => bind (WGrow.lift _) fun _ => bind (WGrow.putAll _) fun _ => bind (WGrow.put _) fun _ =>
    bind (WGrow.putAll _) fun _ => bind (WGrow.putAll _) fun _ => bind (WGrow.putAll _) fun _ => bind (WGrow.putAll _) fun _ => bind (WGrow.put _) fun _ =>
    bind (WGrow.put _) fun _ => bind (WGrow.putAll _) fun _ => algs _ _ _

theorem algorithms (m : Algorithms) : WEnd m.writeBody :=
  bind (WGrow.put _) fun _ => bind (WGrow.putAll _) fun _ => bind (WGrow.lift _) fun _ => bind (WGrow.putAll _) fun _ => bind (WGrow.put _) fun _ =>
    bind (WGrow.putAll _) fun _ => bind (WGrow.putAll _) fun _ => bind (WGrow.putAll _) fun _ => bind (WGrow.putAll _) fun _ => bind (WGrow.putAll _) fun _ =>
    bind (WGrow.put _) fun _ => bind (WGrow.put _) fun _ => bind (WGrow.putAll _) fun _ => algs _ _ _

theorem getCertificate (m : GetCertificate) : WEnd m.writeBody :=
  bind (WGrow.put _) fun _ => bind (WGrow.putAll _) fun _ => bind (WGrow.putAll _) fun _ => putAll _

theorem certificate (m : Certificate) : WEnd m.writeBody :=
  bind (WGrow.put _) fun _ => bind (WGrow.putAll _) fun _ => bind (WGrow.putAll _) fun _ => bind (WGrow.putAll _) fun _ => bind (WGrow.lift _) fun _ => extend _

theorem challenge (m : Challenge) : WEnd m.writeBody :=
  bind (WGrow.put _) fun _ => bind (WGrow.put _) fun _ => extend _

theorem challengeAuth (c : Cfg) (m : ChallengeAuth) : WEnd (m.writeBody c) :=
  bind (WGrow.lift _) fun _ => bind (WGrow.put _) fun _ => bind (WGrow.put _) fun _ => bind (WGrow.extend _) fun _ => bind (WGrow.extend _) fun _ => bind (WGrow.extend _) fun _ =>
    bind (WGrow.lift _) fun _ => bind (WGrow.putAll _) fun _ => bind (WGrow.opaqueData _) fun _ => bind (WGrow.extend _) fun _ => offsetM

theorem digestLoop_rel (c : Cfg) (ds : List (Option Bytes)) : ∀ (fuel : Nat) (bits : UInt8) (off : Nat), WGrow (Digests.writeLoop c ds fuel bits off)
  | 0, _, _ => WGrow.pure _
  | fuel + 1, bits, off => by
    unfold Digests.writeLoop
    refine WGrow.ite ((WGrow.lift _).bind fun d => ?_) (WGrow.pure _)
    cases d with
    | none => exact WGrow.die _
    | some d => exact (WGrow.extend _).bind fun _ => WGrow.ite (digestLoop_rel c ds fuel _ _) (WGrow.die _)

theorem digestLoop_out (c : Cfg) (ds : List (Option Bytes)) : ∀ (fuel : Nat) (bits : UInt8) (w : Writer) (n : Nat) (v : Writer),
    Digests.writeLoop c ds fuel bits w.offset w = (.ok n, v) → n = v.offset
  | 0, _, w, n, v => by
    intro e
    simp only [Digests.writeLoop, M.run_pure, Prod.mk.injEq, Res.ok.injEq] at e
    obtain ⟨rfl, rfl⟩ := e
    rfl
  | fuel + 1, bits, w, n, v => by
    intro e
    unfold Digests.writeLoop at e
    simp only at e
    by_cases hk : trailingZeros 8 bits.toNat < c.numSlots
    · rw [if_pos hk] at e
      obtain ⟨d, u, e1, e2⟩ := M.bind_ok_inv e
      obtain ⟨_, rfl⟩ := M.lift_ok_inv e1
      cases d with
      | none => exact (panic_ok (congrArg Prod.fst e2)).elim
      | some d =>
        obtain ⟨m, u', e3, e4⟩ := M.bind_ok_inv e2
        have := (WEnd.extend d).2 _ _ _ e3
        subst this
        by_cases h8 : trailingZeros 8 bits.toNat < 8
        · rw [if_pos h8] at e4
          exact digestLoop_out c ds fuel _ u' n v e4
        · rw [if_neg h8] at e4; exact (panic_ok (congrArg Prod.fst e4)).elim
    · rw [if_neg hk] at e
      simp only [M.run_pure, Prod.mk.injEq, Res.ok.injEq] at e
      obtain ⟨rfl, rfl⟩ := e
      rfl

theorem digests (c : Cfg) (m : Digests) : WEnd (m.writeBody c) := by
  refine bind (WGrow.putAll _) fun _ => bind (WGrow.put _) fun _ => ⟨WGrow.offsetM.bind fun _ => digestLoop_rel _ _ _ _ _, fun w n v h => ?_⟩
  rw [M.run_bind_ok (m := Writer.offsetM) (a := w.offset) (s' := w) rfl] at h
  exact digestLoop_out c _ _ _ w n v h

end WEnd

/-- A message that was written into some buffer is written alike into every buffer that holds it. -/
theorem write_grow (t : MsgType) {body : W Nat} (hb : WEnd body) {buf out : Bytes} {n : Nat} (h : t.write body buf = (.ok n, out)) :
    n ≤ out.length ∧ out.length = buf.length ∧
    ∀ buf' : Bytes, n ≤ buf'.length → ∃ out', t.write body buf' = (.ok n, out') ∧ out'.length = buf'.length ∧ out'.take n = out.take n := by
  have hw : WEnd (t.writeMsg body) := WEnd.bind ((WGrow.put _).bind fun _ => WGrow.put _) fun _ => hb
  unfold MsgType.write at h
  rcases hp : t.writeMsg body (Writer.new buf) with ⟨r, v⟩
  rw [hp] at h
  simp only [Prod.mk.injEq] at h
  obtain ⟨rfl, rfl⟩ := h
  obtain ⟨⟨h1, h2, h3⟩, h4⟩ := hw.1 (Writer.new buf) n v (by simp [Writer.new]) hp
  have hn := hw.2 _ _ _ hp
  subst hn
  refine ⟨h2, h3, fun buf' hb' => ?_⟩
  obtain ⟨v', k1, k2, k3, k4⟩ := h4 (Writer.new buf') rfl (by simp [Writer.new]) hb'
  exact ⟨v'.buf, by unfold MsgType.write; rw [k1], k3, k4⟩

end Spdm

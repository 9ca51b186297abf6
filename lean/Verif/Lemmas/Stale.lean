import Verif.Lemmas.WLen
/-! What is written does not depend on what the buffer contained before. -/
namespace Spdm
open Spec

theorem err_ok {α : Type} {e : Err} {a : α} (h : (Res.err e : Res α) = .ok a) : False := by cases h
theorem panic_ok {α : Type} {k : PanicKind} {a : α} (h : (Res.panic k : Res α) = .ok a) : False := by cases h

/-- Two writers that have written the same and differ only in what is behind the cursor. -/
structure Alike (w w' : Writer) : Prop where
  off : w'.offset = w.offset
  len : w'.buf.length = w.buf.length
  pre : w'.buf.take w.offset = w.buf.take w.offset
  wf : w.offset ≤ w.buf.length

/-- The outcome and what is written do not depend on what is behind the cursor. -/
def WRel {α : Type} (p : W α) : Prop := ∀ w w', Alike w w' → (p w').1 = (p w).1 ∧ Alike (p w).2 (p w').2

/-- Moreover the size returned is at most what has been written. -/
def WOut (p : W Nat) : Prop := WRel p ∧ ∀ w n, (p w).1 = .ok n → n ≤ (p w).2.offset

namespace WRel
variable {α β : Type}

theorem pure (a : α) : WRel (Pure.pure a : W α) := fun _ _ h => ⟨rfl, h⟩
theorem lift (x : Res α) : WRel (M.lift x : W α) := fun _ _ h => ⟨rfl, h⟩
theorem fail (e : Err) : WRel (M.fail e : W α) := fun _ _ h => ⟨rfl, h⟩
theorem die (k : PanicKind) : WRel (M.die k : W α) := fun _ _ h => ⟨rfl, h⟩

theorem bind {p : W α} {q : α → W β} (hp : WRel p) (hq : ∀ a, WRel (q a)) : WRel (p >>= q) := by
  intro w w' hw
  obtain ⟨h1, h2⟩ := hp w w' hw
  rw [M.run_bind, M.run_bind]
  rcases ha : p w with ⟨r, s⟩
  rcases hb : p w' with ⟨r', s'⟩
  rw [ha, hb] at h1 h2
  simp only at h1 h2
  subst h1
  cases r' with
  | ok a => exact hq a s s' h2
  | err e => exact ⟨rfl, h2⟩
  | panic k => exact ⟨rfl, h2⟩

theorem ite {c : Prop} [Decidable c] {p q : W α} (hp : WRel p) (hq : WRel q) : WRel (if c then p else q) := by
  split <;> assumption

theorem mapErr {p : W α} (f : Err → Err) (hp : WRel p) : WRel (M.mapErr f p) := by
  intro w w' hw
  obtain ⟨h1, h2⟩ := hp w w' hw
  unfold M.mapErr
  rcases ha : p w with ⟨r, s⟩
  rcases hb : p w' with ⟨r', s'⟩
  rw [ha, hb] at h1 h2
  simp only at h1 h2
  subst h1
  cases r' <;> exact ⟨rfl, h2⟩

end WRel

theorem WOut.offsetM : WOut Writer.offsetM := by
  refine ⟨fun w w' h => ⟨?_, h⟩, fun w n h => ?_⟩
  · simp only [Writer.offsetM, h.off]
  · simp only [Writer.offsetM, Res.ok.injEq] at h
    simp only [Writer.offsetM]; omega

theorem WOut.put (b : UInt8) : WOut (Writer.put b) := by
  refine ⟨fun w w' h => ?_, fun w n h => ?_⟩
  · obtain ⟨h1, h2, h3, h4⟩ := h
    unfold Writer.put Writer.isFull
    rw [h1, h2]
    split
    · exact ⟨rfl, h1, h2, h3, h4⟩
    · split
      · rename_i hl
        refine ⟨rfl, rfl, by simp [h2], ?_, by rw [List.length_set]; exact hl⟩
        have e1 : ∀ (l : Bytes), w.offset < l.length → (l.set w.offset b).take (w.offset + 1) = l.take w.offset ++ [b] := by
          intro l hl
          rw [List.take_add_one, List.getElem?_set_self hl]
          rw [List.take_set_of_le (Nat.le_refl _)]
          rfl
        simp only
        rw [e1 _ hl, e1 _ (by omega), h3]
      · exact ⟨rfl, h1, h2, h3, h4⟩
  · unfold Writer.put at h ⊢
    split at h
    · first | exact (err_ok h).elim | exact (panic_ok h).elim
    · split at h
      · simp only [Res.ok.injEq] at h
        rename_i h1 h2
        rw [if_neg h1, if_pos h2]
        simp only; omega
      · first | exact (err_ok h).elim | exact (panic_ok h).elim

theorem WOut.extend (bs : Bytes) : WOut (Writer.extend bs) := by
  refine ⟨fun w w' h => ?_, fun w n h => ?_⟩
  · obtain ⟨h1, h2, h3, h4⟩ := h
    unfold Writer.extend Writer.remaining
    rw [h1, h2]
    split
    · exact ⟨rfl, h1, h2, h3, h4⟩
    · rename_i hr
      refine ⟨rfl, rfl, ?_, ?_, ?_⟩
      · simp only [List.length_append, List.length_take, List.length_drop]; omega
      · have e : ∀ l : Bytes, w.offset ≤ l.length → (l.take w.offset ++ bs ++ l.drop (w.offset + bs.length)).take (w.offset + bs.length) = l.take w.offset ++ bs := by
          intro l hl
          exact List.take_left' (by simp only [List.length_append, List.length_take]; omega)
        simp only
        rw [e _ h4, e _ (by omega), h3]
      · simp only [List.length_append, List.length_take, List.length_drop]; omega
  · unfold Writer.extend at h ⊢
    split at h
    · first | exact (err_ok h).elim | exact (panic_ok h).elim
    · simp only [Res.ok.injEq] at h
      rename_i h1
      rw [if_neg h1]
      simp only; omega

theorem WOut.bind {α : Type} {p : W α} {q : α → W Nat} (hp : WRel p) (hq : ∀ a, WOut (q a)) : WOut (p >>= q) := by
  refine ⟨hp.bind fun a => (hq a).1, fun w n h => ?_⟩
  rw [M.run_bind] at h ⊢
  rcases ha : p w with ⟨r, s⟩
  rw [ha] at h
  cases r with
  | ok a => exact (hq a).2 s n h
  | err e => first | exact (err_ok h).elim | exact (panic_ok h).elim
  | panic k => first | exact (err_ok h).elim | exact (panic_ok h).elim

theorem WOut.putAll : ∀ bs : Bytes, WOut (Writer.putAll bs)
  | [] => offsetM
  | b :: bs => bind (put b).1 fun _ => putAll bs

namespace WRel

theorem offsetM : WRel Writer.offsetM := WOut.offsetM.1
theorem put (b : UInt8) : WRel (Writer.put b) := (WOut.put b).1
theorem putAll (bs : Bytes) : WRel (Writer.putAll bs) := (WOut.putAll bs).1
theorem extend (bs : Bytes) : WRel (Writer.extend bs) := (WOut.extend bs).1

theorem vendorId : ∀ v : VendorId, WRel v.write
  | .empty => (put _).bind fun _ => pure _
  | .u16 _ => (put _).bind fun _ => (putAll _).bind fun _ => pure _
  | .u32 _ => (put _).bind fun _ => (putAll _).bind fun _ => pure _

theorem opaqueElement (e : OpaqueElement) : WRel e.write :=
  (put _).bind fun _ => (vendorId _).bind fun _ => (lift _).bind fun _ => (putAll _).bind fun _ => (lift _).bind fun _ => (extend _).bind fun _ => putAll _

theorem opaqueElements : ∀ es : List OpaqueElement, WRel (OpaqueData.writeElements es)
  | [] => offsetM
  | e :: es => (opaqueElement e).bind fun _ => opaqueElements es

theorem opaqueData (d : OpaqueData) : WRel d.write :=
  mapErr _ ((put _).bind fun _ => (putAll _).bind fun _ => (lift _).bind fun _ => opaqueElements _)

end WRel

namespace WOut

theorem versionEntries : ∀ es : List VersionEntry, WOut (Version.writeEntries es)
  | [] => offsetM
  | _ :: es => bind (WRel.put _) fun _ => bind (WRel.put _) fun _ => versionEntries es

theorem version (v : Version) : WOut v.writeBody :=
  bind (WRel.put _) fun _ => bind (WRel.put _) fun _ => bind (WRel.put _) fun _ => bind (WRel.put _) fun _ => versionEntries _

theorem getVersion : WOut GetVersion.writeBody := putAll _
theorem getDigests : WOut GetDigests.writeBody := putAll _

theorem getCapabilities (m : GetCapabilities) : WOut m.writeBody :=
  bind (WRel.putAll _) fun _ => bind (WRel.put _) fun _ => bind (WRel.putAll _) fun _ => putAll _

theorem capabilities (m : Capabilities) : WOut m.writeBody :=
  bind (WRel.putAll _) fun _ => bind (WRel.put _) fun _ => bind (WRel.putAll _) fun _ => putAll _

theorem algs (l : List AlgorithmRequest) : ∀ n i : Nat, WOut (writeAlgs l n i)
  | 0, _ => offsetM
  | n + 1, i => bind (WRel.lift _) fun _ => bind ((WRel.put _).bind fun _ => (WRel.put _).bind fun _ => WRel.putAll _) fun _ => algs l n (i + 1)

theorem negotiateAlgorithms (m : NegotiateAlgorithms) : WOut m.writeBody :=
  bind (WRel.put _) fun _ => bind (WRel.putAll _) fun _ => bind (WRel.lift _) fun _ => bind (WRel.putAll _) fun _ => bind (WRel.put _) fun _ =>
    bind (WRel.putAll _) fun _ => bind (WRel.putAll _) fun _ => bind (WRel.putAll _) fun _ => bind (WRel.putAll _) fun _ => bind (WRel.put _) fun _ =>
    bind (WRel.put _) fun _ => bind (WRel.putAll _) fun _ => algs _ _ _

theorem algorithms (m : Algorithms) : WOut m.writeBody :=
  bind (WRel.put _) fun _ => bind (WRel.putAll _) fun _ => bind (WRel.lift _) fun _ => bind (WRel.putAll _) fun _ => bind (WRel.put _) fun _ =>
    bind (WRel.putAll _) fun _ => bind (WRel.putAll _) fun _ => bind (WRel.putAll _) fun _ => bind (WRel.putAll _) fun _ => bind (WRel.putAll _) fun _ =>
    bind (WRel.put _) fun _ => bind (WRel.put _) fun _ => bind (WRel.putAll _) fun _ => algs _ _ _

theorem getCertificate (m : GetCertificate) : WOut m.writeBody :=
  bind (WRel.put _) fun _ => bind (WRel.putAll _) fun _ => bind (WRel.putAll _) fun _ => putAll _

theorem certificate (m : Certificate) : WOut m.writeBody :=
  bind (WRel.put _) fun _ => bind (WRel.putAll _) fun _ => bind (WRel.putAll _) fun _ => bind (WRel.putAll _) fun _ => bind (WRel.lift _) fun _ => extend _

theorem challenge (m : Challenge) : WOut m.writeBody :=
  bind (WRel.put _) fun _ => bind (WRel.put _) fun _ => extend _

theorem challengeAuth (c : Cfg) (m : ChallengeAuth) : WOut (m.writeBody c) :=
  bind (WRel.lift _) fun _ => bind (WRel.put _) fun _ => bind (WRel.put _) fun _ => bind (WRel.extend _) fun _ => bind (WRel.extend _) fun _ => bind (WRel.extend _) fun _ =>
    bind (WRel.lift _) fun _ => bind (WRel.putAll _) fun _ => bind (WRel.opaqueData _) fun _ => bind (WRel.extend _) fun _ => offsetM

theorem digestLoop_rel (c : Cfg) (ds : List (Option Bytes)) : ∀ (fuel : Nat) (bits : UInt8) (off : Nat), WRel (Digests.writeLoop c ds fuel bits off)
  | 0, _, _ => WRel.pure _
  | fuel + 1, bits, off => by
    unfold Digests.writeLoop
    refine WRel.ite ((WRel.lift _).bind fun d => ?_) (WRel.pure _)
    cases d with
    | none => exact WRel.die _
    | some d => exact (WRel.extend _).bind fun _ => WRel.ite (digestLoop_rel c ds fuel _ _) (WRel.die _)

theorem digestLoop_out (c : Cfg) (ds : List (Option Bytes)) : ∀ (fuel : Nat) (bits : UInt8) (off : Nat) (w : Writer) (n : Nat), off ≤ w.offset →
    (Digests.writeLoop c ds fuel bits off w).1 = .ok n → n ≤ (Digests.writeLoop c ds fuel bits off w).2.offset
  | 0, _, off, w, n => by
    intro h e
    simp only [Digests.writeLoop, M.run_pure, Res.ok.injEq] at e ⊢
    omega
  | fuel + 1, bits, off, w, n => by
    intro h e
    unfold Digests.writeLoop at e ⊢
    simp only at e ⊢
    by_cases hk : trailingZeros 8 bits.toNat < c.numSlots
    · rw [if_pos hk] at e ⊢
      rcases hd : index ds (trailingZeros 8 bits.toNat) with d | er | k
      · rw [hd] at e
        rw [M.run_bind_ok (M.run_lift _ _)] at e ⊢
        cases d with
        | none => first | exact (err_ok e).elim | exact (panic_ok e).elim
        | some d =>
          simp only at e ⊢
          rcases hx : Writer.extend d w with ⟨m | er | k, w1⟩
          · rw [M.run_bind_ok hx] at e ⊢
            have ho := (WOut.extend d).2 w m (by rw [hx])
            rw [hx] at ho
            by_cases h8 : trailingZeros 8 bits.toNat < 8
            · rw [if_pos h8] at e ⊢
              exact digestLoop_out c ds fuel _ _ w1 n ho e
            · rw [if_neg h8] at e; first | exact (err_ok e).elim | exact (panic_ok e).elim
          · rw [M.run_bind_err hx] at e; first | exact (err_ok e).elim | exact (panic_ok e).elim
          · rw [M.run_bind_panic hx] at e; first | exact (err_ok e).elim | exact (panic_ok e).elim
      · rw [hd] at e; first | exact (err_ok e).elim | exact (panic_ok e).elim
      · rw [hd] at e; first | exact (err_ok e).elim | exact (panic_ok e).elim
    · rw [if_neg hk] at e ⊢
      simp only [M.run_pure, Res.ok.injEq] at e ⊢
      omega

theorem digests (c : Cfg) (m : Digests) : WOut (m.writeBody c) := by
  refine bind (WRel.putAll _) fun _ => bind (WRel.put _) fun _ => ⟨WRel.offsetM.bind fun _ => digestLoop_rel _ _ _ _ _, fun w n h => ?_⟩
  rw [M.run_bind_ok (m := Writer.offsetM) (a := w.offset) (s' := w) rfl] at h ⊢
  exact digestLoop_out c _ _ _ _ w n (Nat.le_refl _) h

theorem putSimple (k : UInt8) : WOut (ErrorMsg.putSimple k) := bind (WRel.put _) fun _ => put _

theorem errorMsg (m : ErrorMsg) (h : ∀ id v, m ≠ .vendorDefined id v) : WOut m.writeBody := by
  cases m with
  | vendorDefined id v => exact absurd rfl (h id v)
  | unsupportedRequest k => exact bind (WRel.put _) fun _ => put _
  | responseTooLarge n => exact bind (putSimple _).1 fun _ => putAll _
  | largeResponse k => exact bind (putSimple _).1 fun _ => put _
  | responseNotReady => exact bind (putSimple _).1 fun _ => bind (WRel.put _) fun _ => bind (WRel.put _) fun _ => bind (WRel.put _) fun _ => put _
  | _ => exact putSimple _

end WOut

/-- A message written into two buffers of the same length: the same outcome and the same bytes. -/
theorem write_stale (t : MsgType) {body : W Nat} (hb : WOut body) {buf buf' : Bytes} (hl : buf'.length = buf.length) :
    (t.write body buf').1 = (t.write body buf).1 ∧ (t.write body buf').2.length = (t.write body buf).2.length ∧
    ∀ n, (t.write body buf).1 = .ok n → (t.write body buf').2.take n = (t.write body buf).2.take n := by
  have h : WOut (t.writeMsg body) := WOut.bind ((WRel.put _).bind fun _ => WRel.put _) fun _ => hb
  obtain ⟨h1, h2⟩ := h.1 (Writer.new buf) (Writer.new buf') ⟨rfl, hl, by simp [Writer.new], by simp [Writer.new]⟩
  refine ⟨h1, h2.len, fun n hn => ?_⟩
  have := h.2 (Writer.new buf) n hn
  have hp := congrArg (List.take n) h2.pre
  rw [List.take_take, List.take_take, Nat.min_eq_left this] at hp
  exact hp

theorem writeTo_stale (t : MsgType) {body : W Nat} (hb : WOut body) {buf buf' : Bytes} (hl : buf'.length = buf.length) :
    Requester.writeTo t body buf' = Requester.writeTo t body buf := by
  obtain ⟨h1, h2, h3⟩ := write_stale t hb hl
  unfold Requester.writeTo
  rcases ha : t.write body buf with ⟨n | e | k, out⟩ <;> rcases hc : t.write body buf' with ⟨n' | e' | k', out'⟩ <;> rw [ha, hc] at h1 <;>
    simp only [reduceCtorEq, Res.ok.injEq, Res.err.injEq, Res.panic.injEq] at h1 <;> subst h1
  · rw [ha, hc] at h2 h3
    have h3 := h3 n' rfl
    simp only at h2 h3
    simp only [Res.ok_bind, sliceTo, h2, h3]
  · rfl
  · rfl

end Spdm

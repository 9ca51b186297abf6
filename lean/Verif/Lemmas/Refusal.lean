import Verif.Lemmas.Errs
import Verif.Lemmas.RspCalls
import Verif.Spec.Refusal
/-! Lemmas for "why a responder refuses a request". -/
namespace Spdm
open Spec

/-! ### Readers, started at a byte boundary -/

/-- The errors of `p`, started at byte `off` of `buf`: in `S`, or the buffer is empty and `B`. -/
def FailsAt {α : Type} (S : Err → Prop) (B : Prop) (p : R α) (buf : Bytes) (off : Nat) : Prop :=
  ∀ e, (p ⟨buf, off, 0⟩).1 = .err e → S e ∨ (e = .read .bufferEmpty ∧ B)

namespace FailsAt
variable {α β : Type} {S : Err → Prop} {B : Prop} {buf : Bytes} {off : Nat}

theorem pure (a : α) : FailsAt S B (Pure.pure a : R α) buf off := by intro e h; simp at h
theorem fail {e : Err} (h : S e) : FailsAt S B (M.fail e : R α) buf off := by
  intro e' h'
  have : e = e' := by simpa [M.fail] using h'
  exact .inl (this ▸ h)
theorem lift {x : Res α} (h : RErrIn S x) : FailsAt S B (M.lift x) buf off := fun e he => .inl (h e he)
theorem liftBind {x : Res α} {q : α → R β} (h : RErrIn S x) (hq : ∀ a, x = .ok a → FailsAt S B (q a) buf off) : FailsAt S B (M.lift x >>= q) buf off := by
  intro e he
  cases x with
  | ok a => exact hq a rfl e he
  | err e' => exact .inl (h e (by simpa [M.lift, bind, M.bind] using he))
  | panic k => simp [M.lift, bind, M.bind] at he
theorem ite {c : Prop} [Decidable c] {p q : R α} (hp : c → FailsAt S B p buf off) (hq : ¬ c → FailsAt S B q buf off) :
    FailsAt S B (if c then p else q) buf off := by
  split <;> simp_all

/-- `p` moves by `n` bytes. -/
def Moves (p : R α) (buf : Bytes) (off n : Nat) (Q : α → Prop) : Prop := ∀ a r, p ⟨buf, off, 0⟩ = (.ok a, r) → r = ⟨buf, off + n, 0⟩ ∧ Q a

theorem bind {p : R α} {q : α → R β} {n : Nat} {Q : α → Prop} (hp : FailsAt S B p buf off) (hm : Moves p buf off n Q)
    (hq : ∀ a, Q a → FailsAt S B (q a) buf (off + n)) : FailsAt S B (p >>= q) buf off := by
  intro e h
  rcases hpr : p ⟨buf, off, 0⟩ with ⟨x | e' | k, s'⟩
  · obtain ⟨rfl, hQ⟩ := hm _ _ hpr
    rw [M.run_bind_ok hpr] at h; exact hq x hQ e h
  · rw [M.run_bind_err hpr] at h
    simp only [Res.err.injEq] at h
    subst h
    exact hp e' (by rw [hpr])
  · rw [M.run_bind_panic hpr] at h; simp at h

theorem getByte (h : buf.length ≤ off → B) : FailsAt S B Reader.getByte buf off := by
  intro e he
  unfold Reader.getByte at he
  rw [if_neg (by simp [Reader.isAligned])] at he
  split at he
  · rename_i hb
    simp only [Res.err.injEq] at he
    have : buf.length = off := by simpa [Reader.isEmpty] using hb
    exact .inr ⟨he.symm, h (by omega)⟩
  · split at he <;> simp at he

theorem getByte_moves : Moves Reader.getByte buf off 1 (fun a => buf[off]? = some a) := by
  intro a r h
  unfold Reader.getByte at h
  rw [if_neg (by simp [Reader.isAligned])] at h
  split at h
  · simp at h
  · split at h
    · rename_i b hb
      simp only [Prod.mk.injEq, Res.ok.injEq] at h
      exact ⟨h.2.symm, h.1 ▸ hb⟩
    · simp at h

theorem skipReserved_moves (n : Nat) : Moves (Reader.skipReserved n) buf off n (fun _ => True) := by
  induction n generalizing off with
  | zero => intro a r h; simp [Reader.skipReserved] at h; exact ⟨h.symm, trivial⟩
  | succ n ih =>
    intro a r h
    unfold Reader.skipReserved at h
    obtain ⟨b, r1, h1, h2⟩ := M.bind_ok_inv h
    obtain ⟨rfl, _⟩ := getByte_moves _ _ h1
    split at h2
    · simp [M.fail] at h2
    · obtain ⟨h3, _⟩ := ih _ _ h2
      exact ⟨by rw [h3]; congr 1; omega, trivial⟩

theorem skipReserved (n : Nat) (hS : S (.read .reservedByteNotZero)) (h : buf.length < off + n → B) : FailsAt S B (Reader.skipReserved n) buf off := by
  induction n generalizing off with
  | zero => exact pure _
  | succ n ih =>
    unfold Reader.skipReserved
    exact (getByte fun hl => h (by omega)).bind getByte_moves fun b _ => .ite (fun _ => .fail hS) fun _ => ih fun hl => h (by omega)

theorem skipIgnored_moves (n : Nat) : Moves (Reader.skipIgnored n) buf off n (fun _ => True) := by
  induction n generalizing off with
  | zero => intro a r h; simp [Reader.skipIgnored] at h; exact ⟨h.symm, trivial⟩
  | succ n ih =>
    intro a r h
    unfold Reader.skipIgnored at h
    obtain ⟨b, r1, h1, h2⟩ := M.bind_ok_inv h
    obtain ⟨rfl, _⟩ := getByte_moves _ _ h1
    obtain ⟨h3, _⟩ := ih _ _ h2
    exact ⟨by rw [h3]; congr 1; omega, trivial⟩

theorem skipIgnored (n : Nat) (h : buf.length < off + n → B) : FailsAt S B (Reader.skipIgnored n) buf off := by
  induction n generalizing off with
  | zero => exact pure _
  | succ n ih =>
    unfold Reader.skipIgnored
    exact (getByte fun hl => h (by omega)).bind getByte_moves fun b _ => ih fun hl => h (by omega)

theorem getU16 (h : buf.length < off + 2 → B) : FailsAt S B Reader.getU16 buf off := by
  intro e he
  unfold Reader.getU16 at he
  rw [if_neg (by simp [Reader.isAligned])] at he
  split at he
  · rename_i hb
    simp only [Res.err.injEq] at he
    simp only [Reader.remaining] at hb
    exact .inr ⟨he.symm, h (by omega)⟩
  · simp at he

theorem getU16_moves : Moves Reader.getU16 buf off 2 (fun a => a = UInt16.ofNat (Reader.fromLe ((buf.drop off).take 2))) := by
  intro a r h
  unfold Reader.getU16 at h
  rw [if_neg (by simp [Reader.isAligned])] at h
  split at h
  · simp at h
  · simp only [Prod.mk.injEq, Res.ok.injEq] at h
    exact ⟨h.2.symm, h.1.symm⟩

theorem getU32 (h : buf.length < off + 4 → B) : FailsAt S B Reader.getU32 buf off := by
  intro e he
  unfold Reader.getU32 at he
  rw [if_neg (by simp [Reader.isAligned])] at he
  split at he
  · rename_i hb
    simp only [Res.err.injEq] at he
    simp only [Reader.remaining] at hb
    exact .inr ⟨he.symm, h (by omega)⟩
  · simp at he

theorem getU32_moves : Moves Reader.getU32 buf off 4 (fun _ => True) := by
  intro a r h
  unfold Reader.getU32 at h
  rw [if_neg (by simp [Reader.isAligned])] at h
  split at h
  · simp at h
  · simp only [Prod.mk.injEq, Res.ok.injEq] at h
    exact ⟨h.2.symm, trivial⟩

theorem getSlice {n cap : Nat} (h : buf.length < off + n → B) : FailsAt S B (Reader.getSlice n cap) buf off := by
  intro e he
  unfold Reader.getSlice at he
  rw [if_neg (by simp [Reader.isAligned])] at he
  split at he
  · rename_i hb
    simp only [Res.err.injEq] at he
    simp only [Reader.remaining] at hb
    exact .inr ⟨he.symm, h (by omega)⟩
  · simp only at he
    split at he <;> simp at he

theorem getSlice_moves {n cap : Nat} : Moves (Reader.getSlice n cap) buf off n (fun _ => True) := by
  intro a r h
  unfold Reader.getSlice at h
  rw [if_neg (by simp [Reader.isAligned])] at h
  split at h
  · simp at h
  · simp only at h
    split at h
    · simp only [Prod.mk.injEq, Res.ok.injEq] at h
      exact ⟨h.2.symm, trivial⟩
    · simp at h

end FailsAt

/-- Malformed in a way that is reported as an invalid request. -/
def Invalid (e : Err) : Prop := errorBytes e = [0x01, 0]

theorem fromBits8_errs {mask v : UInt8} {e : Err} (h : Invalid e) : RErrIn Invalid (fromBits8 mask v e) := by
  unfold fromBits8; exact .ite (.ok _) (.err h)
theorem fromBits16_errs {mask v : UInt16} {e : Err} (h : Invalid e) : RErrIn Invalid (fromBits16 mask v e) := by
  unfold fromBits16; exact .ite (.ok _) (.err h)
theorem fromBits32_errs {mask v : UInt32} {e : Err} (h : Invalid e) : RErrIn Invalid (fromBits32 mask v e) := by
  unfold fromBits32; exact .ite (.ok _) (.err h)

theorem GetVersion.fails (b : Bytes) : FailsAt Invalid (b.length < 2) GetVersion.read b 0 :=
  .skipReserved 2 rfl (fun h => by omega)

theorem GetCapabilities.fails (b : Bytes) : FailsAt Invalid (b.length < 10) GetCapabilities.read b 0 := by
  unfold GetCapabilities.read
  refine FailsAt.bind (FailsAt.skipReserved (S := Invalid) 3 rfl fun h => by omega) (FailsAt.skipReserved_moves 3) fun _ _ => ?_
  refine FailsAt.bind (FailsAt.getByte fun h => by omega) FailsAt.getByte_moves fun _ _ => ?_
  refine FailsAt.bind (FailsAt.skipReserved (S := Invalid) 2 rfl fun h => by omega) (FailsAt.skipReserved_moves 2) fun _ _ => ?_
  refine FailsAt.bind (FailsAt.getU32 fun h => by omega) FailsAt.getU32_moves fun _ _ => ?_
  exact .liftBind (fromBits32_errs rfl) fun _ _ => .pure _

theorem GetCertificate.fails (b : Bytes) : FailsAt Invalid (b.length < 6) GetCertificate.read b 0 := by
  unfold GetCertificate.read
  refine FailsAt.bind (FailsAt.getByte fun h => by omega) FailsAt.getByte_moves fun _ _ => ?_
  refine FailsAt.bind (FailsAt.skipReserved (S := Invalid) 1 rfl fun h => by omega) (FailsAt.skipReserved_moves 1) fun _ _ => ?_
  refine FailsAt.bind (FailsAt.getU16 fun h => by omega) FailsAt.getU16_moves fun _ _ => ?_
  exact FailsAt.bind (FailsAt.getU16 fun h => by omega) FailsAt.getU16_moves fun _ _ => .pure _

theorem Challenge.fails (c : Cfg) (b : Bytes) : FailsAt Invalid (b.length < 2 + c.nonceSize) (Challenge.read c) b 0 := by
  unfold Challenge.read Nonce.read
  refine FailsAt.bind (FailsAt.getByte fun h => by omega) FailsAt.getByte_moves fun _ _ => ?_
  refine FailsAt.bind (FailsAt.getByte fun h => by omega) FailsAt.getByte_moves fun _ _ => ?_
  refine .liftBind (by unfold MeasurementHashType.tryFrom; exact .ite (.ok _) (.ite (.ok _) (.ite (.ok _) (.err rfl)))) fun _ _ => ?_
  exact FailsAt.bind (FailsAt.getSlice fun h => by omega) FailsAt.getSlice_moves fun _ _ => .pure _

/-! ### Algorithm structures -/

theorem getU16_errs : ErrIn IsRead Reader.getU16 := by
  intro r e h
  unfold Reader.getU16 at h
  split at h
  · simp only [Res.err.injEq] at h; exact ⟨_, h.symm⟩
  split at h
  · simp only [Res.err.injEq] at h; exact ⟨_, h.symm⟩
  · simp at h

theorem skipIgnored_errs (n : Nat) : ErrIn IsRead (Reader.skipIgnored n) := by
  induction n with
  | zero => exact .pure _
  | succ n ih => exact getByte_errs.bind fun b => ih

theorem AlgorithmRequest.read_errs : ErrIn (fun e => IsRead e ∨ Invalid e) AlgorithmRequest.read := by
  have l : ∀ {α : Type} {p : R α}, ErrIn IsRead p → ErrIn (fun e => IsRead e ∨ Invalid e) p := fun h => h.mono fun _ h => .inl h
  unfold AlgorithmRequest.read
  refine (l getByte_errs).bind fun ty => ?_
  cases AlgKind.ofType ty with
  | none => exact .fail (.inr rfl)
  | some k =>
    refine (l (getBits_errs 4)).bind fun _ => (l (getBits_errs 4)).bind fun _ => .ite (.fail (.inr rfl)) ?_
    refine (l getU16_errs).bind fun _ => ?_
    refine (ErrIn.lift ((fromBits16_errs (by exact rfl)).mono fun _ h => .inr h)).bind fun _ => ?_
    exact (l (skipIgnored_errs _)).bind fun _ => .pure _

theorem readRequests_errs (n i : Nat) (rs : List AlgorithmRequest) : ErrIn Invalid (NegotiateAlgorithms.readRequests n i rs) := by
  induction n generalizing i rs with
  | zero => exact .pure _
  | succ n ih =>
    refine ErrIn.bind (.mapErr AlgorithmRequest.read_errs ?_) fun a => (ErrIn.lift (.setIndex _ _ _)).bind fun _ => ih _ _
    rintro e (⟨x, rfl⟩ | h)
    · rfl
    · cases e <;> first | rfl | exact h

theorem NegotiateAlgorithms.fails (b : Bytes) :
    FailsAt (fun e => Invalid e ∨ (e = .tooLarge ∧ 128 < leVal (field b 2 2)))
      (b.length < 30 + 4 * (leVal (field b 26 1) + leVal (field b 27 1))) NegotiateAlgorithms.read b 0 := by
  unfold NegotiateAlgorithms.read
  refine FailsAt.bind (FailsAt.getByte fun h => by omega) FailsAt.getByte_moves fun num _ => .ite (fun _ => .fail (.inl rfl)) fun _ => ?_
  refine FailsAt.bind (FailsAt.skipReserved 1 (.inl rfl) fun h => by omega) (FailsAt.skipReserved_moves 1) fun _ _ => ?_
  refine FailsAt.bind (FailsAt.getU16 fun h => by omega) FailsAt.getU16_moves fun len hlen => .ite (fun hl => .fail (.inr ⟨rfl, ?_⟩)) fun _ => ?_
  · have h1 : 128 < len.toNat := by simpa using UInt16.lt_iff_toNat_lt.mp hl
    have h2 : ∀ l : Bytes, leVal l = Reader.fromLe l := by
      intro l; induction l with
      | nil => rfl
      | cons a l ih => simp only [leVal, Reader.fromLe, ih]
    rw [h2]
    have h3 : len.toNat ≤ Reader.fromLe (field b 2 2) := by
      rw [hlen]; simp only [UInt16.toNat_ofNat', field, Nat.zero_add]; exact Nat.mod_le _ _
    omega
  refine FailsAt.bind (FailsAt.getByte fun h => by omega) FailsAt.getByte_moves fun _ _ => ?_
  refine .liftBind ((fromBits8_errs (by exact rfl)).mono fun _ h => .inl h) fun _ _ => ?_
  refine FailsAt.bind (FailsAt.skipReserved 1 (.inl rfl) fun h => by omega) (FailsAt.skipReserved_moves 1) fun _ _ => ?_
  refine FailsAt.bind (FailsAt.getU32 fun h => by omega) FailsAt.getU32_moves fun _ _ => ?_
  refine .liftBind ((fromBits32_errs (by exact rfl)).mono fun _ h => .inl h) fun _ _ => ?_
  refine FailsAt.bind (FailsAt.getU32 fun h => by omega) FailsAt.getU32_moves fun _ _ => ?_
  refine .liftBind ((fromBits32_errs (by exact rfl)).mono fun _ h => .inl h) fun _ _ => ?_
  refine FailsAt.bind (FailsAt.skipReserved 12 (.inl rfl) fun h => by omega) (FailsAt.skipReserved_moves 12) fun _ _ => ?_
  refine FailsAt.bind (FailsAt.getByte fun h => by omega) FailsAt.getByte_moves fun ea hea => ?_
  refine FailsAt.bind (FailsAt.getByte fun h => by omega) FailsAt.getByte_moves fun eh heh => ?_
  have va : ∀ (i : Nat) (x : UInt8), b[i]? = some x → leVal (field b i 1) = x.toNat := by
    intro i x hx
    have hi : i < b.length := by
      by_contra hc
      rw [List.getElem?_eq_none (by omega)] at hx; simp at hx
    have : b.drop i = b[i] :: b.drop (i + 1) := by rw [List.drop_eq_getElem_cons hi]
    rw [List.getElem?_eq_getElem hi, Option.some.injEq] at hx
    simp [field, this, hx, leVal]
  have ha := va 26 ea (by simpa using hea)
  have hh := va 27 eh (by simpa using heh)
  rw [ha, hh]
  refine FailsAt.bind (FailsAt.skipReserved 2 (.inl rfl) fun h => by omega) (FailsAt.skipReserved_moves 2) fun _ _ => ?_
  refine FailsAt.bind (FailsAt.skipIgnored _ fun h => by omega) (FailsAt.skipIgnored_moves _) fun _ _ => ?_
  refine FailsAt.bind (FailsAt.skipIgnored _ fun h => by omega) (FailsAt.skipIgnored_moves _) fun _ _ => ?_
  intro e he
  refine .inl (.inl ?_)
  exact ((readRequests_errs _ _ _).bind fun _ => .pure _) _ e he

/-! ### Writers -/

/-- The writer reports a full buffer and nothing else. -/
def Full (e : Err) : Prop := e = .bufferFull

theorem put_errs (b : UInt8) : ErrIn Full (Writer.put b) := by
  intro w e h
  unfold Writer.put at h
  split at h
  · simp only [Res.err.injEq] at h; exact h.symm
  · split at h <;> simp at h

theorem offsetM_errs {S : Err → Prop} : ErrIn S Writer.offsetM := by
  intro w e h; simp [Writer.offsetM] at h

theorem putAll_errs (bs : Bytes) : ErrIn Full (Writer.putAll bs) := by
  induction bs with
  | nil => exact offsetM_errs
  | cons b bs ih => exact (put_errs b).bind fun _ => ih

theorem wextend_errs (bs : Bytes) : ErrIn Full (Writer.extend bs) := by
  intro w e h
  unfold Writer.extend at h
  split at h
  · simp only [Res.err.injEq] at h; exact h.symm
  · simp at h

theorem writeAlgs_errs (algs : List AlgorithmRequest) (n i : Nat) : ErrIn Full (writeAlgs algs n i) := by
  induction n generalizing i with
  | zero => exact offsetM_errs
  | succ n ih =>
    refine (ErrIn.lift (.index _ _)).bind fun a => ErrIn.bind ?_ fun _ => ih _
    exact (put_errs _).bind fun _ => (put_errs _).bind fun _ => putAll_errs _

theorem Version.writeBody_errs (m : Version) : ErrIn Full m.writeBody := by
  unfold Version.writeBody
  refine (put_errs _).bind fun _ => (put_errs _).bind fun _ => (put_errs _).bind fun _ => (put_errs _).bind fun _ => ?_
  induction m.entries with
  | nil => exact offsetM_errs
  | cons e es ih => exact (put_errs _).bind fun _ => (put_errs _).bind fun _ => ih

theorem Capabilities.writeBody_errs (m : Capabilities) : ErrIn Full m.writeBody :=
  (putAll_errs _).bind fun _ => (put_errs _).bind fun _ => (putAll_errs _).bind fun _ => putAll_errs _

theorem Algorithms.writeBody_errs (m : Algorithms) : ErrIn Full m.writeBody := by
  unfold Algorithms.writeBody Algorithms.msgLength
  refine (put_errs _).bind fun _ => (putAll_errs _).bind fun _ => ?_
  refine (ErrIn.lift (.bind (.sliceTo _ _) fun _ => .ok _)).bind fun _ => ?_
  refine (putAll_errs _).bind fun _ => (put_errs _).bind fun _ => (putAll_errs _).bind fun _ => ?_
  refine (putAll_errs _).bind fun _ => (putAll_errs _).bind fun _ => (putAll_errs _).bind fun _ => ?_
  exact (putAll_errs _).bind fun _ => (put_errs _).bind fun _ => (put_errs _).bind fun _ => (putAll_errs _).bind fun _ => writeAlgs_errs _ _ _

theorem Digests.writeBody_errs (c : Cfg) (m : Digests) : ErrIn Full (m.writeBody c) := by
  unfold Digests.writeBody
  refine (putAll_errs _).bind fun _ => (put_errs _).bind fun _ => offsetM_errs.bind fun o => ?_
  have : ∀ n bits o, ErrIn Full (Digests.writeLoop c m.digests n bits o) := by
    intro n
    induction n with
    | zero => intro bits o; exact .pure _
    | succ n ih =>
      intro bits o
      unfold Digests.writeLoop
      refine .ite ((ErrIn.lift (.index _ _)).bind fun d => ?_) (.pure _)
      cases d with
      | none => exact .die _
      | some d => exact (wextend_errs _).bind fun _ => .ite (ih _ _) (.die _)
  exact this _ _ _

theorem Certificate.writeBody_errs (m : Certificate) : ErrIn Full m.writeBody := by
  unfold Certificate.writeBody
  refine (put_errs _).bind fun _ => (putAll_errs _).bind fun _ => (putAll_errs _).bind fun _ => (putAll_errs _).bind fun _ => ?_
  exact (ErrIn.lift (.sliceTo _ _)).bind fun _ => wextend_errs _

/-- Reported as a response that is too large. -/
def NoRoom (e : Err) : Prop := e = .bufferFull ∨ e = .maxSizeExceeded

theorem CertificateChain.write_errs (ch : CertificateChain) : ErrIn NoRoom ch.write := by
  have l : ∀ {α : Type} {p : W α}, ErrIn Full p → ErrIn NoRoom p := fun h => h.mono fun _ h => .inl h
  have hc : ∀ xs, ErrIn Full (CertificateChain.writeCerts xs) := by
    intro xs
    induction xs with
    | nil => exact offsetM_errs
    | cons x xs ih => exact (wextend_errs _).bind fun _ => ih
  unfold CertificateChain.write
  refine .ite (.fail (.inr rfl)) (l ?_)
  exact (putAll_errs _).bind fun _ => (putAll_errs _).bind fun _ => (wextend_errs _).bind fun _ => (hc _).bind fun _ => (wextend_errs _).bind fun _ => offsetM_errs

theorem writeChain_errs (ch : CertificateChain) (buf : Bytes) : RErrIn NoRoom (Responder.writeChain ch buf).1 := fun e h =>
  ch.write_errs _ e (by simpa [Responder.writeChain] using h)

/-! ### Handlers -/

theorem hextend_errs (bs : Bytes) : ErrIn Full (H.extend bs) := by
  intro h e he
  simp only [H.extend, Transcript.extend] at he
  split at he
  · simp only [Res.err.injEq] at he; exact he.symm
  · simp at he

theorem hclear_errs {S : Err → Prop} : ErrIn S H.clear := by intro h e he; simp [H.clear] at he
theorem rspTo_errs {S : Err → Prop} (n : Nat) : ErrIn S (H.rspTo n) := by
  intro h e he; exact RErrIn.sliceTo _ _ e he
theorem transcript_errs {S : Err → Prop} : ErrIn S H.transcript := by intro h e he; simp [H.transcript] at he

theorem hwrite_errs {S : Err → Prop} {t : MsgType} {body : W Nat} (hS : S .bufferFull) (hb : ErrIn S body) : ErrIn S (H.write t body) := by
  intro h e he
  have hf : ∀ {e}, Full e → S e := by rintro e rfl; exact hS
  have : ErrIn S (t.writeMsg body) := by
    unfold MsgType.writeMsg MsgType.writeHeader
    exact ErrIn.bind (((put_errs _).bind fun _ => put_errs _).mono fun _ h => hf h) fun _ => hb
  exact this _ e (by simpa [H.write, MsgType.write] using he)

theorem digest_errs {S : Err → Prop} (c : Cfg) (cr : Crypto) (a : UInt32) (d : Bytes) : RErrIn S (cr.digest c a d) := by
  unfold Crypto.digest
  exact .ite (.panic _) (.ite (.ite (.ok _) (.panic _)) (.panic _))

theorem slotMask_errs {S : Err → Prop} {α : Type} (c : Cfg) (slots : List (Option α)) : RErrIn S (Responder.createSlotMask c slots) := by
  unfold Responder.createSlotMask
  have : ∀ n i bits, RErrIn S (Responder.slotMaskLoop slots n i bits) := by
    intro n
    induction n with
    | zero => intro i bits; exact .ok _
    | succ n ih => intro i bits; exact .bind (.index _ _) fun s => .ite (.ite (ih _ _) (.panic _)) (ih _ _)
  exact this _ _ _

theorem hashChains_errs (c : Cfg) (cr : Crypto) (a : UInt32) (chains : List (Option CertificateChain)) : RErrIn NoRoom (Responder.hashCertChains c cr a chains) := by
  unfold Responder.hashCertChains
  have : ∀ n i buf ds, RErrIn NoRoom (Responder.hashLoop c cr a chains n i buf ds) := by
    intro n
    induction n with
    | zero => intro i buf ds; exact .ok _
    | succ n ih =>
      intro i buf ds
      unfold Responder.hashLoop
      refine .bind (.index _ _) fun ch => ?_
      cases ch with
      | none => exact ih _ _ _
      | some ch => exact .bind (writeChain_errs ch buf) fun _ => .bind (.sliceTo _ _) fun _ => .bind (digest_errs _ _ _ _) fun _ => .bind (.setIndex _ _ _) fun _ => ih _ _ _
  exact this _ _ _ _

theorem chainDigest_errs (c : Cfg) (cr : Crypto) (a : UInt32) (ch : CertificateChain) : RErrIn NoRoom (Responder.chainDigest c cr a ch) :=
  .bind (writeChain_errs ch _) fun _ => .bind (.sliceTo _ _) fun _ => digest_errs _ _ _ _

theorem certPortion_errs (c : Cfg) (chains : List (Option CertificateChain)) (i : UInt8) : RErrIn NoRoom (Responder.certPortion c chains i) := by
  unfold Responder.certPortion
  refine .bind (.index _ _) fun ch => ?_
  cases ch with
  | none => exact .ok _
  | some ch => exact .bind (writeChain_errs ch _) fun _ => .ok _

end Spdm

import Verif.Usize
import Verif.Lemmas.Chain
/-! The machine arithmetic of Verif/Usize.lean agrees with the model where the buffers fit in the address space. -/
namespace Spdm
namespace Usize

theorem add_ok {bits a b : Nat} (h : a + b < 2 ^ bits) : add bits a b = .ok (a + b) := if_pos h
theorem sub_ok {a b : Nat} (h : b ≤ a) : sub a b = .ok (a - b) := if_pos h

/-! ## Writer -/

/-- The cursor is inside a buffer that fits. -/
def WIn (bits : Nat) (w : Writer) : Prop := w.offset ≤ w.buf.length ∧ w.buf.length < 2 ^ bits

/-- The two programs do the same on every such writer, and leave such a writer. -/
def WAgree {α : Type} (bits : Nat) (p q : W α) : Prop := ∀ w, WIn bits w → p w = q w ∧ WIn bits (q w).2

namespace WAgree
variable {α β : Type} {bits : Nat}

theorem refl_lift (x : Res α) : WAgree bits (M.lift x) (M.lift x) := fun _ h => ⟨rfl, h⟩
theorem offsetM : WAgree bits Writer.offsetM Writer.offsetM := fun _ h => ⟨rfl, h⟩
theorem fail (e : Err) : WAgree bits (M.fail e : W α) (M.fail e) := fun _ h => ⟨rfl, h⟩

theorem bind {p q : W α} {f g : α → W β} (hp : WAgree bits p q) (hf : ∀ a, WAgree bits (f a) (g a)) : WAgree bits (p >>= f) (q >>= g) := by
  intro w hw
  obtain ⟨e, h⟩ := hp w hw
  rw [M.run_bind, M.run_bind, e]
  rcases hq : q w with ⟨a | er | k, w'⟩ <;> rw [hq] at h
  · exact hf a w' h
  · exact ⟨rfl, h⟩
  · exact ⟨rfl, h⟩

theorem ite {c : Prop} [Decidable c] {p q p' q' : W α} (h1 : WAgree bits p p') (h2 : WAgree bits q q') :
    WAgree bits (if c then p else q) (if c then p' else q') := by
  split
  · exact h1
  · exact h2

theorem put (v : UInt8) : WAgree bits (Usize.put bits v) (Writer.put v) := by
  intro w ⟨h1, h2⟩
  unfold Usize.put Writer.put
  split
  · exact ⟨rfl, h1, h2⟩
  · split
    · rename_i hlt
      rw [add_ok (by omega)]
      exact ⟨rfl, by simp; omega, by simp; omega⟩
    · exact ⟨rfl, h1, h2⟩

theorem putAll (bs : Bytes) : WAgree bits (Usize.putAll bits bs) (Writer.putAll bs) := by
  induction bs with
  | nil => exact offsetM
  | cons b bs ih => exact (put b).bind fun _ => ih

theorem extend (bs : Bytes) : WAgree bits (Usize.extend bits bs) (Writer.extend bs) := by
  intro w ⟨h1, h2⟩
  unfold Usize.extend Writer.extend Writer.remaining
  rw [sub_ok h1]
  dsimp only
  split
  · exact ⟨rfl, h1, h2⟩
  · rename_i hl
    rw [add_ok (by omega)]
    exact ⟨rfl, by simp; omega, by simp; omega⟩

theorem writeCerts (l : List Bytes) : WAgree bits (Usize.writeCerts bits l) (CertificateChain.writeCerts l) := by
  induction l with
  | nil => exact offsetM
  | cons x xs ih => exact (extend x).bind fun _ => ih
end WAgree

/-! ## Reader -/

/-- The cursor is inside a buffer that fits. -/
def RIn (bits : Nat) (r : Reader) : Prop := r.byteOffset ≤ r.buf.length ∧ r.bitOffset < 8 ∧ r.buf.length < 2 ^ bits

/-- The two programs do the same on this reader and leave one inside the same buffer, and a result has the property. -/
def At {α : Type} (bits : Nat) (p q : R α) (r : Reader) (post : α → Reader → Prop) : Prop :=
  p r = q r ∧ RIn bits (q r).2 ∧ (q r).2.buf = r.buf ∧ ∀ a r', q r = (.ok a, r') → post a r'

theorem At.ite {α : Type} {bits : Nat} {c : Prop} [Decidable c] {p q p' q' : R α} {r : Reader} {P : α → Reader → Prop}
    (h1 : c → At bits p p' r P) (h2 : ¬ c → At bits q q' r P) : At bits (if c then p else q) (if c then p' else q') r P := by
  by_cases h : c
  · have := h1 h; rwa [if_pos h, if_pos h]
  · have := h2 h; rwa [if_neg h, if_neg h]

theorem At.fail {α : Type} {bits : Nat} {r : Reader} {P : α → Reader → Prop} (e : Err) (h : RIn bits r) : At bits (M.fail e : R α) (M.fail e) r P :=
  ⟨rfl, h, rfl, fun _ _ e => by simp at e⟩
theorem At.die {α : Type} {bits : Nat} {r : Reader} {P : α → Reader → Prop} (k : PanicKind) (h : RIn bits r) : At bits (M.die k : R α) (M.die k) r P :=
  ⟨rfl, h, rfl, fun _ _ e => by simp at e⟩
theorem At.pure {α : Type} {bits : Nat} {r : Reader} {P : α → Reader → Prop} (a : α) (h : RIn bits r) (hp : P a r) : At bits (Pure.pure a : R α) (Pure.pure a) r P :=
  ⟨rfl, h, rfl, fun b r' e => by
    simp only [M.run_pure, Prod.mk.injEq, Res.ok.injEq] at e
    rw [← e.1, ← e.2]; exact hp⟩

/-- The two programs do the same on every such reader and leave such a reader with the same buffer, and a result has the property. -/
def RAgree {α : Type} (bits : Nat) (p q : R α) (post : Reader → α → Reader → Prop) : Prop :=
  ∀ r, RIn bits r → At bits p q r (post r)

/-- Nothing is said about the result. -/
def any {α : Type} : Reader → α → Reader → Prop := fun _ _ _ => True
/-- `n` bytes further on. -/
def moved {α : Type} (n : Nat) : Reader → α → Reader → Prop := fun r _ r' => r'.byteOffset = r.byteOffset + n

namespace RAgree
variable {α β : Type} {bits : Nat}

theorem weaken {p q : R α} {P Q : Reader → α → Reader → Prop} (h : RAgree bits p q P) (hi : ∀ r a r', P r a r' → Q r a r') : RAgree bits p q Q :=
  fun r hr => let ⟨a, b, c, d⟩ := h r hr; ⟨a, b, c, fun x r' e => hi _ _ _ (d x r' e)⟩

theorem toAny {p q : R α} {P : Reader → α → Reader → Prop} (h : RAgree bits p q P) : RAgree bits p q any := h.weaken fun _ _ _ _ => trivial

theorem pure (a : α) : RAgree bits (Pure.pure a : R α) (Pure.pure a) (fun r b r' => r' = r ∧ b = a) := by
  intro r h
  refine ⟨rfl, h, rfl, fun b r' e => ?_⟩
  simp only [M.run_pure, Prod.mk.injEq, Res.ok.injEq] at e
  exact ⟨e.2.symm, e.1.symm⟩
theorem fail {P : Reader → α → Reader → Prop} (e : Err) : RAgree bits (M.fail e : R α) (M.fail e) P := fun r h => ⟨rfl, h, rfl, fun _ _ e => by simp at e⟩
theorem die {P : Reader → α → Reader → Prop} (k : PanicKind) : RAgree bits (M.die k : R α) (M.die k) P := fun r h => ⟨rfl, h, rfl, fun _ _ e => by simp at e⟩
theorem lift (x : Res α) : RAgree bits (M.lift x : R α) (M.lift x) (fun r _ r' => r' = r) := by
  intro r h
  refine ⟨rfl, h, rfl, fun b r' e => ?_⟩
  simp only [M.run_lift, Prod.mk.injEq] at e
  exact e.2.symm

/-- Sequencing, with what the first program did known to the second. -/
theorem bindAt {p q : R α} {f g : α → R β} {P : Reader → α → Reader → Prop} {Q : β → Reader → Prop} (hp : RAgree bits p q P)
    {r : Reader} (hr : RIn bits r) (hf : ∀ a r', P r a r' → r'.buf = r.buf → RIn bits r' → At bits (f a) (g a) r' Q) : At bits (p >>= f) (q >>= g) r Q := by
  obtain ⟨e, h, hb, hpost⟩ := hp r hr
  unfold At
  rw [M.run_bind, M.run_bind, e]
  rcases hq : q r with ⟨a | er | k, r'⟩ <;> rw [hq] at h hb
  · obtain ⟨g1, g2, g3, g4⟩ := hf a r' (hpost a r' hq) hb h
    exact ⟨g1, g2, g3.trans hb, g4⟩
  · exact ⟨rfl, h, hb, fun _ _ e => by simp at e⟩
  · exact ⟨rfl, h, hb, fun _ _ e => by simp at e⟩

theorem bind {p q : R α} {f g : α → R β} {P : Reader → α → Reader → Prop} (hp : RAgree bits p q P) (hf : ∀ a, RAgree bits (f a) (g a) any) :
    RAgree bits (p >>= f) (q >>= g) any := fun r hr =>
  hp.bindAt hr fun a r' _ _ h => let ⟨x, y, z, _⟩ := hf a r' h; ⟨x, y, z, fun _ _ _ => trivial⟩

theorem bindMoved {p q : R α} {f g : α → R β} {n m : Nat} (hp : RAgree bits p q (moved n)) (hf : ∀ a, RAgree bits (f a) (g a) (moved m)) :
    RAgree bits (p >>= f) (q >>= g) (moved (n + m)) := fun r hr =>
  hp.bindAt hr fun a r' hm _ h => let ⟨x, y, z, t⟩ := hf a r' h; ⟨x, y, z, fun b r'' e => by have := t b r'' e; simp only [moved] at *; omega⟩

theorem got {f g : Reader → R α} {r : Reader} {P : α → Reader → Prop} (_ : RIn bits r) (h : At bits (f r) (g r) r P) :
    At bits (M.get >>= f) (M.get >>= g) r P := by
  unfold At at *
  rwa [M.run_bind_ok (M.run_get r), M.run_bind_ok (M.run_get r)]

theorem lifted {x : Res α} {a : α} {f : α → R β} {q : R β} {r : Reader} {P : β → Reader → Prop} (e : x = .ok a) (h : At bits (f a) q r P) :
    At bits (M.lift x >>= f) q r P := by
  unfold At at *
  rwa [e, M.run_bind_ok (M.run_lift _ _)]

theorem ite {c : Prop} [Decidable c] {p q p' q' : R α} {P : Reader → α → Reader → Prop} (h1 : RAgree bits p p' P) (h2 : RAgree bits q q' P) :
    RAgree bits (if c then p else q) (if c then p' else q') P := by
  split
  · exact h1
  · exact h2

theorem getByte : RAgree bits (Usize.getByte bits) Reader.getByte (moved 1) := by
  intro r ⟨h1, h2, h3⟩
  unfold At Usize.getByte Reader.getByte
  split
  · exact ⟨rfl, ⟨h1, h2, h3⟩, rfl, fun _ _ e => by simp at e⟩
  · split
    · exact ⟨rfl, ⟨h1, h2, h3⟩, rfl, fun _ _ e => by simp at e⟩
    · rename_i he
      have hlt : r.byteOffset < r.buf.length := by simp [Reader.isEmpty] at he; omega
      have : r.buf[r.byteOffset]? = some r.buf[r.byteOffset] := by simp [hlt]
      rw [this, add_ok (by omega)]
      refine ⟨rfl, ⟨by dsimp only; omega, h2, h3⟩, rfl, fun a r' e => ?_⟩
      simp only [Prod.mk.injEq] at e
      rw [← e.2]; rfl

theorem skipReserved (n : Nat) : RAgree bits (Usize.skipReserved bits n) (Reader.skipReserved n) (moved n) := by
  induction n with
  | zero => exact (pure ()).weaken fun r _ r' h => by simp [moved, h.1]
  | succ n ih =>
    rw [Nat.add_comm n 1]
    have : RAgree bits (Usize.getByte bits >>= fun byte => if byte ≠ 0 then M.fail (.read .reservedByteNotZero) else Usize.skipReserved bits n)
      (Reader.getByte >>= fun byte => if byte ≠ 0 then M.fail (.read .reservedByteNotZero) else Reader.skipReserved n) (moved (1 + n)) :=
      getByte.bindMoved fun a => ite (fail _) ih
    rw [Nat.add_comm 1 n] at this ⊢
    exact this

theorem skipIgnored (n : Nat) : RAgree bits (Usize.skipIgnored bits n) (Reader.skipIgnored n) (moved n) := by
  induction n with
  | zero => exact (pure ()).weaken fun r _ r' h => by simp [moved, h.1]
  | succ n ih =>
    have : RAgree bits (Usize.getByte bits >>= fun _ => Usize.skipIgnored bits n) (Reader.getByte >>= fun _ => Reader.skipIgnored n) (moved (1 + n)) :=
      getByte.bindMoved fun a => ih
    rw [Nat.add_comm 1 n] at this
    exact this

theorem getBits (count : Nat) : RAgree bits (Usize.getBits bits count) (Reader.getBits count) any := by
  intro r ⟨h1, h2, h3⟩
  unfold At Usize.getBits Reader.getBits
  split
  · exact ⟨rfl, ⟨h1, h2, h3⟩, rfl, fun _ _ _ => trivial⟩
  · rename_i he
    have hlt : r.byteOffset < r.buf.length := by simp [Reader.isEmpty] at he; omega
    split
    · exact ⟨rfl, ⟨h1, h2, h3⟩, rfl, fun _ _ _ => trivial⟩
    · rename_i hc
      unfold bitsValue
      rw [add_ok (by omega), Res.ok_bind]
      dsimp only
      have hat : Reader.at? r r.byteOffset = .ok r.buf[r.byteOffset] := by simp [Reader.at?, hlt]
      by_cases h8 : r.bitOffset + count ≥ 8
      · rw [if_pos h8, if_pos h8, add_ok (by omega), Res.ok_bind, sub_ok h8, Res.ok_bind]
        by_cases hn : r.byteOffset + 1 = r.buf.length ∧ r.bitOffset + count - 8 ≠ 0
        · rw [if_pos hn, if_pos hn]
          exact ⟨rfl, ⟨h1, h2, h3⟩, rfl, fun _ _ _ => trivial⟩
        · rw [if_neg hn, if_neg hn]
          rw [hat, Res.ok_bind]
          have hs : Reader.shr8 r.buf[r.byteOffset] r.bitOffset = .ok (UInt8.ofNat (r.buf[r.byteOffset].toNat / 2 ^ r.bitOffset)) := if_pos h2
          rw [hs, Res.ok_bind]
          by_cases hz : r.bitOffset + count - 8 = 0
          · simp only [hz, ne_eq, not_true_eq_false, if_false, Res.ok_bind, hs]
            exact ⟨rfl, ⟨by show r.byteOffset + 1 ≤ r.buf.length; omega, by show 0 < 8; omega, h3⟩, rfl, fun _ _ _ => trivial⟩
          · have hlt' : r.byteOffset + 1 < r.buf.length := by
              rcases Nat.lt_or_ge (r.byteOffset + 1) r.buf.length with h | h
              · exact h
              · exact absurd ⟨by omega, hz⟩ hn
            have hat' : Reader.at? r (r.byteOffset + 1) = .ok r.buf[r.byteOffset + 1] := by simp [Reader.at?, hlt']
            simp only [ne_eq, hz, not_false_eq_true, if_true]
            rw [sub_ok (by omega), Res.ok_bind, sub_ok (by omega), Res.ok_bind, sub_ok (by omega), Res.ok_bind, hat', Res.ok_bind]
            have a1 : 8 - (r.bitOffset + count - 8) < 8 := by omega
            have a2 : 8 - (r.bitOffset + count - 8) - (8 - r.bitOffset) < 8 := by omega
            simp only [Reader.shl8, Reader.shr8, if_pos a1, if_pos a2, if_pos h2, Res.ok_bind]
            exact ⟨rfl, ⟨by show r.byteOffset + 1 ≤ r.buf.length; omega, by show r.bitOffset + count - 8 < 8; omega, h3⟩, rfl, fun _ _ _ => trivial⟩
      · rw [if_neg h8, if_neg h8, Res.ok_bind, sub_ok (by omega), Res.ok_bind, sub_ok (by omega), Res.ok_bind, sub_ok (by omega), Res.ok_bind, hat, Res.ok_bind]
        simp only [Res.ok_bind]
        rcases Reader.shl8 r.buf[r.byteOffset] (8 - (r.bitOffset + count)) with v | e | k
        · simp only [Res.ok_bind]
          rcases Reader.shr8 v (8 - (r.bitOffset + count - r.bitOffset)) with v | e | k
          · exact ⟨rfl, ⟨h1, by show r.bitOffset + count < 8; omega, h3⟩, rfl, fun _ _ _ => trivial⟩
          · exact ⟨rfl, ⟨h1, h2, h3⟩, rfl, fun _ _ _ => trivial⟩
          · exact ⟨rfl, ⟨h1, h2, h3⟩, rfl, fun _ _ _ => trivial⟩
        · exact ⟨rfl, ⟨h1, h2, h3⟩, rfl, fun _ _ _ => trivial⟩
        · exact ⟨rfl, ⟨h1, h2, h3⟩, rfl, fun _ _ _ => trivial⟩

theorem window_run {n : Nat} {r : Reader} (h : RIn bits r) :
    window bits n r = if r.remaining < n then .err (.read .bufferEmpty) else .ok ((r.buf.drop r.byteOffset).take n, r.byteOffset + n) := by
  obtain ⟨h1, _, h3⟩ := h
  unfold window Reader.remaining
  rw [sub_ok h1, Res.ok_bind]
  split
  · rfl
  · rw [add_ok (by omega)]; rfl

theorem getU16 : RAgree bits (Usize.getU16 bits) Reader.getU16 (moved 2) := by
  intro r h
  obtain ⟨h1, h2, h3⟩ := h
  unfold At Usize.getU16 Reader.getU16
  rw [window_run ⟨h1, h2, h3⟩]
  split
  · exact ⟨rfl, ⟨h1, h2, h3⟩, rfl, fun _ _ e => by simp at e⟩
  · by_cases hr : r.remaining < 2
    · rw [if_pos hr, if_pos hr]; exact ⟨rfl, ⟨h1, h2, h3⟩, rfl, fun _ _ e => by simp at e⟩
    · rw [if_neg hr, if_neg hr]
      simp only [Reader.remaining] at hr
      refine ⟨rfl, ⟨by dsimp only; omega, h2, h3⟩, rfl, fun a r' e => ?_⟩
      simp only [Prod.mk.injEq] at e
      rw [← e.2]; rfl

theorem getU32 : RAgree bits (Usize.getU32 bits) Reader.getU32 any := by
  intro r h
  obtain ⟨h1, h2, h3⟩ := h
  unfold At Usize.getU32 Reader.getU32
  rw [window_run ⟨h1, h2, h3⟩]
  split
  · exact ⟨rfl, ⟨h1, h2, h3⟩, rfl, fun _ _ _ => trivial⟩
  · by_cases hr : r.remaining < 4
    · rw [if_pos hr, if_pos hr]; exact ⟨rfl, ⟨h1, h2, h3⟩, rfl, fun _ _ _ => trivial⟩
    · rw [if_neg hr, if_neg hr]
      simp only [Reader.remaining] at hr
      exact ⟨rfl, ⟨by dsimp only; omega, h2, h3⟩, rfl, fun _ _ _ => trivial⟩

theorem getSlice (size cap : Nat) : RAgree bits (Usize.getSlice bits size cap) (Reader.getSlice size cap) any := by
  intro r h
  obtain ⟨h1, h2, h3⟩ := h
  unfold At Usize.getSlice Reader.getSlice
  rw [window_run ⟨h1, h2, h3⟩]
  split
  · exact ⟨rfl, ⟨h1, h2, h3⟩, rfl, fun _ _ _ => trivial⟩
  · by_cases hr : r.remaining < size
    · rw [if_pos hr, if_pos hr]; exact ⟨rfl, ⟨h1, h2, h3⟩, rfl, fun _ _ _ => trivial⟩
    · rw [if_neg hr, if_neg hr]
      simp only [Reader.remaining] at hr
      dsimp only
      split
      · exact ⟨rfl, ⟨by dsimp only; omega, h2, h3⟩, rfl, fun _ _ _ => trivial⟩
      · exact ⟨rfl, ⟨by dsimp only; omega, h2, h3⟩, rfl, fun _ _ _ => trivial⟩

theorem fromLe_three (a b c : UInt8) : Reader.fromLe [a, b, c] < 2 ^ 24 := by
  have := a.toNat_lt; have := b.toNat_lt; have := c.toNat_lt
  simp only [Reader.fromLe]; omega

theorem getU24 (hb : 24 ≤ bits) : RAgree bits (Usize.getU24 bits) Reader.getU24 any := by
  intro r h
  unfold At Usize.getU24 Reader.getU24
  split
  · exact ⟨rfl, h, rfl, fun _ _ _ => trivial⟩
  · refine (getByte.bind fun a => getByte.bind fun b => getByte.bind fun c => ?_) r h
    have : Reader.fromLe [a, b, c] < 2 ^ bits := Nat.lt_of_lt_of_le (fromLe_three a b c) (Nat.pow_le_pow_right (by omega) hb)
    rw [if_pos this]
    exact (pure _).toAny

/-! ## Certificate chains -/

/-- The size found stands in a header of the size found. -/
theorem readCertSize : RAgree bits (Usize.readCertSize bits) CertificateChain.readCertSize (fun r a r' => r'.byteOffset = r.byteOffset + a.2) := by
  intro r hr
  unfold Usize.readCertSize CertificateChain.readCertSize
  refine getByte.bindAt hr fun tag r1 m1 _ hr1 => ?_
  refine At.ite (fun _ => At.die _ hr1) fun _ => ?_
  refine getByte.bindAt hr1 fun n r2 m2 _ hr2 => ?_
  simp only [moved] at m1 m2
  refine At.ite (fun _ => At.pure _ hr2 (by dsimp only; omega)) fun _ => At.ite (fun _ => ?_) fun _ => At.ite (fun _ => ?_) fun _ => At.fail _ hr2
  · refine getByte.bindAt hr2 fun n r3 m3 _ hr3 => ?_
    simp only [moved] at m3
    exact At.ite (fun _ => At.fail _ hr3) fun _ => At.pure _ hr3 (by dsimp only; omega)
  · refine getByte.bindAt hr2 fun hi r3 m3 _ hr3 => getByte.bindAt hr3 fun lo r4 m4 _ hr4 => ?_
    simp only [moved] at m3 m4
    exact At.ite (fun _ => At.fail _ hr4) fun _ => At.pure _ hr4 (by dsimp only; omega)

theorem parseLoop (c : Cfg) (buf : Bytes) (fuel : Nat) : ∀ certs, RAgree bits (Usize.parseLoop bits c buf fuel certs) (CertificateChain.parseLoop c buf fuel certs) any := by
  induction fuel with
  | zero => intro certs; exact die _
  | succ fuel ih =>
    intro certs r hr
    unfold Usize.parseLoop CertificateChain.parseLoop
    refine got hr ?_
    refine readCertSize.bindAt hr fun a r1 m1 hb1 hr1 => ?_
    obtain ⟨length, hs⟩ := a
    dsimp only at m1
    refine got hr1 ?_
    refine lifted (sub_ok hr1.1) ?_
    refine At.ite (fun _ => At.fail _ hr1) fun hle => At.ite (fun _ => At.pure _ hr1 trivial) fun _ => At.ite (fun _ => At.fail _ hr1) fun _ => ?_
    have := hr1.1; have := hr1.2.2
    refine lifted (add_ok (by omega)) (lifted (add_ok (by omega)) ?_)
    exact ((lift _).bind fun cert => (skipIgnored length).bind fun _ => ih _) r1 hr1

theorem readChain (c : Cfg) (buf : Bytes) (ds : Nat) : RAgree bits (Usize.readChain bits c buf ds) (CertificateChain.read c buf ds) any := by
  unfold Usize.readChain CertificateChain.read
  refine getU16.bind fun length => ite (fail _) ?_
  refine (skipReserved 2).bind fun _ => ?_
  intro r hr
  refine got hr ?_
  refine (skipIgnored ds).bindAt hr fun _ r1 m1 hb1 hr1 => ?_
  simp only [moved] at m1
  have := hr1.1; have := hr1.2.2
  refine lifted (add_ok (by omega)) ?_
  exact ((lift _).bind fun rh => (parseLoop c buf _ _).bind fun x => (lift _).bind fun leaf => (pure _).toAny) r1 hr1

end RAgree

theorem sumLengths_run {bits : Nat} (l : List Bytes) (acc : Nat) (h : acc + l.flatten.length < 2 ^ bits) :
    sumLengths bits acc l = .ok (acc + l.flatten.length) := by
  induction l generalizing acc with
  | nil => rfl
  | cons x xs ih =>
    simp only [List.flatten_cons, List.length_append] at h
    unfold sumLengths
    rw [add_ok (by omega), Res.ok_bind, ih _ (by omega)]
    simp [Nat.add_assoc]

/-! ## Sizes -/

theorem lt_bits {n k bits : Nat} (h : n < 2 ^ k) (hb : k ≤ bits) : n < 2 ^ bits := Nat.lt_of_lt_of_le h (Nat.pow_le_pow_right (by omega) hb)

theorem blockSize_run {bits : Nat} {b : MeasurementBlock} (h : b.serializedSize < 2 ^ bits) : blockSize bits b = .ok b.serializedSize := by
  unfold MeasurementBlock.serializedSize DmtfMeasurement.serializedSize at *
  unfold blockSize
  rw [add_ok (by omega), Res.ok_bind, add_ok (by omega)]

theorem padding_run (raw : Nat) : padding raw = .ok (OpaqueElement.padding raw) := by
  unfold padding OpaqueElement.padding
  split
  · rfl
  · rw [sub_ok (by omega)]

theorem padding_lt (raw : Nat) : OpaqueElement.padding raw < 4 := by
  unfold OpaqueElement.padding; split <;> omega

theorem vendorIdLen_le (v : VendorRegistryId) : v.vendorIdLen.toNat ≤ 4 := by cases v <;> decide

theorem elementSize_lt (e : OpaqueElement) : e.serializedSize < 65536 + 12 := by
  unfold OpaqueElement.serializedSize
  have := vendorIdLen_le e.registryId; have := e.dataLen.toNat_lt; have := padding_lt (4 + e.registryId.vendorIdLen.toNat + e.dataLen.toNat)
  dsimp only; omega

theorem elementSize_run {bits : Nat} (hb : 32 ≤ bits) (e : OpaqueElement) : elementSize bits e = .ok e.serializedSize := by
  unfold elementSize OpaqueElement.serializedSize
  have h1 := vendorIdLen_le e.registryId; have h2 := e.dataLen.toNat_lt; have h3 := padding_lt (4 + e.registryId.vendorIdLen.toNat + e.dataLen.toNat)
  rw [add_ok (lt_bits (k := 32) (by omega) hb), Res.ok_bind, add_ok (lt_bits (k := 32) (by omega) hb), Res.ok_bind, padding_run, Res.ok_bind,
    add_ok (lt_bits (k := 32) (by omega) hb)]

theorem foldl_size (es : List OpaqueElement) (n : Nat) : es.foldl (fun acc e => acc + e.serializedSize) n = n + es.foldl (fun acc e => acc + e.serializedSize) 0 := by
  induction es generalizing n with
  | nil => rfl
  | cons e es ih => simp only [List.foldl_cons]; rw [ih, ih (0 + _)]; omega

theorem foldl_size_le (es : List OpaqueElement) : es.foldl (fun acc e => acc + e.serializedSize) 0 ≤ es.length * (65536 + 12) := by
  induction es with
  | nil => simp
  | cons e es ih =>
    simp only [List.foldl_cons, List.length_cons]
    rw [foldl_size]; have := elementSize_lt e; omega

theorem sumElements_run {bits : Nat} (hb : 32 ≤ bits) (es : List OpaqueElement) (acc : Nat) (h : acc + es.foldl (fun acc e => acc + e.serializedSize) 0 < 2 ^ bits) :
    sumElements bits acc es = .ok (acc + es.foldl (fun acc e => acc + e.serializedSize) 0) := by
  induction es generalizing acc with
  | nil => rfl
  | cons e es ih =>
    simp only [List.foldl_cons] at h ⊢
    rw [foldl_size] at h ⊢
    unfold sumElements
    rw [elementSize_run hb, Res.ok_bind, add_ok (by omega), Res.ok_bind, ih _ (by omega)]
    congr 1; omega

theorem sumBlocks_run {bits : Nat} (bs : List (Option MeasurementBlock)) (acc : Nat)
    (hs : ∀ b, some b ∈ bs → b.serializedSize < 2 ^ 17) (hn : acc + bs.length * 2 ^ 17 < 2 ^ bits) :
    sumBlocks bits acc bs = (MeasurementBlocks.sumSizes bs >>= fun n => .ok (acc + n)) := by
  induction bs generalizing acc with
  | nil => rfl
  | cons b bs ih =>
    cases b with
    | none => rfl
    | some b =>
      have hb := hs b (by simp)
      simp only [List.length_cons] at hn
      unfold sumBlocks MeasurementBlocks.sumSizes
      rw [blockSize_run (by omega), Res.ok_bind, add_ok (by omega), Res.ok_bind, ih (acc + b.serializedSize) (fun x hx => hs x (by simp [hx])) (by omega)]
      rcases MeasurementBlocks.sumSizes bs with n | e | k
      · simp only [Res.ok_bind]
        show Res.ok _ = Res.ok _
        congr 1; omega
      · rfl
      · rfl

/-! ## Signatures -/

theorem startAndLength_run {bits : Nat} {i : Bytes} (h : i.length + 1 < 2 ^ bits) : startAndLength bits i = Pki.getStartAndLength i := by
  unfold startAndLength Pki.getStartAndLength
  rcases hf : i.findIdx? (fun b => b != 0) with _ | start
  · rfl
  · have hlt : start < i.length := by
      rw [List.findIdx?_eq_some_iff_getElem] at hf
      exact hf.1
    dsimp only
    have : index i start = .ok i[start] := by simp [index, hlt]
    rw [this, Res.ok_bind, Res.ok_bind, sub_ok (by omega), Res.ok_bind]
    by_cases hp : i[start] &&& 0x80 ≠ 0
    · simp only [if_pos hp]; rw [add_ok (by omega)]; rfl
    · simp only [if_neg hp]; rw [add_ok (by omega)]; rfl

theorem start_le {i : Bytes} {a b : Nat} (h : Pki.getStartAndLength i = .ok (a, b)) : b ≤ i.length + 1 := by
  unfold Pki.getStartAndLength at h
  rcases hf : i.findIdx? (fun b => b != 0) with _ | start
  · rw [hf] at h; simp at h
  · rw [hf] at h
    dsimp only at h
    rcases hi : index i start with v | e | k <;> rw [hi] at h
    · simp only [Res.ok_bind] at h
      have h' : (start, i.length - start + (if v &&& 0x80 ≠ 0 then 1 else 0)) = (a, b) := by
        have : (Res.ok (start, i.length - start + (if v &&& 0x80 ≠ 0 then 1 else 0)) : Res (Nat × Nat)) = .ok (a, b) := h
        exact Res.ok.inj this
      simp only [Prod.mk.injEq] at h'
      rw [← h'.2]
      split <;> omega
    · cases h
    · cases h

theorem derLength_le (n : Nat) : Pki.derLength n ≤ 3 := by unfold Pki.derLength; split <;> (try split) <;> omega

theorem writeDerLength_le {out out' : Bytes} {off l n : Nat} (h : Pki.writeDerLength out off l = .ok (out', n)) : n ≤ 3 ∧ out'.length = out.length := by
  have hset : ∀ {o o' : Bytes} {i : Nat} {v : UInt8}, setIndex o i v = .ok o' → o'.length = o.length := by
    intro o o' i v h
    unfold setIndex at h
    split at h
    · cases h; simp
    · cases h
  unfold Pki.writeDerLength at h
  split at h
  · rcases e : setIndex out off (UInt8.ofNat l) with o | e' | k <;> rw [e] at h
    · cases h; exact ⟨by omega, hset e⟩
    · cases h
    · cases h
  · split at h
    · rcases e : setIndex out off 0x81 with o | e' | k <;> rw [e] at h
      · rw [Res.ok_bind] at h
        rcases e2 : setIndex o (off + 1) (UInt8.ofNat l) with o2 | e' | k <;> rw [e2] at h
        · cases h; exact ⟨by omega, (hset e2).trans (hset e)⟩
        · cases h
        · cases h
      · cases h
      · cases h
    · split at h
      · rcases e : setIndex out off 0x82 with o | e' | k <;> rw [e] at h
        · rw [Res.ok_bind] at h
          rcases e2 : setIndex o (off + 1) (UInt8.ofNat (l / 256)) with o2 | e' | k <;> rw [e2] at h
          · rw [Res.ok_bind] at h
            rcases e3 : setIndex o2 (off + 2) (UInt8.ofNat (l % 256)) with o3 | e' | k <;> rw [e3] at h
            · cases h; exact ⟨by omega, ((hset e3).trans (hset e2)).trans (hset e)⟩
            · cases h
            · cases h
          · cases h
          · cases h
        · cases h
        · cases h
      · cases h

theorem integerToDer_run {bits : Nat} {out integer : Bytes} {off : Nat} (h : integer.length + 8 < 2 ^ bits) :
    integerToDer bits out off integer = Pki.integerToDer out off integer := by
  unfold integerToDer Pki.integerToDer
  rcases index integer 0 with b | e | k
  · simp only [Res.ok_bind]
    rcases setIndex out off Pki.derTagInteger with o | e | k
    · simp only [Res.ok_bind]
      rw [add_ok (by split <;> omega), Res.ok_bind]
      rcases hw : Pki.writeDerLength o (off + 1) (integer.length + if b &&& 128 ≠ 0 then 1 else 0) with ⟨o2, n⟩ | e | k
      · have := (writeDerLength_le hw).1
        simp only [Res.ok_bind]
        rw [add_ok (by omega), Res.ok_bind]
        by_cases hp : (if b &&& 128 ≠ 0 then 1 else 0) = 1
        · simp only [if_pos hp]
          rcases setIndex o2 (off + (1 + n)) 0 with o3 | e | k
          · simp only [Res.ok_bind]
            rw [add_ok (by omega), Res.ok_bind]
            rcases Pki.copyAt o3 (off + (1 + n + 1)) integer with o4 | e | k
            · simp only [Res.ok_bind]; rw [add_ok (by omega)]; rfl
            · rfl
            · rfl
          · rfl
          · rfl
        · simp only [if_neg hp]
          rcases Pki.copyAt o2 (off + (1 + n)) integer with o4 | e | k
          · simp only [Res.ok_bind]; rw [add_ok (by omega)]; rfl
          · rfl
          · rfl
      · rfl
      · rfl
    · rfl
    · rfl
  · rfl
  · rfl

theorem integerToDer_le {out out' integer : Bytes} {off n : Nat} (h : Pki.integerToDer out off integer = .ok (out', n)) : n ≤ integer.length + 5 := by
  unfold Pki.integerToDer at h
  rcases hh1 : index integer 0 with b | e | k <;> rw [hh1] at h
  · simp only [Res.ok_bind] at h
    rcases hh2 : setIndex out off Pki.derTagInteger with o | e | k <;> rw [hh2] at h
    · simp only [Res.ok_bind] at h
      rcases hw : Pki.writeDerLength o (off + 1) (integer.length + if b &&& 128 ≠ 0 then 1 else 0) with ⟨o2, n2⟩ | e | k <;> rw [hw] at h
      · have := (writeDerLength_le hw).1
        simp only [Res.ok_bind] at h
        by_cases hp : (if b &&& 128 ≠ 0 then 1 else 0) = 1
        · simp only [if_pos hp] at h
          rcases hh3 : setIndex o2 (off + (1 + n2)) 0 with o3 | e | k <;> rw [hh3] at h
          · simp only [Res.ok_bind] at h
            rcases hh4 : Pki.copyAt o3 (off + (1 + n2 + 1)) integer with o4 | e | k <;> rw [hh4] at h
            · cases h; omega
            · cases h
            · cases h
          · cases h
          · cases h
        · simp only [if_neg hp] at h
          rcases hh5 : Pki.copyAt o2 (off + (1 + n2)) integer with o4 | e | k <;> rw [hh5] at h
          · cases h; omega
          · cases h
          · cases h
      · cases h
      · cases h
    · cases h
    · cases h
  · cases h
  · cases h

theorem binToDer_run {bits : Nat} {signature out : Bytes} (h : signature.length + 32 < 2 ^ bits) : binToDer bits signature out = Pki.binToDer signature out := by
  unfold binToDer Pki.binToDer
  have l1 : (signature.take (signature.length / 2)).length = signature.length / 2 := by simp; omega
  have l2 : (signature.drop (signature.length / 2)).length = signature.length - signature.length / 2 := by simp
  dsimp only
  rw [startAndLength_run (by omega), startAndLength_run (by omega)]
  rcases hr : Pki.getStartAndLength (signature.take (signature.length / 2)) with ⟨rs, rl⟩ | e | k
  · rcases hs : Pki.getStartAndLength (signature.drop (signature.length / 2)) with ⟨ss, sl⟩ | e | k
    · have b1 := start_le hr; have b2 := start_le hs
      have d1 := derLength_le rl; have d2 := derLength_le sl
      have hq : sequenceLength bits rl sl = .ok (2 + rl + sl + Pki.derLength rl + Pki.derLength sl) := by
        unfold sequenceLength
        rw [add_ok (by omega), Res.ok_bind, add_ok (by omega), Res.ok_bind, add_ok (by omega), Res.ok_bind, add_ok (by omega)]
      simp only [Res.ok_bind, hq]
      rcases setIndex out 0 Pki.derTagSequence with o | e | k
      · simp only [Res.ok_bind]
        rcases hw : Pki.writeDerLength o 1 (2 + rl + sl + Pki.derLength rl + Pki.derLength sl) with ⟨o2, n⟩ | e | k
        · have w1 := (writeDerLength_le hw).1
          simp only [Res.ok_bind]
          rw [add_ok (by omega), Res.ok_bind]
          rw [integerToDer_run (by simp only [List.length_drop, List.length_take]; omega)]
          rcases hi : Pki.integerToDer o2 (1 + n) ((signature.take (signature.length / 2)).drop rs) with ⟨o3, m⟩ | e | k
          · have i1 := integerToDer_le hi
            simp only [List.length_drop, List.length_take] at i1
            simp only [Res.ok_bind]
            rw [add_ok (by omega), Res.ok_bind]
            rw [integerToDer_run (by simp only [List.length_drop]; omega)]
            rcases hj : Pki.integerToDer o3 (1 + n + m) ((signature.drop (signature.length / 2)).drop ss) with ⟨o4, m2⟩ | e | k
            · have i2 := integerToDer_le hj
              simp only [List.length_drop] at i2
              simp only [Res.ok_bind]
              rw [add_ok (by omega)]; rfl
            · rfl
            · rfl
          · rfl
          · rfl
        · rfl
        · rfl
      · rfl
      · rfl
    · rfl
    · rfl
  · rfl
  · rfl

end Usize
end Spdm

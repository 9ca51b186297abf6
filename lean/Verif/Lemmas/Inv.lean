import Verif.Lemmas.Chain
/-! What a successful read says about the bytes it consumed. -/
namespace Spdm
open Spec

/-- Whenever `p`, started aligned, succeeds, it has consumed some bytes `bs` (and ends aligned) with `P bs result`. -/
def Inverts {α : Type} (p : R α) (P : Bytes → α → Prop) : Prop :=
  ∀ pre tail a r', p ⟨pre ++ tail, pre.length, 0⟩ = (.ok a, r') →
    ∃ bs rest, tail = bs ++ rest ∧ r' = ⟨pre ++ tail, pre.length + bs.length, 0⟩ ∧ P bs a

/-- The same in the middle of a byte `b`. -/
def InvertsB {α : Type} (bit : Nat) (p : R α) (P : UInt8 → Bytes → α → Prop) : Prop :=
  ∀ pre b tail a r', p ⟨pre ++ b :: tail, pre.length, bit⟩ = (.ok a, r') →
    ∃ bs rest, tail = bs ++ rest ∧ r' = ⟨pre ++ b :: tail, pre.length + 1 + bs.length, 0⟩ ∧ P b bs a

theorem u16_le_ofNat {a b : UInt8} : Spec.le 2 (UInt16.ofNat (Reader.fromLe [a, b])).toNat = [a, b] := by
  have ha := a.toNat_lt; have hb := b.toNat_lt
  have : (UInt16.ofNat (Reader.fromLe [a, b])).toNat = a.toNat + 256 * b.toNat := by
    rw [UInt16.toNat_ofNat']; simp [Reader.fromLe]; omega
  rw [this, ← leBytes_eq]
  simp only [Writer.leBytes]
  rw [show (a.toNat + 256 * b.toNat) % 256 = a.toNat by omega,
    show (a.toNat + 256 * b.toNat) / 256 % 256 = b.toNat by omega]
  simp

theorem u24_le {a b c : UInt8} : Spec.le 3 (Reader.fromLe [a, b, c]) = [a, b, c] := by
  have ha := a.toNat_lt; have hb := b.toNat_lt; have hc := c.toNat_lt
  have : (Reader.fromLe [a, b, c]) = a.toNat + 256 * b.toNat + 65536 * c.toNat := by
    simp [Reader.fromLe]; omega
  rw [this, ← leBytes_eq]
  simp only [Writer.leBytes]
  rw [show (a.toNat + 256 * b.toNat + 65536 * c.toNat) % 256 = a.toNat by omega,
    show (a.toNat + 256 * b.toNat + 65536 * c.toNat) / 256 % 256 = b.toNat by omega,
    show (a.toNat + 256 * b.toNat + 65536 * c.toNat) / 256 / 256 % 256 = c.toNat by omega]
  simp

theorem u32_le_ofNat {a b c d : UInt8} : Spec.le 4 (UInt32.ofNat (Reader.fromLe [a, b, c, d])).toNat = [a, b, c, d] := by
  have ha := a.toNat_lt; have hb := b.toNat_lt; have hc := c.toNat_lt; have hd := d.toNat_lt
  have : (UInt32.ofNat (Reader.fromLe [a, b, c, d])).toNat = a.toNat + 256 * b.toNat + 65536 * c.toNat + 16777216 * d.toNat := by
    rw [UInt32.toNat_ofNat']; simp [Reader.fromLe]; omega
  rw [this, ← leBytes_eq]
  simp only [Writer.leBytes]
  rw [show (a.toNat + 256 * b.toNat + 65536 * c.toNat + 16777216 * d.toNat) % 256 = a.toNat by omega,
    show (a.toNat + 256 * b.toNat + 65536 * c.toNat + 16777216 * d.toNat) / 256 % 256 = b.toNat by omega,
    show (a.toNat + 256 * b.toNat + 65536 * c.toNat + 16777216 * d.toNat) / 256 / 256 % 256 = c.toNat by omega,
    show (a.toNat + 256 * b.toNat + 65536 * c.toNat + 16777216 * d.toNat) / 256 / 256 / 256 % 256 = d.toNat by omega]
  simp

namespace Inverts
variable {α β : Type}

theorem mono {p : R α} {P Q : Bytes → α → Prop} (hp : Inverts p P) (h : ∀ bs a, P bs a → Q bs a) : Inverts p Q := by
  intro pre tail a r' hr
  obtain ⟨bs, rest, h1, h2, h3⟩ := hp pre tail a r' hr
  exact ⟨bs, rest, h1, h2, h _ _ h3⟩

theorem pure (a : α) : Inverts (Pure.pure a : R α) (fun bs b => bs = [] ∧ b = a) := by
  intro pre tail b r' h
  simp at h
  exact ⟨[], tail, by simp, by simp [h.2], rfl, h.1.symm⟩

theorem fail (e : Err) : Inverts (M.fail e : R α) (fun _ _ => False) := by
  intro pre tail b r' h; simp at h

theorem die (k : PanicKind) : Inverts (M.die k : R α) (fun _ _ => False) := by
  intro pre tail b r' h; simp at h

theorem lift (x : Res α) : Inverts (M.lift x : R α) (fun bs b => bs = [] ∧ x = .ok b) := by
  intro pre tail b r' h
  simp at h
  exact ⟨[], tail, by simp, by simp [h.2], rfl, h.1⟩

theorem bind {p : R α} {q : α → R β} {P : Bytes → α → Prop} {Q : α → Bytes → β → Prop}
    (hp : Inverts p P) (hq : ∀ a, Inverts (q a) (Q a)) :
    Inverts (p >>= q) (fun bs b => ∃ b1 b2 a, bs = b1 ++ b2 ∧ P b1 a ∧ Q a b2 b) := by
  intro pre tail b r'' h
  obtain ⟨a, r', h1, h2⟩ := M.bind_ok_inv h
  obtain ⟨b1, rest1, e1, e2, e3⟩ := hp pre tail a r' h1
  subst e2
  have h2' : q a ⟨(pre ++ b1) ++ rest1, (pre ++ b1).length, 0⟩ = (.ok b, r'') := by
    rw [← h2, e1]; simp
  obtain ⟨b2, rest2, g1, g2, g3⟩ := hq a (pre ++ b1) rest1 b r'' h2'
  refine ⟨b1 ++ b2, rest2, by rw [e1, g1]; simp, ?_, b1, b2, a, rfl, e3, g3⟩
  rw [g2, e1]; simp; omega

theorem guard {c : Prop} [Decidable c] {e : Err} {q : R α} {Q : Bytes → α → Prop} (hq : ¬ c → Inverts q Q) :
    Inverts (if c then M.fail e else q) (fun bs a => ¬ c ∧ Q bs a) := by
  intro pre tail a r' h
  by_cases hc : c
  · rw [if_pos hc] at h; simp at h
  · rw [if_neg hc] at h
    obtain ⟨bs, rest, h1, h2, h3⟩ := hq hc pre tail a r' h
    exact ⟨bs, rest, h1, h2, hc, h3⟩

theorem ite {c : Prop} [Decidable c] {p q : R α} {P : Bytes → α → Prop} (hp : c → Inverts p P) (hq : ¬ c → Inverts q P) :
    Inverts (if c then p else q) P := by
  split
  · exact hp ‹_›
  · exact hq ‹_›

theorem mapErr {p : R α} {P : Bytes → α → Prop} (F : Err → Err) (hp : Inverts p P) : Inverts (M.mapErr F p) P := by
  intro pre tail a r' h
  apply hp
  unfold M.mapErr at h
  split at h
  · simp at h
  · exact h

theorem parse {p : R α} {P : Bytes → α → Prop} (hp : Inverts p P) {buf : Bytes} {a : α}
    (h : (p (Reader.new buf)).1 = .ok a) : ∃ bs rest, buf = bs ++ rest ∧ P bs a := by
  obtain ⟨bs, rest, h1, _, h3⟩ := hp [] buf a (p (Reader.new buf)).2 (by
    show p (Reader.new buf) = _
    rw [← h])
  exact ⟨bs, rest, h1, h3⟩

theorem getByte : Inverts Reader.getByte (fun bs a => bs = [a]) := by
  intro pre tail a r' h
  cases tail with
  | nil => simp [Reader.getByte, Reader.isAligned, Reader.isEmpty] at h
  | cons b tail =>
    have := Reads.getByte b pre tail
    simp only [List.singleton_append] at this
    rw [this] at h
    simp only [Prod.mk.injEq, Res.ok.injEq] at h
    obtain ⟨h1, h2⟩ := h
    subst h1
    exact ⟨[b], tail, rfl, h2.symm, rfl⟩

theorem skipReserved (n : Nat) : Inverts (Reader.skipReserved n) (fun bs _ => bs = zeros n) := by
  induction n with
  | zero => exact (pure ()).mono (by rintro bs a ⟨rfl, _⟩; rfl)
  | succ n ih =>
    refine (getByte.bind fun a => guard fun _ => ih).mono ?_
    rintro bs _ ⟨b1, b2, a, rfl, rfl, h, rfl⟩
    have : a = 0 := by simpa using h
    subst this
    simp [zeros, List.replicate_succ]

theorem skipIgnored (n : Nat) : Inverts (Reader.skipIgnored n) (fun bs _ => bs.length = n) := by
  induction n with
  | zero => exact (pure ()).mono (by rintro bs a ⟨rfl, _⟩; rfl)
  | succ n ih =>
    refine (getByte.bind fun a => ih).mono ?_
    rintro bs _ ⟨b1, b2, a, rfl, rfl, h⟩
    simp [h]

theorem getSlice (n cap : Nat) : Inverts (Reader.getSlice n cap) (fun bs a => bs = a ∧ a.length = n ∧ n ≤ cap) := by
  intro pre tail a r' h
  by_cases hl : tail.length < n
  · simp [Reader.getSlice, Reader.isAligned, Reader.remaining, hl] at h
  · by_cases hc : n ≤ cap
    · have := Reads.getSlice (tail.take n) (n := n) (cap := cap) (by simp; omega) hc pre (tail.drop n)
      rw [List.take_append_drop] at this
      rw [this] at h
      simp only [Prod.mk.injEq, Res.ok.injEq] at h
      obtain ⟨rfl, rfl⟩ := h
      exact ⟨tail.take n, tail.drop n, by simp, rfl, rfl, by simp; omega, hc⟩
    · simp [Reader.getSlice, Reader.isAligned, Reader.remaining, hl, hc] at h

theorem getU16 : Inverts Reader.getU16 (fun bs a => bs = Spec.le 2 a.toNat) := by
  intro pre tail n r' h
  match tail with
  | [] => simp [Reader.getU16, Reader.isAligned, Reader.remaining] at h
  | [a] => simp [Reader.getU16, Reader.isAligned, Reader.remaining] at h
  | a :: b :: tail =>
    unfold Reader.getU16 at h
    rw [if_neg (by simp [Reader.isAligned]), if_neg (by simp [Reader.remaining])] at h
    simp only [Prod.mk.injEq, Res.ok.injEq] at h
    obtain ⟨h1, rfl⟩ := h
    refine ⟨[a, b], tail, rfl, rfl, ?_⟩
    have : List.take 2 (List.drop pre.length (pre ++ a :: b :: tail)) = [a, b] := by
      rw [List.drop_left]; rfl
    rw [← h1, this]; exact u16_le_ofNat.symm

theorem getU32 : Inverts Reader.getU32 (fun bs a => bs = Spec.le 4 a.toNat) := by
  intro pre tail n r' h
  match tail with
  | [] => simp [Reader.getU32, Reader.isAligned, Reader.remaining] at h
  | [a] => simp [Reader.getU32, Reader.isAligned, Reader.remaining] at h
  | [a, b] => simp [Reader.getU32, Reader.isAligned, Reader.remaining] at h
  | [a, b, c] => simp [Reader.getU32, Reader.isAligned, Reader.remaining] at h
  | a :: b :: c :: d :: tail =>
    unfold Reader.getU32 at h
    rw [if_neg (by simp [Reader.isAligned]), if_neg (by simp [Reader.remaining])] at h
    simp only [Prod.mk.injEq, Res.ok.injEq] at h
    obtain ⟨h1, rfl⟩ := h
    refine ⟨[a, b, c, d], tail, rfl, rfl, ?_⟩
    have : List.take 4 (List.drop pre.length (pre ++ a :: b :: c :: d :: tail)) = [a, b, c, d] := by
      rw [List.drop_left]; rfl
    rw [← h1, this]; exact u32_le_ofNat.symm

theorem getU24 : Inverts Reader.getU24 (fun bs n => bs = Spec.le 3 n ∧ n < 2 ^ 24) := by
  have h : Inverts (do
      let a ← Reader.getByte
      let b ← Reader.getByte
      let c ← Reader.getByte
      Pure.pure (Reader.fromLe [a, b, c])) (fun bs n => bs = Spec.le 3 n ∧ n < 2 ^ 24) := by
    refine (getByte.bind fun a => getByte.bind fun b => getByte.bind fun c => pure _).mono ?_
    rintro bs n ⟨_, _, a, rfl, rfl, _, _, b, rfl, rfl, _, _, c, rfl, rfl, rfl, rfl⟩
    refine ⟨u24_le.symm, ?_⟩
    have ha := a.toNat_lt; have hb := b.toNat_lt; have hc := c.toNat_lt
    simp [Reader.fromLe]; omega
  intro pre tail a r' hr
  unfold Reader.getU24 at hr
  rw [if_neg (by simp [Reader.isAligned])] at hr
  exact h pre tail a r' hr

/-- Starting a group of bit fields. -/
theorem start {n : Nat} {q : UInt8 → R α} {P : UInt8 → Bytes → α → Prop} (h : InvertsB 0 (Reader.getBits n >>= q) P) :
    Inverts (Reader.getBits n >>= q) (fun bs a => ∃ b cs, bs = b :: cs ∧ P b cs a) := by
  intro pre tail a r' hr
  cases tail with
  | nil =>
    obtain ⟨x, s, h1, _⟩ := M.bind_ok_inv hr
    simp [Reader.getBits, Reader.isEmpty] at h1
  | cons b tail =>
    obtain ⟨bs, rest, h1, h2, h3⟩ := h pre b tail a r' hr
    refine ⟨b :: bs, rest, by rw [h1]; rfl, ?_, b, bs, rfl, h3⟩
    rw [h2]; simp; omega

end Inverts

namespace InvertsB
variable {α β : Type}

theorem mono {bit : Nat} {p : R α} {P Q : UInt8 → Bytes → α → Prop} (hp : InvertsB bit p P) (h : ∀ b bs a, P b bs a → Q b bs a) :
    InvertsB bit p Q := by
  intro pre b tail a r' hr
  obtain ⟨bs, rest, h1, h2, h3⟩ := hp pre b tail a r' hr
  exact ⟨bs, rest, h1, h2, h _ _ _ h3⟩

theorem bits {bit n : Nat} {q : UInt8 → R α} {Q : UInt8 → UInt8 → Bytes → α → Prop} (hn : 1 ≤ n) (h8 : bit + n < 8)
    (hq : ∀ x, InvertsB (bit + n) (q x) (Q x)) :
    InvertsB bit (Reader.getBits n >>= q) (fun b bs a => Q (bitField b bit n) b bs a) := by
  intro pre b tail a r' hr
  have := getBits_run pre tail b bit n hn (by omega) (by omega)
  rw [if_neg (by omega)] at this
  rw [M.run_bind_ok this] at hr
  exact hq _ pre b tail a r' hr

theorem last {bit n : Nat} {q : UInt8 → R α} {Q : UInt8 → Bytes → α → Prop} (hn : 1 ≤ n) (h7 : n ≤ 7) (h8 : bit + n = 8)
    (hq : ∀ x, Inverts (q x) (Q x)) :
    InvertsB bit (Reader.getBits n >>= q) (fun b bs a => Q (bitField b bit n) bs a) := by
  intro pre b tail a r' hr
  have := getBits_run pre tail b bit n hn h7 (by omega)
  rw [if_pos h8] at this
  rw [M.run_bind_ok this] at hr
  have h2 : q (bitField b bit n) ⟨(pre ++ [b]) ++ tail, (pre ++ [b]).length, 0⟩ = (.ok a, r') := by
    rw [← hr]; simp
  obtain ⟨bs, rest, h1, h2, h3⟩ := hq _ (pre ++ [b]) tail a r' h2
  refine ⟨bs, rest, h1, ?_, h3⟩
  rw [h2]; simp

theorem guard {bit : Nat} {c : Prop} [Decidable c] {e : Err} {q : R α} {Q : UInt8 → Bytes → α → Prop} (hq : ¬ c → InvertsB bit q Q) :
    InvertsB bit (if c then M.fail e else q) (fun b bs a => ¬ c ∧ Q b bs a) := by
  intro pre b tail a r' h
  by_cases hc : c
  · rw [if_pos hc] at h; simp at h
  · rw [if_neg hc] at h
    obtain ⟨bs, rest, h1, h2, h3⟩ := hq hc pre b tail a r' h
    exact ⟨bs, rest, h1, h2, hc, h3⟩

theorem lift_bind {bit : Nat} {x : Res α} {q : α → R β} {Q : α → UInt8 → Bytes → β → Prop} (hq : ∀ a, InvertsB bit (q a) (Q a)) :
    InvertsB bit (M.lift x >>= q) (fun b bs y => ∃ a, x = .ok a ∧ Q a b bs y) := by
  intro pre b tail y r' h
  obtain ⟨a, s, h1, h2⟩ := M.bind_ok_inv h
  simp only [M.run_lift, Prod.mk.injEq] at h1
  obtain ⟨h1, rfl⟩ := h1
  obtain ⟨bs, rest, e1, e2, e3⟩ := hq a pre b tail y r' h2
  exact ⟨bs, rest, e1, e2, a, h1, e3⟩

end InvertsB

/-! ### The parsers -/

theorem fromBits8_inv {m b x : UInt8} {e : Err} (h : fromBits8 m b e = .ok x) : x = b ∧ b &&& ~~~m = 0 := by
  unfold fromBits8 at h; split at h
  · rename_i h'; simp at h; exact ⟨h.symm, h'⟩
  · simp at h
theorem fromBits16_inv {m b x : UInt16} {e : Err} (h : fromBits16 m b e = .ok x) : x = b ∧ b &&& ~~~m = 0 := by
  unfold fromBits16 at h; split at h
  · rename_i h'; simp at h; exact ⟨h.symm, h'⟩
  · simp at h
theorem fromBits32_inv {m b x : UInt32} {e : Err} (h : fromBits32 m b e = .ok x) : x = b ∧ b &&& ~~~m = 0 := by
  unfold fromBits32 at h; split at h
  · rename_i h'; simp at h; exact ⟨h.symm, h'⟩
  · simp at h

theorem fromBits32_low_inv {b m x : UInt32} {k : Nat} {e : Err} (hm : m.toNat = 2 ^ k - 1) (h : fromBits32 m b e = .ok x) :
    x = b ∧ b.toNat < 2 ^ k := by
  refine ⟨(fromBits32_inv h).1, ?_⟩
  by_contra hc
  rw [(fromBits32_low e hm).2 hc] at h
  simp at h

theorem fromBits16_low_inv {b m x : UInt16} {k : Nat} {e : Err} (hm : m.toNat = 2 ^ k - 1) (h : fromBits16 m b e = .ok x) :
    x = b ∧ b.toNat < 2 ^ k := by
  refine ⟨(fromBits16_inv h).1, ?_⟩
  by_contra hc
  rw [(fromBits16_low e hm).2 hc] at h
  simp at h

theorem setIndex_inv {α : Type} {l l' : List α} {i : Nat} {a : α} (h : setIndex l i a = .ok l') :
    i < l.length ∧ l' = l.set i a := by
  unfold setIndex at h; split at h
  · simp at h; exact ⟨by assumption, h.symm⟩
  · simp at h

theorem GetVersion.inverts : Inverts GetVersion.read (fun bs _ => bs = Wire.getVersion) := Inverts.skipReserved 2
theorem GetDigests.inverts : Inverts GetDigests.read (fun bs _ => bs = Wire.getDigests) := Inverts.skipReserved 2

theorem Version.inverts : Inverts Version.read (fun bs m => ∃ cs, bs = zeros 3 ++ [m.numEntries] ++ cs ∧ m.numEntries.toNat ≤ 2) := by
  have hl : ∀ n i es, Inverts (Version.readEntries n i es) (fun _ _ => True) := by
    intro n
    induction n with
    | zero => intro i es; exact (Inverts.pure _).mono (by simp)
    | succ n ih =>
      intro i es
      have he : Inverts Version.readEntry (fun _ _ => True) := by
        unfold Version.readEntry
        exact (Inverts.start (InvertsB.bits (by omega) (by omega) fun _ => InvertsB.last (by omega) (by omega) (by omega) fun _ =>
          Inverts.start (InvertsB.bits (by omega) (by omega) fun _ => InvertsB.last (by omega) (by omega) (by omega) fun _ =>
          Inverts.pure _))).mono (by simp)
      exact (he.bind fun _ => (Inverts.lift _).bind fun _ => ih _ _).mono (by simp)
  unfold Version.read
  refine ((Inverts.skipReserved 3).bind fun _ => Inverts.getByte.bind fun num => Inverts.guard fun _ => (hl _ _ _).bind fun _ =>
    Inverts.pure _).mono ?_
  rintro bs m ⟨_, _, _, rfl, rfl, _, _, n, rfl, rfl, hn, w, _, es, rfl, _, rfl, rfl⟩
  simp only [maxAllowedVersions] at hn
  exact ⟨w, by simp, by simp; omega⟩

theorem GetCapabilities.inverts : Inverts GetCapabilities.read
    (fun bs m => bs = Wire.getCapabilities m ∧ OnlyBits reqFlagBit m.flags.toNat) := by
  unfold GetCapabilities.read
  refine ((Inverts.skipReserved 3).bind fun _ => Inverts.getByte.bind fun ct => (Inverts.skipReserved 2).bind fun _ =>
    Inverts.getU32.bind fun _ => (Inverts.lift _).bind fun _ => Inverts.pure _).mono ?_
  rintro bs m ⟨_, _, _, rfl, rfl, _, _, ct, rfl, rfl, _, _, _, rfl, rfl, _, _, f, rfl, rfl, _, _, f', rfl, ⟨rfl, hf⟩, rfl, rfl⟩
  obtain ⟨rfl, hf⟩ := fromBits32_inv hf
  exact ⟨by simp [Wire.getCapabilities], (reqFlags_iff _).mp hf⟩

theorem Capabilities.inverts : Inverts Capabilities.read
    (fun bs m => bs = Wire.capabilities m ∧ OnlyBits rspFlagBit m.flags.toNat) := by
  unfold Capabilities.read
  refine ((Inverts.skipReserved 3).bind fun _ => Inverts.getByte.bind fun ct => (Inverts.skipReserved 2).bind fun _ =>
    Inverts.getU32.bind fun _ => (Inverts.lift _).bind fun _ => Inverts.pure _).mono ?_
  rintro bs m ⟨_, _, _, rfl, rfl, _, _, ct, rfl, rfl, _, _, _, rfl, rfl, _, _, f, rfl, rfl, _, _, f', rfl, ⟨rfl, hf⟩, rfl, rfl⟩
  obtain ⟨rfl, hf⟩ := fromBits32_inv hf
  exact ⟨by simp [Wire.capabilities], (rspFlags_iff _).mp hf⟩

theorem GetCertificate.inverts : Inverts GetCertificate.read (fun bs m => bs = Wire.getCertificate m) := by
  unfold GetCertificate.read
  refine (Inverts.getByte.bind fun _ => (Inverts.skipReserved 1).bind fun _ => Inverts.getU16.bind fun _ => Inverts.getU16.bind fun _ =>
    Inverts.pure _).mono ?_
  rintro bs m ⟨_, _, s, rfl, rfl, _, _, _, rfl, rfl, _, _, o, rfl, rfl, _, _, l, rfl, rfl, rfl, rfl⟩
  simp [Wire.getCertificate]

theorem Certificate.inverts (c : Cfg) : Inverts (Certificate.read c) (fun bs m => bs = Wire.certificate m ∧ CertificateWF c m) := by
  unfold Certificate.read
  refine (Inverts.getByte.bind fun _ => (Inverts.skipReserved 1).bind fun _ => Inverts.getU16.bind fun _ => Inverts.guard fun _ =>
    Inverts.getU16.bind fun _ => (Inverts.getSlice _ _).bind fun _ => Inverts.pure _).mono ?_
  rintro bs m ⟨_, _, s, rfl, rfl, _, _, _, rfl, rfl, _, _, p, rfl, rfl, hp, _, _, r, rfl, rfl, _, _, ch, rfl, ⟨rfl, hl, hc⟩, rfl, rfl⟩
  refine ⟨?_, ?_, ?_, ?_⟩
  · simp [Wire.certificate, ← hl, zeroPad]
  · simp [zeroPad]; omega
  · exact hc
  · simp [zeroPad, ← hl, zeros]

theorem Challenge.inverts (c : Cfg) : Inverts (Challenge.read c) (fun bs m => bs = Wire.challenge m ∧ m.nonce.length = c.nonceSize) := by
  unfold Challenge.read Nonce.read
  refine (Inverts.getByte.bind fun _ => Inverts.getByte.bind fun _ => (Inverts.lift _).bind fun _ => (Inverts.getSlice _ _).bind fun _ =>
    Inverts.pure _).mono ?_
  rintro bs m ⟨_, _, s, rfl, rfl, _, _, b, rfl, rfl, _, _, t, rfl, ⟨rfl, ht⟩, _, _, n, rfl, ⟨rfl, hn, _⟩, rfl, rfl⟩
  refine ⟨?_, hn⟩
  have : Wire.hashType t = b := by
    unfold MeasurementHashType.tryFrom at ht
    split at ht
    · simp at ht; subst ht; simp [Wire.hashType, *]
    · split at ht
      · simp at ht; subst ht; simp [Wire.hashType, *]
      · split at ht
        · simp at ht; subst ht; simp [Wire.hashType, *]
        · simp at ht
  simp [Wire.challenge, this]

end Spdm

import Verif.Spec.Wire
import Verif.Props.Encoding
/-! Writers produce the layouts, readers invert them: simple messages. -/
namespace Spdm
open Spec

theorem Writes.mono {α : Type} {p : W α} {f g : Nat → α} {bs : Bytes} (h : Writes p f bs)
    (hfg : ∀ n, f n = g n) : Writes p g bs := by
  have : f = g := funext hfg
  exact this ▸ h

theorem Writes.zeros (n : Nat) : Writes (Writer.putReserved n) id (Spec.zeros n) := Writes.putReserved n
theorem Writes.le16 (n : UInt16) : Writes (Writer.putU16 n) id (Spec.le 2 n.toNat) :=
  (Writes.putU16 n).congr (leBytes_eq _ _)
theorem Writes.le24 (n : Nat) : Writes (Writer.putU24 n) id (Spec.le 3 n) :=
  (Writes.putU24 n).congr (leBytes_eq _ _)
theorem Writes.le32 (n : UInt32) : Writes (Writer.putU32 n) id (Spec.le 4 n.toNat) :=
  (Writes.putU32 n).congr (leBytes_eq _ _)
theorem Reads.zeros (n : Nat) : Reads (Reader.skipReserved n) (Spec.zeros n) () := Reads.skipReserved n
theorem Reads.le16 (n : UInt16) : Reads Reader.getU16 (Spec.le 2 n.toNat) n :=
  (Reads.getU16 n).congr (leBytes_eq _ _)
theorem Reads.le24 (n : Nat) (h : n < 2 ^ 24) : Reads Reader.getU24 (Spec.le 3 n) n :=
  (Reads.getU24 n h).congr (leBytes_eq _ _)
theorem Reads.le32 (n : UInt32) : Reads Reader.getU32 (Spec.le 4 n.toNat) n :=
  (Reads.getU32 n).congr (leBytes_eq _ _)

@[simp] theorem le_length (k n : Nat) : (Spec.le k n).length = k := by simp [Spec.le]
@[simp] theorem zeros_length (n : Nat) : (Spec.zeros n).length = n := by simp [Spec.zeros]

theorem header_eq (t : MsgType) : Wire.header t = [t.spdmVersion] ++ ([t.spdmCode] ++ []) := by
  cases t <;> rfl

@[simp] theorem header_length (t : MsgType) : (Wire.header t).length = 2 := by cases t <;> rfl

theorem Writes.msg {t : MsgType} {body : W Nat} {f : Nat → Nat} {bs : Bytes} (h : Writes body f bs) :
    Writes (MsgType.writeMsg t body) f (Wire.header t ++ bs) := by
  have hh : Writes (MsgType.writeHeader t) id (Wire.header t) := by
    rw [header_eq]
    exact (Writes.put _).bind fun _ => (Writes.put _).congr (by simp)
  exact hh.bind fun _ => h

theorem travels_of {α : Type} {t : MsgType} {body : W Nat} {parse : Bytes → Res α} {layout : Bytes}
    {m : α} (hw : Writes body id layout) (hr : ∀ suf, parse (layout ++ suf) = .ok m) :
    Travels t body parse layout m := by
  refine ⟨?_, ?_, hr⟩
  · intro buf h
    have := (hw.msg (t := t) (Writer.new buf) (by simp [Writer.WF, Writer.new])).1
      (by simp [Writer.room, Writer.new]; omega)
    simp only [MsgType.write, this]
    simp [Writer.new, Writer.app, Nat.add_comm]
  · intro buf h
    obtain ⟨e, n, _, _, h3⟩ := (hw.msg (t := t) (Writer.new buf) (by simp [Writer.WF, Writer.new])).2
      (by simp [Writer.room, Writer.new]; omega)
    exact ⟨e, by simp [MsgType.write, h3]⟩

/-! ### Bit reads inside one byte -/

/-- `p`, started at bit `bit` of the byte `b` followed by `bs`, consumes the rest of that byte and `bs`. -/
def ReadsB {α : Type} (p : R α) (bit : Nat) (b : UInt8) (bs : Bytes) (a : α) : Prop :=
  ∀ pre suf : Bytes, p ⟨pre ++ b :: (bs ++ suf), pre.length, bit⟩ =
    (.ok a, ⟨pre ++ b :: (bs ++ suf), pre.length + 1 + bs.length, 0⟩)

theorem ReadsB.start {α : Type} {p : R α} {b : UInt8} {bs : Bytes} {a : α} (h : ReadsB p 0 b bs a) :
    Reads p (b :: bs) a := by
  intro pre suf
  have := h pre suf
  simp only [List.cons_append, List.length_cons]
  rw [this]
  simp only [Prod.mk.injEq, Reader.mk.injEq, true_and, and_true]; omega

theorem ReadsB.bits {α : Type} {q : UInt8 → R α} {bit n : Nat} {b : UInt8} {bs : Bytes} {a : α}
    (hn : 1 ≤ n) (h8 : bit + n < 8) (h : ReadsB (q (bitField b bit n)) (bit + n) b bs a) :
    ReadsB (Reader.getBits n >>= q) bit b bs a := by
  intro pre suf
  have := getBits_run pre (bs ++ suf) b bit n hn (by omega) (by omega)
  rw [if_neg (by omega)] at this
  rw [M.run_bind_ok this, h pre suf]

theorem ReadsB.last {α : Type} {q : UInt8 → R α} {bit n : Nat} {b : UInt8} {bs : Bytes} {a : α}
    (hn : 1 ≤ n) (h7 : n ≤ 7) (h8 : bit + n = 8) (h : Reads (q (bitField b bit n)) bs a) :
    ReadsB (Reader.getBits n >>= q) bit b bs a := by
  intro pre suf
  have := getBits_run pre (bs ++ suf) b bit n hn h7 (by omega)
  rw [if_pos h8] at this
  rw [M.run_bind_ok this]
  have h2 := h (pre ++ [b]) suf
  simp only [List.append_assoc, List.singleton_append, List.length_append, List.length_singleton] at h2
  exact h2

/-! ### Finite facts about bytes -/

theorem forall_u8 {P : UInt8 → Prop} (h : ∀ i : Fin 256, P (UInt8.ofNat i.val)) (b : UInt8) : P b := by
  have := h ⟨b.toNat, b.toNat_lt⟩
  simpa using this

theorem u8_lt16 {a : UInt8} (h : a < 16) : ∃ i : Fin 16, a = UInt8.ofNat i.val :=
  ⟨⟨a.toNat, by simpa [UInt8.lt_iff_toNat_lt] using h⟩, by simp⟩

theorem nibbles_lo {lo hi : UInt8} (h1 : lo < 16) (h2 : hi < 16) : bitField (Spec.nibbles lo hi) 0 4 = lo := by
  obtain ⟨i, rfl⟩ := u8_lt16 h1
  obtain ⟨j, rfl⟩ := u8_lt16 h2
  revert i j; decide +kernel

theorem nibbles_hi {lo hi : UInt8} (h1 : lo < 16) (h2 : hi < 16) : bitField (Spec.nibbles lo hi) 4 4 = hi := by
  obtain ⟨i, rfl⟩ := u8_lt16 h1
  obtain ⟨j, rfl⟩ := u8_lt16 h2
  revert i j; decide +kernel

theorem nibbles_or {lo hi : UInt8} (h1 : lo < 16) (h2 : hi < 16) : lo ||| (hi <<< 4) = Spec.nibbles lo hi := by
  obtain ⟨i, rfl⟩ := u8_lt16 h1
  obtain ⟨j, rfl⟩ := u8_lt16 h2
  revert i j; decide +kernel

/-! ### GET_VERSION, VERSION -/

theorem GetVersion.writes : Writes GetVersion.writeBody id Wire.getVersion := Writes.zeros 2
theorem GetVersion.reads : Reads GetVersion.read Wire.getVersion () := Reads.zeros 2

theorem Version.writesEntries (es : List VersionEntry)
    (h : ∀ e ∈ es, e.alpha < 16 ∧ e.update < 16 ∧ e.minor < 16 ∧ e.major < 16) :
    Writes (Version.writeEntries es) id (es.flatMap Wire.versionEntry) := by
  induction es with
  | nil => exact Writes.offsetM
  | cons e es ih =>
    obtain ⟨h1, h2, h3, h4⟩ := h e (by simp)
    refine Writes.congr ((Writes.put (e.alpha ||| (e.update <<< 4))).bind fun _ =>
      (Writes.put (e.minor ||| (e.major <<< 4))).bind fun _ => ih fun x hx => h x (by simp [hx])) ?_
    simp [Wire.versionEntry, nibbles_or, h1, h2, h3, h4]

theorem Version.writes {m : Version} (h : VersionWF m) : Writes m.writeBody id (Wire.version m) :=
  ((Writes.put 0).bind fun _ => (Writes.put 0).bind fun _ => (Writes.put 0).bind fun _ =>
    (Writes.put _).bind fun _ => Version.writesEntries _ h.nib).congr (by
      simp [Wire.version, Spec.zeros, List.replicate])

theorem Version.readsEntry {e : VersionEntry} (h1 : e.alpha < 16) (h2 : e.update < 16)
    (h3 : e.minor < 16) (h4 : e.major < 16) : Reads Version.readEntry (Wire.versionEntry e) e := by
  refine ReadsB.start (ReadsB.bits (by omega) (by omega) (ReadsB.last (by omega) (by omega) (by omega)
    (ReadsB.start (ReadsB.bits (by omega) (by omega) (ReadsB.last (by omega) (by omega) (by omega) ?_)))))
  rw [nibbles_lo h1 h2, nibbles_hi h1 h2, nibbles_lo h3 h4, nibbles_hi h3 h4]
  exact Reads.pure _

theorem setIndex_ok {α : Type} {l : List α} {i : Nat} {v : α} (h : i < l.length) :
    setIndex l i v = .ok (l.set i v) := by simp [setIndex, h]

/-- Generic "read `n` items into an array" loop. -/
theorem reads_array {α : Type} {loop : Nat → Nat → List α → R (List α)} {item : R α} {wire : α → Bytes}
    (h0 : ∀ i l, loop 0 i l = pure l)
    (hs : ∀ n i l, loop (n + 1) i l = (do let a ← item; let l ← M.lift (setIndex l i a); loop n (i + 1) l))
    (pre todo rest : List α) (hr : ∀ a ∈ todo, Reads item (wire a) a) (hl : rest.length = todo.length)
    (post : List α) :
    Reads (loop todo.length pre.length (pre ++ rest ++ post)) (todo.flatMap wire) (pre ++ todo ++ post) := by
  induction todo generalizing pre rest with
  | nil =>
    have : rest = [] := by simpa using hl
    subst this
    simp only [List.length_nil, h0]
    exact Reads.pure _
  | cons a as ih =>
    obtain ⟨r, rs, rfl⟩ : ∃ r rs, rest = r :: rs := by
      cases rest with
      | nil => simp at hl
      | cons r rs => exact ⟨r, rs, rfl⟩
    simp only [List.length_cons, hs, List.flatMap_cons]
    refine (hr a (by simp)).bind (Reads.lift_bind (setIndex_ok (by simp)) ?_)
    have := ih (pre ++ [a]) rs (fun x hx => hr x (by simp [hx])) (by simpa using hl)
    simpa using this

/-- The list splits at the number of used entries and the unused ones are all `d`. -/
theorem split_used {α : Type} {l : List α} {n k : Nat} {d : α} (hl : l.length = k) (hn : n ≤ k)
    (hu : ∀ i a, l[i]? = some a → n ≤ i → a = d) :
    l = l.take n ++ List.replicate (k - n) d := by
  conv => lhs; rw [← List.take_append_drop n l]
  congr 1
  apply List.ext_getElem?
  intro i
  by_cases hi : i < k - n
  · rw [List.getElem?_drop, List.getElem?_replicate, if_pos hi]
    have : n + i < l.length := by omega
    rw [List.getElem?_eq_getElem this]
    congr 1
    exact hu (n + i) _ (List.getElem?_eq_getElem this) (by omega)
  · rw [List.getElem?_eq_none (by simp; omega), List.getElem?_eq_none (by simp; omega)]

/-- Reading `n` used items into an array initialised with `d` yields the array. -/
theorem reads_used {α : Type} {loop : Nat → Nat → List α → R (List α)} {item : R α} {wire : α → Bytes}
    (h0 : ∀ i l, loop 0 i l = pure l)
    (hs : ∀ n i l, loop (n + 1) i l = (do let a ← item; let l ← M.lift (setIndex l i a); loop n (i + 1) l))
    {l : List α} {n k : Nat} {d : α} (hl : l.length = k) (hn : n ≤ k)
    (hu : ∀ i a, l[i]? = some a → n ≤ i → a = d)
    (hr : ∀ a ∈ l.take n, Reads item (wire a) a) :
    Reads (loop n 0 (List.replicate k d)) ((l.take n).flatMap wire) l := by
  have := reads_array h0 hs [] (l.take n) (List.replicate n d) hr (by simp; omega) (List.replicate (k - n) d)
  simp only [List.nil_append, List.length_nil, List.length_take, List.replicate_append_replicate] at this
  rw [show min n l.length = n by omega, show n + (k - n) = k by omega, ← split_used hl hn hu] at this
  exact this

theorem Version.reads {m : Version} (h : VersionWF m) (suf : Bytes) :
    Version.parseBody (Wire.version m ++ suf) = .ok m := by
  have hr : Reads Version.read (Spec.zeros 3 ++ ([m.numEntries] ++
      ((m.entries.take m.numEntries.toNat).flatMap Wire.versionEntry ++ []))) m := by
    refine (Reads.zeros 3).bind ((Reads.getByte _).bind ?_)
    rw [if_neg (by have := h.num; simp [maxAllowedVersions]; omega)]
    refine Reads.bind (a := m.entries) (reads_used (fun _ _ => rfl) (fun _ _ _ => rfl) h.len h.num h.unused ?_)
      (Reads.pure _)
    intro e he
    obtain ⟨h1, h2, h3, h4⟩ := h.nib e (List.mem_of_mem_take he)
    exact Version.readsEntry h1 h2 h3 h4
  have := hr.parse ((m.entries.drop m.numEntries.toNat).flatMap Wire.versionEntry ++ suf)
  unfold Version.parseBody
  rw [← this]
  congr 3
  simp only [Wire.version, List.append_nil, List.append_assoc]
  congr 2
  rw [← List.append_assoc, ← List.flatMap_append, List.take_append_drop]

/-! ### Flag words -/

theorem and_not_eq_zero32 (b m : UInt32) :
    b &&& ~~~m = 0 ↔ ∀ i, b.toNat.testBit i = true → m.toNat.testBit i = true := by
  rw [← UInt32.toNat_inj, UInt32.toNat_and]
  have hm : (~~~m).toNat = 2 ^ 32 - (m.toNat + 1) := by
    have := m.toNat_lt
    rw [UInt32.toNat_not]; simp [UInt32.size]
  have hb := b.toNat_lt
  rw [hm]
  constructor
  · intro h i hi
    have := congrArg (fun n => n.testBit i) h
    simp only [Nat.testBit_and, hi, Bool.true_and, Nat.testBit_two_pow_sub_succ m.toNat_lt] at this
    simp at this
    apply this
    by_contra hc
    rw [Nat.testBit_lt_two_pow (Nat.lt_of_lt_of_le hb (Nat.pow_le_pow_right (by omega) (by omega)))] at hi
    exact absurd hi (by simp)
  · intro h
    apply Nat.eq_of_testBit_eq
    intro i
    rw [Nat.testBit_and, Nat.testBit_two_pow_sub_succ m.toNat_lt]
    by_cases hi : b.toNat.testBit i = true
    · simp [h i hi]
    · simp [hi]

theorem and_not_eq_zero16 (b m : UInt16) :
    b &&& ~~~m = 0 ↔ ∀ i, b.toNat.testBit i = true → m.toNat.testBit i = true := by
  rw [← UInt16.toNat_inj, UInt16.toNat_and]
  have hm : (~~~m).toNat = 2 ^ 16 - (m.toNat + 1) := by
    have := m.toNat_lt
    rw [UInt16.toNat_not]; simp [UInt16.size]
  have hb := b.toNat_lt
  rw [hm]
  constructor
  · intro h i hi
    have := congrArg (fun n => n.testBit i) h
    simp only [Nat.testBit_and, hi, Bool.true_and, Nat.testBit_two_pow_sub_succ m.toNat_lt] at this
    simp at this
    apply this
    by_contra hc
    rw [Nat.testBit_lt_two_pow (Nat.lt_of_lt_of_le hb (Nat.pow_le_pow_right (by omega) (by omega)))] at hi
    exact absurd hi (by simp)
  · intro h
    apply Nat.eq_of_testBit_eq
    intro i
    rw [Nat.testBit_and, Nat.testBit_two_pow_sub_succ m.toNat_lt]
    by_cases hi : b.toNat.testBit i = true
    · simp [h i hi]
    · simp [hi]

theorem testBit_lt {n w i : Nat} (hn : n < 2 ^ w) (h : n.testBit i = true) : i < w := by
  by_contra hc
  rw [Nat.testBit_lt_two_pow (Nat.lt_of_lt_of_le hn (Nat.pow_le_pow_right (by omega) (by omega)))] at h
  exact absurd h (by simp)

theorem fromBits32_low {b m : UInt32} {k : Nat} (e : Err) (hm : m.toNat = 2 ^ k - 1) :
    (b.toNat < 2 ^ k → fromBits32 m b e = .ok b) ∧ (¬ b.toNat < 2 ^ k → fromBits32 m b e = .err e) := by
  have : b &&& ~~~m = 0 ↔ b.toNat < 2 ^ k := by
    rw [and_not_eq_zero32]
    constructor
    · intro h
      apply Nat.lt_pow_two_of_testBit
      intro i hi
      by_contra hc
      have := h i (by simpa using hc)
      rw [hm, Nat.testBit_two_pow_sub_one] at this
      simp at this; omega
    · intro h i hi
      rw [hm, Nat.testBit_two_pow_sub_one]
      simpa using testBit_lt h hi
  unfold fromBits32
  constructor
  · intro h; rw [if_pos (this.mpr h)]
  · intro h; rw [if_neg (fun h' => h (this.mp h'))]

theorem fromBits16_low {b m : UInt16} {k : Nat} (e : Err) (hm : m.toNat = 2 ^ k - 1) :
    (b.toNat < 2 ^ k → fromBits16 m b e = .ok b) ∧ (¬ b.toNat < 2 ^ k → fromBits16 m b e = .err e) := by
  have : b &&& ~~~m = 0 ↔ b.toNat < 2 ^ k := by
    rw [and_not_eq_zero16]
    constructor
    · intro h
      apply Nat.lt_pow_two_of_testBit
      intro i hi
      by_contra hc
      have := h i (by simpa using hc)
      rw [hm, Nat.testBit_two_pow_sub_one] at this
      simp at this; omega
    · intro h i hi
      rw [hm, Nat.testBit_two_pow_sub_one]
      simpa using testBit_lt h hi
  unfold fromBits16
  constructor
  · intro h; rw [if_pos (this.mpr h)]
  · intro h; rw [if_neg (fun h' => h (this.mp h'))]

theorem fromBits8_spec (b : UInt8) (e : Err) :
    fromBits8 measurementSpecDmtf b e = if b.toNat < 2 then .ok b else .err e := by
  unfold fromBits8
  congr 1
  revert b
  apply forall_u8
  decide +kernel

theorem reqFlags_iff (b : UInt32) : b &&& ~~~ReqFlags.all = 0 ↔ OnlyBits reqFlagBit b.toNat := by
  rw [and_not_eq_zero32]
  apply forall_congr'
  intro i
  by_cases hi : b.toNat.testBit i = true
  · have h32 : i < 32 := testBit_lt b.toNat_lt hi
    simp only [hi, true_implies]
    have : ∀ i : Fin 32, (ReqFlags.all.toNat.testBit i.val = true) ↔ (i.val = 1 ∨ i.val = 2 ∨ 6 ≤ i.val ∧ i.val ≤ 16) := by
      decide +kernel
    exact this ⟨i, h32⟩
  · simp [hi]

theorem rspFlags_iff (b : UInt32) : b &&& ~~~RspFlags.all = 0 ↔ OnlyBits rspFlagBit b.toNat := by
  rw [and_not_eq_zero32]
  apply forall_congr'
  intro i
  by_cases hi : b.toNat.testBit i = true
  · have h32 : i < 32 := testBit_lt b.toNat_lt hi
    simp only [hi, true_implies]
    have : ∀ i : Fin 32, (RspFlags.all.toNat.testBit i.val = true) ↔ (i.val ≤ 16) := by
      decide +kernel
    exact this ⟨i, h32⟩
  · simp [hi]

/-! ### Capabilities -/

theorem GetCapabilities.writes (m : GetCapabilities) : Writes m.writeBody id (Wire.getCapabilities m) :=
  Writes.congr ((Writes.zeros 3).bind fun _ => (Writes.put _).bind fun _ => (Writes.zeros 2).bind fun _ =>
    Writes.le32 _) (by simp [Wire.getCapabilities])

theorem GetCapabilities.reads {m : GetCapabilities} (h : OnlyBits reqFlagBit m.flags.toNat) :
    Reads GetCapabilities.read (Wire.getCapabilities m) m :=
  Reads.congr ((Reads.zeros 3).bind ((Reads.getByte _).bind ((Reads.zeros 2).bind ((Reads.le32 _).bind
    (Reads.lift_bind (by unfold fromBits32; rw [if_pos ((reqFlags_iff _).mpr h)]) (Reads.pure m))))))
    (by simp [Wire.getCapabilities])

theorem Capabilities.writes (m : Capabilities) : Writes m.writeBody id (Wire.capabilities m) :=
  Writes.congr ((Writes.zeros 3).bind fun _ => (Writes.put _).bind fun _ => (Writes.zeros 2).bind fun _ =>
    Writes.le32 _) (by simp [Wire.capabilities])

theorem Capabilities.reads {m : Capabilities} (h : OnlyBits rspFlagBit m.flags.toNat) :
    Reads Capabilities.read (Wire.capabilities m) m :=
  Reads.congr ((Reads.zeros 3).bind ((Reads.getByte _).bind ((Reads.zeros 2).bind ((Reads.le32 _).bind
    (Reads.lift_bind (by unfold fromBits32; rw [if_pos ((rspFlags_iff _).mpr h)]) (Reads.pure m))))))
    (by simp [Wire.capabilities])

/-! ### GET_DIGESTS, GET_CERTIFICATE, CERTIFICATE, CHALLENGE -/

theorem GetDigests.writes : Writes GetDigests.writeBody id Wire.getDigests := Writes.zeros 2
theorem GetDigests.reads : Reads GetDigests.read Wire.getDigests () := Reads.zeros 2

theorem GetCertificate.writes (m : GetCertificate) : Writes m.writeBody id (Wire.getCertificate m) :=
  Writes.congr ((Writes.put _).bind fun _ => (Writes.zeros 1).bind fun _ => (Writes.le16 _).bind fun _ =>
    Writes.le16 _) (by simp [Wire.getCertificate])

theorem GetCertificate.reads (m : GetCertificate) : Reads GetCertificate.read (Wire.getCertificate m) m :=
  Reads.congr ((Reads.getByte _).bind ((Reads.zeros 1).bind ((Reads.le16 _).bind ((Reads.le16 _).bind
    (Reads.pure m))))) (by simp [Wire.getCertificate])

theorem sliceTo_ok {α : Type} {l : List α} {n : Nat} (h : n ≤ l.length) : sliceTo l n = .ok (l.take n) := by
  simp [sliceTo, h]

theorem Certificate.writes {m : Certificate} (h : m.portionLength.toNat ≤ m.certChain.length) :
    Writes m.writeBody id (Wire.certificate m) :=
  Writes.congr ((Writes.put _).bind fun _ => (Writes.zeros 1).bind fun _ => (Writes.le16 _).bind fun _ =>
    (Writes.le16 _).bind fun _ => Writes.lift_bind (sliceTo_ok h) (Writes.extend _))
    (by simp [Wire.certificate])

theorem zeroPad_take {l : Bytes} {n k : Nat} (hl : l.length = k) (hn : n ≤ k)
    (hz : l.drop n = Spec.zeros (k - n)) : zeroPad k (l.take n) = l := by
  conv => rhs; rw [← List.take_append_drop n l, hz]
  simp [zeroPad, Spec.zeros, hl, Nat.min_eq_left hn]

theorem Certificate.reads {c : Cfg} {m : Certificate} (h : CertificateWF c m) :
    Reads (Certificate.read c) (Wire.certificate m) m := by
  have hp := h.portion
  refine Reads.congr ((Reads.getByte m.slot).bind ((Reads.zeros 1).bind ((Reads.le16 m.portionLength).bind
    (bs := Spec.le 2 m.portionLength.toNat) (cs := Spec.le 2 m.remainderLength.toNat ++
      (m.certChain.take m.portionLength.toNat ++ [])) (b := m) ?_)))
    (by simp [Wire.certificate])
  rw [if_neg (by omega)]
  refine (Reads.le16 _).bind ((Reads.getSlice _ ?_ hp).bind ?_)
  · simp [h.len]; omega
  · rw [zeroPad_take h.len hp h.zero]; exact Reads.pure m

theorem Challenge.writes (m : Challenge) : Writes m.writeBody id (Wire.challenge m) :=
  Writes.congr ((Writes.put _).bind fun _ => (Writes.put _).bind fun _ => Writes.extend _)
    (by cases m with | mk s t n => cases t <;> rfl)

theorem Challenge.reads {c : Cfg} {m : Challenge} (h : m.nonce.length = c.nonceSize) :
    Reads (Challenge.read c) (Wire.challenge m) m :=
  Reads.congr ((Reads.getByte _).bind ((Reads.getByte (Wire.hashType m.measurementHashType)).bind
    (Reads.lift_bind (a := m.measurementHashType) (by cases m.measurementHashType <;> rfl)
      ((Reads.getSlice m.nonce h (Nat.le_refl _)).bind (Reads.pure m)))))
    (by simp [Wire.challenge])

end Spdm

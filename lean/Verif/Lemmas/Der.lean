import Verif.Lemmas.Machine
import Verif.Spec.Der
/-! `bin_to_der` writes the DER encoding. -/
namespace Spdm
open Spec

theorem beVal_foldl (bs : Bytes) (n : Nat) : bs.foldl (fun n b => n * 256 + b.toNat) n = n * 256 ^ bs.length + beVal bs := by
  induction bs generalizing n with
  | nil => simp [beVal]
  | cons b bs ih =>
    simp only [beVal, List.foldl_cons, List.length_cons, Nat.zero_mul, Nat.zero_add]
    rw [ih, ih b.toNat]
    rw [Nat.pow_succ, Nat.add_mul, Nat.mul_assoc, Nat.mul_comm 256, Nat.add_assoc]

theorem beVal_cons (b : UInt8) (bs : Bytes) : beVal (b :: bs) = b.toNat * 256 ^ bs.length + beVal bs := by
  rw [beVal, List.foldl_cons, beVal_foldl]; simp

theorem beVal_zero_cons (bs : Bytes) : beVal (0 :: bs) = beVal bs := by rw [beVal_cons]; simp

theorem beVal_drop_zeros (bs : Bytes) (k : Nat) (h : ∀ i, i < k → ∀ b, bs[i]? = some b → b = 0) : beVal (bs.drop k) = beVal bs := by
  induction k generalizing bs with
  | zero => rfl
  | succ k ih =>
    cases bs with
    | nil => rfl
    | cons b bs =>
      have hb : b = 0 := h 0 (by omega) b rfl
      subst hb
      rw [List.drop_succ_cons, beVal_zero_cons]
      exact ih bs fun i hi b hb => h (i + 1) (by omega) b hb

/-- A zero value is all zeros. -/
theorem beVal_zero {bs : Bytes} : beVal bs = 0 ↔ ∀ b ∈ bs, b = 0 := by
  induction bs with
  | nil => simp [beVal]
  | cons b bs ih =>
    rw [beVal_cons]
    constructor
    · intro h
      have h1 : b.toNat * 256 ^ bs.length = 0 := by omega
      have h2 : beVal bs = 0 := by omega
      have hb : b.toNat = 0 := by
        rcases Nat.mul_eq_zero.mp h1 with h | h
        · exact h
        · exact absurd h (Nat.ne_of_gt (Nat.pow_pos (by omega)))
      intro x hx
      rcases List.mem_cons.mp hx with rfl | hx
      · exact UInt8.toNat_inj.mp hb
      · exact ih.mp h2 x hx
    · intro h
      rw [h b (by simp), ih.mpr fun x hx => h x (by simp [hx])]
      simp

/-- `f` writes `bs` at the offset, keeps what is before it, and returns the number of bytes. -/
def Puts (f : Bytes → Nat → Res (Bytes × Nat)) (bs : Bytes) : Prop :=
  ∀ out off, off + bs.length ≤ out.length → ∃ out', f out off = .ok (out', bs.length) ∧ out'.length = out.length ∧
    out'.take (off + bs.length) = out.take off ++ bs

theorem setIndex_puts {out : Bytes} {off : Nat} (v : UInt8) (h : off < out.length) :
    ∃ out', setIndex out off v = .ok out' ∧ out'.length = out.length ∧ out'.take (off + 1) = out.take off ++ [v] := by
  refine ⟨out.set off v, by unfold setIndex; rw [if_pos h], by simp, ?_⟩
  rw [List.take_add_one, List.take_set_of_le (by omega)]
  simp [h]

theorem copyAt_puts {out : Bytes} {off : Nat} (bs : Bytes) (h : off + bs.length ≤ out.length) :
    ∃ out', Pki.copyAt out off bs = .ok out' ∧ out'.length = out.length ∧ out'.take (off + bs.length) = out.take off ++ bs := by
  refine ⟨_, by unfold Pki.copyAt; rw [if_pos h], by simp; omega, ?_⟩
  rw [List.take_append_of_le_length (by simp; omega), List.take_of_length_le (by simp)]

theorem derLen_length (n : Nat) : (derLen n).length = Pki.derLength n := by
  unfold derLen Pki.derLength
  split
  · rfl
  · split <;> rfl

theorem ofNat_mod (n : Nat) : UInt8.ofNat (n % 256) = UInt8.ofNat n := by
  apply UInt8.toNat_inj.mp; simp

theorem writeDerLength_puts {n : Nat} (h : n < 65536) : Puts (fun out off => Pki.writeDerLength out off n) (derLen n) := by
  intro out off hr
  rw [derLen_length] at hr ⊢
  unfold Pki.derLength at hr ⊢
  unfold Pki.writeDerLength derLen
  by_cases h1 : n < 128
  · simp only [if_pos h1] at hr ⊢
    obtain ⟨o1, a1, a2, a3⟩ := setIndex_puts (out := out) (off := off) (UInt8.ofNat n) (by omega)
    exact ⟨o1, by rw [a1]; rfl, a2, a3⟩
  by_cases h2 : n < 256
  · simp only [if_neg h1, if_pos h2] at hr ⊢
    obtain ⟨o1, a1, a2, a3⟩ := setIndex_puts (out := out) (off := off) 0x81 (by omega)
    obtain ⟨o2, b1, b2, b3⟩ := setIndex_puts (out := o1) (off := off + 1) (UInt8.ofNat n) (by omega)
    exact ⟨o2, by rw [a1]; simp only [Res.ok_bind, b1]; rfl, by omega, by rw [show off + 2 = off + 1 + 1 by omega, b3, a3]; simp⟩
  · simp only [if_neg h1, if_neg h2, if_pos h] at hr ⊢
    obtain ⟨o1, a1, a2, a3⟩ := setIndex_puts (out := out) (off := off) 0x82 (by omega)
    obtain ⟨o2, b1, b2, b3⟩ := setIndex_puts (out := o1) (off := off + 1) (UInt8.ofNat (n / 256)) (by omega)
    obtain ⟨o3, d1, d2, d3⟩ := setIndex_puts (out := o2) (off := off + 2) (UInt8.ofNat (n % 256)) (by omega)
    exact ⟨o3, by rw [a1]; simp only [Res.ok_bind, b1, d1]; rfl, by omega,
      by rw [show off + 3 = off + 2 + 1 by omega, d3, show off + 2 = off + 1 + 1 by omega, b3, a3]; simp [ofNat_mod]⟩

theorem high_bit (b : UInt8) : b &&& 0x80 ≠ 0 ↔ 128 ≤ b.toNat := by
  have : ∀ n : Fin 256, (UInt8.ofNat n.val &&& 0x80 ≠ 0) ↔ 128 ≤ n.val := by decide +kernel
  have h := this ⟨b.toNat, b.toNat_lt⟩
  simpa using h

/-- The contents octets for the magnitude `i` (no leading zero). -/
def derContent (i : Bytes) : Bytes := if ∃ b, i[0]? = some b ∧ 128 ≤ b.toNat then 0 :: i else i

/-- The integer. -/
def derInteger (i : Bytes) : Bytes := [0x02] ++ derLen (derContent i).length ++ derContent i

theorem derContent_length {b : UInt8} {bs : Bytes} : (derContent (b :: bs)).length = bs.length + 1 + (if b &&& 0x80 ≠ 0 then 1 else 0) := by
  unfold derContent
  simp only [List.getElem?_cons_zero, Option.some.injEq, exists_eq_left', ← high_bit]
  split <;> simp

theorem integerToDer_puts {b : UInt8} {bs : Bytes} (h : (derContent (b :: bs)).length < 65536) :
    Puts (fun out off => Pki.integerToDer out off (b :: bs)) (derInteger (b :: bs)) := by
  intro out off hr
  have hl := derContent_length (b := b) (bs := bs)
  have hlen : (derInteger (b :: bs)).length = 1 + (derLen (derContent (b :: bs)).length).length + (derContent (b :: bs)).length := by simp [derInteger]; omega
  have hi : index (b :: bs) 0 = .ok b := rfl
  rw [hlen] at hr ⊢
  obtain ⟨o1, a1, a2, a3⟩ := setIndex_puts (out := out) (off := off) Pki.derTagInteger (by omega)
  obtain ⟨o2, b1, b2, b3⟩ := writeDerLength_puts h o1 (off + 1) (by omega)
  simp only at b1
  have hw : (bs.length + 1 + if b &&& 0x80 ≠ 0 then 1 else 0) = (derContent (b :: bs)).length := hl.symm
  by_cases hb : b &&& 0x80 ≠ 0
  · rw [if_pos hb] at hl
    have hc : derContent (b :: bs) = 0 :: b :: bs := by unfold derContent; rw [if_pos ⟨b, rfl, (high_bit b).mp hb⟩]
    obtain ⟨o3, d1, d2, d3⟩ := setIndex_puts (out := o2) (off := off + (1 + (derLen (derContent (b :: bs)).length).length)) 0 (by omega)
    obtain ⟨o4, e1, e2, e3⟩ := copyAt_puts (out := o3) (off := off + (1 + (derLen (derContent (b :: bs)).length).length + 1)) (b :: bs) (by simp only [List.length_cons]; omega)
    refine ⟨o4, ?_, by omega, ?_⟩
    · unfold Pki.integerToDer
      simp only [hi, Res.ok_bind, if_pos hb, a1, List.length_cons]
      rw [show bs.length + 1 + 1 = (derContent (b :: bs)).length by omega, b1]
      simp only [Res.ok_bind, if_true, d1, e1, Res.pure_eq, Res.ok.injEq, Prod.mk.injEq, true_and]
      omega
    · rw [show off + (1 + (derLen (derContent (b :: bs)).length).length + (derContent (b :: bs)).length) =
        off + (1 + (derLen (derContent (b :: bs)).length).length + 1) + (b :: bs).length by simp only [List.length_cons]; omega, e3,
        show off + (1 + (derLen (derContent (b :: bs)).length).length + 1) = off + (1 + (derLen (derContent (b :: bs)).length).length) + 1 by omega, d3,
        show off + (1 + (derLen (derContent (b :: bs)).length).length) = off + 1 + (derLen (derContent (b :: bs)).length).length by omega, b3, a3]
      unfold derInteger
      rw [hc]
      simp [Pki.derTagInteger]
  · have hb' := hb
    rw [if_neg hb] at hl
    have hc : derContent (b :: bs) = b :: bs := by
      unfold derContent; rw [if_neg]; simp only [List.getElem?_cons_zero, Option.some.injEq, exists_eq_left', ← high_bit]; exact hb
    obtain ⟨o4, e1, e2, e3⟩ := copyAt_puts (out := o2) (off := off + (1 + (derLen (derContent (b :: bs)).length).length)) (b :: bs) (by simp only [List.length_cons]; omega)
    refine ⟨o4, ?_, by omega, ?_⟩
    · unfold Pki.integerToDer
      simp only [hi, Res.ok_bind, if_neg hb, a1, List.length_cons]
      rw [show bs.length + 1 + 0 = (derContent (b :: bs)).length by omega, b1]
      simp only [Res.ok_bind, e1, Res.pure_eq, if_neg (show ¬ (0 = 1) by omega), List.length_cons]
    · rw [show off + (1 + (derLen (derContent (b :: bs)).length).length + (derContent (b :: bs)).length) =
        off + (1 + (derLen (derContent (b :: bs)).length).length) + (b :: bs).length by simp only [List.length_cons]; omega, e3,
        show off + (1 + (derLen (derContent (b :: bs)).length).length) = off + 1 + (derLen (derContent (b :: bs)).length).length by omega, b3, a3]
      unfold derInteger
      rw [hc]
      simp [Pki.derTagInteger]

/-- The magnitude without leading zeros. -/
theorem start_inv {i : Bytes} (h : beVal i ≠ 0) : ∃ k b rest, i.drop k = b :: rest ∧ b ≠ 0 ∧ beVal (b :: rest) = beVal i ∧
    Pki.getStartAndLength i = .ok (k, (derContent (b :: rest)).length) ∧ (b :: rest).length ≤ i.length := by
  rcases hf : i.findIdx? (fun b => b != 0) with _ | k
  · exfalso
    apply h
    rw [beVal_zero]
    intro b hb
    rw [List.findIdx?_eq_none_iff] at hf
    simpa using hf b hb
  · rw [List.findIdx?_eq_some_iff_getElem] at hf
    obtain ⟨hk, hne, hbefore⟩ := hf
    have hne' : i[k] ≠ 0 := by simpa using hne
    have hd : i.drop k = i[k] :: i.drop (k + 1) := List.drop_eq_getElem_cons hk
    refine ⟨k, i[k], i.drop (k + 1), hd, hne', ?_, ?_, ?_⟩
    · rw [← hd]
      refine beVal_drop_zeros i k ?_
      intro j hj b hb
      have hjl : j < i.length := by omega
      rw [List.getElem?_eq_getElem hjl] at hb
      simp only [Option.some.injEq] at hb
      have := hbefore j hj
      simp only [bne_iff_ne, ne_eq, Decidable.not_not] at this
      rw [← hb]; exact this
    · unfold Pki.getStartAndLength
      rw [show i.findIdx? (fun b => b != 0) = some k by
        rw [List.findIdx?_eq_some_iff_getElem]; exact ⟨hk, hne, hbefore⟩]
      simp only [index, List.getElem?_eq_getElem hk, Res.ok_bind, Res.pure_eq, Res.ok.injEq, Prod.mk.injEq, true_and]
      rw [derContent_length]
      simp only [List.length_drop]
      omega
    · rw [← hd]; simp

theorem derInteger_is {b : UInt8} {bs : Bytes} (hb : b ≠ 0) : IsDerInteger (derInteger (b :: bs)) (beVal (b :: bs)) := by
  refine ⟨derContent (b :: bs), rfl, ?_, ?_, ?_⟩
  · unfold derContent; split
    · exact beVal_zero_cons _
    · rfl
  · unfold derContent
    simp only [List.getElem?_cons_zero, Option.some.injEq, exists_eq_left']
    split
    · exact ⟨0, rfl, by decide⟩
    · exact ⟨b, rfl, by omega⟩
  · unfold derContent
    simp only [List.getElem?_cons_zero, Option.some.injEq, exists_eq_left']
    split
    · intro _; exact ⟨b, rfl, by assumption⟩
    · intro h0; simp at h0; exact absurd h0 hb

theorem derLength_mono {a b : Nat} (h : a ≤ b) : Pki.derLength a ≤ Pki.derLength b := by
  unfold Pki.derLength
  split <;> split <;> (try split) <;> (try split) <;> omega

/-- The whole encoding. -/
theorem binToDer_run {sig out : Bytes} (hr : rawR sig ≠ 0) (hs : rawS sig ≠ 0) (h16 : sig.length < 65000)
    (hroom : ∀ a b : Nat, a ≤ sig.length / 2 + 1 → b ≤ sig.length - sig.length / 2 + 1 →
      1 + Pki.derLength (2 + a + b + Pki.derLength a + Pki.derLength b) + (2 + a + b + Pki.derLength a + Pki.derLength b) ≤ out.length) :
    ∃ out' n, Pki.binToDer sig out = .ok (out', n) ∧ n ≤ out'.length ∧ IsDerSignature (out'.take n) (rawR sig) (rawS sig) := by
  obtain ⟨kr, br, rr, r1, r2, r3, r4, r5⟩ := start_inv hr
  obtain ⟨ks, bs, rs, s1, s2, s3, s4, s5⟩ := start_inv hs
  have lr := derContent_length (b := br) (bs := rr)
  have ls := derContent_length (b := bs) (bs := rs)
  have hp : ∀ b : UInt8, (if b &&& 0x80 ≠ 0 then 1 else 0 : Nat) ≤ 1 := by intro b; split <;> omega
  have := hp br; have := hp bs
  simp only [List.length_cons, List.length_take, List.length_drop] at r5 s5
  have hbr : (derContent (br :: rr)).length ≤ sig.length / 2 + 1 := by omega
  have hbs : (derContent (bs :: rs)).length ≤ sig.length - sig.length / 2 + 1 := by omega
  have hroom' := hroom _ _ hbr hbs
  have ir : (derInteger (br :: rr)).length = 1 + Pki.derLength (derContent (br :: rr)).length + (derContent (br :: rr)).length := by
    simp [derInteger, derLen_length]; omega
  have is : (derInteger (bs :: rs)).length = 1 + Pki.derLength (derContent (bs :: rs)).length + (derContent (bs :: rs)).length := by
    simp [derInteger, derLen_length]; omega
  have d3 : ∀ n, Pki.derLength n ≤ 3 := by intro n; unfold Pki.derLength; split <;> (try split) <;> omega
  have := d3 (derContent (br :: rr)).length; have := d3 (derContent (bs :: rs)).length
  have hbody : 2 + (derContent (br :: rr)).length + (derContent (bs :: rs)).length + Pki.derLength (derContent (br :: rr)).length + Pki.derLength (derContent (bs :: rs)).length
      = (derInteger (br :: rr) ++ derInteger (bs :: rs)).length := by simp only [List.length_append, ir, is]; omega
  rw [hbody] at hroom'
  have hL : (derInteger (br :: rr) ++ derInteger (bs :: rs)).length < 65536 := by simp only [List.length_append, ir, is]; omega
  simp only [← derLen_length] at hroom'
  have hLl : (derInteger (br :: rr) ++ derInteger (bs :: rs)).length = (derInteger (br :: rr)).length + (derInteger (bs :: rs)).length := List.length_append
  obtain ⟨o1, a1, a2, a3⟩ := setIndex_puts (out := out) (off := 0) Pki.derTagSequence (by omega)
  obtain ⟨o2, b1, b2, b3⟩ := writeDerLength_puts hL o1 1 (by omega)
  obtain ⟨o3, c1, c2, c3⟩ := integerToDer_puts (b := br) (bs := rr) (by omega) o2 (1 + (derLen (derInteger (br :: rr) ++ derInteger (bs :: rs)).length).length) (by omega)
  obtain ⟨o4, e1, e2, e3⟩ := integerToDer_puts (b := bs) (bs := rs) (by omega) o3 (1 + (derLen (derInteger (br :: rr) ++ derInteger (bs :: rs)).length).length + (derInteger (br :: rr)).length) (by omega)
  simp only at b1 c1 e1
  refine ⟨o4, 1 + (derLen (derInteger (br :: rr) ++ derInteger (bs :: rs)).length).length + (derInteger (br :: rr)).length + (derInteger (bs :: rs)).length, ?_, by omega, ?_⟩
  · unfold Pki.binToDer
    simp only [r4, s4, Res.ok_bind, a1, hbody, b1, r1, s1, c1, e1, Res.pure_eq]
  · refine ⟨derInteger (br :: rr), derInteger (bs :: rs), ?_, ?_, ?_⟩
    · rw [show rawR sig = beVal (br :: rr) from r3.symm]; exact derInteger_is r2
    · rw [show rawS sig = beVal (bs :: rs) from s3.symm]; exact derInteger_is s2
    · rw [e3, c3, b3, show (1 : Nat) = 0 + 1 by rfl, a3]
      simp [Pki.derTagSequence]

/-- A zero half aborts. -/
theorem binToDer_zero {sig out : Bytes} (h : rawR sig = 0 ∨ rawS sig = 0) : Pki.binToDer sig out = .panic .unwrapNone := by
  have key : ∀ {i : Bytes}, beVal i = 0 → Pki.getStartAndLength i = .panic .unwrapNone := by
    intro i hi
    unfold Pki.getStartAndLength
    rw [show i.findIdx? (fun b => b != 0) = none by
      rw [List.findIdx?_eq_none_iff]; intro b hb; simpa using (beVal_zero.mp hi) b hb]
  unfold Pki.binToDer
  by_cases hr : rawR sig = 0
  · simp [key (show beVal (sig.take (sig.length / 2)) = 0 from hr)]
  · obtain ⟨kr, br, rr, r1, r2, r3, r4, r5⟩ := start_inv hr
    have hs : rawS sig = 0 := by rcases h with h | h; exact absurd h hr; exact h
    simp [r4, key (show beVal (sig.drop (sig.length / 2)) = 0 from hs)]

/-! ### Success needs the room -/

theorem setIndex_room {out out' : Bytes} {off : Nat} {v : UInt8} (h : setIndex out off v = .ok out') : off < out.length ∧ out'.length = out.length := by
  unfold setIndex at h
  split at h
  · simp only [Res.ok.injEq] at h; subst h; simp; assumption
  · simp at h

theorem copyAt_room {out out' bs : Bytes} {off : Nat} (h : Pki.copyAt out off bs = .ok out') : off + bs.length ≤ out.length ∧ out'.length = out.length := by
  unfold Pki.copyAt at h
  split at h
  · simp only [Res.ok.injEq] at h; subst h; rename_i hh; refine ⟨hh, ?_⟩; simp; omega
  · simp at h

theorem writeDerLength_room {out out' : Bytes} {off n k : Nat} (h : Pki.writeDerLength out off n = .ok (out', k)) :
    off + Pki.derLength n ≤ out.length ∧ out'.length = out.length ∧ k = Pki.derLength n ∧ n < 65536 := by
  unfold Pki.writeDerLength at h
  unfold Pki.derLength
  split at h
  · obtain ⟨o1, e1, h⟩ := res_bind_ok h
    obtain ⟨a, b⟩ := setIndex_room e1
    simp only [Res.pure_eq, Res.ok.injEq, Prod.mk.injEq] at h
    obtain ⟨rfl, rfl⟩ := h
    (repeat' split) <;> refine ⟨?_, ?_, ?_, ?_⟩ <;> omega
  · split at h
    · obtain ⟨o1, e1, h⟩ := res_bind_ok h
      obtain ⟨o2, e2, h⟩ := res_bind_ok h
      obtain ⟨a, b⟩ := setIndex_room e1
      obtain ⟨a2, b2⟩ := setIndex_room e2
      simp only [Res.pure_eq, Res.ok.injEq, Prod.mk.injEq] at h
      obtain ⟨rfl, rfl⟩ := h
      (repeat' split) <;> refine ⟨?_, ?_, ?_, ?_⟩ <;> omega
    · split at h
      · obtain ⟨o1, e1, h⟩ := res_bind_ok h
        obtain ⟨o2, e2, h⟩ := res_bind_ok h
        obtain ⟨o3, e3, h⟩ := res_bind_ok h
        obtain ⟨a, b⟩ := setIndex_room e1
        obtain ⟨a2, b2⟩ := setIndex_room e2
        obtain ⟨a3, b3⟩ := setIndex_room e3
        simp only [Res.pure_eq, Res.ok.injEq, Prod.mk.injEq] at h
        obtain ⟨rfl, rfl⟩ := h
        (repeat' split) <;> refine ⟨?_, ?_, ?_, ?_⟩ <;> omega
      · simp at h

theorem integerToDer_room {b : UInt8} {bs out out' : Bytes} {off k : Nat} (h : Pki.integerToDer out off (b :: bs) = .ok (out', k)) :
    off + (derInteger (b :: bs)).length ≤ out.length ∧ out'.length = out.length ∧ k = (derInteger (b :: bs)).length ∧ (derContent (b :: bs)).length < 65536 := by
  have hl := derContent_length (b := b) (bs := bs)
  have hlen : (derInteger (b :: bs)).length = 1 + Pki.derLength (derContent (b :: bs)).length + (derContent (b :: bs)).length := by simp [derInteger, derLen_length]; omega
  unfold Pki.integerToDer at h
  rw [show index (b :: bs) 0 = .ok b from rfl] at h
  simp only [Res.ok_bind, List.length_cons] at h
  rw [← hl] at h
  obtain ⟨o1, e1, h⟩ := res_bind_ok h
  obtain ⟨⟨o2, n⟩, e2, h⟩ := res_bind_ok h
  obtain ⟨a1, b1⟩ := setIndex_room e1
  obtain ⟨a2, b2, c2, d2⟩ := writeDerLength_room e2
  subst c2
  by_cases hb : b &&& 0x80 ≠ 0
  · rw [if_pos hb] at hl
    rw [if_pos hb, if_pos rfl] at h
    obtain ⟨o3, e3, h⟩ := res_bind_ok h
    obtain ⟨o4, e4, h⟩ := res_bind_ok h
    obtain ⟨a3, b3⟩ := setIndex_room e3
    obtain ⟨a4, b4⟩ := copyAt_room e4
    simp only at a3 b3 a4 b4
    simp only [Res.pure_eq, Res.ok.injEq, Prod.mk.injEq] at h
    obtain ⟨rfl, rfl⟩ := h
    simp only [List.length_cons] at a4 b4
    refine ⟨by omega, by omega, by omega, d2⟩
  · rw [if_neg hb] at hl
    rw [if_neg hb, if_neg (by omega)] at h
    obtain ⟨o4, e4, h⟩ := res_bind_ok h
    obtain ⟨a4, b4⟩ := copyAt_room e4
    simp only [Res.pure_eq, Res.ok.injEq, Prod.mk.injEq] at h
    obtain ⟨rfl, rfl⟩ := h
    simp only [List.length_cons] at a4 b4
    refine ⟨by omega, by omega, by omega, d2⟩

/-- Whenever the encoder succeeds, in whatever buffer, it wrote the DER encoding. -/
theorem binToDer_inv {sig out out' : Bytes} {n : Nat} (h : Pki.binToDer sig out = .ok (out', n)) :
    n ≤ out'.length ∧ IsDerSignature (out'.take n) (rawR sig) (rawS sig) := by
  have hz : ¬ (rawR sig = 0 ∨ rawS sig = 0) := fun hz => by rw [binToDer_zero hz] at h; simp at h
  have hr : rawR sig ≠ 0 := fun e => hz (.inl e)
  have hs : rawS sig ≠ 0 := fun e => hz (.inr e)
  obtain ⟨kr, br, rr, r1, r2, r3, r4, r5⟩ := start_inv hr
  obtain ⟨ks, bs, rs, s1, s2, s3, s4, s5⟩ := start_inv hs
  have ir : (derInteger (br :: rr)).length = 1 + Pki.derLength (derContent (br :: rr)).length + (derContent (br :: rr)).length := by
    simp [derInteger, derLen_length]; omega
  have is : (derInteger (bs :: rs)).length = 1 + Pki.derLength (derContent (bs :: rs)).length + (derContent (bs :: rs)).length := by
    simp [derInteger, derLen_length]; omega
  have hbody : 2 + (derContent (br :: rr)).length + (derContent (bs :: rs)).length + Pki.derLength (derContent (br :: rr)).length + Pki.derLength (derContent (bs :: rs)).length
      = (derInteger (br :: rr) ++ derInteger (bs :: rs)).length := by simp only [List.length_append, ir, is]; omega
  unfold Pki.binToDer at h
  simp only [r4, s4, Res.ok_bind, hbody, r1, s1] at h
  obtain ⟨o1, e1, h⟩ := res_bind_ok h
  obtain ⟨⟨o2, n2⟩, e2, h⟩ := res_bind_ok h
  obtain ⟨⟨o3, n3⟩, e3, h⟩ := res_bind_ok h
  obtain ⟨⟨o4, n4⟩, e4, h⟩ := res_bind_ok h
  simp only [Res.pure_eq, Res.ok.injEq, Prod.mk.injEq] at h
  obtain ⟨rfl, rfl⟩ := h
  simp only at e3 e4
  obtain ⟨p1, q1⟩ := setIndex_room e1
  obtain ⟨p2, q2, rfl, l2⟩ := writeDerLength_room e2
  obtain ⟨p3, q3, rfl, l3⟩ := integerToDer_room e3
  obtain ⟨p4, q4, rfl, l4⟩ := integerToDer_room e4
  obtain ⟨o1', a1, a2, a3⟩ := setIndex_puts (out := out) (off := 0) Pki.derTagSequence (by omega)
  obtain rfl : o1' = o1 := by rw [a1] at e1; exact Res.ok.inj e1
  obtain ⟨o2', b1, b2, b3⟩ := writeDerLength_puts l2 o1' 1 (by rw [derLen_length]; omega)
  simp only at b1
  obtain rfl : o2' = o2 := by rw [b1] at e2; exact (Prod.mk.inj (Res.ok.inj e2)).1
  obtain ⟨o3', c1, c2, c3⟩ := integerToDer_puts l3 o2' _ p3
  simp only at c1
  obtain rfl : o3' = o3 := by rw [c1] at e3; exact (Prod.mk.inj (Res.ok.inj e3)).1
  obtain ⟨o4', d1, d2, d3⟩ := integerToDer_puts l4 o3' _ p4
  simp only at d1
  obtain rfl : o4' = o4 := by rw [d1] at e4; exact (Prod.mk.inj (Res.ok.inj e4)).1
  refine ⟨by omega, derInteger (br :: rr), derInteger (bs :: rs), ?_, ?_, ?_⟩
  · rw [show rawR sig = beVal (br :: rr) from r3.symm]; exact derInteger_is r2
  · rw [show rawS sig = beVal (bs :: rs) from s3.symm]; exact derInteger_is s2
  · rw [d3, c3, ← derLen_length, b3, show (1 : Nat) = 0 + 1 by rfl, a3]
    simp [Pki.derTagSequence]

theorem beVal_lt (bs : Bytes) : beVal bs < 256 ^ bs.length := by
  induction bs with
  | nil => simp [beVal]
  | cons b bs ih =>
    rw [beVal_cons, List.length_cons, Nat.pow_succ]
    have := b.toNat_lt
    have h : b.toNat * 256 ^ bs.length ≤ 255 * 256 ^ bs.length := Nat.mul_le_mul_right _ (by omega)
    omega

theorem beVal_inj : ∀ {a b : Bytes}, a.length = b.length → beVal a = beVal b → a = b
  | [], [], _, _ => rfl
  | x :: xs, y :: ys, hl, hv => by
    have hl' : xs.length = ys.length := by simpa using hl
    rw [beVal_cons, beVal_cons, hl'] at hv
    have h1 := beVal_lt xs
    have h2 := beVal_lt ys
    rw [hl'] at h1
    have hp : 0 < 256 ^ ys.length := Nat.pow_pos (by omega)
    have e1 : (x.toNat * 256 ^ ys.length + beVal xs) / 256 ^ ys.length = x.toNat := by
      rw [Nat.mul_comm, Nat.mul_add_div hp, Nat.div_eq_of_lt h1]; rfl
    have e2 : (y.toNat * 256 ^ ys.length + beVal ys) / 256 ^ ys.length = y.toNat := by
      rw [Nat.mul_comm, Nat.mul_add_div hp, Nat.div_eq_of_lt h2]; rfl
    have hx : x.toNat = y.toNat := by rw [← e1, ← e2, hv]
    rw [UInt8.toNat_inj.mp hx, beVal_inj hl' (by rw [hx] at hv; omega)]

/-- The length of minimal contents is determined by the value. -/
theorem content_bounds {content : Bytes} (h1 : ∃ b, content[0]? = some b ∧ b.toNat < 128) (h2 : content[0]? = some 0 → ∃ b, content[1]? = some b ∧ 128 ≤ b.toNat) :
    256 ^ content.length ≤ 512 * beVal content ∧ 2 * beVal content < 256 ^ content.length := by
  obtain ⟨b, hb, hlt⟩ := h1
  match content, hb with
  | b' :: rest, hb =>
    simp only [List.getElem?_cons_zero, Option.some.injEq] at hb
    subst hb
    have hr := beVal_lt rest
    rw [beVal_cons, List.length_cons, Nat.pow_succ]
    by_cases h0 : b' = 0
    · subst h0
      obtain ⟨b2, hb2, hge⟩ := h2 rfl
      match rest, hb2 with
      | b3 :: rest, hb2 =>
        simp only [List.getElem?_cons_succ, List.getElem?_cons_zero, Option.some.injEq] at hb2
        subst hb2
        rw [beVal_cons, List.length_cons, Nat.pow_succ] at *
        have : 128 * 256 ^ rest.length ≤ b3.toNat * 256 ^ rest.length := Nat.mul_le_mul_right _ hge
        simp only [UInt8.toNat_zero, Nat.zero_mul, Nat.zero_add]
        omega
    · have hpos : 1 ≤ b'.toNat := by
        rcases Nat.eq_zero_or_pos b'.toNat with h | h
        · exact absurd (UInt8.toNat_inj.mp (by simpa using h)) h0
        · exact h
      have g1 : 1 * 256 ^ rest.length ≤ b'.toNat * 256 ^ rest.length := Nat.mul_le_mul_right _ hpos
      have g2 : b'.toNat * 256 ^ rest.length ≤ 127 * 256 ^ rest.length := Nat.mul_le_mul_right _ (by omega)
      omega

theorem isDerInteger_unique {a b : Bytes} {n : Nat} (ha : IsDerInteger a n) (hb : IsDerInteger b n) : a = b := by
  obtain ⟨x, rfl, vx, x1, x2⟩ := ha
  obtain ⟨y, rfl, vy, y1, y2⟩ := hb
  have hx := content_bounds x1 x2
  have hy := content_bounds y1 y2
  rw [vx] at hx
  rw [vy] at hy
  have key : ∀ m k : Nat, 256 ^ m ≤ 512 * n → 2 * n < 256 ^ k → m ≤ k := by
    intro m k h1 h2
    have : 256 ^ m < 256 ^ (k + 1) := by rw [Nat.pow_succ]; omega
    have := (Nat.pow_lt_pow_iff_right (by omega : 1 < 256)).mp this
    omega
  have hl : x.length = y.length := Nat.le_antisymm (key _ _ hx.1 hy.2) (key _ _ hy.1 hx.2)
  rw [beVal_inj hl (vx.trans vy.symm)]

end Spdm

import Verif.Lemmas.Chain
import Verif.Lemmas.Inv3
/-! Whatever the certificate chain parser accepts is a well-formed chain. -/
namespace Spdm
open Spec

theorem Inverts.bind_ok {α β : Type} {p : R α} {q : α → R β} {P : Bytes → α → Prop} (hp : Inverts p P) {pre tail : Bytes} {b : β} {r'' : Reader}
    (h : (p >>= q) ⟨pre ++ tail, pre.length, 0⟩ = (.ok b, r'')) :
    ∃ a b1 rest, tail = b1 ++ rest ∧ P b1 a ∧ q a ⟨pre ++ b1 ++ rest, (pre ++ b1).length, 0⟩ = (.ok b, r'') := by
  obtain ⟨a, r', h1, h2⟩ := M.bind_ok_inv h
  obtain ⟨b1, rest1, e1, e2, e3⟩ := hp pre tail a r' h1
  subst e2
  exact ⟨a, b1, rest1, e1, e3, by rw [← h2, e1]; simp⟩

namespace CertificateChain

theorem short_iff (n : UInt8) : n &&& 0x80 = 0 → n.toNat < 128 := by
  revert n; apply forall_u8; decide +kernel

theorem readCertSize_inverts : Inverts readCertSize (fun bs p =>
    bs = [0x30] ++ derLen p.1 ∧ p.2 = bs.length ∧ p.1 < 65536) := by
  unfold readCertSize
  refine (Inverts.getByte.bind fun tag => Inverts.ite (P := fun bs (p : Nat × Nat) => tag = 0x30 ∧ ∃ n b2, bs = [n] ++ b2 ∧ [n] ++ b2 = derLen p.1 ∧ p.2 = 2 + b2.length ∧ p.1 < 65536)
      (fun _ => (Inverts.die _).mono (by simp)) fun ht => (Inverts.getByte.bind
    (Q := fun (n : UInt8) bs (p : Nat × Nat) => [n] ++ bs = derLen p.1 ∧ p.2 = 2 + bs.length ∧ p.1 < 65536) fun n => ?_).mono ?_).mono ?_
  · refine Inverts.ite (fun h => (Inverts.pure _).mono ?_) fun h => Inverts.ite (fun h1 => ?_) fun _ => Inverts.ite (fun h2 => ?_) fun _ =>
      (Inverts.fail _).mono (by simp)
    · rintro bs p ⟨rfl, rfl⟩
      have := short_iff n h
      refine ⟨?_, by simp, by simp; omega⟩
      simp [derLen, this]
    · subst h1
      refine (Inverts.getByte.bind fun m => Inverts.guard fun _ => Inverts.pure _).mono ?_
      rintro bs p ⟨_, _, m, rfl, rfl, hm, rfl, rfl⟩
      rw [UInt8.lt_iff_toNat_lt] at hm
      have := m.toNat_lt
      have h128 : (128 : UInt8).toNat = 128 := rfl
      refine ⟨?_, by simp, by simp; omega⟩
      simp only [derLen]
      rw [if_neg (by omega), if_pos (by omega)]
      simp
    · subst h2
      refine (Inverts.getByte.bind fun hi => Inverts.getByte.bind fun lo => Inverts.guard fun _ => Inverts.pure _).mono ?_
      rintro bs p ⟨_, _, hi, rfl, rfl, _, _, lo, rfl, rfl, hm, rfl, rfl⟩
      have h1 := hi.toNat_lt
      have h2 := lo.toNat_lt
      have hv : hi.toNat <<< 8 ||| lo.toNat = hi.toNat * 256 + lo.toNat := by
        rw [← Nat.shiftLeft_add_eq_or_of_lt (by omega), Nat.shiftLeft_eq]
      rw [hv] at hm ⊢
      refine ⟨?_, by simp, by simp; omega⟩
      simp only [derLen]
      rw [if_neg (by omega), if_neg (by omega), show (hi.toNat * 256 + lo.toNat) / 256 = hi.toNat by omega]
      have : UInt8.ofNat (hi.toNat * 256 + lo.toNat) = lo := by
        rw [← UInt8.toNat_inj, UInt8.toNat_ofNat']; omega
      rw [this]
      simp
  · rintro bs p ⟨_, b2, n, rfl, rfl, h1, h2, h3⟩
    exact ⟨not_not.mp ht, n, b2, rfl, h1, h2, h3⟩
  · rintro bs p ⟨_, _, tag, rfl, rfl, rfl, n, b2, rfl, h1, h2, h3⟩
    refine ⟨by simp [← h1], by simp [h2]; omega, h3⟩

theorem parseLoop_inv (c : Cfg) (fuel : Nat) : ∀ (pre tail : Bytes) (done : List Bytes) (certs : List Bytes) (off : Nat) (r' : Reader),
    done.length ≤ c.maxCertChainDepth →
    parseLoop c (pre ++ tail) fuel done ⟨pre ++ tail, pre.length, 0⟩ = (.ok (certs, off), r') →
    ∃ inter leaf, tail = inter.flatten ++ leaf ∧ certs = done ++ inter ∧ off = (pre ++ inter.flatten).length ∧
      certs.length ≤ c.maxCertChainDepth ∧ (∀ x ∈ inter, IsSequence x) ∧ IsSequence leaf := by
  induction fuel with
  | zero => intro pre tail done certs off r' _ h; simp [parseLoop] at h
  | succ fuel ih =>
    intro pre tail done certs off r' hd h
    unfold parseLoop at h
    rw [M.run_bind_ok (M.run_get _)] at h
    obtain ⟨⟨len, hs⟩, H, rest, rfl, ⟨hH, hHl, hlt⟩, h⟩ := readCertSize_inverts.bind_ok h
    simp only at hH hHl hlt h
    rw [M.run_bind_ok (M.run_get _)] at h
    have hrem : (⟨pre ++ (H ++ rest), (pre ++ H).length, 0⟩ : Reader).remaining = rest.length := by
      simp [Reader.remaining]; omega
    simp only [hrem, List.append_assoc] at h
    split at h
    · simp at h
    split at h
    · rename_i _ heq
      simp only [M.run_pure, Prod.mk.injEq, Res.ok.injEq] at h
      obtain ⟨⟨rfl, rfl⟩, _⟩ := h
      refine ⟨[], H ++ rest, by simp, by simp, by simp, hd, by simp, rest, by omega, ?_⟩
      rw [hH, heq]
    split at h
    · simp at h
    rename_i hgt hne hdep
    obtain ⟨cert, r2, h2, h⟩ := M.bind_ok_inv h
    obtain ⟨g2, rfl⟩ := M.lift_inv h2
    have hsl : slice (pre ++ (H ++ rest)) pre.length (pre.length + len + hs) = .ok (H ++ rest.take len) := by
      rw [slice, if_pos ⟨by omega, by simp; omega⟩, List.drop_left,
        show pre.length + len + hs - pre.length = H.length + len by omega, List.take_length_add_append]
    rw [hsl, Res.ok.injEq] at g2
    subst g2
    obtain ⟨_, r3, h3, h⟩ := M.bind_ok_inv h
    have hrl : rest = rest.take len ++ rest.drop len := (List.take_append_drop _ _).symm
    have htl : (rest.take len).length = len := by simp; omega
    have hsk : Reader.skipIgnored len ⟨pre ++ (H ++ rest), (pre ++ H).length, 0⟩ =
        (.ok (), ⟨(pre ++ H ++ rest.take len) ++ rest.drop len, (pre ++ H ++ rest.take len).length, 0⟩) := by
      have := Reads.skipIgnored (rest.take len) (pre ++ H) (rest.drop len)
      rw [htl] at this
      simpa [htl, Nat.add_assoc] using this
    rw [hsk] at h3
    simp only [Prod.mk.injEq] at h3
    obtain ⟨_, rfl⟩ := h3
    have hbuf : pre ++ (H ++ rest) = (pre ++ H ++ rest.take len) ++ rest.drop len := by simp
    rw [hbuf] at h
    obtain ⟨inter, leaf, k1, k2, k3, k4, k5, k6⟩ := ih _ _ _ _ _ _ (by simp; omega) h
    refine ⟨(H ++ rest.take len) :: inter, leaf, ?_, ?_, ?_, k4, ?_, k6⟩
    · simp [← k1]
    · simp [k2]
    · rw [k3]; simp
    · intro x hx
      simp only [List.mem_cons] at hx
      rcases hx with rfl | hx
      · exact ⟨rest.take len, by omega, by rw [htl, hH]⟩
      · exact k5 x hx

theorem parse_inv {c : Cfg} {ds : Nat} {buf : Bytes} {ch : CertificateChain} (h : parse c buf ds = .ok ch) :
    ChainWF c ds ch ∧ buf = Wire.chain ch := by
  unfold parse at h
  obtain ⟨r', h⟩ : ∃ r', read c buf ds (Reader.new buf) = (.ok ch, r') := ⟨_, Prod.ext h rfl⟩
  unfold read at h
  change (Reader.getU16 >>= _) ⟨[] ++ buf, ([] : Bytes).length, 0⟩ = _ at h
  obtain ⟨n, L, t1, hb1, hL, h⟩ := Inverts.getU16.bind_ok h
  rw [M.ite_run] at h
  split at h
  · simp at h
  rename_i hn
  rw [not_not] at hn
  obtain ⟨_, Z, t2, rfl, hZ, h⟩ := (Inverts.skipReserved 2).bind_ok h
  rw [M.run_bind_ok (M.run_get _)] at h
  simp only at h
  obtain ⟨_, root, t3, rfl, hroot, h⟩ := (Inverts.skipIgnored ds).bind_ok h
  obtain ⟨rh, r4, h4, h⟩ := M.bind_ok_inv h
  obtain ⟨g4, rfl⟩ := M.lift_inv h4
  have hbuf : buf = (L ++ Z ++ root) ++ t3 := by rw [hb1]; simp
  have hLl : L.length = 2 := by rw [hL]; simp
  have hZl : Z.length = 2 := by rw [hZ]; simp [zeros]
  have h4' : slice buf ([] ++ L ++ Z).length (([] ++ L ++ Z).length + ds) = .ok root := by
    rw [slice, if_pos ⟨by omega, by rw [hbuf]; simp [hroot]; omega⟩, hbuf, List.nil_append, List.append_assoc (L ++ Z), List.drop_left,
      show (L ++ Z).length + ds - (L ++ Z).length = root.length by omega, List.take_left]
  rw [h4', Res.ok.injEq] at g4
  subst g4
  obtain ⟨⟨certs, off⟩, r5, h5, hA⟩ := M.bind_ok_inv h
  simp only at hA
  simp only [List.nil_append] at h5
  rw [hbuf] at h5
  obtain ⟨inter, leaf, rfl, k2, k3, k4, k5, k6⟩ := parseLoop_inv c _ _ _ _ _ _ _ (by simp) h5
  obtain ⟨lf, r6, h6, hB⟩ := M.bind_ok_inv hA
  have g6 := (M.lift_inv h6).1
  have h6' : sliceFrom buf off = .ok leaf := by
    rw [sliceFrom, if_pos (by rw [k3, hbuf]; simp), k3, hbuf, ← List.append_assoc, List.drop_left]
  rw [h6', Res.ok.injEq] at g6
  subst g6
  simp only [M.run_pure, Prod.mk.injEq, Res.ok.injEq] at hB
  obtain ⟨rfl, _⟩ := hB
  simp only [List.nil_append] at k2
  subst k2
  have hbl : buf.length = 4 + (root ++ certs.flatten ++ leaf).length := by
    rw [hbuf]; simp [hLl, hZl]; omega
  have := n.toNat_lt
  refine ⟨⟨hroot, k4, k5, k6, by simp only; omega⟩, ?_⟩
  simp only [Wire.chain]
  rw [← hbl, ← hn, ← hL, ← hZ]
  conv => lhs; rw [hbuf]
  simp
end CertificateChain
end Spdm

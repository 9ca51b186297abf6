import Verif.Lemmas.Msgs4
/-! Writers and readers of certificate chains. -/
namespace Spdm
open Spec

theorem foldl_len (l : List Bytes) (n : Nat) :
    l.foldl (fun acc x => acc + x.length) n = n + l.flatten.length := by
  induction l generalizing n with
  | nil => simp
  | cons a as ih => simp only [List.foldl_cons, ih, List.flatten_cons, List.length_append]; omega

theorem M.run_lift_ok {σ α : Type} {x : Res α} {a : α} {s : σ} (h : x = .ok a) : (M.lift x : M σ α) s = (.ok a, s) := by
  rw [M.run_lift, h]

namespace CertificateChain

theorem wireLength_eq (ch : CertificateChain) :
    ch.wireLength = 4 + (ch.rootHash ++ ch.intermediateCerts.flatten ++ ch.leafCert).length := by
  simp only [wireLength, foldl_len, List.length_append]; omega

theorem writesCerts (l : List Bytes) : Writes (writeCerts l) id l.flatten := by
  induction l with
  | nil => exact Writes.offsetM
  | cons a as ih =>
    simp only [writeCerts, List.flatten_cons]
    exact (Writes.extend a).bind fun _ => ih

theorem writes {ch : CertificateChain} (h : (Wire.chain ch).length ≤ 65535) : Writes ch.write id (Wire.chain ch) := by
  have hw := wireLength_eq ch
  have hl : (Wire.chain ch).length = ch.wireLength := by
    rw [hw, Wire.chain]; simp [zeros]; omega
  unfold write
  rw [if_neg (by omega)]
  refine Writes.congr ((Writes.le16 _).bind fun _ => (Writes.zeros 2).bind fun _ => (Writes.extend _).bind fun _ =>
    (writesCerts _).bind fun _ => (Writes.extend _).bind fun _ => Writes.offsetM) ?_
  rw [ofNat_toNat16 (by omega), hw]
  simp [Wire.chain]

/-- Reading the DER header of a sequence. -/
theorem readsCertSize {content : Bytes} (h : content.length < 65536) :
    Reads readCertSize ([0x30] ++ derLen content.length) (content.length, ([0x30] ++ derLen content.length).length) := by
  unfold readCertSize
  refine (Reads.getByte _).bind ?_
  rw [if_neg (by decide)]
  generalize content.length = n at h
  unfold derLen
  by_cases h1 : n < 128
  · rw [if_pos h1]
    have hn : (UInt8.ofNat n).toNat = n := by rw [UInt8.toNat_ofNat']; exact Nat.mod_eq_of_lt (by omega)
    refine Reads.congr (bs := [UInt8.ofNat n] ++ []) ((Reads.getByte _).bind ?_) (by simp)
    rw [if_pos (by
      rw [← UInt8.toNat_inj]
      simp only [UInt8.toNat_and, hn]
      have : n &&& 128 = 0 := by
        apply Nat.eq_of_testBit_eq
        intro i
        rw [Nat.testBit_and, show 128 = 2 ^ 7 by rfl, Nat.testBit_two_pow, Nat.zero_testBit]
        by_cases hi : 7 = i
        · subst hi
          rw [Nat.testBit_lt_two_pow (by omega)]; rfl
        · simp [hi]
      exact this), hn]
    exact Reads.pure _
  · rw [if_neg h1]
    by_cases h2 : n < 256
    · rw [if_pos h2]
      have hn : (UInt8.ofNat n).toNat = n := by rw [UInt8.toNat_ofNat']; exact Nat.mod_eq_of_lt (by omega)
      refine Reads.congr (bs := [0x81] ++ ([UInt8.ofNat n] ++ [])) ((Reads.getByte _).bind ?_) (by simp)
      rw [if_neg (by decide), if_pos rfl]
      refine (Reads.getByte _).bind ?_
      rw [if_neg (by rw [UInt8.lt_iff_toNat_lt, hn]; simpa using h1), hn]
      exact Reads.pure _
    · rw [if_neg h2]
      have hh : (UInt8.ofNat (n / 256)).toNat = n / 256 := by rw [UInt8.toNat_ofNat']; exact Nat.mod_eq_of_lt (by omega)
      have hl : (UInt8.ofNat n).toNat = n % 256 := by rw [UInt8.toNat_ofNat']
      refine Reads.congr (bs := [0x82] ++ ([UInt8.ofNat (n / 256)] ++ ([UInt8.ofNat n] ++ []))) ((Reads.getByte _).bind ?_) (by simp)
      rw [if_neg (by decide), if_neg (by decide), if_pos rfl]
      refine (Reads.getByte _).bind ((Reads.getByte _).bind ?_)
      have hv : (UInt8.ofNat (n / 256)).toNat <<< 8 ||| (UInt8.ofNat n).toNat = n := by
        rw [hh, hl, ← Nat.shiftLeft_add_eq_or_of_lt (by omega), Nat.shiftLeft_eq]; omega
      simp only [hv]
      rw [if_neg (by omega)]
      exact Reads.pure _

/-- The certificate walk on a buffer that ends with a list of sequences. -/
theorem parseLoop_run (c : Cfg) (pre : Bytes) (done inter : List Bytes) (leaf : Bytes) (fuel : Nat)
    (hfuel : inter.length < fuel) (hdepth : done.length + inter.length ≤ c.maxCertChainDepth)
    (hi : ∀ x ∈ inter, IsSequence x) (hleaf : IsSequence leaf) :
    ∃ r, parseLoop c (pre ++ inter.flatten ++ leaf) fuel done ⟨pre ++ inter.flatten ++ leaf, pre.length, 0⟩ =
      (.ok (done ++ inter, (pre ++ inter.flatten).length), r) := by
  induction inter generalizing pre done fuel with
  | nil =>
    obtain ⟨fuel, rfl⟩ : ∃ f, fuel = f + 1 := ⟨fuel - 1, by simp at hfuel; omega⟩
    obtain ⟨content, hc, rfl⟩ := hleaf
    have := readsCertSize hc pre content
    simp only [List.flatten_nil, List.append_nil]
    simp only [List.append_assoc] at this ⊢
    refine ⟨⟨pre ++ ([0x30] ++ (derLen content.length ++ content)), pre.length + ([0x30] ++ derLen content.length).length, 0⟩, ?_⟩
    unfold parseLoop
    rw [M.run_bind_ok (M.run_get _)]
    dsimp only
    rw [M.run_bind_ok this]
    dsimp only
    rw [M.run_bind_ok (M.run_get _)]
    have hrem : (⟨pre ++ ([0x30] ++ (derLen content.length ++ content)), pre.length + ([0x30] ++ derLen content.length).length, 0⟩ : Reader).remaining = content.length := by
      simp [Reader.remaining]; omega
    rw [hrem, if_neg (by omega), if_pos rfl]
    rfl
  | cons x xs ih =>
    obtain ⟨fuel, rfl⟩ : ∃ f, fuel = f + 1 := ⟨fuel - 1, by omega⟩
    obtain ⟨content, hc, rfl⟩ := hi x (by simp)
    obtain ⟨lc, hlc, hleq⟩ := id hleaf
    have hlpos : 0 < leaf.length := by rw [hleq]; simp
    have hrd := readsCertSize hc pre (content ++ xs.flatten ++ leaf)
    generalize hX : [0x30] ++ derLen content.length = H at hrd ⊢
    obtain ⟨r, hr⟩ := ih (pre ++ (H ++ content)) (done ++ [H ++ content]) fuel (by simpa using hfuel)
      (by simp at hdepth ⊢; omega) (fun y hy => hi y (by simp [hy]))
    refine ⟨r, ?_⟩
    simp only [List.flatten_cons, List.append_assoc] at hrd hr ⊢
    unfold parseLoop
    rw [M.run_bind_ok (M.run_get _)]
    dsimp only
    rw [M.run_bind_ok hrd]
    dsimp only
    rw [M.run_bind_ok (M.run_get _)]
    generalize hB : pre ++ (H ++ (content ++ (xs.flatten ++ leaf))) = B at hr ⊢
    have hBl : B.length = pre.length + H.length + content.length + xs.flatten.length + leaf.length := by
      rw [← hB]; simp only [List.length_append]; omega
    have hrem : (⟨B, pre.length + H.length, 0⟩ : Reader).remaining = content.length + xs.flatten.length + leaf.length := by
      simp only [Reader.remaining]; omega
    rw [hrem, if_neg (by omega), if_neg (by omega), if_neg (by simp at hdepth; omega)]
    have hsl : slice B pre.length (pre.length + content.length + H.length) = .ok (H ++ content) := by
      rw [slice, if_pos ⟨by omega, by omega⟩, ← hB, List.drop_left,
        show pre.length + content.length + H.length - pre.length = (H ++ content).length by simp; omega,
        ← List.append_assoc, List.take_left]
    rw [M.run_bind_ok (M.run_lift_ok hsl)]
    have hsk : Reader.skipIgnored content.length ⟨B, pre.length + H.length, 0⟩ = (.ok (), ⟨B, pre.length + H.length + content.length, 0⟩) := by
      have := Reads.skipIgnored content (pre ++ H) (xs.flatten ++ leaf)
      simp only [List.append_assoc, List.length_append, hB] at this
      exact this
    rw [M.run_bind_ok hsk]
    simp only [List.length_append, List.append_assoc] at hr ⊢
    rw [Nat.add_assoc] at *
    simpa using hr

theorem parse_chain {c : Cfg} {ds : Nat} {ch : CertificateChain} (h : ChainWF c ds ch) :
    parse c (Wire.chain ch) ds = .ok ch := by
  have hsz := h.size
  obtain ⟨root, inter, leaf⟩ := ch
  simp only at hsz
  have hroot : root.length = ds := h.root
  generalize hBB : Wire.chain ⟨root, inter, leaf⟩ = B
  have hLen : B.length = 4 + (root ++ inter.flatten ++ leaf).length := by
    rw [← hBB, Wire.chain]; simp [zeros]; omega
  have hn : (UInt16.ofNat B.length).toNat = B.length := ofNat_toNat16 (by omega)
  have hB : B = Spec.le 2 (UInt16.ofNat B.length).toNat ++ (Spec.zeros 2 ++ (root ++ (inter.flatten ++ leaf))) := by
    rw [hn, hLen, ← hBB]; simp [Wire.chain]
  generalize hL : Spec.le 2 (UInt16.ofNat B.length).toNat = L at hB
  have hLl : L.length = 2 := by rw [← hL]; simp
  have hil : inter.length ≤ inter.flatten.length := by
    have : ∀ l : List Bytes, (∀ x ∈ l, IsSequence x) → l.length ≤ l.flatten.length := by
      intro l
      induction l with
      | nil => simp
      | cons a as ih =>
        intro hh
        obtain ⟨ct, _, hct⟩ := hh a (by simp)
        have := ih fun x hx => hh x (by simp [hx])
        have h0 : 0 < a.length := by rw [hct]; simp
        simp only [List.flatten_cons, List.length_append, List.length_cons]; omega
    exact this _ h.inter
  obtain ⟨r, hr⟩ := parseLoop_run c (L ++ (Spec.zeros 2 ++ root)) [] inter leaf (B.length + 1)
    (by simp only [List.length_append] at hLen; omega) (by simpa using h.depth) h.inter h.leaf
  have e1 : L ++ (Spec.zeros 2 ++ root) ++ inter.flatten ++ leaf = B := by rw [hB]; simp
  rw [e1] at hr
  have s1 : Reader.getU16 (Reader.new B) = (.ok (UInt16.ofNat B.length), ⟨B, 2, 0⟩) := by
    have := Reads.le16 (UInt16.ofNat B.length) [] (Spec.zeros 2 ++ (root ++ (inter.flatten ++ leaf)))
    rw [hL] at this
    simp only [List.nil_append, List.length_nil, hLl, ← hB] at this
    exact this
  have s2 : Reader.skipReserved 2 ⟨B, 2, 0⟩ = (.ok (), ⟨B, 4, 0⟩) := by
    have := Reads.zeros 2 L (root ++ (inter.flatten ++ leaf))
    rw [← hB] at this
    simpa [hLl, zeros] using this
  have s3 : Reader.skipIgnored ds ⟨B, 4, 0⟩ = (.ok (), ⟨B, 4 + ds, 0⟩) := by
    have := Reads.skipIgnored root (L ++ Spec.zeros 2) (inter.flatten ++ leaf)
    simp only [List.append_assoc, ← hB] at this
    simpa [hLl, zeros, hroot] using this
  have hlen2 : 4 + ds ≤ B.length := by simp only [List.length_append] at hLen; omega
  have s4 : slice B 4 (4 + ds) = .ok root := by
    rw [slice, if_pos ⟨by omega, hlen2⟩]
    congr 1
    rw [hB, ← List.append_assoc, show (4 : Nat) = (L ++ Spec.zeros 2).length by simp [hLl, zeros], List.drop_left,
      show (L ++ Spec.zeros 2).length + ds - (L ++ Spec.zeros 2).length = root.length by omega, List.take_left]
  have hp : (L ++ (Spec.zeros 2 ++ root)).length = 4 + ds := by simp [hLl, zeros, hroot]; omega
  rw [hp] at hr
  have s5 : sliceFrom B ((L ++ (Spec.zeros 2 ++ root)) ++ inter.flatten).length = .ok leaf := by
    have : B.drop ((L ++ (Spec.zeros 2 ++ root)) ++ inter.flatten).length = leaf := by
      rw [← e1, List.drop_left]
    rw [sliceFrom, if_pos (by rw [← e1]; simp only [List.length_append]; omega), this]
  unfold parse read
  rw [M.run_bind_ok s1, if_neg (by rw [hn]; simp), M.run_bind_ok s2, M.run_bind_ok (M.run_get _)]
  dsimp only
  rw [M.run_bind_ok s3, M.run_bind_ok (M.run_lift_ok s4), M.run_bind_ok hr]
  dsimp only
  rw [M.run_bind_ok (M.run_lift_ok s5)]
  rfl

end CertificateChain
end Spdm

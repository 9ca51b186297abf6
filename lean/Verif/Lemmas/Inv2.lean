import Verif.Lemmas.Inv
/-! What a successful read says: array-valued messages. -/
namespace Spdm
open Spec

theorem M.lift_inv {σ α : Type} {x : Res α} {a : α} {s s' : σ} (h : (M.lift x : M σ α) s = (.ok a, s')) : x = .ok a ∧ s' = s := by
  simp only [M.run_lift, Prod.mk.injEq] at h; exact ⟨h.1, h.2.symm⟩

theorem M.pure_inv {σ α : Type} {a b : α} {s s' : σ} (h : (Pure.pure a : M σ α) s = (.ok b, s')) : b = a ∧ s' = s := by
  simp only [M.run_pure, Prod.mk.injEq, Res.ok.injEq] at h; exact ⟨h.1.symm, h.2.symm⟩

/-- An array-reading loop. -/
theorem inverts_array {α : Type} {loop : Nat → Nat → List α → R (List α)} {item : R α} {chk : α → Res Unit}
    {Wr : Bytes → α → Prop}
    (h0 : ∀ i l, loop 0 i l = pure l)
    (hs : ∀ n i l, loop (n + 1) i l = (do
      let a ← item
      let l ← M.lift (setIndex l i a)
      let _ ← M.lift (chk a)
      loop n (i + 1) l))
    (hi : Inverts item Wr) (n i : Nat) (l : List α) (hil : i ≤ l.length) :
    Inverts (loop n i l) (fun bs l' => ∃ xs : List (Bytes × α), xs.length = n ∧ i + n ≤ l.length ∧
      bs = (xs.map Prod.fst).flatten ∧ (∀ x ∈ xs, Wr x.1 x.2 ∧ chk x.2 = .ok ()) ∧
      l' = l.take i ++ xs.map Prod.snd ++ l.drop (i + n)) := by
  induction n generalizing i l with
  | zero =>
    rw [h0]
    refine (Inverts.pure _).mono ?_
    rintro bs _ ⟨rfl, rfl⟩
    exact ⟨[], rfl, by omega, rfl, by simp, by simp⟩
  | succ n ih =>
    intro pre tail l' r' hr
    rw [hs] at hr
    obtain ⟨a, r1, hr1, hr⟩ := M.bind_ok_inv hr
    obtain ⟨l1, r2, hr2, hr⟩ := M.bind_ok_inv hr
    obtain ⟨u, r3, hr3, hr⟩ := M.bind_ok_inv hr
    obtain ⟨hset, hrr⟩ := M.lift_inv hr2
    obtain ⟨hchk, hrr3⟩ := M.lift_inv hr3
    rw [hrr3, hrr] at hr
    obtain ⟨hlt, rfl⟩ := setIndex_inv hset
    obtain ⟨b1, rest1, e1, e2, e3⟩ := hi pre tail a _ hr1
    have hr' : loop n (i + 1) (l.set i a) ⟨(pre ++ b1) ++ rest1, (pre ++ b1).length, 0⟩ = (.ok l', r') := by
      rw [← hr, e2, e1, List.append_assoc, List.length_append]
    obtain ⟨b2, rest2, g1, g2, xs, k1, k2, k3, k4, k5⟩ := ih (i + 1) (l.set i a) (by simp; omega) (pre ++ b1) rest1 l' r' hr'
    simp only [List.length_set] at k2
    refine ⟨b1 ++ b2, rest2, by rw [e1, g1]; simp, by rw [g2, e1]; simp; omega, (b1, a) :: xs, by simp [k1], by omega, by simp [k3],
      ?_, ?_⟩
    · intro x hx
      rcases List.mem_cons.mp hx with rfl | hx
      · exact ⟨e3, hchk⟩
      · exact k4 x hx
    · rw [k5]
      have h1 : (l.set i a).take (i + 1) = l.take i ++ [a] := by
        rw [List.take_succ_eq_append_getElem (by simpa using hlt), List.take_set_of_le (Nat.le_refl i)]
        simp
      have h2 : (l.set i a).drop (i + 1 + n) = l.drop (i + (n + 1)) := by
        rw [List.drop_set_of_lt (by omega)]; congr 1; omega
      rw [h1, h2]; simp

theorem algMask (k : AlgKind) : k.mask.toNat = 2 ^ algBits k - 1 := by cases k <;> rfl

theorem ofType_inv {b : UInt8} {k : AlgKind} (h : AlgKind.ofType b = some k) : b = Wire.algType k := by
  unfold AlgKind.ofType at h
  split at h
  · simp at h; subst h; simp [Wire.algType, *]
  · split at h
    · simp at h; subst h; simp [Wire.algType, *]
    · split at h
      · simp at h; subst h; simp [Wire.algType, *]
      · split at h
        · simp at h; subst h; simp [Wire.algType, *]
        · simp at h

/-- An algorithm structure: type byte, count byte (fixed count 2), the bits, ignored external algorithms. -/
def AlgBytes (bs : Bytes) (a : AlgorithmRequest) : Prop :=
  a.supported.toNat < 2 ^ algBits a.kind ∧ ∃ b ext, bs = [Wire.algType a.kind, b] ++ Spec.le 2 a.supported.toNat ++ ext ∧
    bitField b 4 4 = 2 ∧ ext.length = 4 * (bitField b 0 4).toNat

theorem AlgorithmRequest.inverts : Inverts AlgorithmRequest.read AlgBytes := by
  unfold AlgorithmRequest.read
  refine (Inverts.getByte.bind (Q := fun ty bs a => AlgBytes ([ty] ++ bs) a) fun ty => ?_).mono ?_
  · cases hk : AlgKind.ofType ty with
    | none => exact (Inverts.fail _).mono (by simp)
    | some k =>
      refine (Inverts.start (InvertsB.bits (by omega) (by omega) fun x => InvertsB.last (by omega) (by omega) (by omega) fun y =>
        Inverts.guard fun _ => Inverts.getU16.bind fun s => (Inverts.lift _).bind fun s' => (Inverts.skipIgnored _).bind fun _ =>
        Inverts.pure _)).mono ?_
      rintro bs a ⟨b, cs, rfl, hc, _, _, s, rfl, rfl, _, _, s', rfl, ⟨rfl, hs⟩, w, _, _, rfl, hl, rfl, rfl⟩
      obtain ⟨rfl, hlt⟩ := fromBits16_low_inv (algMask k) hs
      refine ⟨hlt, b, w, ?_, ?_, hl⟩
      · simp [ofType_inv hk]
      · cases k <;> simpa [AlgKind.fixedAlgCount] using hc
  · rintro bs a ⟨b1, b2, ty, rfl, rfl, h⟩
    exact h

theorem spec_inv {b x : UInt8} {e : Err} (h : fromBits8 measurementSpecDmtf b e = .ok x) : x = b ∧ b.toNat < 2 := by
  rw [fromBits8_spec] at h
  split at h
  · simp at h; exact ⟨h.symm, by assumption⟩
  · simp at h

theorem array_parts {α : Type} {xs : List α} {d : α} {n k : Nat} (hl : xs.length = n) (hn : n ≤ k) :
    let l := (List.replicate k d).take 0 ++ xs ++ (List.replicate k d).drop (0 + n)
    l.length = k ∧ l.take n = xs ∧ ∀ i a, l[i]? = some a → n ≤ i → a = d := by
  simp only [List.take_zero, List.nil_append, Nat.zero_add, List.drop_replicate]
  refine ⟨by simp; omega, by rw [← hl]; simp, ?_⟩
  intro i a h hi
  rw [List.getElem?_append_right (by omega), List.getElem?_replicate] at h
  split at h
  · simp at h; exact h.symm
  · simp at h

theorem NegotiateAlgorithms.inverts : Inverts NegotiateAlgorithms.read (fun bs m => NegotiateWF m ∧
    ∃ len ea eh cs, bs = [m.numAlgorithmRequests] ++ zeros 1 ++ Spec.le 2 len ++ [m.measurementSpec] ++ zeros 1 ++
      Spec.le 4 m.baseAsymAlgo.toNat ++ Spec.le 4 m.baseHashAlgo.toNat ++ zeros 12 ++ [ea, eh] ++ zeros 2 ++ cs) := by
  unfold NegotiateAlgorithms.read
  refine (Inverts.getByte.bind fun num => Inverts.guard fun _ => (Inverts.skipReserved 1).bind fun _ => Inverts.getU16.bind fun len =>
    Inverts.guard fun _ => Inverts.getByte.bind fun spec => (Inverts.lift _).bind fun spec' => (Inverts.skipReserved 1).bind fun _ =>
    Inverts.getU32.bind fun asym => (Inverts.lift _).bind fun asym' => Inverts.getU32.bind fun hash => (Inverts.lift _).bind fun hash' =>
    (Inverts.skipReserved 12).bind fun _ => Inverts.getByte.bind fun ea => Inverts.getByte.bind fun eh => (Inverts.skipReserved 2).bind fun _ =>
    (Inverts.skipIgnored _).bind fun _ => (Inverts.skipIgnored _).bind fun _ =>
    (inverts_array (chk := fun _ => .ok ()) (fun _ _ => rfl) (fun _ _ _ => rfl) (AlgorithmRequest.inverts.mapErr _) _ 0 _ (by simp)).bind fun _ =>
    Inverts.pure _).mono ?_
  rintro bs m ⟨_, _, num, rfl, rfl, hnum, _, _, _, rfl, rfl, _, _, len, rfl, rfl, hlen, _, _, spec, rfl, rfl, _, _, spec', rfl, ⟨rfl, hspec⟩,
    _, _, _, rfl, rfl, _, _, asym, rfl, rfl, _, _, asym', rfl, ⟨rfl, hasym⟩, _, _, hash, rfl, rfl, _, _, hash', rfl, ⟨rfl, hhash⟩,
    _, _, _, rfl, rfl, _, _, ea, rfl, rfl, _, _, eh, rfl, rfl, _, _, _, rfl, rfl, w1, _, _, rfl, _, w2, _, _, rfl, _,
    w3, _, rs, rfl, ⟨xs, k1, k2, k3, k4, k5⟩, rfl, rfl⟩
  obtain ⟨rfl, hs⟩ := spec_inv hspec
  obtain ⟨rfl, ha⟩ := fromBits32_low_inv (k := 9) (by rfl) hasym
  obtain ⟨rfl, hh⟩ := fromBits32_low_inv (k := 6) (by rfl) hhash
  simp only [maxAlgorithmRequests, gt_iff_lt, Nat.not_lt] at hnum
  obtain ⟨p1, p2, p3⟩ := array_parts (d := AlgorithmRequest.dflt) (k := 4) (xs := xs.map Prod.snd) (n := num.toNat) (by simp [k1]) hnum
  simp only [maxAlgorithmRequests] at k5
  rw [← k5] at p1 p2 p3
  refine ⟨⟨p1, hnum, p3, ?_, hs, ha, hh⟩, len.toNat, ea, eh, w1 ++ (w2 ++ w3), by simp⟩
  intro a ham
  simp only at ham
  rw [k5] at ham
  simp only [List.take_zero, List.nil_append, List.mem_append] at ham
  rcases ham with ham | ham
  · obtain ⟨x, hx, rfl⟩ := List.mem_map.mp ham
    exact (k4 x hx).1.1
  · have := List.eq_of_mem_replicate (List.mem_of_mem_drop ham)
    subst this
    decide

theorem Algorithms.inverts : Inverts Algorithms.read (fun bs m => AlgorithmsWF m ∧
    ∃ len cs, bs = [m.numAlgorithmResponses] ++ zeros 1 ++ Spec.le 2 len ++ [m.measurementSpecSelected] ++ zeros 1 ++
      Spec.le 4 m.measurementHashAlgoSelected.toNat ++ Spec.le 4 m.baseAsymAlgoSelected.toNat ++ Spec.le 4 m.baseHashAlgoSelected.toNat ++
      zeros 16 ++ cs) := by
  unfold Algorithms.read
  refine (Inverts.getByte.bind fun num => Inverts.guard fun _ => (Inverts.skipReserved 1).bind fun _ => Inverts.getU16.bind fun len =>
    Inverts.getByte.bind fun spec => (Inverts.lift _).bind fun spec' => Inverts.guard fun _ => (Inverts.skipReserved 1).bind fun _ =>
    Inverts.getU32.bind fun mh => (Inverts.lift _).bind fun mh' => Inverts.guard fun _ =>
    Inverts.getU32.bind fun asym => (Inverts.lift _).bind fun asym' => Inverts.guard fun _ =>
    Inverts.getU32.bind fun hash => (Inverts.lift _).bind fun hash' => Inverts.guard fun _ =>
    (Inverts.skipReserved 12).bind fun _ => (Inverts.skipReserved 1).bind fun _ => (Inverts.skipReserved 1).bind fun _ => (Inverts.skipReserved 2).bind fun _ =>
    (inverts_array (chk := Algorithms.ensureOnlyOneBitSet) (fun _ _ => rfl) (fun _ _ _ => rfl) AlgorithmRequest.inverts _ 0 _ (by simp)).bind fun _ =>
    Inverts.pure _).mono ?_
  rintro bs m ⟨_, _, num, rfl, rfl, hnum, _, _, _, rfl, rfl, _, _, len, rfl, rfl, _, _, spec, rfl, rfl, _, _, spec', rfl, ⟨rfl, hspec⟩, ospec,
    _, _, _, rfl, rfl, _, _, mh, rfl, rfl, _, _, mh', rfl, ⟨rfl, hmh⟩, omh, _, _, asym, rfl, rfl, _, _, asym', rfl, ⟨rfl, hasym⟩, oasym,
    _, _, hash, rfl, rfl, _, _, hash', rfl, ⟨rfl, hhash⟩, ohash,
    _, _, _, rfl, rfl, _, _, _, rfl, rfl, _, _, _, rfl, rfl, _, _, _, rfl, rfl,
    w3, _, rs, rfl, ⟨xs, k1, k2, k3, k4, k5⟩, rfl, rfl⟩
  obtain ⟨rfl, hs⟩ := spec_inv hspec
  obtain ⟨rfl, hm⟩ := fromBits32_low_inv (k := 6) (by rfl) hmh
  obtain ⟨rfl, ha⟩ := fromBits32_low_inv (k := 9) (by rfl) hasym
  obtain ⟨rfl, hh⟩ := fromBits32_low_inv (k := 6) (by rfl) hhash
  rw [not_not] at ospec omh oasym ohash
  simp only [maxAlgorithmRequests, gt_iff_lt, Nat.not_lt] at hnum
  obtain ⟨p1, p2, p3⟩ := array_parts (d := AlgorithmRequest.dflt) (k := 4) (xs := xs.map Prod.snd) (n := num.toNat) (by simp [k1]) hnum
  simp only [maxAlgorithmRequests] at k5
  rw [← k5] at p1 p2 p3
  refine ⟨⟨p1, hnum, p3, ?_, (oneBit_iff (by omega) hs).mp ospec, (oneBit_iff (by omega) hm).mp omh,
    (oneBit_iff (by omega) ha).mp oasym, (oneBit_iff (by omega) hh).mp ohash⟩, len.toNat, w3, by simp [zeros]⟩
  intro i a hia hi
  simp only at hia hi
  have hmem : a ∈ rs.take num.toNat := by
    rw [List.mem_iff_getElem?]
    exact ⟨i, by rw [List.getElem?_take, if_pos hi]; exact hia⟩
  rw [p2] at hmem
  obtain ⟨x, hx, rfl⟩ := List.mem_map.mp hmem
  obtain ⟨⟨h1, _⟩, h2⟩ := k4 x hx
  unfold Algorithms.ensureOnlyOneBitSet at h2
  split at h2
  · simp at h2
  · rename_i h3
    rw [not_not] at h3
    exact (oneBit_iff (by cases x.2.kind <;> decide) h1).mp h3

theorem Digests.inverts (c : Cfg) (size : Nat) : Inverts (Digests.read c size) (fun bs m => ∃ cs, bs = zeros 1 ++ [m.slotMask] ++ cs) := by
  have hl : ∀ fuel bits ds, Inverts (Digests.readLoop c size fuel bits ds) (fun _ _ => True) := by
    intro fuel
    induction fuel with
    | zero => intro bits ds; exact (Inverts.pure _).mono (by simp)
    | succ n ih =>
      intro bits ds
      unfold Digests.readLoop
      refine Inverts.ite (fun _ => ?_) fun _ => (Inverts.pure _).mono (by simp)
      refine ((Inverts.getSlice _ _).bind (Q := fun _ _ _ => True) fun _ => ((Inverts.lift _).bind (Q := fun _ _ _ => True) fun _ => ?_).mono (by simp)).mono (by simp)
      exact Inverts.ite (fun _ => ih _ _) fun _ => (Inverts.die _).mono (by simp)
  unfold Digests.read
  refine ((Inverts.skipReserved 1).bind fun _ => Inverts.getByte.bind fun _ => (hl _ _ _).bind fun _ => Inverts.pure _).mono ?_
  rintro bs m ⟨_, _, _, rfl, rfl, _, _, mask, rfl, rfl, w, _, ds, rfl, _, rfl, rfl⟩
  exact ⟨w, by simp⟩

theorem registry_inv {b : UInt8} {id : VendorRegistryId} (h : VendorRegistryId.tryFrom b = some id) : b = Wire.registry id := by
  revert h; revert b; cases id <;> (apply forall_u8; decide +kernel)

theorem idlen_inv {b : UInt8} {id : VendorRegistryId} (h : OpaqueElement.ensureVendorIdLen b id = .ok ()) :
    b.toNat = Wire.registryIdLen id := by
  unfold OpaqueElement.ensureVendorIdLen at h
  split at h
  · rename_i h'; rw [h']; cases id <;> rfl
  · simp at h

theorem VendorId.inverts (len : UInt8) : Inverts (VendorId.read len) (fun bs v => [len] ++ bs = Wire.vendorId v ∧ Wire.vendorIdLen v = len.toNat) := by
  unfold VendorId.read
  refine Inverts.ite (fun h => (Inverts.pure _).mono ?_) fun _ => Inverts.ite (fun h => (Inverts.getU16.bind fun _ => Inverts.pure _).mono ?_)
    fun _ => Inverts.ite (fun h => (Inverts.getU32.bind fun _ => Inverts.pure _).mono ?_) fun _ => (Inverts.fail _).mono (by simp)
  · rintro _ _ ⟨rfl, rfl⟩; subst h; exact ⟨rfl, rfl⟩
  · rintro _ _ ⟨_, _, v, rfl, rfl, rfl, rfl⟩; subst h; exact ⟨by simp [Wire.vendorId], rfl⟩
  · rintro _ _ ⟨_, _, v, rfl, rfl, rfl, rfl⟩; subst h; exact ⟨by simp [Wire.vendorId], rfl⟩

theorem OpaqueElement.inverts (c : Cfg) : Inverts (OpaqueElement.read c) (fun bs e => bs = Wire.opaqueElement e ∧ OpaqueElementWF c e) := by
  unfold OpaqueElement.read
  refine (Inverts.getByte.bind (Q := fun b bs e => [b] ++ bs = Wire.opaqueElement e ∧ OpaqueElementWF c e) fun b => ?_).mono ?_
  · cases hid : VendorRegistryId.tryFrom b with
    | none => exact (Inverts.fail _).mono (by simp)
    | some id =>
      refine (Inverts.getByte.bind fun vlen => (Inverts.lift _).bind fun _ => (VendorId.inverts _).bind fun vid => Inverts.getU16.bind fun dlen =>
        (Inverts.getSlice _ _).bind fun d => (Inverts.skipReserved _).bind fun _ => Inverts.pure _).mono ?_
      rintro bs e ⟨_, _, vlen, rfl, rfl, _, _, _, rfl, ⟨rfl, hv⟩, w, _, vid, rfl, ⟨hw, hw2⟩, _, _, dlen, rfl, rfl, d, _, _, rfl, ⟨rfl, hdl, hdm⟩,
        _, _, _, rfl, rfl, rfl, rfl⟩
      have hrl := idlen_inv hv
      have htake : (zeroPad c.maxOpaqueElementDataSize d).take dlen.toNat = d := by
        simp [zeroPad, ← hdl]
      have hraw : Wire.opaqueElementRaw ⟨id, vid, dlen, zeroPad c.maxOpaqueElementDataSize d⟩ =
          [b] ++ ([vlen] ++ w) ++ Spec.le 2 dlen.toNat ++ d := by
        simp only [Wire.opaqueElementRaw, htake, hw, registry_inv hid]
      have hlen : (Wire.opaqueElementRaw ⟨id, vid, dlen, zeroPad c.maxOpaqueElementDataSize d⟩).length = 4 + vlen.toNat + dlen.toNat := by
        have := congrArg List.length hw
        have h3 : (Wire.vendorId vid).length = 1 + Wire.vendorIdLen vid := by cases vid <;> simp [Wire.vendorId, Wire.vendorIdLen]
        rw [hraw]
        simp only [List.length_append, List.length_singleton, le_length] at this ⊢
        omega
      refine ⟨?_, ⟨?_, ?_, hdm, ?_⟩⟩
      · have hpad : OpaqueElement.padding (4 + vlen.toNat + dlen.toNat) = (4 - (4 + vlen.toNat + dlen.toNat) % 4) % 4 := by
          unfold OpaqueElement.padding; split <;> omega
        simp only [Wire.opaqueElement]
        rw [hlen, hraw, hpad]
        simp
      · rw [hw2, hrl]
      · simp [zeroPad]; omega
      · simp [zeroPad, ← hdl, zeros]
  · rintro bs e ⟨_, _, b, rfl, rfl, h⟩; exact h

theorem OpaqueData.inverts (c : Cfg) : Inverts (OpaqueData.read c) (fun bs d => bs = Wire.opaqueData d ∧ OpaqueDataWF c d) := by
  unfold OpaqueData.read
  refine (Inverts.getByte.bind fun total => (Inverts.skipReserved 3).bind fun _ =>
    (inverts_array (chk := fun _ => .ok ()) (fun _ _ => rfl) (fun _ _ _ => rfl) (OpaqueElement.inverts c) _ 0 _ (by simp)).bind fun _ =>
    Inverts.pure _).mono ?_
  rintro bs d ⟨_, _, total, rfl, rfl, _, _, _, rfl, rfl, w, _, es, rfl, ⟨xs, k1, k2, k3, k4, k5⟩, rfl, rfl⟩
  simp only [OpaqueData.dflt, List.length_replicate, Nat.zero_add] at k2
  simp only [OpaqueData.dflt] at k5
  obtain ⟨p1, p2, p3⟩ := array_parts (d := OpaqueElement.dflt c) (k := c.maxOpaqueElements) (xs := xs.map Prod.snd) (n := total.toNat) (by simp [k1]) k2
  rw [← k5] at p1 p2 p3
  have hflat : ∀ ys : List (Bytes × OpaqueElement), (∀ y ∈ ys, y.1 = Wire.opaqueElement y.2) →
      (ys.map Prod.fst).flatten = (ys.map Prod.snd).flatMap Wire.opaqueElement := by
    intro ys
    induction ys with
    | nil => intro _; rfl
    | cons y ys ih =>
      intro h
      simp only [List.map_cons, List.flatten_cons, List.flatMap_cons]
      rw [ih fun z hz => h z (by simp [hz]), h y (by simp)]
  refine ⟨?_, p1, k2, ?_, p3⟩
  · simp only [Wire.opaqueData, p2, k3]
    rw [hflat xs fun x hx => (k4 x hx).1.1]
    simp
  · intro e he
    simp only at he
    rw [k5] at he
    simp only [List.take_zero, List.nil_append, List.mem_append] at he
    rcases he with he | he
    · obtain ⟨x, hx, rfl⟩ := List.mem_map.mp he
      exact (k4 x hx).1.2
    · have := List.eq_of_mem_replicate (List.mem_of_mem_drop he)
      subst this
      exact ⟨rfl, by simp [OpaqueElement.dflt], by simp [OpaqueElement.dflt], by simp [OpaqueElement.dflt, zeros]⟩

end Spdm

import Verif.Lemmas.Inv4
import Verif.Spec.Accepts
/-! Soundness and completeness of the parsers with respect to `Spec.Denotes`. -/
namespace Spdm
open Spec

theorem Reads.ignored {w : Bytes} {n : Nat} (h : w.length = n) : Reads (Reader.skipIgnored n) w () := h ▸ Reads.skipIgnored w

/-! ### Algorithm structures -/

theorem count_bits (b : UInt8) : (bitField b 4 4 = 2 ↔ b.toNat / 16 = 2) ∧ (bitField b 0 4).toNat = b.toNat % 16 := by
  revert b; apply forall_u8; decide +kernel

theorem algStructure_iff {a : AlgorithmRequest} {bs : Bytes} :
    AlgBytes bs a ↔ a.supported.toNat < 2 ^ algBits a.kind ∧ AlgStructure a bs := by
  unfold AlgBytes AlgStructure
  refine and_congr_right fun _ => exists_congr fun b => exists_congr fun ext => ?_
  rw [(count_bits b).1, (count_bits b).2]

theorem AlgorithmRequest.reads_struct {a : AlgorithmRequest} {bs : Bytes} (h : a.supported.toNat < 2 ^ algBits a.kind)
    (hb : AlgStructure a bs) : Reads AlgorithmRequest.read bs a := by
  obtain ⟨b, ext, rfl, h2, hl⟩ := hb
  obtain ⟨c1, c2⟩ := count_bits b
  have e : ([Wire.algType a.kind, b] ++ le 2 a.supported.toNat ++ ext : Bytes) =
      [Wire.algType a.kind] ++ (b :: (Spec.le 2 a.supported.toNat ++ (ext ++ []))) := by simp
  rw [e]
  refine (Reads.getByte _).bind ?_
  have ht : AlgKind.ofType (Wire.algType a.kind) = some a.kind := by cases a.kind <;> rfl
  rw [ht]
  refine ReadsB.start (ReadsB.bits (by omega) (by omega) (ReadsB.last (by omega) (by omega) (by omega) ?_))
  rw [if_neg (by simp only [Nat.zero_add]; rw [c1.2 h2]; cases a.kind <;> decide)]
  refine (Reads.le16 _).bind (Reads.lift_bind ((fromBits16_low _ (algKind_mask _)).1 h) ?_)
  exact (Reads.ignored (by rw [hl, c2])).bind (Reads.pure a)

/-- Generic "read `n` items into an array" loop with a check after each. -/
theorem reads_array_rel {α : Type} {loop : Nat → Nat → List α → R (List α)} {item : R α} {chk : α → Res Unit}
    (h0 : ∀ i l, loop 0 i l = pure l)
    (hs : ∀ n i l, loop (n + 1) i l = (do
      let a ← item
      let l ← M.lift (setIndex l i a)
      let _ ← M.lift (chk a)
      loop n (i + 1) l))
    (pre rest post : List α) (todo : List (Bytes × α)) (hr : ∀ a ∈ todo, Reads item a.1 a.2 ∧ chk a.2 = .ok ()) (hl : rest.length = todo.length) :
    Reads (loop todo.length pre.length (pre ++ rest ++ post)) (todo.map Prod.fst).flatten (pre ++ todo.map Prod.snd ++ post) := by
  induction todo generalizing pre rest with
  | nil =>
    have : rest = [] := by simpa using hl
    subst this
    simp only [List.length_nil, h0]
    exact Reads.pure _
  | cons a as ih =>
    obtain ⟨r, rs, rfl⟩ : ∃ r rs, rest = r :: rs := by
      cases rest with
      | nil => simp at hl
      | cons r rs => exact ⟨r, rs, rfl⟩
    simp only [List.length_cons, hs, List.map_cons, List.flatten_cons]
    obtain ⟨h1, h2⟩ := hr a (by simp)
    refine h1.bind (Reads.lift_bind (setIndex_ok (by simp)) (Reads.lift_bind h2 ?_))
    have := ih (pre ++ [a.2]) rs (fun x hx => hr x (by simp [hx])) (by simpa using hl)
    simpa using this

theorem reads_used_rel {α : Type} {loop : Nat → Nat → List α → R (List α)} {item : R α} {chk : α → Res Unit}
    (h0 : ∀ i l, loop 0 i l = pure l)
    (hs : ∀ n i l, loop (n + 1) i l = (do
      let a ← item
      let l ← M.lift (setIndex l i a)
      let _ ← M.lift (chk a)
      loop n (i + 1) l))
    {l : List α} {n k : Nat} {d : α} (hl : l.length = k) (hn : n ≤ k) (hu : ∀ i a, l[i]? = some a → n ≤ i → a = d)
    (xs : List (Bytes × α)) (hx : xs.map Prod.snd = l.take n)
    (hr : ∀ a ∈ xs, Reads item a.1 a.2 ∧ chk a.2 = .ok ()) :
    Reads (loop n 0 (List.replicate k d)) (xs.map Prod.fst).flatten l := by
  have hxl : xs.length = n := by
    have := congrArg List.length hx
    simp only [List.length_map, List.length_take] at this
    omega
  have := reads_array_rel h0 hs [] (List.replicate n d) (List.replicate (k - n) d) xs hr (by simp [hxl])
  simp only [List.nil_append, List.length_nil, List.replicate_append_replicate, hxl] at this
  rw [show n + (k - n) = k by omega, hx, ← split_used hl hn hu] at this
  exact this

/-- A sequence of structures is a list of pairs of bytes and structure. -/
theorem algStructures_iff (as : List AlgorithmRequest) (bs : Bytes) :
    AlgStructures as bs ↔ ∃ xs : List (Bytes × AlgorithmRequest), xs.map Prod.snd = as ∧ bs = (xs.map Prod.fst).flatten ∧
      ∀ x ∈ xs, AlgStructure x.2 x.1 := by
  induction as generalizing bs with
  | nil =>
    simp only [AlgStructures, List.map_eq_nil_iff]
    constructor
    · rintro rfl; exact ⟨[], rfl, rfl, by simp⟩
    · rintro ⟨xs, rfl, rfl, _⟩; rfl
  | cons a as ih =>
    simp only [AlgStructures]
    constructor
    · rintro ⟨b1, b2, rfl, h1, h2⟩
      obtain ⟨xs, rfl, rfl, h3⟩ := (ih b2).mp h2
      exact ⟨(b1, a) :: xs, rfl, rfl, by
        intro x hx
        rcases List.mem_cons.mp hx with rfl | hx
        · exact h1
        · exact h3 x hx⟩
    · rintro ⟨xs, h1, rfl, h3⟩
      cases xs with
      | nil => simp at h1
      | cons x xs =>
        simp only [List.map_cons, List.cons.injEq] at h1
        obtain ⟨rfl, rfl⟩ := h1
        exact ⟨x.1, (xs.map Prod.fst).flatten, by simp, h3 x (by simp), (ih _).mpr ⟨xs, rfl, rfl, fun y hy => h3 y (by simp [hy])⟩⟩

/-! ### VERSION -/

theorem Version.reads' {m : Version} (h : VersionWF m) :
    Reads Version.read (zeros 3 ++ [m.numEntries] ++ (m.entries.take m.numEntries.toNat).flatMap Wire.versionEntry) m := by
  refine Reads.congr (bs := (Spec.zeros 3 ++ ([m.numEntries] ++
      ((m.entries.take m.numEntries.toNat).flatMap Wire.versionEntry ++ [])))) ?_ (by simp)
  refine (Reads.zeros 3).bind ((Reads.getByte _).bind ?_)
  rw [if_neg (by have := h.num; simp [maxAllowedVersions]; omega)]
  refine Reads.bind (a := m.entries) (reads_used (fun _ _ => rfl) (fun _ _ _ => rfl) h.len h.num h.unused ?_)
    (Reads.pure _)
  intro e he
  obtain ⟨h1, h2, h3, h4⟩ := h.nib e (List.mem_of_mem_take he)
  exact Version.readsEntry h1 h2 h3 h4

/-! ### NEGOTIATE_ALGORITHMS -/

theorem NegotiateAlgorithms.inverts' (c : Cfg) (x : Ctx) : Inverts NegotiateAlgorithms.read (fun bs m => Denotes c x bs (.negotiateAlgorithms m)) := by
  unfold NegotiateAlgorithms.read
  refine (Inverts.getByte.bind fun num => Inverts.guard fun _ => (Inverts.skipReserved 1).bind fun _ => Inverts.getU16.bind fun len =>
    Inverts.guard fun _ => Inverts.getByte.bind fun spec => (Inverts.lift _).bind fun spec' => (Inverts.skipReserved 1).bind fun _ =>
    Inverts.getU32.bind fun asym => (Inverts.lift _).bind fun asym' => Inverts.getU32.bind fun hash => (Inverts.lift _).bind fun hash' =>
    (Inverts.skipReserved 12).bind fun _ => Inverts.getByte.bind fun ea => Inverts.getByte.bind fun eh => (Inverts.skipReserved 2).bind fun _ =>
    (Inverts.skipIgnored _).bind fun _ => (Inverts.skipIgnored _).bind fun _ =>
    (inverts_array (chk := fun _ => .ok ()) (fun _ _ => rfl) (fun _ _ _ => rfl) (AlgorithmRequest.inverts.mapErr _) _ 0 _ (by simp)).bind fun _ =>
    Inverts.pure _).mono ?_
  rintro bs m ⟨_, _, num, rfl, rfl, hnum, _, _, _, rfl, rfl, _, _, len, rfl, rfl, hlen, _, _, spec, rfl, rfl, _, _, spec', rfl, ⟨rfl, hspec⟩,
    _, _, _, rfl, rfl, _, _, asym, rfl, rfl, _, _, asym', rfl, ⟨rfl, hasym⟩, _, _, hash, rfl, rfl, _, _, hash', rfl, ⟨rfl, hhash⟩,
    _, _, _, rfl, rfl, _, _, ea, rfl, rfl, _, _, eh, rfl, rfl, _, _, _, rfl, rfl, w1, _, _, rfl, hw1, w2, _, _, rfl, hw2,
    w3, _, rs, rfl, ⟨xs, k1, k2, k3, k4, k5⟩, rfl, rfl⟩
  obtain ⟨rfl, hs⟩ := spec_inv hspec
  obtain ⟨rfl, ha⟩ := fromBits32_low_inv (k := 9) (by rfl) hasym
  obtain ⟨rfl, hh⟩ := fromBits32_low_inv (k := 6) (by rfl) hhash
  simp only [maxAlgorithmRequests, gt_iff_lt, Nat.not_lt] at hnum
  obtain ⟨p1, p2, p3⟩ := array_parts (d := AlgorithmRequest.dflt) (k := 4) (xs := xs.map Prod.snd) (n := num.toNat) (by simp [k1]) hnum
  simp only [maxAlgorithmRequests] at k5
  rw [← k5] at p1 p2 p3
  refine ⟨⟨p1, hnum, p3, ?_, hs, ha, hh⟩, len.toNat, ea, eh, w1, w2, w3, ?_, ?_, ?_, ?_, by simp⟩
  · intro a ham
    simp only at ham
    rw [k5] at ham
    simp only [List.take_zero, List.nil_append, List.mem_append] at ham
    rcases ham with ham | ham
    · obtain ⟨x, hx, rfl⟩ := List.mem_map.mp ham
      exact (k4 x hx).1.1
    · have := List.eq_of_mem_replicate (List.mem_of_mem_drop ham)
      subst this
      decide
  · rw [gt_iff_lt, UInt16.lt_iff_toNat_lt, Nat.not_lt] at hlen
    simpa using hlen
  · rw [hw1]; omega
  · rw [hw2]; omega
  · rw [algStructures_iff]
    exact ⟨xs, by simp only [p2], k3, fun x hx => (algStructure_iff.mp (k4 x hx).1).2⟩

theorem NegotiateAlgorithms.reads' {c : Cfg} {x : Ctx} {bs : Bytes} {m : NegotiateAlgorithms} (h : Denotes c x bs (.negotiateAlgorithms m)) :
    Reads NegotiateAlgorithms.read bs m := by
  obtain ⟨h, len, ea, eh, w1, w2, w3, hlen, hw1, hw2, hs, rfl⟩ := h
  obtain ⟨xs, k1, rfl, k3⟩ := (algStructures_iff _ _).mp hs
  have hn := h.num
  have hmod : (UInt16.ofNat len).toNat = len := by rw [UInt16.toNat_ofNat']; exact Nat.mod_eq_of_lt (by omega)
  refine Reads.congr (bs := [m.numAlgorithmRequests] ++ (Spec.zeros 1 ++
      (Spec.le 2 (UInt16.ofNat len).toNat ++ ([m.measurementSpec] ++
      (Spec.zeros 1 ++ (Spec.le 4 m.baseAsymAlgo.toNat ++ (Spec.le 4 m.baseHashAlgo.toNat ++
      (Spec.zeros 12 ++ ([ea] ++ ([eh] ++ (Spec.zeros 2 ++ (w1 ++ (w2 ++
      ((xs.map Prod.fst).flatten ++ [])))))))))))))) ?_ (by rw [hmod]; simp)
  refine (Reads.getByte _).bind ?_
  rw [if_neg (by simp [maxAlgorithmRequests]; omega)]
  refine (Reads.zeros 1).bind ((Reads.le16 _).bind ?_)
  rw [if_neg (by
    rw [gt_iff_lt, UInt16.lt_iff_toNat_lt, hmod]; simp; omega)]
  refine (Reads.getByte _).bind (Reads.lift_bind (by rw [fromBits8_spec, if_pos h.spec]) ?_)
  refine (Reads.zeros 1).bind ((Reads.le32 _).bind (Reads.lift_bind ((fromBits32_low _ (k := 9) (by decide)).1 h.asym) ?_))
  refine (Reads.le32 _).bind (Reads.lift_bind ((fromBits32_low _ (k := 6) (by decide)).1 h.hash) ?_)
  refine (Reads.zeros 12).bind ((Reads.getByte _).bind ((Reads.getByte _).bind ((Reads.zeros 2).bind
    (Reads.bind (Reads.ignored (by omega)) (Reads.bind (Reads.ignored (by omega)) ?_)))))
  refine Reads.bind (a := m.algorithmRequests) (reads_used_rel (chk := fun _ => .ok ())
    (item := M.mapErr NegotiateAlgorithms.wrapAlgorithmRequestError AlgorithmRequest.read)
    (fun _ _ => rfl) (fun _ _ _ => rfl) h.len h.num h.unused xs k1 ?_) (Reads.pure m)
  intro a ha
  refine ⟨(AlgorithmRequest.reads_struct (h.bits a.2 ?_) (k3 a ha)).mapErr _, rfl⟩
  have : a.2 ∈ xs.map Prod.snd := List.mem_map.mpr ⟨a, ha, rfl⟩
  rw [k1] at this
  exact List.mem_of_mem_take this

/-! ### ALGORITHMS -/

theorem Algorithms.inverts' (c : Cfg) (x : Ctx) : Inverts Algorithms.read (fun bs m => Denotes c x bs (.algorithms m)) := by
  unfold Algorithms.read
  refine (Inverts.getByte.bind fun num => Inverts.guard fun _ => (Inverts.skipReserved 1).bind fun _ => Inverts.getU16.bind fun len =>
    Inverts.getByte.bind fun spec => (Inverts.lift _).bind fun spec' => Inverts.guard fun _ => (Inverts.skipReserved 1).bind fun _ =>
    Inverts.getU32.bind fun mh => (Inverts.lift _).bind fun mh' => Inverts.guard fun _ =>
    Inverts.getU32.bind fun asym => (Inverts.lift _).bind fun asym' => Inverts.guard fun _ =>
    Inverts.getU32.bind fun hash => (Inverts.lift _).bind fun hash' => Inverts.guard fun _ =>
    (Inverts.skipReserved 12).bind fun _ => (Inverts.skipReserved 1).bind fun _ => (Inverts.skipReserved 1).bind fun _ => (Inverts.skipReserved 2).bind fun _ =>
    (inverts_array (chk := Algorithms.ensureOnlyOneBitSet) (fun _ _ => rfl) (fun _ _ _ => rfl) AlgorithmRequest.inverts _ 0 _ (by simp)).bind fun _ =>
    Inverts.pure _).mono ?_
  rintro bs m ⟨_, _, num, rfl, rfl, hnum, _, _, _, rfl, rfl, _, _, len, rfl, rfl, _, _, spec, rfl, rfl, _, _, spec', rfl, ⟨rfl, hspec⟩, ospec,
    _, _, _, rfl, rfl, _, _, mh, rfl, rfl, _, _, mh', rfl, ⟨rfl, hmh⟩, omh, _, _, asym, rfl, rfl, _, _, asym', rfl, ⟨rfl, hasym⟩, oasym,
    _, _, hash, rfl, rfl, _, _, hash', rfl, ⟨rfl, hhash⟩, ohash,
    _, _, _, rfl, rfl, _, _, _, rfl, rfl, _, _, _, rfl, rfl, _, _, _, rfl, rfl,
    w3, _, rs, rfl, ⟨xs, k1, k2, k3, k4, k5⟩, rfl, rfl⟩
  obtain ⟨rfl, hs⟩ := spec_inv hspec
  obtain ⟨rfl, hm⟩ := fromBits32_low_inv (k := 6) (by rfl) hmh
  obtain ⟨rfl, ha⟩ := fromBits32_low_inv (k := 9) (by rfl) hasym
  obtain ⟨rfl, hh⟩ := fromBits32_low_inv (k := 6) (by rfl) hhash
  rw [not_not] at ospec omh oasym ohash
  simp only [maxAlgorithmRequests, gt_iff_lt, Nat.not_lt] at hnum
  obtain ⟨p1, p2, p3⟩ := array_parts (d := AlgorithmRequest.dflt) (k := 4) (xs := xs.map Prod.snd) (n := num.toNat) (by simp [k1]) hnum
  simp only [maxAlgorithmRequests] at k5
  rw [← k5] at p1 p2 p3
  refine ⟨⟨p1, hnum, p3, ?_, (oneBit_iff (by omega) hs).mp ospec, (oneBit_iff (by omega) hm).mp omh,
    (oneBit_iff (by omega) ha).mp oasym, (oneBit_iff (by omega) hh).mp ohash⟩, len.toNat, w3, len.toNat_lt, ?_, by simp [zeros]⟩
  · intro i a hia hi
    simp only at hia hi
    have hmem : a ∈ rs.take num.toNat := by
      rw [List.mem_iff_getElem?]
      exact ⟨i, by rw [List.getElem?_take, if_pos hi]; exact hia⟩
    rw [p2] at hmem
    obtain ⟨x, hx, rfl⟩ := List.mem_map.mp hmem
    obtain ⟨⟨h1, _⟩, h2⟩ := k4 x hx
    unfold Algorithms.ensureOnlyOneBitSet at h2
    split at h2
    · simp at h2
    · rename_i h3
      rw [not_not] at h3
      exact (oneBit_iff (by cases x.2.kind <;> decide) h1).mp h3
  · rw [algStructures_iff]
    exact ⟨xs, by simp only [p2], k3, fun x hx => (algStructure_iff.mp (k4 x hx).1).2⟩

theorem Algorithms.reads' {c : Cfg} {x : Ctx} {bs : Bytes} {m : Algorithms} (h : Denotes c x bs (.algorithms m)) :
    Reads Algorithms.read bs m := by
  obtain ⟨h, len, w3, hlen, hs, rfl⟩ := h
  obtain ⟨xs, k1, rfl, k3⟩ := (algStructures_iff _ _).mp hs
  have hn := h.num
  have hmod : (UInt16.ofNat len).toNat = len := by rw [UInt16.toNat_ofNat']; exact Nat.mod_eq_of_lt (by omega)
  refine Reads.congr (bs := [m.numAlgorithmResponses] ++ (Spec.zeros 1 ++
      (Spec.le 2 (UInt16.ofNat len).toNat ++ ([m.measurementSpecSelected] ++
      (Spec.zeros 1 ++ (Spec.le 4 m.measurementHashAlgoSelected.toNat ++ (Spec.le 4 m.baseAsymAlgoSelected.toNat ++
      (Spec.le 4 m.baseHashAlgoSelected.toNat ++
      (Spec.zeros 12 ++ (Spec.zeros 1 ++ (Spec.zeros 1 ++ (Spec.zeros 2 ++
      ((xs.map Prod.fst).flatten ++ []))))))))))))) ?_ (by rw [hmod]; simp [Spec.zeros, List.replicate])
  refine (Reads.getByte _).bind ?_
  rw [if_neg (by simp [maxAlgorithmRequests]; omega)]
  refine (Reads.zeros 1).bind ((Reads.le16 _).bind ?_)
  refine (Reads.getByte _).bind (Reads.lift_bind (by rw [fromBits8_spec, if_pos (by simpa using h.spec.lt)]) ?_)
  rw [if_neg (by rw [not_not, oneBit_iff (by omega) h.spec.lt]; exact h.spec)]
  refine (Reads.zeros 1).bind ((Reads.le32 _).bind (Reads.lift_bind ((fromBits32_low _ (k := 6) (by decide)).1 h.mhash.lt) ?_))
  rw [if_neg (by rw [not_not, oneBit_iff (by omega) h.mhash.lt]; exact h.mhash)]
  refine (Reads.le32 _).bind (Reads.lift_bind ((fromBits32_low _ (k := 9) (by decide)).1 h.asym.lt) ?_)
  rw [if_neg (by rw [not_not, oneBit_iff (by omega) h.asym.lt]; exact h.asym)]
  refine (Reads.le32 _).bind (Reads.lift_bind ((fromBits32_low _ (k := 6) (by decide)).1 h.hash.lt) ?_)
  rw [if_neg (by rw [not_not, oneBit_iff (by omega) h.hash.lt]; exact h.hash)]
  refine (Reads.zeros 12).bind ((Reads.zeros 1).bind ((Reads.zeros 1).bind ((Reads.zeros 2).bind ?_)))
  refine Reads.bind (a := m.algorithmResponses) (reads_used_rel (chk := Algorithms.ensureOnlyOneBitSet)
    (item := AlgorithmRequest.read)
    (fun _ _ => rfl) (fun _ _ _ => rfl) h.len h.num h.unused xs k1 ?_) (Reads.pure m)
  intro a ha
  have hmem : a.2 ∈ m.algorithmResponses.take m.numAlgorithmResponses.toNat := by
    rw [← k1]; exact List.mem_map.mpr ⟨a, ha, rfl⟩
  obtain ⟨i, hi⟩ := List.mem_iff_getElem?.mp hmem
  rw [List.getElem?_take] at hi
  split at hi
  · rename_i hlt
    have h1 := h.bits i a.2 hi hlt
    refine ⟨AlgorithmRequest.reads_struct h1.lt (k3 a ha), ?_⟩
    unfold Algorithms.ensureOnlyOneBitSet
    rw [if_neg]
    rw [not_not, oneBit_iff (by cases a.2.kind <;> decide) h1.lt]
    exact h1
  · simp at hi

end Spdm

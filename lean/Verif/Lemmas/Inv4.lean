import Verif.Lemmas.Inv3
/-! What a successful read says: the array messages, in full. -/
namespace Spdm
open Spec

theorem Version.readEntry_inverts : Inverts Version.readEntry (fun bs e => bs = Wire.versionEntry e ∧
    (e.alpha < 16 ∧ e.update < 16 ∧ e.minor < 16 ∧ e.major < 16)) := by
  unfold Version.readEntry
  refine (Inverts.start (InvertsB.bits (by omega) (by omega) fun _ => InvertsB.last (by omega) (by omega) (by omega) fun _ =>
    Inverts.start (InvertsB.bits (by omega) (by omega) fun _ => InvertsB.last (by omega) (by omega) (by omega) fun _ =>
    Inverts.pure _))).mono ?_
  have tab : ∀ b : UInt8, nibbles (bitField b 0 4) (bitField b 4 4) = b ∧ bitField b 0 4 < 16 ∧ bitField b 4 4 < 16 := by
    apply forall_u8; decide +kernel
  rintro bs e ⟨b, cs, rfl, b', cs', rfl, rfl, rfl⟩
  obtain ⟨h1, h2, h3⟩ := tab b
  obtain ⟨g1, g2, g3⟩ := tab b'
  exact ⟨by simp [Wire.versionEntry, h1, g1], h2, h3, g2, g3⟩

theorem flatMap_fst {α : Type} {f : α → Bytes} (xs : List (Bytes × α)) (h : ∀ x ∈ xs, x.1 = f x.2) :
    (xs.map Prod.fst).flatten = (xs.map Prod.snd).flatMap f := by
  induction xs with
  | nil => rfl
  | cons x xs ih =>
    simp only [List.map_cons, List.flatten_cons, List.flatMap_cons]
    rw [ih fun y hy => h y (by simp [hy]), h x (by simp)]

/-- VERSION: the entries in use are on the wire, the others are zero. -/
theorem Version.inverts' : Inverts Version.read (fun bs m => VersionWF m ∧
    bs = zeros 3 ++ [m.numEntries] ++ (m.entries.take m.numEntries.toNat).flatMap Wire.versionEntry) := by
  unfold Version.read
  refine ((Inverts.skipReserved 3).bind fun _ => Inverts.getByte.bind fun num => Inverts.guard fun _ =>
    (inverts_array (chk := fun _ => .ok ()) (fun _ _ => rfl) (fun _ _ _ => rfl) Version.readEntry_inverts _ 0 _ (by simp)).bind fun _ =>
    Inverts.pure _).mono ?_
  rintro bs m ⟨_, _, _, rfl, rfl, _, _, num, rfl, rfl, hn, w, _, es, rfl, ⟨xs, k1, k2, k3, k4, k5⟩, rfl, rfl⟩
  simp only [maxAllowedVersions, gt_iff_lt, Nat.not_lt] at hn
  have hf := flatMap_fst xs fun x hx => (k4 x hx).1.1
  obtain ⟨p1, p2, p3⟩ := array_parts (d := VersionEntry.zero) (k := 2) (xs := xs.map Prod.snd) (n := num.toNat) (by simp [k1]) hn
  simp only [Version.empty, maxAllowedVersions] at k5
  rw [← k5] at p1 p2 p3
  refine ⟨⟨p1, hn, ?_, p3⟩, ?_⟩
  · intro e he
    simp only at he
    rw [k5] at he
    simp only [List.take_zero, List.nil_append, List.mem_append] at he
    rcases he with he | he
    · obtain ⟨x, hx, rfl⟩ := List.mem_map.mp he
      exact (k4 x hx).1.2
    · have := List.eq_of_mem_replicate (List.mem_of_mem_drop he)
      subst this
      decide
  · simp only [p2, k3, hf]
    simp

theorem Version.parse_wf {buf : Bytes} {m : Version} (h : Version.parseBody buf = .ok m) : VersionWF m :=
  (Version.inverts'.parse h).elim fun _ h => h.elim fun _ h => h.2.1

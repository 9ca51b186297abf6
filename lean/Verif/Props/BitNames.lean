import Verif.Spec.BitNames
/-!
# C93: algorithm and capability names
-/
namespace Spdm
open Spec

namespace BitNames

theorem table_unique {table : List (String × Nat)} (h : (table.map Prod.fst).Nodup) {s : String} {j k : Nat} (hj : (s, j) ∈ table) (hk : (s, k) ∈ table) : j = k := by
  induction table with
  | nil => simp at hj
  | cons x xs ih =>
    rw [List.map_cons, List.nodup_cons] at h
    have out : ∀ {y : String × Nat}, y ∈ xs → y.1 ≠ x.1 := by
      intro y hy e
      exact h.1 (List.mem_map.mpr ⟨y, hy, e⟩)
    rcases List.mem_cons.mp hj with e1 | e1 <;> rcases List.mem_cons.mp hk with e2 | e2
    · rw [← e1] at e2; cases e2; rfl
    · exact absurd (by rw [← e1]) (out e2)
    · exact absurd (by rw [← e2]) (out e1)
    · exact ih h.2 e1 e2

theorem table_disjoint {table : List (String × Nat)} (h : (table.map Prod.snd).Nodup) {s t : String} {k : Nat} (hs : (s, k) ∈ table) (ht : (t, k) ∈ table) : s = t := by
  induction table with
  | nil => simp at hs
  | cons x xs ih =>
    rw [List.map_cons, List.nodup_cons] at h
    have out : ∀ {y : String × Nat}, y ∈ xs → y.2 ≠ x.2 := by
      intro y hy e
      exact h.1 (List.mem_map.mpr ⟨y, hy, e⟩)
    rcases List.mem_cons.mp hs with e1 | e1 <;> rcases List.mem_cons.mp ht with e2 | e2
    · rw [← e1] at e2; cases e2; rfl
    · exact absurd (by rw [← e1]) (out e2)
    · exact absurd (by rw [← e2]) (out e1)
    · exact ih h.2 e1 e2

end BitNames
open BitNames

/-- **C93**: signature algorithm names. -/
theorem c93_asym : NamesBits BaseAsymAlgo.fromStr asymNames := by
  intro s
  unfold BaseAsymAlgo.fromStr
  split
  case h_10 => exact .inr ⟨by simp_all [asymNames], rfl⟩
  all_goals exact .inl ⟨_, _, by simp [asymNames]; rfl, rfl, rfl⟩

/-- **C93**: hash names. -/
theorem c93_hash : NamesBits BaseHashAlgo.fromStr hashNames := by
  intro s
  unfold BaseHashAlgo.fromStr
  split
  case h_7 => exact .inr ⟨by simp_all [hashNames], rfl⟩
  all_goals exact .inl ⟨_, _, by simp [hashNames]; rfl, rfl, rfl⟩

/-- **C93**: requester capability names. -/
theorem c93_reqFlags : NamesBits ReqFlags.fromStr reqFlagNames := by
  intro s
  unfold ReqFlags.fromStr
  split
  case h_13 => exact .inr ⟨by simp_all [reqFlagNames], rfl⟩
  all_goals exact .inl ⟨_, _, by simp [reqFlagNames]; rfl, rfl, rfl⟩

/-- **C93**: responder capability names. -/
theorem c93_rspFlags : NamesBits RspFlags.fromStr rspFlagNames := by
  intro s
  unfold RspFlags.fromStr
  split
  case h_15 => exact .inr ⟨by simp_all [rspFlagNames, reqFlagNames], rfl⟩
  all_goals exact .inl ⟨_, _, by simp [rspFlagNames, reqFlagNames]; rfl, rfl, rfl⟩

/-- **C93**: what such a table means: two names never share a value. -/
theorem c93_no_aliases {parse : String → Res UInt32} {table : List (String × Nat)} (h : NamesBits parse table) (hb : (table.map Prod.snd).Nodup)
    {s t : String} {w : UInt32} (hs : parse s = .ok w) (ht : parse t = .ok w) : s = t := by
  have key : ∀ {s : String}, parse s = .ok w → ∃ k, (s, k) ∈ table ∧ w.toNat = 2 ^ k := by
    intro s hs
    rcases h s with ⟨k, w', h1, h2, h3⟩ | ⟨_, h2⟩
    · rw [h2, Res.ok.injEq] at hs
      subst hs
      exact ⟨k, h1, h3⟩
    · rw [h2] at hs
      simp at hs
  obtain ⟨j, h1, h2⟩ := key hs
  obtain ⟨k, h3, h4⟩ := key ht
  have : j = k := by simpa [Nat.log2_two_pow] using congrArg Nat.log2 (h2.symm.trans h4)
  subst this
  exact table_disjoint hb h1 h3

/-- **C93**: a name that requester and responder both know has the same value on both sides. -/
theorem c93_same_capability (s : String) (w w' : UInt32) (h : ReqFlags.fromStr s = .ok w) (h' : RspFlags.fromStr s = .ok w') : w = w' := by
  rcases c93_reqFlags s with ⟨j, v, h1, h2, h3⟩ | ⟨_, h2⟩
  · rcases c93_rspFlags s with ⟨k, v', h4, h5, h6⟩ | ⟨_, h5⟩
    · rw [h2, Res.ok.injEq] at h
      rw [h5, Res.ok.injEq] at h'
      subst h; subst h'
      have : j = k := table_unique (by decide +kernel) (List.mem_append_right _ h1) h4
      subst this
      exact UInt32.toNat_inj.mp (h3.trans h6.symm)
    · rw [h5] at h'; simp at h'
  · rw [h2] at h; simp at h

/-- **C93**, the public constants, also those that cannot be configured by name: the responder's are the bits 0 to 16 in the order of the standard (3 and 4 are
MEAS_CAP without and with signature, 11 is PSK_CAP with context); the requester's are at the same bits, its PSK mask covers both PSK bits. -/
theorem c93_constants :
    [RspFlags.cacheCap, RspFlags.certCap, RspFlags.chalCap, RspFlags.measCapNoSig, RspFlags.measCapSig, RspFlags.measFreshCap, RspFlags.encryptCap, RspFlags.macCap,
      RspFlags.mutAuthCap, RspFlags.keyExCap, RspFlags.pskCap, RspFlags.psxCapWithContext, RspFlags.encapCap, RspFlags.hbeatCap, RspFlags.keyUpdCap,
      RspFlags.handshakeInTheClearCap, RspFlags.pubKeyIdCap].map UInt32.toNat = (List.range 17).map (2 ^ ·) ∧
    [ReqFlags.certCap, ReqFlags.chalCap, ReqFlags.encryptCap, ReqFlags.macCap, ReqFlags.mutAuthCap, ReqFlags.keyExCap, ReqFlags.pskCap, ReqFlags.encapCap,
      ReqFlags.hbeatCap, ReqFlags.keyUpdCap, ReqFlags.handshakeInTheClearCap, ReqFlags.pubKeyIdCap].map UInt32.toNat = (reqFlagNames.map Prod.snd).map (2 ^ ·) ∧
    ReqFlags.pskCapMask.toNat = 2 ^ 10 + 2 ^ 11 := by decide +kernel

/-- The four tables have no aliases; a name of the responder only; lower case is not a name. -/
example : (∀ t ∈ [asymNames, hashNames, reqFlagNames, rspFlagNames], (t.map Prod.fst).Nodup ∧ (t.map Prod.snd).Nodup) := by decide +kernel
example : RspFlags.fromStr "CACHE_CAP" = .ok 1 ∧ ReqFlags.fromStr "CACHE_CAP" = .err .parseName ∧ BaseHashAlgo.fromStr "sha_256" = .err .parseName := by decide +kernel

end Spdm

import Verif.Spec.Provider
import Verif.DemoSession
/-!
# C92: the crypto provider's digests and signers
-/
namespace Spdm
open Spec

section
variable {H : HashImpl} {c : Cfg}

namespace ProviderDigests

theorem sha2_iff (algo : UInt32) : isSha2 algo ↔ (algo = BaseHashAlgo.sha256 ∨ algo = BaseHashAlgo.sha384 ∨ algo = BaseHashAlgo.sha512) := by
  unfold isSha2
  rw [← UInt32.toNat_inj, ← UInt32.toNat_inj, ← UInt32.toNat_inj]
  rfl

theorem ecdsa_iff (algo : UInt32) : isEcdsa algo ↔ (algo = BaseAsymAlgo.ecdsaP256 ∨ algo = BaseAsymAlgo.ecdsaP384) := by
  unfold isEcdsa
  rw [← UInt32.toNat_inj, ← UInt32.toNat_inj]
  rfl

theorem tryFrom_some {algo : UInt32} (h : isSha2 algo) : ProvidedDigests.tryFrom H algo = some ⟨algo, H.init algo⟩ := by
  unfold ProvidedDigests.tryFrom
  rcases (sha2_iff algo).mp h with rfl | rfl | rfl <;> rfl

theorem tryFrom_none {algo : UInt32} (h : ¬ isSha2 algo) : ProvidedDigests.tryFrom H algo = none := by
  unfold ProvidedDigests.tryFrom
  rw [sha2_iff, not_or, not_or] at h
  rw [if_neg h.1, if_neg h.2.1, if_neg h.2.2]

theorem feed (hs : Streaming H) (chunks : List Bytes) : ∀ d : ProvidedDigests H, chunks.foldl ProvidedDigests.update d = d.update chunks.flatten := by
  induction chunks with
  | nil => intro d; simp [ProvidedDigests.update, hs.nil]
  | cons x xs ih =>
    intro d
    rw [List.foldl_cons, ih, List.flatten_cons]
    simp only [ProvidedDigests.update, hs.append]

end ProviderDigests
open ProviderDigests

/-- **C92**: a hash context exists for SHA-256, SHA-384 and SHA-512 and for nothing else; these are exactly the hashes the provider says it supports. -/
theorem c92_supported (hp : c.provider = true) (algo : UInt32) :
    ((∃ d, ProvidedDigests.tryFrom H algo = some d) ↔ isSha2 algo) ∧
    (isSha2 algo ↔ ∃ k, (Crypto.supportedHashes c).toNat.testBit k = true ∧ algo.toNat = 2 ^ k) := by
  constructor
  · constructor
    · rintro ⟨d, h⟩
      refine Classical.byContradiction fun hn => ?_
      rw [tryFrom_none hn] at h
      simp at h
    · intro h
      exact ⟨_, tryFrom_some h⟩
  · have h7 : (Crypto.supportedHashes c).toNat = 7 := by unfold Crypto.supportedHashes; rw [if_pos hp]; rfl
    rw [h7]
    unfold isSha2
    constructor
    · rintro (h | h | h)
      · exact ⟨0, by decide, h⟩
      · exact ⟨1, by decide, h⟩
      · exact ⟨2, by decide, h⟩
    · rintro ⟨k, hk, h⟩
      have : k < 3 := by
        refine Classical.byContradiction fun hk3 => ?_
        have : (7 : Nat).testBit k = false := Nat.testBit_lt_two_pow (Nat.lt_of_lt_of_le (by decide : 7 < 2 ^ 3) (Nat.pow_le_pow_right (by decide) (by omega)))
        simp [this] at hk
      have : k = 0 ∨ k = 1 ∨ k = 2 := by omega
      rcases this with rfl | rfl | rfl
      · exact .inl h
      · exact .inr (.inl h)
      · exact .inr (.inr h)

/-- **C92**: hashing in pieces, however the data is cut, gives the hash of the whole, and aborts exactly if that does not fit MAX_DIGEST_SIZE. -/
theorem c92_pieces (hs : Streaming H) (algo : UInt32) (d : ProvidedDigests H) (hd : ProvidedDigests.tryFrom H algo = some d) (pieces : List Bytes) :
    (pieces.foldl ProvidedDigests.update d).finalize c =
      if (hashOf H algo pieces.flatten).length ≤ c.maxDigestSize then .ok (hashOf H algo pieces.flatten) else .panic .unwrapNone := by
  have hsha : isSha2 algo := by
    refine Classical.byContradiction fun hn => ?_
    rw [tryFrom_none hn] at hd
    simp at hd
  rw [tryFrom_some hsha, Option.some.injEq] at hd
  subst hd
  rw [feed hs]
  rfl

/-- **C92**: hashing in pieces and in one go agree; the cut does not matter. -/
theorem c92_one_go (hs : Streaming H) (algo : UInt32) (d : ProvidedDigests H) (hd : ProvidedDigests.tryFrom H algo = some d) (pieces : List Bytes) :
    (pieces.foldl ProvidedDigests.update d).finalize c = ProvidedDigests.digest H c algo pieces.flatten := by
  unfold ProvidedDigests.digest
  rw [hd, feed hs]

/-- **C92**: the responder's and the requester's hashing is this one: for a build with the provider the two agree on every algorithm and every input, aborts included. -/
theorem c92_endpoint_hash (hp : c.provider = true) (cr : Crypto) (hcr : ∀ algo data, cr.hash algo data = hashOf H algo data) (algo : UInt32) (data : Bytes) :
    Crypto.digest c cr algo data = ProvidedDigests.digest H c algo data := by
  unfold Crypto.digest ProvidedDigests.digest
  rw [if_neg (by rw [hp]; decide)]
  by_cases h : isSha2 algo
  · rw [tryFrom_some h, if_pos ((sha2_iff algo).mp h), hcr]
    rfl
  · rw [tryFrom_none h, if_neg (fun h' => h ((sha2_iff algo).mpr h'))]

/-- **C92**: making a signer succeeds exactly for P-256 and P-384 with a key of that algorithm, and the signer uses the algorithm asked for; a bad key is an error; every other
algorithm aborts. -/
theorem c92_signer (keyOk : UInt32 → Bytes → Bool) (algo : UInt32) (key : Bytes) :
    (isEcdsa algo → keyOk algo key = true → newSigner keyOk algo key = .ok algo) ∧ (isEcdsa algo → keyOk algo key = false → newSigner keyOk algo key = .err .sign) ∧
    (¬ isEcdsa algo → ∃ k, newSigner keyOk algo key = .panic k) := by
  have hr : isEcdsa algo → spdmToRing algo = .ok algo := by
    intro h
    unfold spdmToRing
    rcases (ecdsa_iff algo).mp h with rfl | rfl <;> rfl
  refine ⟨?_, ?_, ?_⟩
  · intro h hk
    unfold newSigner
    rw [hr h, Res.ok_bind, if_pos hk]
    rfl
  · intro h hk
    unfold newSigner
    rw [hr h, Res.ok_bind, if_neg (by rw [hk]; decide)]
  · intro h
    rw [ecdsa_iff, not_or] at h
    refine ⟨.unimplemented, ?_⟩
    unfold newSigner spdmToRing
    rw [if_neg h.1, if_neg h.2]
    rfl

end

/-! ### The hypotheses are met -/

/-- A toy streaming hash: the sum of the bytes and their number, padded. -/
def toyHash : HashImpl where
  Ctx := UInt8 × UInt8
  init algo := (algo.toUInt8, 0)
  update s data := (s.1 + data.foldl (· + ·) 0, s.2 + UInt8.ofNat data.length)
  finalize s := s.1 :: s.2 :: zeros 30

theorem toyHash_streaming : Streaming toyHash where
  nil := by rintro ⟨s, t⟩; simp [toyHash]
  append := by
    intro s a b
    have hf : ∀ (l : Bytes) (x : UInt8), l.foldl (· + ·) x = x + l.foldl (· + ·) 0 := by
      intro l
      induction l with
      | nil => intro x; simp
      | cons y ys ih => intro x; rw [List.foldl_cons, ih, List.foldl_cons, ih (0 + y), UInt8.zero_add, UInt8.add_assoc]
    simp only [toyHash, List.foldl_append, List.length_append, UInt8.ofNat_add]
    rw [hf b (List.foldl (· + ·) 0 a), UInt8.add_assoc, UInt8.add_assoc]

/-- Three pieces and one; the digest of SHA3-256 aborts; so does a signer for P-521, and a bad key does not. -/
example : ([[1, 2], [], [3]].foldl ProvidedDigests.update (⟨1, toyHash.init 1⟩ : ProvidedDigests toyHash)).finalize demoCfg = .ok ([7, 3] ++ zeros 30) ∧
    ProvidedDigests.digest toyHash demoCfg 1 [1, 2, 3] = .ok ([7, 3] ++ zeros 30) ∧
    ProvidedDigests.digest toyHash demoCfg 8 [1, 2, 3] = .panic .unwrapNone ∧
    newSigner (fun _ k => k == [5]) 0x80 [5] = .ok 0x80 ∧ newSigner (fun _ k => k == [5]) 0x80 [6] = .err .sign ∧ newSigner (fun _ k => k == [5]) 0x100 [5] = .panic .unimplemented := by
  decide +kernel

end Spdm

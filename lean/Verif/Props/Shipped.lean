import Verif.Props.Interop
import Verif.Props.Build
/-!
# The shipped configurations (C113)
-/
namespace Spdm
open Spec

variable {c c' : Cfg} {cr cr' : Crypto} {root : Bytes} {slots : List (Option FilledSlot)} {slot : FilledSlot} {q : Responder} {i i' : SpdmConfig} {crypto crypto' : Bool}
  {n n' : Nat} {es : List RspEvent}

/-- The room the first three exchanges need. -/
theorem three_rounds {n d s : Nat} {x y z : Round} : EnoughRoom c c' n d s [x, y, z] ↔
    4 ≤ x.reqBuf.length ∧ 10 ≤ x.rspBuf.length ∧ 12 ≤ y.reqBuf.length ∧ 12 ≤ y.rspBuf.length ∧ 48 ≤ z.reqBuf.length ∧ 52 ≤ z.rspBuf.length ∧
      138 ≤ c.transcriptSize ∧ 138 ≤ c'.transcriptSize := by
  obtain ⟨_, _, v3, _⟩ := need_values n d s
  constructor
  · intro h
    have ht := h.transcript; have ht' := h.transcript'
    simp only [List.length_cons, List.length_nil, Nat.zero_add, Nat.reduceAdd, v3] at ht ht'
    exact ⟨h.requests 0 x 4 rfl rfl, h.responses 0 x 10 rfl rfl, h.requests 1 y 12 rfl rfl, h.responses 1 y 12 rfl rfl, h.requests 2 z 48 rfl rfl, h.responses 2 z 52 rfl rfl, ht, ht'⟩
  · rintro ⟨h1, h2, h3, h4, h5, h6, h7, h8⟩
    refine ⟨?_, ?_, ?_, ?_⟩
    · intro k x need hx hn
      match k with
      | 0 | 1 | 2 => cases hx; cases hn; assumption
      | k + 3 => cases hx
    · intro k x need hx hn
      match k with
      | 0 | 1 | 2 => cases hx; cases hn; assumption
      | k + 3 => cases hx
    · simpa only [List.length_cons, List.length_nil, Nat.zero_add, Nat.reduceAdd, v3] using h7
    · simpa only [List.length_cons, List.length_nil, Nat.zero_add, Nat.reduceAdd, v3] using h8

/-- **C113.** Two builds of any two valid configurations, with or without a provider, that do not both have CERT_CAP (the requester has a signing algorithm): a new requester and
a responder that has not failed complete in three exchanges, with any certificates, roots, nonces and cryptography on either side, exactly if the buffers hold the six messages
and the transcripts 138 bytes. -/
theorem c113_negotiation_only (hv : ValidConfig crypto i) (hb : Built crypto i n c) (hv' : ValidConfig crypto' i') (hb' : Built crypto' i' n' c') (hsig : i.asymmetricSigning ≠ [])
    (hnone : ¬ ("CERT_CAP" ∈ i.capabilities ∧ "CERT_CAP" ∈ i'.capabilities)) (hl : slots.length = i'.numSlots) (run : RspRun c' cr' slots es q) (ha : alive es = true) (x y z : Round) :
    (∃ ends, talk c c' cr cr' [x, y, z] (Requester.new c root, q) = some ([false, false, true], ends)) ↔
      4 ≤ x.reqBuf.length ∧ 10 ≤ x.rspBuf.length ∧ 12 ≤ y.reqBuf.length ∧ 12 ≤ y.rspBuf.length ∧ 48 ≤ z.reqBuf.length ∧ 52 ≤ z.rspBuf.length ∧
        138 ≤ i.transcriptBufSize ∧ 138 ≤ i'.transcriptBufSize := by
  have h8' : c'.numSlots ≤ 8 := by rw [hb'.numSlots]; exact hv'.slots.2
  rw [← hb'.numSlots] at hl
  obtain ⟨⟨fq, hfq, bq⟩, _⟩ := c54_capabilities crypto i n c hv hb
  obtain ⟨_, fr, hfr, br⟩ := c54_capabilities crypto' i' n' c' hv' hb'
  obtain ⟨asym, hoffer, basym⟩ := c54_algorithms crypto i n c hv hb
  have hasym : asym = 16 := by
    rw [← UInt32.toNat_inj]
    apply Nat.eq_of_testBit_eq
    intro k
    rw [show (16 : UInt32).toNat = 2 ^ 4 from rfl, Nat.testBit_two_pow, Bool.eq_iff_iff, basym k]
    simp only [decide_eq_true_eq]
    constructor
    · rintro ⟨rfl, _⟩; rfl
    · rintro rfl; exact ⟨rfl, hsig⟩
  subst hasym
  change Requester.configToNegotiateAlgorithms c = .ok (configuredOffer crypto) at hoffer
  have hlim : ∀ (names : List String) k, (∃ a ∈ names, (a, k) ∈ capabilityBits) → reqFlagBit k ∧ rspFlagBit k := by
    rintro names k ⟨a, _, hk⟩
    simp only [capabilityBits, List.mem_cons, Prod.mk.injEq, List.not_mem_nil, or_false] at hk
    unfold reqFlagBit rspFlagBit
    omega
  have hbq : OnlyBits reqFlagBit fq.toNat := fun k hk => (hlim _ k ((bq k).mp hk)).1
  have hbr : OnlyBits rspFlagBit fr.toNat := fun k hk => (hlim _ k ((br k).mp hk)).2
  have hname : ∀ names : List String, (∃ a ∈ names, (a, 1) ∈ capabilityBits) → "CERT_CAP" ∈ names := by
    rintro names ⟨a, hm, hk⟩
    simp [capabilityBits] at hk
    exact hk ▸ hm
  have hcert : Requester.bothHave ⟨12, fq, 12, fr⟩ ReqFlags.certCap RspFlags.certCap = false := by
    rw [bothHave_cert, Bool.and_eq_false_iff]
    cases h1 : fq.toNat.testBit 1 with
    | false => exact .inl rfl
    | true =>
      cases h2 : fr.toNat.testBit 1 with
      | false => exact .inr rfl
      | true => exact absurd ⟨hname _ ((bq 1).mp h1), hname _ ((br 1).mp h2)⟩ hnone
  have hst := stages (c := c) (c' := c') (cr := cr) (cr' := cr') (flags := stageFlag ⟨12, fq, 12, fr⟩)
    (S := Stage c c' cr root slots ⟨0, 0, ⟨[], [], []⟩, fun _ _ => none⟩ q ⟨12, fq, 12, fr⟩) (n := n) (d := 0) (s := 0) (K := 3) (ok := fun _ => True) (by
      intro k hk x _ e he
      match k, hk, he with
      | 0, _, he => exact stage0 hl h8' run ha he
      | 1, _, he => exact stage1 hl h8' hfq hfr hbq hbr he
      | 2, _, he => exact stage2 hl h8' hoffer he) [x, y, z] 0 (by simp) (by simp) (Requester.new c root, q)
      ⟨rfl, rfl, by simp [Requester.new, Transcript.new, Transcript.WF], by simp [Requester.new, Transcript.new], rfl⟩
  rw [← hb.transcriptSize, ← hb'.transcriptSize, ← three_rounds (n := n) (d := 0) (s := 0), enough_iff (by simp) (by simp)]
  constructor
  · rintro ⟨ends, h⟩
    exact hst.2 _ h
  · intro h
    obtain ⟨e, he⟩ := hst.1 h
    exact ⟨e, by rw [he]; simp [List.range', stageFlag, hcert]⟩

/-- spdm-config.toml: like spdm-config-crypto.toml, but with no capabilities. -/
def defaultToml : SpdmConfig := { cryptoToml with capabilities := [] }

theorem default_valid (crypto : Bool) : ValidConfig crypto defaultToml :=
  ⟨crypto_valid.slots, crypto_valid.chain, crypto_valid.depth, crypto_valid.signing, (by intro a h; cases h), fun _ => rfl⟩

/-- **C113.** The default configuration: two builds of spdm-config.toml, with or without a provider, complete in three exchanges whatever the five slots, the root and the nonces,
when every request buffer has 48 bytes and every response buffer 52. -/
theorem c113_default_config (hb : Built crypto defaultToml n c) (hb' : Built crypto' defaultToml n' c') (hl : slots.length = 5) (run : RspRun c' cr' slots es q) (ha : alive es = true)
    (rounds : List Round) (hn : rounds.length = 3) (hroom : ∀ x ∈ rounds, 48 ≤ x.reqBuf.length ∧ 52 ≤ x.rspBuf.length) :
    ∃ ends, talk c c' cr cr' rounds (Requester.new c root, q) = some ([false, false, true], ends) := by
  match rounds, hn with
  | [x, y, z], _ =>
    have hx := hroom x (by simp); have hy := hroom y (by simp); have hz := hroom z (by simp)
    refine (c113_negotiation_only (default_valid _) hb (default_valid _) hb' (by decide) (fun h => by cases h.1) hl run ha x y z).mpr
      ⟨?_, ?_, ?_, ?_, ?_, ?_, by decide, by decide⟩ <;> omega

theorem digestsOf_length_le {hash : Bytes → Bytes} (hh : ∀ m, (hash m).length = 32) : ∀ slots : List (Option FilledSlot), (digestsOf hash slots).length ≤ slots.length * 32
  | [] => by simp [digestsOf]
  | o :: l => by
    have := digestsOf_length_le hh l
    cases o with
    | none => simp [digestsOf] at this ⊢; omega
    | some s => simp [digestsOf, hh] at this ⊢; omega

/-- **C113.** The configuration with crypto: two builds of spdm-config-crypto.toml, nonces of 32 bytes (of any size up to that; without the `rand` feature they are empty), complete the authentication in six exchanges, for every certificate
chain that fits and every requester and responder that do their job, when every request buffer has 48 bytes and every response buffer 1032: the transcript is large enough. -/
theorem c113_crypto_config (h32 : n ≤ 32) (hb : Built true cryptoToml n c) (hb' : Built true cryptoToml n c') (hon : HonestPair c c' cr cr' root slots slot) (run : RspRun c' cr' slots es q)
    (ha : alive es = true) (rounds : List Round) (hn : rounds.length = 6)
    (hroom : ∀ x ∈ rounds, x.reqEnv.nonce.length = n ∧ x.rspEnv.nonce.length = n ∧ 48 ≤ x.reqBuf.length ∧ 1032 ≤ x.rspBuf.length) :
    ∃ ends, talk c c' cr cr' rounds (Requester.new c root, q) = some ([false, false, false, false, false, true], ends) := by
  have hd : (digestsOf (cr.hash 1) slots).length ≤ 160 := by
    have := digestsOf_length_le (hash := cr.hash 1) hon.hash slots
    rw [hon.number, hb'.numSlots] at this
    exact this
  have hs : (Wire.chain slot.certChain).length ≤ 1024 := by
    have := hon.received
    rw [hb.maxCertChainSize] at this
    exact this
  have hT : c.transcriptSize = 4096 := hb.transcriptSize
  have hT' : c'.transcriptSize = 4096 := hb'.transcriptSize
  have hneeds := need_values n (digestsOf (cr.hash 1) slots).length (Wire.chain slot.certChain).length
  have h := c97_builds_interoperate crypto_valid hb crypto_valid hb' (by decide) hon run ha rounds (by rw [hn]; decide +kernel) (fun x hx => ⟨(hroom x hx).1, (hroom x hx).2.1⟩)
    ⟨fun k x need hx hneed => ?_, fun k x need hx hneed => ?_, by rw [hn]; omega, by rw [hn]; omega⟩
  · rw [hn] at h; exact h
  · have := (hroom x (List.mem_of_getElem? hx)).2.2.1
    have : need ∈ requestNeeds n := List.mem_of_getElem? hneed
    simp only [requestNeeds, List.mem_cons, List.not_mem_nil, or_false] at this
    omega
  · have := (hroom x (List.mem_of_getElem? hx)).2.2.2
    have : need ∈ responseNeeds n _ _ := List.mem_of_getElem? hneed
    simp only [responseNeeds, List.mem_cons, List.not_mem_nil, or_false] at this
    omega

/-! ### The hypotheses are met -/

/-- A build of spdm-config-crypto.toml. -/
def shippedCfg : Cfg :=
  { numSlots := 5, maxCertChainSize := 1024, maxCertChainDepth := 4, transcriptSize := 4096, maxDigestSize := 64, maxSignatureSize := 64
    maxOpaqueElementDataSize := 16, maxOpaqueElements := 2, maxMeasurementBlocks := 8, maxMeasurementSize := 1024, nonceSize := 32
    capabilities := ["CERT_CAP", "CHAL_CAP", "ENCRYPT_CAP", "MAC_CAP", "MUT_AUTH_CAP", "KEY_EX_CAP", "KEY_UPD_CAP"], asymSigning := ["ECDSA_ECC_NIST_P256"] }

theorem shipped_built : Built true cryptoToml 32 shippedCfg := ⟨rfl, rfl, rfl, rfl, rfl, rfl, rfl, rfl, rfl, rfl, rfl, rfl, rfl, rfl⟩

/-- It is what the build of that file produces. -/
example : ∃ consts, SpdmConfig.genConfig true cryptoToml = .ok consts ∧ SpdmConfig.toCfg true consts 32 = some shippedCfg := ⟨_, rfl, rfl⟩

theorem shipped_honest : HonestPair shippedCfg shippedCfg honestCrypto honestCrypto [1, 2, 3] [some honestSlot, none, none, some honestSlot, none] honestSlot where
  number := rfl
  filled := rfl
  fits := by
    intro s hs
    simp only [List.mem_cons, Option.some.injEq, reduceCtorEq, List.not_mem_nil, or_false, false_or] at hs
    rcases hs with rfl | rfl <;> decide +kernel
  received := by decide +kernel
  chain := ⟨honest_demo.chain.root, by decide +kernel, honest_demo.chain.inter, honest_demo.chain.leaf, honest_demo.chain.size⟩
  digest := by decide
  digest' := by decide
  hash := demoHash_length
  hash' := fun _ => rfl
  leaf := by decide
  anchor := by decide
  trust := by decide
  sign := honest_demo.sign

/-- Two builds of the shipped configuration, two filled slots, complete the authentication. -/
example : ∃ ends, talk shippedCfg shippedCfg honestCrypto honestCrypto (List.replicate 6 ⟨⟨zeros 32, 0⟩, ⟨zeros 32, 0⟩, zeros 48, zeros 1032⟩)
    (Requester.new shippedCfg [1, 2, 3], Responder.new shippedCfg [some honestSlot, none, none, some honestSlot, none]) = some ([false, false, false, false, false, true], ends) :=
  c113_crypto_config (Nat.le_refl 32) shipped_built shipped_built shipped_honest .new rfl _ (by simp) (by
    intro x hx
    rw [List.eq_of_mem_replicate hx]
    exact ⟨by simp only [zeros, List.length_replicate], by simp only [zeros, List.length_replicate], by simp only [zeros, List.length_replicate]; omega, by simp only [zeros, List.length_replicate]; omega⟩)

/-- Two builds of the default configuration without a provider, all slots empty, complete the negotiation. -/
example : ∃ ends, talk { shippedCfg with capabilities := [], provider := false } { shippedCfg with capabilities := [], provider := false } honestCrypto honestCrypto
    (List.replicate 3 ⟨⟨[], 0⟩, ⟨[], 0⟩, zeros 48, zeros 52⟩)
    (Requester.new { shippedCfg with capabilities := [], provider := false } [], Responder.new { shippedCfg with capabilities := [], provider := false } (List.replicate 5 none)) =
      some ([false, false, true], ends) :=
  c113_default_config (crypto := false) (crypto' := false) (n := 32) (n' := 32) ⟨rfl, rfl, rfl, rfl, rfl, rfl, rfl, rfl, rfl, rfl, rfl, rfl, rfl, rfl⟩
    ⟨rfl, rfl, rfl, rfl, rfl, rfl, rfl, rfl, rfl, rfl, rfl, rfl, rfl, rfl⟩ rfl .new rfl _ (by simp) (by
    intro x hx
    rw [List.eq_of_mem_replicate hx]
    simp [zeros])

end Spdm

import Verif.Spec.Usable
import Verif.Provider
import Verif.Props.ReqPanics
import Verif.Props.Negotiation
import Verif.Props.Handshake
/-!
# C90: the agreed algorithms can be used by the build
-/
namespace Spdm
open Spec

section
variable {c : Cfg} {cr : Crypto} {slots : List (Option FilledSlot)} {es : List RspEvent} {r : Responder} {i : SpdmConfig} {nonceSize : Nat}

namespace UsableAlg

theorem bits7 {k : Nat} (h : (7 : Nat).testBit k = true) : k < 3 := by
  by_contra hk
  have : (7 : Nat).testBit k = false := Nat.testBit_lt_two_pow (Nat.lt_of_lt_of_le (by decide : 7 < 2 ^ 3) (Nat.pow_le_pow_right (by decide) (by omega)))
  simp [this] at h

theorem bit16 {k : Nat} (h : (16 : Nat).testBit k = true) : k = 4 := by
  rw [show (16 : Nat) = 2 ^ 4 from rfl, Nat.testBit_two_pow] at h
  have : 4 = k := by simpa using h
  exact this.symm

theorem hash_size {k : Nat} (hk : k < 3) (h64 : 64 ≤ i.maxDigestSize) : ∃ n, digestSizes[k]? = some n ∧ n ≤ i.maxDigestSize := by
  have : k = 0 ∨ k = 1 ∨ k = 2 := by omega
  rcases this with rfl | rfl | rfl
  · exact ⟨32, rfl, by omega⟩
  · exact ⟨48, rfl, by omega⟩
  · exact ⟨64, rfl, h64⟩

end UsableAlg
open UsableAlg

/-- **C90**, what "can be used" amounts to in a build from the configuration, with the crypto provider: both sizes are known, signatures are 64 bytes, certificates and
signatures can be verified and made with the signature algorithm, and the hash of anything is computed, provided the hash function returns digests of its size. -/
theorem c90_usable (hb : Built true i nonceSize c) (asym hash : UInt32) (hu : Usable i asym.toNat hash.toNat) :
    ∃ n, BaseHashAlgo.getDigestSize c hash = .ok n ∧ BaseAsymAlgo.getSignatureSize c asym = .ok 64 ∧ (∃ x, Crypto.spdmToWebpki asym = .ok x) ∧
      (∃ x, spdmToRing asym = .ok x) ∧ (∀ data, (cr.hash hash data).length = n → Crypto.digest c cr hash data = .ok (cr.hash hash data)) := by
  obtain ⟨⟨ha, _⟩, k, n, hk, hh, hn, hle⟩ := hu
  have e : asym = BaseAsymAlgo.ecdsaP256 := UInt32.toNat_inj.mp (by rw [ha]; rfl)
  refine ⟨n, getDigestSize_ok.mpr ⟨k, hh, hn, by rw [hb.maxDigestSize]; exact hle⟩, getSignatureSize_ok.mpr ⟨4, ha, rfl, by rw [hb.maxSignatureSize]⟩, ?_, ?_, ?_⟩
  · subst e; exact ⟨_, rfl⟩
  · subst e; exact ⟨_, rfl⟩
  · intro data hd
    have hr : hash = BaseHashAlgo.sha256 ∨ hash = BaseHashAlgo.sha384 ∨ hash = BaseHashAlgo.sha512 := by
      have : k = 0 ∨ k = 1 ∨ k = 2 := by omega
      rcases this with rfl | rfl | rfl
      · exact .inl (UInt32.toNat_inj.mp hh)
      · exact .inr (.inl (UInt32.toNat_inj.mp hh))
      · exact .inr (.inr (UInt32.toNat_inj.mp hh))
    unfold Crypto.digest
    rw [if_neg (by rw [hb.provider]; decide), if_pos hr, if_pos (by rw [hd, hb.maxDigestSize]; exact hle)]

/-- **C90**, the requester: once it has agreed on algorithms, they can be used; MAX_DIGEST_SIZE has to be 64 at least. -/
theorem c90_requester (hv : ValidConfig true i) (hb : Built true i nonceSize c) (h64 : 64 ≤ i.maxDigestSize) {root : Bytes} {es : List ReqEvent} {r : Requester}
    (run : ReqRun c cr root es r) (st : ReqState) (a : Algorithms) (hs : r.state = some st) (ha : agreedAlgorithms st = some a) :
    Usable i a.baseAsymAlgoSelected.toNat a.baseHashAlgoSelected.toNat := by
  obtain ⟨o, ho, hsel⟩ := c30_agreed_offered run st a hs ha
  rw [built_offer hv hb, Res.ok.injEq] at ho
  subst ho
  obtain ⟨k, h1, h2⟩ := hsel.asym
  obtain ⟨j, h3, h4⟩ := hsel.hash
  have hne : i.asymmetricSigning ≠ [] := by
    intro e
    simp [builtOffer, e] at h1
  have hk : k = 4 := by
    simp only [builtOffer, if_neg hne] at h1
    exact bit16 h1
  subst hk
  have hj : j < 3 := by
    simp only [builtOffer, if_true] at h3
    exact bits7 h3
  obtain ⟨x, hx⟩ := List.exists_mem_of_ne_nil _ hne
  have := hv.signing x hx
  subst this
  obtain ⟨n, hn, hle⟩ := hash_size hj h64
  exact ⟨⟨h2, hx⟩, j, n, hj, h4, hn, hle⟩

/-- **C90** is false of the responder: it selects the lowest bit offered, whatever it was configured for.  An offer with RSASSA-2048 (bit 0) that it answers ends with
RSASSA-2048 selected, which no build can use. -/
theorem c90_unusable_selected (hl : slots.length = c.numSlots) (h8 : c.numSlots ≤ 8) (run : RspRun c cr slots es r) (env : Env) (req buf out : Bytes)
    (hk : code req = some 0xE3) (m : NegotiateAlgorithms) (hp : NegotiateAlgorithms.parseBody (req.drop 2) = .ok m) (hrsa : m.baseAsymAlgo.toNat.testBit 0 = true)
    (hok : (Responder.handleMsg c cr env req buf r).1 = .ok ⟨out, none⟩) :
    ∃ a, out = [0x11, 0x63] ++ Wire.algorithms a ∧ a.baseAsymAlgoSelected.toNat = 1 ∧ ∀ i, ¬ Usable i a.baseAsymAlgoSelected.toNat a.baseHashAlgoSelected.toNat := by
  obtain ⟨m', a, h1, h2, h3⟩ := c28_selects_offered hl h8 run env req buf out hk hok
  rw [hp, Res.ok.injEq] at h1
  subst h1
  obtain ⟨k, ⟨h4, h5⟩, h6⟩ := h2.asym
  have : k = 0 := by
    by_contra hne
    have := h5 0 (by omega)
    rw [hrsa] at this
    simp at this
  subst this
  refine ⟨a, h3, h6, ?_⟩
  intro i hu
  have := hu.asym.1
  rw [h6] at this
  simp at this

/-- **C90** is false of the configuration: MAX_DIGEST_SIZE is not checked, so the build accepts configurations under which every hash it offers is unusable. -/
theorem c90_digest_size_unchecked : ∃ i : SpdmConfig, ValidConfig true i ∧ (∃ consts, SpdmConfig.genConfig true i = .ok consts) ∧ (builtOffer true i).baseHashAlgo = 7 ∧
    ∀ asym hash, ¬ Usable i asym hash := by
  have hv : ValidConfig true { honestConfig with maxDigestSize := 16 } := by
    obtain ⟨h1, h2, h3, h4, h5, h6⟩ := honestConfig_valid
    exact ⟨h1, h2, h3, h4, h5, h6⟩
  refine ⟨{ honestConfig with maxDigestSize := 16 }, hv, (c53_accepts_valid _ _).mpr hv, rfl, ?_⟩
  intro asym hash hu
  obtain ⟨k, n, hk, _, hn, hle⟩ := hu.hash
  have : k = 0 ∨ k = 1 ∨ k = 2 := by omega
  rcases this with rfl | rfl | rfl <;> (simp [digestSizes] at hn; subst hn; simp at hle)

/-- **C90**, what holds of the responder: when every signature algorithm and hash offered can be used, so can the selection. -/
theorem c90_responder_partial (hl : slots.length = c.numSlots) (h8 : c.numSlots ≤ 8) (run : RspRun c cr slots es r) (env : Env) (req buf out : Bytes)
    (hk : code req = some 0xE3) (m : NegotiateAlgorithms) (hp : NegotiateAlgorithms.parseBody (req.drop 2) = .ok m)
    (hoff : ∀ j k, m.baseAsymAlgo.toNat.testBit j = true → m.baseHashAlgo.toNat.testBit k = true → Usable i (2 ^ j) (2 ^ k))
    (hok : (Responder.handleMsg c cr env req buf r).1 = .ok ⟨out, none⟩) :
    ∃ a, out = [0x11, 0x63] ++ Wire.algorithms a ∧ Usable i a.baseAsymAlgoSelected.toNat a.baseHashAlgoSelected.toNat := by
  obtain ⟨m', a, h1, h2, h3⟩ := c28_selects_offered hl h8 run env req buf out hk hok
  rw [hp, Res.ok.injEq] at h1
  subst h1
  obtain ⟨j, hj, hj2⟩ := h2.asym
  obtain ⟨k, hk1, hk2⟩ := h2.hash
  refine ⟨a, h3, ?_⟩
  rw [hj2, hk2]
  exact hoff j k hj.1 hk1.1

/-- **C90**, the responder facing a requester built from the same configuration: P-256 and SHA-256 are selected. -/
theorem c90_built_peer_partial (hv : ValidConfig true i) (h64 : 64 ≤ i.maxDigestSize)
    (hl : slots.length = c.numSlots) (h8 : c.numSlots ≤ 8) (run : RspRun c cr slots es r) (env : Env) (req buf out : Bytes)
    (hk : code req = some 0xE3) (hp : NegotiateAlgorithms.parseBody (req.drop 2) = .ok (builtOffer true i))
    (hok : (Responder.handleMsg c cr env req buf r).1 = .ok ⟨out, none⟩) :
    ∃ a, out = [0x11, 0x63] ++ Wire.algorithms a ∧ a.baseAsymAlgoSelected.toNat = 16 ∧ a.baseHashAlgoSelected.toNat = 1 ∧
      Usable i a.baseAsymAlgoSelected.toNat a.baseHashAlgoSelected.toNat := by
  obtain ⟨m', a, h1, h2, h3⟩ := c28_selects_offered hl h8 run env req buf out hk hok
  rw [hp, Res.ok.injEq] at h1
  subst h1
  obtain ⟨j, ⟨hj, _⟩, hj2⟩ := h2.asym
  obtain ⟨k, ⟨hk1, hk3⟩, hk2⟩ := h2.hash
  have hne : i.asymmetricSigning ≠ [] := by
    intro e
    simp [builtOffer, e] at hj
  have hj4 : j = 4 := by
    simp only [builtOffer, if_neg hne] at hj
    exact bit16 hj
  have hk0 : k = 0 := by
    by_contra h0
    have := hk3 0 (by omega)
    simp [builtOffer] at this
  subst hj4; subst hk0
  obtain ⟨x, hx⟩ := List.exists_mem_of_ne_nil _ hne
  have := hv.signing x hx
  subst this
  exact ⟨a, h3, hj2, hk2, ⟨hj2, hx⟩, 0, 32, by decide, hk2, rfl, by omega⟩

/-! ### The hypotheses are met -/

/-- A built requester that has agreed on algorithms with the demo responder. -/
def usableRequester (n : Nat) : Requester := reqAfter honestCfg demoCrypto (Requester.new honestCfg [1, 2, 3]) (demoReqCalls n)
example : ∃ st a, (usableRequester 6).state = some st ∧ agreedAlgorithms st = some a ∧ Usable honestConfig a.baseAsymAlgoSelected.toNat a.baseHashAlgoSelected.toNat := by
  have h : ((usableRequester 6).state.bind agreedAlgorithms).isSome = true := by decide +kernel
  obtain ⟨a, h⟩ := Option.isSome_iff_exists.mp h
  obtain ⟨st, h1, h2⟩ := Option.bind_eq_some_iff.mp h
  exact ⟨st, a, h1, h2, c90_requester honestConfig_valid honestConfig_built (by decide) (ReqRun.of honestCfg demoCrypto [1, 2, 3] (demoReqCalls 6)) st a h1 h2⟩

/-- An offer of RSASSA-2048 and P-256 is answered with RSASSA-2048. -/
example : ∃ a out, (Responder.handleMsg demoCfg demoCrypto demoEnv ([0x11, 0xE3] ++ Wire.negotiateAlgorithms { demoSessionOffer with baseAsymAlgo := 0x11 }) (zeros 200) (demoResponder 2)).1 =
    .ok ⟨out, none⟩ ∧ out = [0x11, 0x63] ++ Wire.algorithms a ∧ a.baseAsymAlgoSelected.toNat = 1 := by
  have hx : ((Responder.handleMsg demoCfg demoCrypto demoEnv ([0x11, 0xE3] ++ Wire.negotiateAlgorithms { demoSessionOffer with baseAsymAlgo := 0x11 }) (zeros 200) (demoResponder 2)).1).map (·.error) = .ok none := by
    decide +kernel
  rcases ho : (Responder.handleMsg demoCfg demoCrypto demoEnv ([0x11, 0xE3] ++ Wire.negotiateAlgorithms { demoSessionOffer with baseAsymAlgo := 0x11 }) (zeros 200) (demoResponder 2)).1 with ⟨out, e⟩ | e | k
  · rw [ho] at hx
    simp only [Res.map, Res.ok.injEq] at hx
    subst hx
    obtain ⟨a, h1, h2, _⟩ := c90_unusable_selected rfl (by decide) (demo_run 2) demoEnv _ (zeros 200) out (by decide +kernel) { demoSessionOffer with baseAsymAlgo := 0x11 }
      (by decide +kernel) (by decide) ho
    exact ⟨a, out, rfl, h1, h2⟩
  · rw [ho] at hx; simp [Res.map] at hx
  · rw [ho] at hx; simp [Res.map] at hx

/-- The demo session's offer is the built one. -/
example : ∃ out a, (Responder.handleMsg honestCfg demoCrypto demoEnv demoNegotiate (zeros 200) (after honestCfg demoCrypto (Responder.new honestCfg demoSlots) (demoCalls 2))).1 = .ok ⟨out, none⟩ ∧
    out = [0x11, 0x63] ++ Wire.algorithms a ∧ Usable honestConfig a.baseAsymAlgoSelected.toNat a.baseHashAlgoSelected.toNat := by
  have hx : ((Responder.handleMsg honestCfg demoCrypto demoEnv demoNegotiate (zeros 200) (after honestCfg demoCrypto (Responder.new honestCfg demoSlots) (demoCalls 2))).1).map (·.error) = .ok none := by
    decide +kernel
  rcases ho : (Responder.handleMsg honestCfg demoCrypto demoEnv demoNegotiate (zeros 200) (after honestCfg demoCrypto (Responder.new honestCfg demoSlots) (demoCalls 2))).1 with ⟨out, e⟩ | e | k
  · rw [ho] at hx
    simp only [Res.map, Res.ok.injEq] at hx
    subst hx
    obtain ⟨a, h1, _, _, h2⟩ := c90_built_peer_partial honestConfig_valid (by decide) rfl (by decide) (RspRun.of honestCfg demoCrypto demoSlots (demoCalls 2)) demoEnv demoNegotiate (zeros 200) out
      (by decide +kernel) (by decide +kernel) ho
    exact ⟨out, a, rfl, h1, h2⟩
  · rw [ho] at hx; simp [Res.map] at hx
  · rw [ho] at hx; simp [Res.map] at hx

end

end Spdm

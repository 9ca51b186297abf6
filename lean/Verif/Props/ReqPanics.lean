import Verif.Props.Panics
import Verif.Props.ParserPanics
import Verif.Props.Response
import Verif.Props.Sizes
import Verif.Spec.ReqPanics
/-!
# Exactly which responses abort a requester: C84
-/
namespace Spdm
open Spec

section
variable {c : Cfg} {cr : Crypto} {root : Bytes} {offer : NegotiateAlgorithms} {es : List ReqEvent} {r : Requester}

theorem Blows.lift_iff {σ α β : Type} {x : Res α} {f : α → M σ β} {s : σ} {a : α} (h : x = .ok a) : Blows (M.lift x >>= f) s ↔ Blows (f a) s := by
  unfold Blows; rw [lift_run h]

theorem Blows.lift_panic {σ α β : Type} {x : Res α} {f : α → M σ β} {s : σ} (h : x.isPanic = true) : Blows (M.lift x >>= f) s := by
  unfold Blows
  cases x with
  | ok a => simp [Res.isPanic] at h
  | err e => simp [Res.isPanic] at h
  | panic k => rw [M.run_bind_panic (k := k) (M.run_lift _ _)]; rfl

theorem Blows.lift_err {σ α β : Type} {x : Res α} {f : α → M σ β} {s : σ} {e : Err} (h : x = .err e) : ¬ Blows (M.lift x >>= f) s := by
  unfold Blows
  rw [M.run_bind_err (e := e) (by rw [M.run_lift, h])]
  simp [Res.isPanic]

theorem Blows.bind_iff {σ α β : Type} {m : M σ α} {f : α → M σ β} {s s' : σ} {a : α} (h : m s = (.ok a, s')) : Blows (m >>= f) s ↔ Blows (f a) s' := by
  unfold Blows; rw [M.run_bind_ok h]

theorem Blows.bind_err {σ α β : Type} {m : M σ α} {f : α → M σ β} {s s' : σ} {e : Err} (h : m s = (.err e, s')) : ¬ Blows (m >>= f) s := by
  unfold Blows; rw [M.run_bind_err h]; simp [Res.isPanic]

theorem res_cases {α : Type} (x : Res α) (h : x.isPanic = false) : (∃ a, x = .ok a) ∨ ∃ e, x = .err e := by
  cases x with
  | ok a => exact .inl ⟨a, rfl⟩
  | err e => exact .inr ⟨e, rfl⟩
  | panic k => simp [Res.isPanic] at h

theorem Requester.extend_cases {r : Requester} (hw : r.transcript.WF) (bs : Bytes) :
    (r.transcript.get.length + bs.length ≤ r.transcript.buf.length ∧ ∃ t, Requester.extend bs r = (.ok (), { r with transcript := t }) ∧ t.get = r.transcript.get ++ bs) ∨
    (r.transcript.buf.length < r.transcript.get.length + bs.length ∧ ∃ e r', Requester.extend bs r = (.err e, r')) := by
  by_cases hr : r.transcript.get.length + bs.length ≤ r.transcript.buf.length
  · obtain ⟨t, hx, h1, _⟩ := Requester.extend_run (r := r) hw hr
    exact .inl ⟨hr, t, hx, h1⟩
  · refine .inr ⟨by omega, ?_⟩
    simp only [Requester.extend, Transcript.extend_full hw (by omega : r.transcript.buf.length < r.transcript.get.length + bs.length)]
    exact ⟨_, _, rfl⟩

theorem verify_panics_iff {s : ReqChallenge} {ds : Nat} {mh sig root : Bytes} (hp : c.provider = true) (henc : EncoderFits c) (hsig : sig.length ≤ c.maxSignatureSize)
    (hcs : s.certChainSize.toNat ≤ s.certChain.length) {a : Nat} (ha : a = s.algorithms.baseAsymAlgoSelected.toNat) :
    (Requester.verifyCertChainAndSignature c cr s ds mh sig root).isPanic = true ↔
      ChainAborts c ds (s.certChain.take s.certChainSize.toNat) ∨ ∃ chain, ChainWF c ds chain ∧ s.certChain.take s.certChainSize.toNat = Wire.chain chain ∧
        cr.certOk chain.leafCert = true ∧ cr.anchorOk root = true ∧ ((a ≠ 16 ∧ a ≠ 128) ∨ ((a = 16 ∨ a = 128) ∧
          cr.chainOk chain.leafCert (UInt32.ofNat a) root chain.intermediateCerts 1638316800 = true ∧ (rawR sig = 0 ∨ rawS sig = 0))) := by
  unfold Requester.verifyCertChainAndSignature
  rw [sliceTo_ok hcs, Res.ok_bind, ← c83_chain_aborts_iff]
  have hal : UInt32.ofNat a = s.algorithms.baseAsymAlgoSelected := by rw [ha]; simp
  rcases hc : CertificateChain.parse c (s.certChain.take s.certChainSize.toNat) ds with chain | e | k
  · obtain ⟨cw, hchain⟩ := CertificateChain.parse_inv hc
    have huniq : ∀ ch, ChainWF c ds ch → s.certChain.take s.certChainSize.toNat = Wire.chain ch → ch = chain := by
      intro ch h1 h2
      have := CertificateChain.parse_chain h1
      rw [← h2, hc] at this
      simpa using this.symm
    have hsimp : (∃ ch, ChainWF c ds ch ∧ s.certChain.take s.certChainSize.toNat = Wire.chain ch ∧ cr.certOk ch.leafCert = true ∧ cr.anchorOk root = true ∧
        ((a ≠ 16 ∧ a ≠ 128) ∨ ((a = 16 ∨ a = 128) ∧ cr.chainOk ch.leafCert (UInt32.ofNat a) root ch.intermediateCerts 1638316800 = true ∧ (rawR sig = 0 ∨ rawS sig = 0)))) ↔
        (cr.certOk chain.leafCert = true ∧ cr.anchorOk root = true ∧
        ((a ≠ 16 ∧ a ≠ 128) ∨ ((a = 16 ∨ a = 128) ∧ cr.chainOk chain.leafCert (UInt32.ofNat a) root chain.intermediateCerts 1638316800 = true ∧ (rawR sig = 0 ∨ rawS sig = 0)))) := by
      constructor
      · rintro ⟨ch, h1, h2, h3⟩; rw [huniq ch h1 h2] at h3; exact h3
      · intro h; exact ⟨chain, cw, hchain, h⟩
    rw [hsimp]
    simp only [Res.ok_bind, Res.isPanic, Bool.false_eq_true, false_or]
    by_cases hle : cr.certOk chain.leafCert = true
    swap
    · have : cr.newEndEntityCert c chain.leafCert = .err (.chain 0) := by unfold Crypto.newEndEntityCert; rw [if_neg (by simp [hp, hle])]
      rw [this]
      simp only [hle, false_and, iff_false]
      simp [Res.isPanic, Bind.bind, Res.bind]
    have h1 : cr.newEndEntityCert c chain.leafCert = .ok chain.leafCert := by unfold Crypto.newEndEntityCert; rw [if_pos (by simp [hle])]
    rw [h1, Res.ok_bind]
    by_cases han : cr.anchorOk root = true
    swap
    · have : cr.verifyChainOfTrust c chain.leafCert s.algorithms.baseAsymAlgoSelected chain.intermediateCerts root Requester.unixTime = .err (.chain 0) := by
        unfold Crypto.verifyChainOfTrust; rw [if_neg (by simp [hp]), if_neg han]
      rw [this]
      simp only [han, false_and, and_false, iff_false]
      simp [Res.isPanic, Bind.bind, Res.bind]
    by_cases halg : a = 16 ∨ a = 128
    swap
    · have h2 : Crypto.spdmToWebpki s.algorithms.baseAsymAlgoSelected = .panic .unimplemented := by
        rcases hw : Crypto.spdmToWebpki s.algorithms.baseAsymAlgoSelected with b | e | k
        · exact absurd (ha ▸ (spdmToWebpki_inv hw).2) halg
        · unfold Crypto.spdmToWebpki at hw; (repeat' split at hw) <;> simp at hw
        · unfold Crypto.spdmToWebpki at hw
          (repeat' split at hw) <;> simp at hw
          rw [hw]
      have : cr.verifyChainOfTrust c chain.leafCert s.algorithms.baseAsymAlgoSelected chain.intermediateCerts root Requester.unixTime = .panic .unimplemented := by
        unfold Crypto.verifyChainOfTrust; rw [if_neg (by simp [hp]), if_pos han, h2]; rfl
      rw [this]
      constructor
      · intro _; exact ⟨hle, han, .inl (by omega)⟩
      · intro _; rfl
    have h2 : Crypto.spdmToWebpki s.algorithms.baseAsymAlgoSelected = .ok s.algorithms.baseAsymAlgoSelected := by
      rw [← hal]; rcases halg with rfl | rfl <;> rfl
    by_cases htr : cr.chainOk chain.leafCert (UInt32.ofNat a) root chain.intermediateCerts 1638316800 = true
    swap
    · have : cr.verifyChainOfTrust c chain.leafCert s.algorithms.baseAsymAlgoSelected chain.intermediateCerts root Requester.unixTime = .err (.chain 1) := by
        unfold Crypto.verifyChainOfTrust; rw [if_neg (by simp [hp]), if_pos han, h2, Res.ok_bind, if_neg (by rw [← hal]; exact htr)]
      rw [this]
      constructor
      · simp [Res.isPanic, Bind.bind, Res.bind]
      · rintro ⟨_, _, h | h⟩
        · omega
        · exact absurd h.2.1 htr
    have h3 : cr.verifyChainOfTrust c chain.leafCert s.algorithms.baseAsymAlgoSelected chain.intermediateCerts root Requester.unixTime = .ok () := by
      unfold Crypto.verifyChainOfTrust; rw [if_neg (by simp [hp]), if_pos han, h2, Res.ok_bind, if_pos (by rw [← hal]; exact htr)]
    rw [h3, Res.ok_bind]
    by_cases hz : rawR sig = 0 ∨ rawS sig = 0
    · have := c52_zero_half_aborts c cr chain.leafCert mh (algo := s.algorithms.baseAsymAlgoSelected) hz
      constructor
      · intro _; exact ⟨hle, han, .inr ⟨halg, htr, hz⟩⟩
      · intro _
        rcases hv : cr.verifySignature c chain.leafCert s.algorithms.baseAsymAlgoSelected mh sig with b | e | k
        · rw [hv] at this; simp [Res.isPanic] at this
        · rw [hv] at this; simp [Res.isPanic] at this
        · rfl
    · obtain ⟨der, _, h⟩ := c52_nonzero_halves_partial c cr chain.leafCert mh (sig := sig) (algo := s.algorithms.baseAsymAlgoSelected) hp
        (by rw [← hal]; rcases halg with rfl | rfl <;> simp) hsig henc.1 henc.2.1 henc.2.2.1 henc.2.2.2 (fun h => hz (.inl h)) (fun h => hz (.inr h))
      rw [h, Res.ok_bind]
      constructor
      · intro h
        cases hx : cr.sigOk chain.leafCert s.algorithms.baseAsymAlgoSelected mh der <;> simp [hx, Res.isPanic] at h
      · rintro ⟨_, _, h | h⟩
        · omega
        · exact absurd h.2.2 hz
  · constructor
    · intro h; simp [Res.isPanic, Bind.bind, Res.bind] at h
    · rintro (h | ⟨ch, h1, h2, _⟩)
      · simp [Res.isPanic] at h
      · have := CertificateChain.parse_chain h1
        rw [← h2, hc] at this
        simp at this
  · constructor
    · intro _; exact .inl rfl
    · intro _; rfl

theorem digestSize_panics {x : UInt32} (hx : ¬ ∃ ds, BaseHashAlgo.getDigestSize c x = .ok ds) : (BaseHashAlgo.getDigestSize c x).isPanic = true := by
  rcases hg : BaseHashAlgo.getDigestSize c x with d | e | k
  · exact absurd ⟨d, hg⟩ hx
  · exfalso
    revert hg
    unfold BaseHashAlgo.getDigestSize BaseHashAlgo.checkedDigestSize
    repeat' split
    all_goals simp
  · rfl

theorem signatureSize_panics {x : UInt32} (hx : ¬ ∃ ss, BaseAsymAlgo.getSignatureSize c x = .ok ss) : (BaseAsymAlgo.getSignatureSize c x).isPanic = true := by
  rcases hg : BaseAsymAlgo.getSignatureSize c x with d | e | k
  · exact absurd ⟨d, hg⟩ hx
  · exfalso
    revert hg
    unfold BaseAsymAlgo.getSignatureSize BaseAsymAlgo.checkedSignatureSize
    repeat' split
    all_goals simp
  · rfl

/-- What `AuthAborts` says about a CHALLENGE_AUTH that could be parsed as `m`. -/
def AuthRest (c : Cfg) (cr : Crypto) (root : Bytes) (l : Log) (cert rsp : Bytes) (m : ChallengeAuth) : Prop :=
  cert[2]? = some m.slot ∧ (m.slot.toNat = 8 ∨ ((m.slot.toNat < 8 ∧ m.slotMask.toNat.testBit m.slot.toNat = true) ∧
    (¬ Digestible c cr l.hash (carriedChain cert) ∨ (Digestible c cr l.hash (carriedChain cert) ∧ m.certChainHash = cr.hash (UInt32.ofNat l.hash) (carriedChain cert) ∧
      (signedText l rsp).length ≤ c.transcriptSize ∧ (¬ Digestible c cr l.hash (signedText l rsp) ∨ (Digestible c cr l.hash (signedText l rsp) ∧
        (ChainAborts c (sizeFor digestSizes l.hash) (carriedChain cert) ∨ ∃ chain, ChainWF c (sizeFor digestSizes l.hash) chain ∧ carriedChain cert = Wire.chain chain ∧
          cr.certOk chain.leafCert = true ∧ cr.anchorOk root = true ∧ ((l.asym ≠ 16 ∧ l.asym ≠ 128) ∨ ((l.asym = 16 ∨ l.asym = 128) ∧
            cr.chainOk chain.leafCert (UInt32.ofNat l.asym) root chain.intermediateCerts 1638316800 = true ∧ (rawR m.signature = 0 ∨ rawS m.signature = 0))))))))))

theorem authAborts_iff (h0 : 0 < c.numSlots) (h8 : c.numSlots ≤ 8) {l : Log} {cert rsp : Bytes} (h3 : 3 ≤ rsp.length) : AuthAborts c cr root l cert rsp ↔
    rsp.take 2 = Wire.header .challengeAuth ∧ ((¬ DigestUsable c l.hash ∨ ¬ SignatureUsable c l.asym) ∨ (DigestUsable c l.hash ∧ SignatureUsable c l.asym ∧
      ((ChallengeAuth.parseBody c (rsp.drop 2) (sizeFor digestSizes l.hash) (sizeFor signatureSizes l.asym)).isPanic = true ∨
        ∃ m, ChallengeAuth.parseBody c (rsp.drop 2) (sizeFor digestSizes l.hash) (sizeFor signatureSizes l.asym) = .ok m ∧ AuthRest c cr root l cert rsp m))) := by
  have hpan : ∀ buf, (ChallengeAuth.parseBody c buf (sizeFor digestSizes l.hash) (sizeFor signatureSizes l.asym)).isPanic = true ↔
      ∃ bs rest, buf = bs ++ rest ∧ BodyAborts c ⟨sizeFor digestSizes l.hash, sizeFor signatureSizes l.asym, false⟩ .challengeAuth bs := by
    intro buf
    rw [← c83_parser_aborts_iff c h8]
    simp only [AnyMsg.parse]
    cases ChallengeAuth.parseBody c buf (sizeFor digestSizes l.hash) (sizeFor signatureSizes l.asym) <;> simp [Res.map, Res.isPanic]
  have hpar : ∀ {bs tail : Bytes} {m : ChallengeAuth}, Denotes c ⟨sizeFor digestSizes l.hash, sizeFor signatureSizes l.asym, false⟩ bs (.challengeAuth m) →
      ChallengeAuth.parseBody c (([0x11, 0x03] ++ bs ++ tail).drop 2) (sizeFor digestSizes l.hash) (sizeFor signatureSizes l.asym) = .ok m := by
    intro bs tail m hd
    have := denotes_parse h0 h8 (tail := tail) hd
    obtain ⟨x, g1, g2⟩ := res_map_ok_inv this
    cases g2
    simpa using g1
  constructor
  · intro h
    refine ⟨by cases h <;> simp [Wire.header], ?_⟩
    cases h with
    | sizes _ h => exact .inl h
    | parser h1 h2 h => exact .inr ⟨h1, h2, .inl ((hpan _).mpr ⟨_, _, by simp; rfl, h⟩)⟩
    | slot h1 h2 hd hs h8 => exact .inr ⟨h1, h2, .inr ⟨_, hpar hd, hs, .inl h8⟩⟩
    | chain h1 h2 hd hs hm hx => exact .inr ⟨h1, h2, .inr ⟨_, hpar hd, hs, .inr ⟨hm, .inl hx⟩⟩⟩
    | text h1 h2 hd hm ht hx => exact .inr ⟨h1, h2, .inr ⟨_, hpar hd, hm.slot, .inr ⟨hm.mask, .inr ⟨hm.digestible, hm.hash, ht, .inl hx⟩⟩⟩⟩
    | certs h1 h2 hd hm ht hx hc => exact .inr ⟨h1, h2, .inr ⟨_, hpar hd, hm.slot, .inr ⟨hm.mask, .inr ⟨hm.digestible, hm.hash, ht, .inr ⟨hx, .inl hc⟩⟩⟩⟩⟩
    | algorithm h1 h2 hd hm ht hx hw hc leaf anchor ha =>
      exact .inr ⟨h1, h2, .inr ⟨_, hpar hd, hm.slot, .inr ⟨hm.mask, .inr ⟨hm.digestible, hm.hash, ht, .inr ⟨hx, .inr ⟨_, hw, hc, leaf, anchor, .inl ha⟩⟩⟩⟩⟩⟩
    | signature h1 h2 hd hm ht hx hw hc leaf anchor ha trust hz =>
      exact .inr ⟨h1, h2, .inr ⟨_, hpar hd, hm.slot, .inr ⟨hm.mask, .inr ⟨hm.digestible, hm.hash, ht, .inr ⟨hx, .inr ⟨_, hw, hc, leaf, anchor, .inr ⟨ha, trust, hz⟩⟩⟩⟩⟩⟩⟩
  · rintro ⟨hh, h⟩
    obtain ⟨q1, q2⟩ := split_header hh h3
    rcases h with h | ⟨h1, h2, h | ⟨m, hm, h⟩⟩
    · rw [q1]; exact .sizes q2 h
    · obtain ⟨bs, tail, hb, h⟩ := (hpan _).mp h
      rw [q1, hb, ← List.append_assoc]
      exact .parser h1 h2 h
    · obtain ⟨bs, tail, hb, hd⟩ := denotes_split (x := ⟨sizeFor digestSizes l.hash, sizeFor signatureSizes l.asym, false⟩) (t := .challengeAuth) h0 h8 hh (m := .challengeAuth m)
        (by simp only [AnyMsg.parse, hm]; rfl)
      change rsp = [0x11, 0x03] ++ bs ++ tail at hb
      rw [hb] at h ⊢
      obtain ⟨hs, h | ⟨hmask, h | ⟨g1, g2, g3, h | ⟨g4, h | ⟨chain, g5, g6, g7, g8, h | ⟨g9, g10, g11⟩⟩⟩⟩⟩⟩ := h
      · exact .slot h1 h2 hd hs h
      · exact .chain h1 h2 hd hs hmask h
      · exact .text h1 h2 hd ⟨hs, hmask, g1, g2⟩ g3 h
      · exact .certs h1 h2 hd ⟨hs, hmask, g1, g2⟩ g3 g4 h
      · exact .algorithm h1 h2 hd ⟨hs, hmask, g1, g2⟩ g3 g4 g5 g6 g7 g8 h
      · exact .signature h1 h2 hd ⟨hs, hmask, g1, g2⟩ g3 g4 g5 g6 g7 g8 g9 g10 g11

theorem checkSlot_cases {slot : UInt8} {m : ChallengeAuth} (hm : m.slot.toNat ≤ 8) :
    ((Requester.checkSlot slot m).isPanic = true ↔ m.slot = slot ∧ m.slot.toNat = 8) ∧
    (Requester.checkSlot slot m = .ok () ↔ m.slot = slot ∧ m.slot.toNat < 8 ∧ m.slotMask.toNat.testBit m.slot.toNat = true) := by
  have h15 : m.slot ≠ 0x0F := by intro h; rw [h] at hm; revert hm; decide
  unfold Requester.checkSlot
  by_cases h1 : m.slot = slot
  swap
  · rw [if_pos h1]; simp [h1, Res.isPanic]
  rw [if_neg (by simp [h1]), if_pos h15]
  by_cases h8 : m.slot.toNat < 8
  swap
  · have : Requester.slotBit m.slot = .panic .overflow := by unfold Requester.slotBit; rw [if_neg h8]
    rw [this]
    constructor
    · constructor
      · intro _; exact ⟨h1, by omega⟩
      · intro _; rfl
    · constructor
      · intro h; simp [Bind.bind, Res.bind] at h
      · intro h; omega
  have : Requester.slotBit m.slot = .ok (UInt8.ofNat (2 ^ m.slot.toNat)) := by unfold Requester.slotBit; rw [if_pos h8]
  rw [this, Res.ok_bind]
  have hb : m.slotMask &&& UInt8.ofNat (2 ^ m.slot.toNat) = 0 ↔ ¬ m.slotMask.toNat.testBit m.slot.toNat = true := by
    constructor
    · intro hz0 ht
      have h2p : 2 ^ m.slot.toNat < 2 ^ 8 := Nat.pow_lt_pow_right (by omega) h8
      have := (and_pow_ne m.slotMask.toNat m.slot.toNat).mpr ht
      apply this
      have h9 := congrArg UInt8.toNat hz0
      rw [UInt8.toNat_and, UInt8.toNat_ofNat_of_lt' (by simpa [UInt8.size] using h2p)] at h9
      simpa using h9
    · intro h
      by_contra hne
      exact h (slotMask_bit h8 hne)
  split
  · rename_i hz
    constructor
    · simp [Res.isPanic]; omega
    · simp only [reduceCtorEq, false_iff, not_and]
      intro _ _
      exact hb.mp hz
  · rename_i hz
    constructor
    · simp [Res.isPanic]; omega
    · simp only [true_iff]
      exact ⟨h1, h8, by by_contra hh; exact hz (hb.mpr hh)⟩

theorem challengeRecv_blows (h0 : 0 < c.numSlots) (h8 : c.numSlots ≤ 8) (henc : EncoderFits c) {l : Log} {s : ReqChallenge} {ct : Certificate} {tail rsp : Bytes}
    (hwd : Words l s.caps s.algorithms) (hcw : CertificateWF c ct) (hs : s.certSlot = ct.slot) (hc : s.certChain = ct.certChain) (hz : s.certChainSize = ct.portionLength)
    (h3 : 3 ≤ rsp.length) (hroot : r.rootCert = root) (hw : r.transcript.WF) (ht : r.transcript.get = l.text) (hcap : r.transcript.buf.length = c.transcriptSize) :
    Blows (Requester.challengeHandle c cr s rsp) r ↔ AuthAborts c cr root l (Wire.header .certificate ++ Wire.certificate ct ++ tail) rsp := by
  rw [authAborts_iff h0 h8 h3]
  have hcar := served_chain hcw tail
  have hslot : (Wire.header .certificate ++ Wire.certificate ct ++ tail)[2]? = some ct.slot := by simp [Wire.header, Wire.certificate]
  have hcs : s.certChainSize.toNat ≤ s.certChain.length := by rw [hz, hc, hcw.len]; exact hcw.portion
  have hcar' : s.certChain.take s.certChainSize.toNat = carriedChain (Wire.header .certificate ++ Wire.certificate ct ++ tail) := by rw [hcar, hc, hz]
  unfold Requester.challengeHandle
  by_cases hh : rsp.take 2 = Wire.header .challengeAuth
  swap
  · simp only [hh, false_and, iff_false]
    rcases res_cases _ (expect_calm .challengeAuth h3) with ⟨a, ha⟩ | ⟨e, he⟩
    · exact absurd (expect_ok_inv ha).2 hh
    · exact Blows.lift_err he
  rw [Blows.lift_iff (expect_ok h3 hh)]
  simp only [hh, true_and]
  by_cases hd : DigestUsable c l.hash
  swap
  · simp only [hd, not_false_eq_true, true_or, iff_true]
    exact Blows.lift_panic (digestSize_panics (fun h => hd ((digestUsable_iff hwd).mpr h)))
  obtain ⟨ds, hds⟩ := (digestUsable_iff hwd).mp hd
  have hdz : sizeFor digestSizes l.hash = ds := by rw [hwd.hash]; exact getDigestSize_sizeFor hds
  rw [Blows.lift_iff hds]
  by_cases hg : SignatureUsable c l.asym
  swap
  · simp only [hg, not_false_eq_true, or_true, true_or, iff_true]
    exact Blows.lift_panic (signatureSize_panics (fun h => hg ((signatureUsable_iff hwd).mpr h)))
  obtain ⟨ss, hss⟩ := (signatureUsable_iff hwd).mp hg
  have hsz : sizeFor signatureSizes l.asym = ss := by rw [hwd.asym]; exact getSignatureSize_sizeFor hss
  rw [Blows.lift_iff hss]
  have hsl : sliceFrom rsp headerSize = .ok (rsp.drop 2) := by unfold sliceFrom headerSize; rw [if_pos (by omega)]
  rw [Blows.lift_iff hsl]
  simp only [hd, hg, not_true_eq_false, or_self, false_or, true_and, hdz, hsz]
  rcases hp : ChallengeAuth.parseBody c (rsp.drop 2) ds ss with m | e | k
  swap
  · simp only [Res.isPanic, Bool.false_eq_true, reduceCtorEq, false_and, exists_false, or_self, iff_false]
    exact Blows.lift_err (e := e) rfl
  swap
  · simp only [Res.isPanic, true_or, iff_true]
    exact Blows.lift_panic (x := Res.panic k) rfl
  rw [Blows.lift_iff (x := Res.ok m) rfl]
  simp only [Res.isPanic, Bool.false_eq_true, false_or, Res.ok.injEq, exists_eq_left']
  obtain ⟨bs, rest, hbody, hden⟩ := denotes_split (x := ⟨ds, ss, false⟩) (t := .challengeAuth) h0 h8 hh (m := .challengeAuth m)
        (by simp only [AnyMsg.parse, hp]; rfl)
  have hden' := hden
  obtain ⟨_, _, _, _, hle, hq, _, _, _, hsg, _, hbs⟩ := hden'
  have hm8 : m.slot.toNat ≤ 8 := by omega
  have hlen : ss ≤ rsp.length := by
    have := congrArg List.length hbody
    rw [hbs] at this
    simp at this hsg
    omega
  unfold AuthRest
  rw [hslot, Option.some.injEq, ← hs]
  obtain ⟨c1, c2⟩ := checkSlot_cases (slot := s.certSlot) (m := m) hm8
  by_cases hsq : m.slot = s.certSlot
  swap
  · have hne : ¬ s.certSlot = m.slot := fun h => hsq h.symm
    simp only [hne, false_and, iff_false]
    rcases hk : Requester.checkSlot s.certSlot m with u | e | k
    · exact absurd (c2.mp hk).1 hsq
    · exact Blows.lift_err (e := e) rfl
    · exact absurd (c1.mp (by rw [hk]; rfl)).1 hsq
  by_cases hk8 : m.slot.toNat = 8
  · simp only [hk8, true_or, and_true]
    exact ⟨fun _ => hsq.symm, fun _ => Blows.lift_panic (c1.mpr ⟨hsq, hk8⟩)⟩
  by_cases hmask : m.slot.toNat < 8 ∧ m.slotMask.toNat.testBit m.slot.toNat = true
  swap
  · simp only [hk8, hmask, false_and, or_self, and_false, iff_false]
    rcases hk : Requester.checkSlot s.certSlot m with u | e | k
    · exact absurd (c2.mp hk).2 hmask
    · exact Blows.lift_err (e := e) rfl
    · exact absurd (c1.mp (by rw [hk]; rfl)).2 hk8
  rw [Blows.lift_iff (c2.mpr ⟨hsq, hmask⟩), Blows.lift_iff (sliceTo_ok hcs), hcar']
  generalize hcert : carriedChain (Wire.header .certificate ++ Wire.certificate ct ++ tail) = cc
  rw [hcert] at hcar'
  have hhl : UInt32.ofNat l.hash = s.algorithms.baseHashAlgoSelected := words_hash hwd
  simp only [hsq.symm, hk8, false_or, hmask, and_self, true_and]
  rcases digest_cases c cr s.algorithms.baseHashAlgoSelected cc with ⟨e1, dg⟩ | ⟨e1, dg⟩
  swap
  · have : ¬ Digestible c cr l.hash cc := fun h => dg ((digestible_iff hwd _).mp h)
    simp only [this, not_false_eq_true, true_or, iff_true]
    exact Blows.lift_panic e1
  have hdc : Digestible c cr l.hash cc := (digestible_iff hwd _).mpr dg
  rw [Blows.lift_iff e1]
  simp only [hdc, not_true_eq_false, false_or, true_and, hhl]
  by_cases hce : m.certChainHash = cr.hash s.algorithms.baseHashAlgoSelected cc
  swap
  · simp only [ne_eq, hce, not_false_eq_true, if_true, false_and, iff_false]
    exact fun h => by simp [Blows, M.fail, Res.isPanic] at h
  simp only [ne_eq, hce, not_true_eq_false, if_false, true_and]
  rw [Blows.lift_iff (x := Responder.subChecked _ _) (a := rsp.length - ss) (by unfold Responder.subChecked; rw [if_pos hlen]),
    Blows.lift_iff (sliceTo_ok (by omega))]
  have htx : signedText l rsp = r.transcript.get ++ rsp.take (rsp.length - ss) := by unfold signedText; rw [hsz, ht]
  rcases Requester.extend_cases hw (rsp.take (rsp.length - ss)) with ⟨g1, t, e2, g2⟩ | ⟨g1, e, r', e2⟩
  swap
  · have : ¬ (signedText l rsp).length ≤ c.transcriptSize := by rw [htx, List.length_append, ← hcap]; omega
    simp only [this, false_and, iff_false]
    exact Blows.bind_err e2
  have hfit : (signedText l rsp).length ≤ c.transcriptSize := by rw [htx, List.length_append, ← hcap]; omega
  rw [Blows.bind_iff e2, Blows.bind_iff (m := M.get) rfl]
  simp only [g2, ← htx, hfit, true_and]
  rcases digest_cases c cr s.algorithms.baseHashAlgoSelected (signedText l rsp) with ⟨e3, dg3⟩ | ⟨e3, dg3⟩
  swap
  · have : ¬ Digestible c cr l.hash (signedText l rsp) := fun h => dg3 ((digestible_iff hwd _).mp h)
    simp only [this, not_false_eq_true, true_or, iff_true]
    exact Blows.lift_panic e3
  have hdt : Digestible c cr l.hash (signedText l rsp) := (digestible_iff hwd _).mpr dg3
  rw [Blows.lift_iff e3]
  simp only [hdt, not_true_eq_false, false_or, true_and]
  have hsig : m.signature.length ≤ c.maxSignatureSize := by
    obtain ⟨i, _, _, h⟩ := getSignatureSize_ok.mp hss
    simp at hsg
    omega
  have := verify_panics_iff (c := c) (cr := cr) (s := s) (ds := ds) (mh := cr.hash s.algorithms.baseHashAlgoSelected (signedText l rsp)) (sig := m.signature) (root := root)
    dg.1 henc hsig hcs hwd.asym
  rw [hcar'] at this
  subst hroot
  simp only [ne_eq] at this
  rw [hdz, ← this]
  rfl

/-! ### What has been sent -/

/-- The state holds what was sent exactly if it was sent. -/
def Outstanding (sent offered : Bool) : ReqState → Prop
  | .capabilities _ ct cap => ct.isSome = sent ∧ cap.isSome = sent
  | .algorithms _ _ o => o.isSome = offered
  | _ => True

theorem offerMade_snoc (es : List ReqEvent) (e : ReqEvent) :
    offerMade (es ++ [e]) = match e with | .next _ buf _ => offerMade es || decide (48 ≤ buf.length) | .recv _ (.ok _) => false | _ => offerMade es := by
  unfold offerMade
  rw [List.foldl_append]
  rfl

theorem next_offer (ho : Requester.configToNegotiateAlgorithms c = .ok offer) {env : Env} {buf : Bytes} {v : VersionEntry} {caps : Caps} {o : Option NegotiateAlgorithms}
    (hs : r.state = some (.algorithms v caps o)) (hw : r.transcript.WF) :
    (Requester.nextRequest c env buf r).2.state = some (.algorithms v caps (if 48 ≤ buf.length then some offer else o)) := by
  obtain ⟨o1, o2, _⟩ := offer_wf ho
  have hwr := NegotiateAlgorithms.writes (m := offer) (by rw [o1]; rfl) (by rw [o2]; decide)
  have hlen := offer_length ho
  have e0 : Requester.nextRequest c env buf r = Requester.writeReq c env (.algorithms v caps o) buf r := by simp only [Requester.nextRequest, hs]
  rw [e0]
  simp only [Requester.writeReq]
  rw [lift_run ho]
  split
  · rename_i hb
    rw [lift_run (writeTo_run (t := .negotiateAlgorithms) hwr (by rw [hlen]; exact hb)), M.run_bind_ok (m := Requester.setState _) rfl]
    rcases Requester.extend_cases (r := { r with state := some (.algorithms v caps (some offer)) }) hw (Wire.header .negotiateAlgorithms ++ Wire.negotiateAlgorithms offer) with
      ⟨_, t, e2, _⟩ | ⟨_, e, r', e2⟩
    · rw [M.run_bind_ok e2]; rfl
    · rw [M.run_bind_err e2]
      have : r' = (Requester.extend (Wire.header .negotiateAlgorithms ++ Wire.negotiateAlgorithms offer) { r with state := some (.algorithms v caps (some offer)) }).2 := by rw [e2]
      rw [this]; rfl
  · rename_i hb
    obtain ⟨e, out, _, _, hx⟩ := write_full (t := .negotiateAlgorithms) hwr (buf := buf) (by rw [hlen]; omega)
    have hto : Requester.writeTo .negotiateAlgorithms offer.writeBody buf = .err e := by unfold Requester.writeTo; rw [hx]; rfl
    rw [M.run_bind_err (m := M.lift _) (e := e) (s' := r) (by rw [M.run_lift, hto])]
    exact hs

theorem outstanding (ho : Requester.configToNegotiateAlgorithms c = .ok offer) (h : ReqRun c cr root es r) (hf : failed es = false) :
    ∃ st, r.state = some st ∧ Outstanding (pending es) (offerMade es) st := by
  induction h with
  | new => exact ⟨.version, rfl, trivial⟩
  | @next es r env buf run ih =>
    have hf' : failed es = false := by rw [failed_append] at hf; simpa using (Bool.or_eq_false_iff.mp hf).1
    obtain ⟨st, hl⟩ := req_live' run hf'
    obtain ⟨st0, h0, hout⟩ := ih hf'
    rw [hl.state, Option.some.injEq] at h0
    subst h0
    rcases hx : Requester.nextRequest c env buf r with ⟨x, r'⟩
    obtain ⟨hk, h⟩ := next_refines hl.state hl.wf hx
    by_cases halg : ∃ v caps o, st = .algorithms v caps o
    · obtain ⟨v, caps, o, rfl⟩ := halg
      have := next_offer ho (env := env) (buf := buf) hl.state hl.wf
      rw [hx] at this
      refine ⟨_, this, ?_⟩
      change Option.isSome _ = offerMade _
      change o.isSome = _ at hout
      rw [offerMade_snoc]
      split <;> rename_i hb <;> simp [hb, hout]
    · rcases h with ⟨out, st', rfl, hlen, hs', hsend⟩ | ⟨hno, st', hs', hidle, ht⟩
      · refine ⟨st', hs', ?_⟩
        generalize r'.transcript.get = T at hsend
        cases hsend with
        | capabilities => simp only [Outstanding, pending_snoc, Option.isSome_some, and_self]
        | algorithms => exact absurd ⟨_, _, _, rfl⟩ halg
        | _ => trivial
      · refine ⟨st', hs', ?_⟩
        have hp : pending (es ++ [.next env buf x]) = pending es := by
          rw [pending_snoc]
          cases x with
          | ok a => simp [Res.isOk] at hno
          | err e => rfl
          | panic k => rfl
        cases hidle with
        | same =>
          cases st with
          | capabilities v ct cap => simp only [Outstanding] at hout ⊢; first | rw [hp]; exact hout | simpa [pending_snoc] using hout
          | algorithms => exact absurd ⟨_, _, _, rfl⟩ halg
          | _ => trivial
        | algorithms => exact absurd ⟨_, _, _, rfl⟩ halg
        | challenge => trivial
  | @recv es r rsp run ih =>
    rw [failed_append] at hf
    obtain ⟨hf1, hf2⟩ := Bool.or_eq_false_iff.mp hf
    rcases hx : Requester.handleMsg c cr rsp r with ⟨x, r'⟩
    rw [hx] at hf2
    cases x with
    | ok a =>
      obtain ⟨_, st, st', hl, hb, hrecv, hl'⟩ := req_recv run (rsp := rsp) (b := a) (by rw [hx])
      rw [hx] at hl'
      refine ⟨st', hl'.state, ?_⟩
      generalize (Requester.handleMsg c cr rsp r).2.transcript.get = T at hrecv
      cases hrecv with
      | version => simp [Outstanding, pending_snoc]
      | capabilities => simp [Outstanding, offerMade_snoc]
      | algorithms => split <;> trivial
      | certificate => split <;> trivial
      | _ => trivial
    | err e => simp [failed] at hf2
    | panic k => simp [failed] at hf2

/-! ### All responses -/

theorem sliceFrom_run {rsp : Bytes} (h3 : 3 ≤ rsp.length) : sliceFrom rsp headerSize = .ok (rsp.drop 2) := by unfold sliceFrom headerSize; rw [if_pos (by omega)]


theorem short_recv {st : ReqState} {acc : List Bytes} {l : Log} (hm : StMatch c acc l st) {rsp : Bytes} (hs : rsp.length < 3) (r : Requester) :
    Blows (Requester.handle c cr st rsp) r := by
  have hp : ∀ t : MsgType, (Responder.expect t rsp).isPanic = true := by
    intro t; unfold Responder.expect MsgType.parseHeader; rw [if_pos (by omega)]; rfl
  cases hm with
  | @challenge _ _ _ _ _ _ _ s =>
    simp only [Requester.handle]
    have : Blows (Requester.challengeHandle c cr s rsp) r := by unfold Requester.challengeHandle; exact Blows.lift_panic (hp _)
    obtain ⟨k, r', hk⟩ := this.inv
    exact .of_panic (M.run_bind_panic hk)
  | done => exact .of_panic (k := .unimplemented) (s' := r) rfl
  | _ => simp only [Requester.handle]; exact Blows.lift_panic (hp _)

theorem path_digests {l : Log} (hb : l.both 1 = true) : 5 ≤ (path l).length := by unfold path; rw [if_pos hb]; split <;> simp
theorem path_auth {l : Log} (hb : l.both 1 = true) (h2 : l.both 2 = true) : (path l).length = 6 := by simp [path, hb, h2]
theorem path_start (l : Log) : 3 ≤ (path l).length := by unfold path; split <;> simp

theorem handle_blows (h0 : 0 < c.numSlots) (h8 : c.numSlots ≤ 8) (henc : EncoderFits c) {sent offered : Bool} {acc : List Bytes} {l : Log} {st : ReqState}
    (hm : StMatch c acc l st) (hout : Outstanding sent offered st) {rsp : Bytes} (hroot : r.rootCert = root) (hw : r.transcript.WF) (ht : r.transcript.get = l.text)
    (hcap : r.transcript.buf.length = c.transcriptSize) :
    Blows (Requester.handle c cr st rsp) r ↔ ResponseAborts c cr root sent offered acc l rsp := by
  by_cases h3 : 3 ≤ rsp.length
  swap
  · exact ⟨fun _ => .short (by omega), fun _ => short_recv hm (by omega) r⟩
  cases hm with
  | done h =>
    constructor
    · intro _; exact .finished (by simpa using congrArg List.length h)
    · intro _; exact .of_panic (k := .unimplemented) (s' := r) rfl
  | version =>
    constructor
    · intro hb; exact absurd hb (calm_not_blows (versionRecv_calm h3 hw))
    · intro hb
      have := path_start l
      generalize hq : ([] : List Bytes) = p at hb
      cases hb with
      | short => omega
      | finished h => subst hq; simp at h; omega
      | _ => simp at hq
  | @capabilities _ m0 v ct cap v0 =>
    obtain ⟨q1, q2⟩ := hout
    constructor
    · intro hb
      cases sent with
      | true =>
        obtain ⟨ct, rfl⟩ := Option.isSome_iff_exists.mp q1
        obtain ⟨cap, rfl⟩ := Option.isSome_iff_exists.mp q2
        exact absurd hb (calm_not_blows (capabilitiesRecv_calm h3 hw))
      | false =>
        simp only [Requester.handle] at hb
        obtain ⟨_, hx, hb⟩ := hb.lift_calm (expect_calm _ h3)
        obtain ⟨_, hh⟩ := expect_ok_inv hx
        obtain ⟨body, hbd, hb⟩ := hb.lift_calm (sliceFrom_calm h3)
        obtain ⟨_, rfl⟩ := sliceFrom_inv hbd
        obtain ⟨m, hmm, hb⟩ := hb.lift_calm (Capabilities.safe.parse _)
        obtain ⟨bs, tail, hr, hd⟩ := denotes_split (x := ⟨0, 0, false⟩) h0 h8 hh (m := .capabilities m) (by simp only [AnyMsg.parse]; rw [show headerSize = 2 from rfl] at hmm; rw [hmm]; rfl)
        obtain ⟨hd1, hd2⟩ := hd
        rcases Requester.extend_cases hw rsp with ⟨g1, _⟩ | ⟨_, e, r', e2⟩
        · rw [ht, hcap] at g1
          rw [hd2] at hr
          change rsp = [0x11, 0x61] ++ Wire.capabilities m ++ tail at hr
          rw [hr] at g1 ⊢
          exact .capabilities rfl hd1 g1
        · exact absurd hb (Blows.bind_err e2)
    · intro hb
      have := path_start l
      generalize hq : ([m0] : List Bytes) = p at hb
      cases hb with
      | short => omega
      | finished h => subst hq; simp at h; omega
      | @capabilities _ m0 tail m hs hm' hroom =>
        subst hs
        obtain rfl : ct = none := by simpa using q1
        simp only [Requester.handle]
        rw [Blows.lift_iff (expect_ok h3 (by simp [Wire.header])), Blows.lift_iff (sliceFrom_run h3)]
        rw [Blows.lift_iff (x := Capabilities.parseBody _) (a := m) (by exact (Capabilities.reads hm').parse tail)]
        rcases Requester.extend_cases hw ([0x11, 0x61] ++ Wire.capabilities m ++ tail) with ⟨_, t, e2, _⟩ | ⟨g1, _⟩
        · rw [Blows.bind_iff e2]
          exact Blows.lift_panic rfl
        · rw [ht, hcap] at g1; omega
      | _ => simp at hq
  | @algorithms _ m0 m1 v caps o v0 v1 hq' hp' ho' =>
    constructor
    · intro hb
      cases o with
      | some o => exact absurd hb (calm_not_blows (algorithmsRecv_calm (ho' o rfl) h3 hw))
      | none =>
        simp only [Requester.handle] at hb
        obtain ⟨_, hx, hb⟩ := hb.lift_calm (expect_calm _ h3)
        obtain ⟨_, hh⟩ := expect_ok_inv hx
        obtain ⟨body, hbd, hb⟩ := hb.lift_calm (sliceFrom_calm h3)
        obtain ⟨_, rfl⟩ := sliceFrom_inv hbd
        obtain ⟨a, ha, hb⟩ := hb.lift_calm (Algorithms.safe.parse _)
        obtain ⟨bs, tail, hr, hd⟩ := denotes_split (x := ⟨0, 0, false⟩) h0 h8 hh (m := .algorithms a) (by simp only [AnyMsg.parse]; rw [show headerSize = 2 from rfl] at ha; rw [ha]; rfl)
        rw [hr]
        exact .algorithms (by simpa [Outstanding] using hout.symm) hd
    · intro hb
      have := path_start l
      generalize hq : ([m0, m1] : List Bytes) = p at hb
      cases hb with
      | short => omega
      | finished h => subst hq; simp at h; omega
      | @algorithms _ m0 m1 bs tail a hs hd =>
        subst hs
        obtain rfl : o = none := by simpa [Outstanding] using hout
        simp only [Requester.handle]
        have e3 : Algorithms.parseBody (bs ++ tail) = .ok a := by
          have := denotes_parse h0 h8 (tail := tail) hd
          obtain ⟨x, g1, g2⟩ := res_map_ok_inv this
          cases g2; exact g1
        rw [Blows.lift_iff (expect_ok h3 (by simp [Wire.header])), Blows.lift_iff (sliceFrom_run h3)]
        rw [Blows.lift_iff (x := Algorithms.parseBody _) (a := a) (by simpa using e3)]
        exact Blows.lift_panic rfl
      | _ => simp at hq
  | @digests _ m0 m1 m2 v caps a v0 v1 v2 hwd hb1 =>
    constructor
    · intro hb
      by_cases hd : DigestUsable c l.hash
      · exact absurd hb (calm_not_blows (digestsRecv_calm h8 (fun _ => (digestUsable_iff hwd).mp hd) h3 hw))
      · simp only [Requester.handle] at hb
        obtain ⟨_, hx, hb⟩ := hb.lift_calm (expect_calm _ h3)
        obtain ⟨_, hh⟩ := expect_ok_inv hx
        obtain ⟨q1, q2⟩ := split_header hh h3
        rw [q1]
        exact .digests q2 hb1 hd
    · intro hb
      have := path_digests hb1
      generalize hq : ([m0, m1, m2] : List Bytes) = p at hb
      cases hb with
      | short => omega
      | finished h => subst hq; simp at h; omega
      | @digests _ m0 m1 m2 tail htl hb1 hd =>
        simp only [Requester.handle]
        rw [Blows.lift_iff (expect_ok h3 (by simp [Wire.header]))]
        exact Blows.lift_panic (digestSize_panics fun h => hd ((digestUsable_iff hwd).mpr h))
      | _ => simp at hq
  | @certificate _ m0 m1 m2 m3 v caps a d v0 v1 v2 hwd hb1 v3 =>
    constructor
    · intro hb; exact absurd hb (calm_not_blows (certificateRecv_calm h3 hw))
    · intro hb
      have := path_digests hb1
      generalize hq : ([m0, m1, m2, m3] : List Bytes) = p at hb
      cases hb with
      | short => omega
      | finished h => subst hq; simp at h; omega
      | _ => simp at hq
  | @challenge _ m0 m1 m2 m3 m4 tail s ct v0 v1 v2 hwd hb1 hb2 v3 h4 hcw hs hc hz =>
    have hbl : Blows (Requester.handle c cr (.challenge s) rsp) r ↔ Blows (Requester.challengeHandle c cr s rsp) r := by
      simp only [Requester.handle]
      constructor
      · intro hb
        rcases hb.bind_inv with h | ⟨_, s', _, h⟩
        · exact h
        · exact absurd h (calm_not_blows (Calm.pure _ _))
      · intro hb
        obtain ⟨k, r', hk⟩ := hb.inv
        exact .of_panic (M.run_bind_panic hk)
    rw [hbl, challengeRecv_blows h0 h8 henc (tail := tail) hwd hcw hs hc hz h3 hroot hw ht hcap, ← h4]
    constructor
    · intro h; exact .auth ⟨hb1, hb2⟩ h
    · intro hb
      have := path_auth hb1 hb2
      generalize hq : ([m0, m1, m2, m3, m4] : List Bytes) = p at hb
      cases hb with
      | short => omega
      | finished h => subst hq; simp at h; omega
      | auth _ h =>
        simp only [List.cons.injEq, and_true] at hq
        rw [hq.2.2.2.2]; exact h
      | _ => simp at hq

/-! ### C84 -/

/-- **C84**: a requester that has not failed aborts on a response exactly if the response is one of the `ResponseAborts` relation. -/
theorem c84_aborts_iff (h0 : 0 < c.numSlots) (h8 : c.numSlots ≤ 8) (henc : EncoderFits c) (ho : Requester.configToNegotiateAlgorithms c = .ok offer)
    (run : ReqRun c cr root es r) (hf : failed es = false) (rsp : Bytes) :
    (∃ k, (Requester.handleMsg c cr rsp r).1 = .panic k) ↔ ResponseAborts c cr root (pending es) (offerMade es) (accepted es) (conversation (reqMsgs es)) rsp := by
  obtain ⟨st, hl⟩ := req_live' run hf
  obtain ⟨st', hst, hout⟩ := outstanding ho run hf
  rw [hl.state, Option.some.injEq] at hst
  subst hst
  rw [← handle_blows (r := { r with state := none }) h0 h8 henc hl.mat hout hl.root hl.wf hl.text hl.cap]
  constructor
  · rintro ⟨k, hk⟩
    by_contra hb
    have hc : Calm (Requester.handle c cr st rsp) { r with state := none } := by
      unfold Blows at hb; unfold Calm; simpa using hb
    rcases recv_calm hl.state hc with ⟨b, h⟩ | ⟨e, h⟩ <;> rw [h] at hk <;> simp at hk
  · intro hb
    obtain ⟨k, r', hk⟩ := hb.inv
    exact ⟨k, recv_panic hl.state hk⟩

/-- **C84**, together with C81: the outcome of every call while a request is outstanding. A response is accepted if `Acceptable` says so and it fits the transcript, aborts the requester
if `ResponseAborts` says so, and is otherwise refused with an error. -/
theorem c84_outcome (h0 : 0 < c.numSlots) (h8 : c.numSlots ≤ 8) (henc : EncoderFits c) (ho : Requester.configToNegotiateAlgorithms c = .ok offer)
    (run : ReqRun c cr root es r) (hf : failed es = false) (hp : pending es = true) (rsp : Bytes)
    (hr : ¬ ∃ b, Acceptable c cr root offer (accepted es) (conversation (reqMsgs es)) rsp b ∧ ((conversation (reqMsgs es)).add rsp).text.length ≤ c.transcriptSize)
    (hab : ¬ ResponseAborts c cr root true (offerMade es) (accepted es) (conversation (reqMsgs es)) rsp) :
    ∃ e, (Requester.handleMsg c cr rsp r).1 = .err e ∧ (Requester.handleMsg c cr rsp r).2.state = some .error := by
  obtain ⟨st, hl⟩ := req_live' run hf
  rw [← hp] at hab
  rcases hx : Requester.handleMsg c cr rsp r with ⟨b | e | k, r'⟩
  · exact absurd ⟨b, (c81_accepted_iff h0 h8 henc ho run hf hp rsp b).mp (by rw [hx])⟩ hr
  · refine ⟨e, rfl, ?_⟩
    unfold Requester.handleMsg at hx
    rw [hl.state] at hx
    rcases hh : Requester.handle c cr st rsp { r with state := none } with ⟨st' | e' | k, r1⟩
    · simp [hh] at hx
    · simp only [hh, Prod.mk.injEq] at hx
      rw [← hx.2]
    · simp [hh] at hx
  · exact absurd ((c84_aborts_iff h0 h8 henc ho run hf rsp).mp ⟨k, by rw [hx]⟩) hab

/-- What a built requester offers. -/
theorem built_offer {crypto : Bool} {i : SpdmConfig} {nonceSize : Nat} (hv : ValidConfig crypto i) (hb : Built crypto i nonceSize c) :
    Requester.configToNegotiateAlgorithms c = .ok (builtOffer crypto i) := by
  obtain ⟨asym, h1, h2⟩ := c54_algorithms crypto i nonceSize c hv hb
  have : asym = if i.asymmetricSigning = [] then 0 else 0x10 := by
    apply UInt32.toNat_inj.mp
    apply Nat.eq_of_testBit_eq
    intro k
    rw [Bool.eq_iff_iff, h2 k]
    split
    · rename_i h; simp [h]
    · rename_i h
      simp only [ne_eq, h, not_false_eq_true, and_true]
      rw [show (0x10 : UInt32).toNat = 2 ^ 4 from rfl, Nat.testBit_two_pow]
      simp [eq_comm]
  rw [h1, this]
  rfl

/-- **C84** for every configuration the build accepts. -/
theorem c84_built_aborts_iff {crypto : Bool} {i : SpdmConfig} {nonceSize : Nat} (hv : ValidConfig crypto i) (hb : Built crypto i nonceSize c)
    (run : ReqRun c cr root es r) (hf : failed es = false) (rsp : Bytes) :
    (∃ k, (Requester.handleMsg c cr rsp r).1 = .panic k) ↔ ResponseAborts c cr root (pending es) (offerMade es) (accepted es) (conversation (reqMsgs es)) rsp :=
  c84_aborts_iff (by rw [hb.numSlots]; exact hv.slots.1) (by rw [hb.numSlots]; exact hv.slots.2) (by unfold EncoderFits; rw [hb.maxSignatureSize]; decide) (built_offer hv hb) run hf rsp

end

/-- C84 at work: a completed requester aborts on every response, one that has not yet asked for capabilities on CAPABILITIES, and one that has not yet made its offer on ALGORITHMS. -/
example (rsp : Bytes) : ∃ k, (Requester.handleMsg demoCfg demoCrypto rsp (demoRequester 12)).1 = .panic k :=
  (c84_aborts_iff (by decide) (by decide) (by unfold EncoderFits; decide) demo_offer (demoReq_run 12) (by decide +kernel) _).mpr (.finished (by decide +kernel))

example (ct : UInt8) : ∃ k, (Requester.handleMsg demoCfg demoCrypto ([0x11, 0x61] ++ Wire.capabilities ⟨ct, 6⟩ ++ [1, 2]) (demoRequester 2)).1 = .panic k := by
  refine (c84_aborts_iff (by decide) (by decide) (by unfold EncoderFits; decide) demo_offer (demoReq_run 2) (by decide +kernel) _).mpr ?_
  obtain ⟨m0, h⟩ : ∃ m0, accepted (demoReqEvents 2) = [m0] := List.length_eq_one_iff.mp (by decide +kernel)
  have ht : (conversation (reqMsgs (demoReqEvents 2))).text.length ≤ 100 := by decide +kernel
  rw [h]
  refine .capabilities (by decide +kernel) ?_ ?_
  · exact fun k hk => by
      have : k = 1 ∨ k = 2 ∨ (k ≠ 1 ∧ k ≠ 2) := by omega
      rcases this with rfl | rfl | ⟨h1, h2⟩
      · unfold rspFlagBit; decide
      · unfold rspFlagBit; decide
      · exfalso
        revert hk
        change Nat.testBit 6 k = true → False
        rcases k with _ | _ | _ | k
        · decide
        · omega
        · omega
        · intro hk
          have := Nat.testBit_lt_two_pow (x := 6) (i := k + 3) (by
            calc 6 < 2 ^ 3 := by decide
              _ ≤ 2 ^ (k + 3) := Nat.pow_le_pow_right (by decide) (by omega))
          rw [show k + 1 + 1 + 1 = k + 3 from rfl] at hk
          rw [this] at hk; simp at hk
  · simp [Wire.capabilities, zeros, le_length, demoCfg] at ht ⊢
    omega

example : offerMade (demoReqEvents 4) = false ∧ offerMade (demoReqEvents 5) = true ∧ pending (demoReqEvents 4) = false ∧ pending (demoReqEvents 5) = true := by decide +kernel

/-- The CHALLENGE_AUTH of the demo session with a signature of zeros is described by `AuthAborts`. -/
example : ResponseAborts demoCfg demoCrypto [1, 2, 3] true false (accepted (demoReqEvents 11)) (conversation (reqMsgs (demoReqEvents 11)))
    ((demoReplies[5]?.getD []).take 78 ++ zeros 64) := by
  have hp : pending (demoReqEvents 11) = true := by decide +kernel
  have hx : (Requester.handleMsg demoCfg demoCrypto ((demoReplies[5]?.getD []).take 78 ++ zeros 64) (demoRequester 11)).1.isPanic = true := by decide +kernel
  have hk : ∃ k, (Requester.handleMsg demoCfg demoCrypto ((demoReplies[5]?.getD []).take 78 ++ zeros 64) (demoRequester 11)).1 = .panic k := by
    rcases h : (Requester.handleMsg demoCfg demoCrypto ((demoReplies[5]?.getD []).take 78 ++ zeros 64) (demoRequester 11)).1 with b | e | k
    · rw [h] at hx; simp [Res.isPanic] at hx
    · rw [h] at hx; simp [Res.isPanic] at hx
    · exact ⟨k, rfl⟩
  have := (c84_aborts_iff (by decide) (by decide) (by unfold EncoderFits; decide) demo_offer (demoReq_run 11) (by decide +kernel) _).mp hk
  rw [hp] at this
  have h5 : (accepted (demoReqEvents 11)).length = 5 := by decide +kernel
  generalize accepted (demoReqEvents 11) = acc at this h5 ⊢
  generalize (demoReplies[5]?.getD []).take 78 ++ zeros 64 = rsp at this ⊢
  generalize conversation (reqMsgs (demoReqEvents 11)) = l at this ⊢
  generalize offerMade (demoReqEvents 11) = o at this
  cases this with
  | auth hb h => exact .auth hb h
  | short h => exact .short h
  | finished h => exact .finished h
  | _ => simp at h5

end Spdm

import Verif.Lemmas.ReqCalls
import Verif.Lemmas.Der
import Verif.Lemmas.Inv3
import Verif.Lemmas.ChainInv
import Verif.Spec.Auth
/-! An accepted CHALLENGE_AUTH, read off the wire. -/
namespace Spdm
open Spec

variable {c : Cfg} {cr : Crypto} {root : Bytes} {es : List ReqEvent} {r : Requester}

theorem ofNat_toNat32 {n : Nat} {w : UInt32} (h : n = w.toNat) : UInt32.ofNat n = w := by subst h; simp

theorem low_nibble (b : UInt8) : (bitField b 0 4).toNat = b.toNat % 16 := by
  have tab : ∀ n : Fin 256, (bitField (UInt8.ofNat n.val) 0 4).toNat = n.val % 16 := by decide +kernel
  have h := tab ⟨b.toNat, b.toNat_lt⟩
  simpa using h

theorem ReqRecv.authenticated {s : ReqChallenge} {l : Log} {m0 m1 m2 m3 cert : Bytes} {rsp tr' : Bytes} {st' : ReqState} (h8 : c.numSlots ≤ 8)
    (hm : StMatch c [m0, m1, m2, m3, cert] l (.challenge s)) (h : ReqRecv c cr root (.challenge s) l.text rsp tr' st') :
    ∃ chain nonce sig, Authenticated c cr root l cert rsp s.certSlot chain nonce sig ∧ st' = .newSession := by
  cases h with
  | @challenge _ _ _ m chain ds ss h3 hh hds hss hp hslot hmask hsz hring hhash hlen hch hver =>
  cases hm with
  | @challenge _ _ _ _ _ _ ctail _ ct h0 h1 h2 hw hb hb2 h3' h4 hcw hs hc hz =>
  obtain ⟨rest, tail, e1, b, olen, e2, es1, es2, es3, l1, l2, l3, l4, l5, l6⟩ := (ChallengeAuth.inverts c ds ss).parse hp
  obtain ⟨cw, hchain⟩ := CertificateChain.parse_inv hch
  have hhl : UInt32.ofNat l.hash = s.algorithms.baseHashAlgoSelected := ofNat_toNat32 hw.hash
  have hal : UInt32.ofNat l.asym = s.algorithms.baseAsymAlgoSelected := ofNat_toNat32 hw.asym
  have hds' : sizeFor digestSizes l.hash = ds := by rw [hw.hash]; exact getDigestSize_sizeFor hds
  have hss' : sizeFor signatureSizes l.asym = ss := by rw [hw.asym]; exact getSignatureSize_sizeFor hss
  have hslot8 : m.slot.toNat < 8 ∧ m.slotMask.toNat.testBit m.slot.toNat = true := by
    apply hmask
    intro h15
    rw [h15] at es3
    simp at es3
    omega
  have hrsp : rsp = Wire.header .challengeAuth ++ (rest ++ tail) := by
    rw [← e1, ← hh, List.take_append_drop]
  have hpl : (Wire.chain chain).length = ct.portionLength.toNat := by
    rw [← hchain, List.length_take, hc, hz, hcw.len]
    have := hcw.portion
    omega
  refine ⟨chain, m.nonce, m.signature, ⟨⟨ct.remainderLength.toNat, ctail, ?_⟩, by rw [hpl]; exact ct.portionLength.toNat_lt, by rw [← hslot]; exact ⟨hslot8.1, es3⟩, ⟨b, m.slotMask, m.measurementSummaryHash, olen, Wire.opaqueData m.opaqueData, tail, ?_, ?_, ?_, ?_⟩,
    l2, ?_, ?_, hver.leaf, hver.anchor, ?_, ?_⟩, rfl⟩
  · rw [h4, Wire.certificate, hpl, ← hz, ← hchain, hc, ← hs]
    simp [Wire.header, zeros]
  · rw [hrsp, e2, hhl, ← hchain, ← hhash]
    simp [Wire.header]
  · rw [← hslot, es1, low_nibble]
  · rw [← hslot]; exact hslot8.2
  · rw [l3, hds']
  · rw [hhl, ← hchain, ← hhash, l1, hds']
  · rw [l5, hss']
  · rw [hal]; exact hver.trust
  · obtain ⟨out, n, d1, d2, d3⟩ := hver.der
    refine ⟨out.take n, (binToDer_inv d1).2, ?_⟩
    rw [hal, hhl, l5]
    exact d3

end Spdm

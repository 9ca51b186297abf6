import Verif.Lemmas.Der
import Verif.DemoSession
/-!
# Signature re-encoding (C51, C52)
-/
namespace Spdm
open Spec

/-- **C51.** For every raw signature with non-zero halves that fits the configured maximum, the encoder succeeds in the buffer reserved for
it and what it wrote is the DER SEQUENCE of the two INTEGERs of the halves.  (The maximum must be even and not 254 or 510, see
`c51_reserved_buffer_too_small`.) -/
theorem c51_der_of_raw (c : Cfg) {sig : Bytes} (hfit : sig.length ≤ c.maxSignatureSize) (hmax : c.maxSignatureSize < 65000)
    (heven : c.maxSignatureSize % 2 = 0) (h127 : c.maxSignatureSize ≠ 254) (h255 : c.maxSignatureSize ≠ 510)
    (hr : rawR sig ≠ 0) (hs : rawS sig ≠ 0) :
    ∃ out n, Pki.binToDer sig (zeros (Pki.maxEncodedSize c)) = .ok (out, n) ∧ n ≤ out.length ∧
      IsDerSignature (out.take n) (rawR sig) (rawS sig) := by
  refine binToDer_run hr hs (by omega) ?_
  intro a b ha hb
  rw [show (zeros (Pki.maxEncodedSize c)).length = Pki.maxEncodedSize c by simp [zeros]]
  have ha' : Pki.derLength a ≤ Pki.derLength (c.maxSignatureSize / 2) := by
    refine Nat.le_trans (derLength_mono (b := c.maxSignatureSize / 2 + 1) (by omega)) ?_
    unfold Pki.derLength; repeat' split
    all_goals omega
  have hb' : Pki.derLength b ≤ Pki.derLength (c.maxSignatureSize / 2) := by
    refine Nat.le_trans (derLength_mono (b := c.maxSignatureSize / 2 + 1) (by omega)) ?_
    unfold Pki.derLength; repeat' split
    all_goals omega
  unfold Pki.maxEncodedSize
  simp only
  have hbody : 2 + a + b + Pki.derLength a + Pki.derLength b ≤ c.maxSignatureSize + 2 + 2 * 1 + Pki.derLength (c.maxSignatureSize / 2) * 2 := by omega
  have := derLength_mono hbody
  omega

/-- The DER encoding determines the two integers: no two raw signatures of the same length share one. -/
theorem c51_der_unambiguous {bs : Bytes} {r s r' s' : Nat} (h : IsDerSignature bs r s) (h' : IsDerSignature bs r' s') (hl : bs.length < 65536) :
    r = r' ∧ s = s' := by
  have hlen : ∀ n : Nat, n < 65536 → ∀ m : Nat, m < 65536 → ∀ x y : Bytes, derLen n ++ x = derLen m ++ y → n = m ∧ x = y := by
    intro n hn m hm x y e
    have v : ∀ k : Nat, k < 256 → (UInt8.ofNat k).toNat = k := by intro k hk; simp; omega
    have key : n = m := by
      unfold derLen at e
      by_cases n1 : n < 128 <;> by_cases m1 : m < 128 <;> by_cases n2 : n < 256 <;> by_cases m2 : m < 256 <;>
        simp only [n1, m1, n2, m2, if_true, if_false, List.cons_append, List.nil_append, List.cons.injEq] at e <;> try omega
      all_goals
        first
        | (have h1 := congrArg UInt8.toNat e.1; rw [v _ (by omega)] at h1; (try rw [v _ (by omega)] at h1); simp at h1 <;> omega)
        | (have h1 := congrArg UInt8.toNat e.2.1; rw [v _ (by omega), v _ (by omega)] at h1
           have h2 := congrArg UInt8.toNat e.2.2.1; simp at h2 <;> omega)
        | (have h1 := congrArg UInt8.toNat e.2.1; rw [v _ (by omega), v _ (by omega)] at h1; omega)
        | (have h1 := congrArg UInt8.toNat e.1; simp at h1 <;> omega)
    subst key
    exact ⟨rfl, List.append_cancel_left e⟩
  obtain ⟨a, b, ⟨ca, ea, va, _⟩, ⟨cb, eb, vb, _⟩, e⟩ := h
  obtain ⟨a', b', ⟨ca', ea', va', _⟩, ⟨cb', eb', vb', _⟩, e'⟩ := h'
  subst ea; subst eb; subst ea'; subst eb'
  have l1 := congrArg List.length e
  have l2 := congrArg List.length e'
  simp only [List.length_append, List.length_cons, List.length_nil] at l1 l2
  rw [e] at e'
  simp only [List.append_assoc] at e'
  have e2 := hlen _ (by simp only [List.length_append, List.length_cons, List.length_nil]; omega) _
    (by simp only [List.length_append, List.length_cons, List.length_nil]; omega) _ _ (List.append_cancel_left e')
  have e3 := hlen _ (by omega) _ (by omega) _ _ (List.append_cancel_left e2.2)
  obtain ⟨ec, e4⟩ := List.append_inj e3.2 e3.1
  have e5 := hlen _ (by omega) _ (by omega) _ _ (List.append_cancel_left e4)
  exact ⟨by rw [← va, ← va', ec], by rw [← vb, ← vb', e5.2]⟩

/-- A 64 byte signature, halves with leading zeros and with the top bit set. -/
def demoRaw : Bytes := zeros 31 ++ [5] ++ List.replicate 32 0xFF

/-- The hypotheses hold of it (`demoCfg` reserves for 64 bytes). -/
example : demoRaw.length ≤ demoCfg.maxSignatureSize ∧ demoCfg.maxSignatureSize % 2 = 0 ∧ rawR demoRaw = 5 ∧ rawS demoRaw ≠ 0 ∧
    (match Pki.binToDer demoRaw (zeros (Pki.maxEncodedSize demoCfg)) with
      | .ok (out, n) => n == 40 && out.take 8 == [0x30, 38, 2, 1, 5, 2, 33, 0]
      | _ => false) = true := by
  refine ⟨by decide, by decide, by decide +kernel, by decide +kernel, by decide +kernel⟩

/-- **C51.** A signature has only one DER encoding, so the verifier is given the same bytes whatever produced them. -/
theorem c51_der_canonical {bs bs' : Bytes} {r s : Nat} (h : IsDerSignature bs r s) (h' : IsDerSignature bs' r s) : bs = bs' := by
  obtain ⟨a, b, ha, hb, rfl⟩ := h
  obtain ⟨a', b', ha', hb', rfl⟩ := h'
  rw [isDerInteger_unique ha ha', isDerInteger_unique hb hb']

/-- The buffer reserved for the encoding is two bytes short when halves are 127 (or 255) bytes and both have their top bit set: the padding
byte makes the INTEGER's length octets longer than `max_encoded_size` allows for, and the encoder aborts. -/
theorem c51_reserved_buffer_too_small :
    (Pki.binToDer (List.replicate 254 0xFF) (zeros (Pki.maxEncodedSize { demoCfg with maxSignatureSize := 254 }))).isPanic = true ∧
    (Pki.binToDer (List.replicate 510 0xFF) (zeros (Pki.maxEncodedSize { demoCfg with maxSignatureSize := 510 }))).isPanic = true := by
  decide +kernel

/-- **C51.** The buffer reserved is not larger than needed either: the signature of the configured size whose bytes are all 0xFF fills it to the last byte. -/
theorem c51_reserved_buffer_tight (c : Cfg) (hpos : 2 ≤ c.maxSignatureSize) (hmax : c.maxSignatureSize < 65000)
    (heven : c.maxSignatureSize % 2 = 0) (h127 : c.maxSignatureSize ≠ 254) (h255 : c.maxSignatureSize ≠ 510) :
    ∃ out, Pki.binToDer (List.replicate c.maxSignatureSize 0xFF) (zeros (Pki.maxEncodedSize c)) = .ok (out, Pki.maxEncodedSize c) := by
  obtain ⟨k, hk⟩ : ∃ k, c.maxSignatureSize = 2 * (k + 1) := ⟨c.maxSignatureSize / 2 - 1, by omega⟩
  have hbe : ∀ (l : Bytes) (a : Nat), 0 < a → l.foldl (fun n b => n * 256 + b.toNat) a ≠ 0 := by
    intro l
    induction l with
    | nil => intro a ha; simp; omega
    | cons b l ih => intro a ha; exact ih (a * 256 + b.toNat) (by omega)
  have hne : beVal (List.replicate (k + 1) 0xFF) ≠ 0 := by
    unfold beVal
    rw [List.replicate_succ, List.foldl_cons]
    exact hbe _ _ (by decide)
  have hr : rawR (List.replicate c.maxSignatureSize 0xFF) = beVal (List.replicate (k + 1) 0xFF) := by
    unfold rawR
    rw [List.length_replicate, List.take_replicate, hk, show min (2 * (k + 1) / 2) (2 * (k + 1)) = k + 1 by omega]
  have hs : rawS (List.replicate c.maxSignatureSize 0xFF) = beVal (List.replicate (k + 1) 0xFF) := by
    unfold rawS
    rw [List.length_replicate, List.drop_replicate, hk, show 2 * (k + 1) - 2 * (k + 1) / 2 = k + 1 by omega]
  obtain ⟨out, n, h1, h2, h3⟩ := c51_der_of_raw c (sig := List.replicate c.maxSignatureSize 0xFF) (by simp) hmax heven h127 h255 (by rw [hr]; exact hne) (by rw [hs]; exact hne)
  rw [hr, hs] at h3
  have hi : IsDerInteger ([0x02] ++ derLen (k + 2) ++ (0 :: List.replicate (k + 1) 0xFF)) (beVal (List.replicate (k + 1) 0xFF)) := by
    refine ⟨0 :: List.replicate (k + 1) 0xFF, by simp, ?_, ⟨0, rfl, by decide⟩, fun _ => ⟨0xFF, by simp, by decide⟩⟩
    unfold beVal
    rw [List.foldl_cons]
    rfl
  have e := congrArg List.length (c51_der_canonical h3 ⟨_, _, hi, hi, rfl⟩)
  rw [List.length_take, Nat.min_eq_left h2] at e
  refine ⟨out, ?_⟩
  rw [h1]
  congr 2
  rw [e]
  have hlen : ∀ n, (derLen n).length = Pki.derLength n := by
    intro n
    unfold derLen Pki.derLength
    repeat' split
    all_goals rfl
  simp only [List.length_append, List.length_cons, List.length_nil, List.length_replicate, hlen]
  unfold Pki.maxEncodedSize
  simp only [hk]
  rw [show 2 * (k + 1) / 2 = k + 1 by omega]
  have hd : Pki.derLength (k + 2) = Pki.derLength (k + 1) := by
    unfold Pki.derLength
    repeat' split
    all_goals omega
  rw [hd]
  generalize Pki.derLength (k + 1) = x
  rw [show 0 + 1 + x + (k + 1 + 1) + (0 + 1 + x + (k + 1 + 1)) = 2 * (k + 1) + 2 + 2 * 1 + x * 2 by omega]

/-! ### C52 -/

/-- **C52 is false.** A raw signature with an all-zero half aborts the verifier, whatever the certificate, message and configuration. -/
theorem c52_zero_half_aborts (c : Cfg) (cr : Crypto) (leaf msg : Bytes) {sig : Bytes} {algo : UInt32} (h : rawR sig = 0 ∨ rawS sig = 0) :
    (cr.verifySignature c leaf algo msg sig).isPanic = true := by
  unfold Crypto.verifySignature
  split
  · rfl
  rcases ha : Crypto.spdmToWebpki algo with _ | e | _
  · have := binToDer_zero (out := List.replicate (Pki.maxEncodedSize c) 0) h
    simp only [this, Res.ok_bind]
    rfl
  · unfold Crypto.spdmToWebpki at ha
    repeat' split at ha
    all_goals simp at ha
  · rfl

/-- The peer decides: a CHALLENGE_AUTH that is accepted up to the signature aborts the requester when its signature is zero.  (Session
`demoRequester`: the requester has sent CHALLENGE; the message is the honest one with the signature zeroed.) -/
theorem c52_peer_aborts_requester : ∃ (es : List ReqEvent) (r : Requester) (rsp : Bytes), ReqRun demoCfg demoCrypto [1, 2, 3] es r ∧ failed es = false ∧
    (Requester.handleMsg demoCfg demoCrypto rsp r).1.isPanic = true :=
  ⟨demoReqEvents 11, demoRequester 11, (demoReplies[5]?.getD []).take 78 ++ zeros 64, demoReq_run 11, by decide +kernel, by decide +kernel⟩

/-- What holds: with non-zero halves and an algorithm the provider implements (P-256, P-384) the verifier returns an answer. -/
theorem c52_nonzero_halves_partial (c : Cfg) (cr : Crypto) (leaf msg : Bytes) {sig : Bytes} {algo : UInt32} (hp : c.provider = true) (halgo : algo = 0x10 ∨ algo = 0x80)
    (hfit : sig.length ≤ c.maxSignatureSize) (hmax : c.maxSignatureSize < 65000)
    (heven : c.maxSignatureSize % 2 = 0) (h127 : c.maxSignatureSize ≠ 254) (h255 : c.maxSignatureSize ≠ 510) (hr : rawR sig ≠ 0) (hs : rawS sig ≠ 0) :
    ∃ der, IsDerSignature der (rawR sig) (rawS sig) ∧ cr.verifySignature c leaf algo msg sig = .ok (cr.sigOk leaf algo msg der) := by
  obtain ⟨out, n, h1, h2, h3⟩ := c51_der_of_raw c hfit hmax heven h127 h255 hr hs
  refine ⟨out.take n, h3, ?_⟩
  unfold Crypto.verifySignature
  have ha : Crypto.spdmToWebpki algo = .ok algo := by
    rcases halgo with rfl | rfl <;> rfl
  rw [if_neg (by simp [hp]), ha]
  simp only [Res.ok_bind]
  rw [show List.replicate (Pki.maxEncodedSize c) (0 : UInt8) = zeros (Pki.maxEncodedSize c) from rfl, h1]
  simp only [Res.ok_bind, sliceTo, if_pos h2, Res.pure_eq]

end Spdm

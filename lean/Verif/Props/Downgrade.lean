import Verif.Spec.Downgrade
import Verif.Props.Interop
import Verif.Props.Shipped
import Verif.Props.Chance
/-!
# C115: does completion mean that the peer was authenticated?
-/
namespace Spdm
open Spec

section
variable {c c' : Cfg} {cr cr' : Crypto} {root : Bytes} {slots : List (Option FilledSlot)} {i i' : SpdmConfig} {n n' : Nat} {crypto crypto' : Bool} {es : List RspEvent} {q : Responder}

namespace Downgrade

theorem keyless_wire : keylessReplies = [Wire.header .version ++ Wire.version ⟨2, supportedVersions⟩, Wire.header .capabilities ++ Wire.capabilities ⟨12, 0⟩,
    Wire.header .algorithms ++ Wire.algorithms honestAnswer] := by decide +kernel

theorem edit_version : withoutCert (Wire.header .version ++ Wire.version ⟨2, supportedVersions⟩) = Wire.header .version ++ Wire.version ⟨2, supportedVersions⟩ := by decide +kernel
theorem edit_algorithms : withoutCert (Wire.header .algorithms ++ Wire.algorithms honestAnswer) = Wire.header .algorithms ++ Wire.algorithms honestAnswer := by decide +kernel

theorem mask_bits (j : Nat) : (0xFFFFFFFD : Nat).testBit j = (decide (j < 32) && decide (j ≠ 1)) := by
  by_cases h : j < 32
  · have : ∀ k : Fin 32, (0xFFFFFFFD : Nat).testBit k.val = (decide (k.val < 32) && decide (k.val ≠ 1)) := by decide
    exact this ⟨j, h⟩
  · rw [Nat.testBit_lt_two_pow (Nat.lt_of_lt_of_le (by decide : (0xFFFFFFFD : Nat) < 2 ^ 32) (Nat.pow_le_pow_right (by decide) (by omega)))]
    simp [h]

theorem mask_byte (j : Nat) : (0xFD : Nat).testBit j = (decide (j < 8) && decide (j ≠ 1)) := by
  by_cases h : j < 8
  · have : ∀ k : Fin 8, (0xFD : Nat).testBit k.val = (decide (k.val < 8) && decide (k.val ≠ 1)) := by decide
    exact this ⟨j, h⟩
  · rw [Nat.testBit_lt_two_pow (Nat.lt_of_lt_of_le (by decide : (0xFD : Nat) < 2 ^ 8) (Nat.pow_le_pow_right (by decide) (by omega)))]
    simp [h]

theorem masked (f : UInt32) (j : Nat) : (f &&& 0xFFFFFFFD).toNat.testBit j = (f.toNat.testBit j && decide (j ≠ 1)) := by
  rw [UInt32.toNat_and, Nat.testBit_and, show (0xFFFFFFFD : UInt32).toNat = 0xFFFFFFFD from rfl, mask_bits]
  by_cases h : j < 32
  · simp [h]
  · rw [Nat.testBit_lt_two_pow (Nat.lt_of_lt_of_le f.toNat_lt (Nat.pow_le_pow_right (by decide) (by omega)))]
    rfl

theorem le_four (m : Nat) : le 4 m = [UInt8.ofNat m, UInt8.ofNat (m / 2 ^ 8), UInt8.ofNat (m / 2 ^ 16), UInt8.ofNat (m / 2 ^ 24)] := by
  simp [le, List.range_succ]

theorem low_byte (f : UInt32) : UInt8.ofNat f.toNat &&& 0xFD = UInt8.ofNat (f &&& 0xFFFFFFFD).toNat := by
  apply UInt8.toNat_inj.mp
  rw [UInt8.toNat_and, UInt8.toNat_ofNat', UInt8.toNat_ofNat']
  apply Nat.eq_of_testBit_eq
  intro j
  rw [Nat.testBit_and, show (0xFD : UInt8).toNat = 0xFD from rfl, mask_byte, Nat.testBit_mod_two_pow, Nat.testBit_mod_two_pow, masked]
  by_cases h : j < 8 <;> simp [h]

theorem high_byte (f : UInt32) (k : Nat) (hk : 2 ≤ k) : UInt8.ofNat (f.toNat / 2 ^ k) = UInt8.ofNat ((f &&& 0xFFFFFFFD).toNat / 2 ^ k) := by
  congr 1
  apply Nat.eq_of_testBit_eq
  intro j
  rw [Nat.testBit_div_two_pow, Nat.testBit_div_two_pow, masked]
  rw [show decide (j + k ≠ 1) = true by simp; omega, Bool.and_true]

theorem edit_capabilities (f : UInt32) : withoutCert (Wire.header .capabilities ++ Wire.capabilities ⟨12, f⟩) =
    Wire.header .capabilities ++ Wire.capabilities ⟨12, f &&& 0xFFFFFFFD⟩ := by
  have hh : Wire.header .capabilities = [0x11, 0x61] := rfl
  simp only [Wire.capabilities, hh, le_four, zeros]
  rw [← low_byte, ← high_byte f 8 (by decide), ← high_byte f 16 (by decide), ← high_byte f 24 (by decide)]
  rfl

theorem masked_only {f : UInt32} (h : OnlyBits rspFlagBit f.toNat) : OnlyBits rspFlagBit (f &&& 0xFFFFFFFD).toNat := by
  intro j hj
  rw [masked, Bool.and_eq_true] at hj
  exact h j hj.1

/-- What a build with a signing algorithm sends, and what it can receive. -/
theorem built_facts (hv : ValidConfig crypto i) (hb : Built crypto i n c) : (∃ f, Requester.configToGetCapabilities c = .ok ⟨12, f⟩ ∧ OnlyBits reqFlagBit f.toNat) ∧
    (∃ f, Responder.configToCapabilities c = .ok ⟨12, f⟩ ∧ OnlyBits rspFlagBit f.toNat) ∧
    (i.asymmetricSigning ≠ [] → Requester.configToNegotiateAlgorithms c = .ok (configuredOffer crypto)) := by
  obtain ⟨⟨fq, hfq, bq⟩, fr, hfr, br⟩ := c54_capabilities crypto i n c hv hb
  obtain ⟨asym, hoffer, basym⟩ := c54_algorithms crypto i n c hv hb
  have hlim : ∀ (names : List String) k, (∃ a ∈ names, (a, k) ∈ capabilityBits) → reqFlagBit k ∧ rspFlagBit k := by
    rintro names k ⟨a, _, hk⟩
    simp only [capabilityBits, List.mem_cons, Prod.mk.injEq, List.not_mem_nil, or_false] at hk
    unfold reqFlagBit rspFlagBit
    omega
  refine ⟨⟨fq, hfq, fun k hk => (hlim _ k ((bq k).mp hk)).1⟩, ⟨fr, hfr, fun k hk => (hlim _ k ((br k).mp hk)).2⟩, fun hsig => ?_⟩
  have hasym : asym = 16 := by
    rw [← UInt32.toNat_inj]
    apply Nat.eq_of_testBit_eq
    intro k
    rw [show (16 : UInt32).toNat = 2 ^ 4 from rfl, Nat.testBit_two_pow, Bool.eq_iff_iff, basym k]
    simp only [decide_eq_true_eq]
    constructor
    · rintro ⟨rfl, _⟩; rfl
    · rintro rfl; exact ⟨rfl, hsig⟩
  rw [hasym] at hoffer
  exact hoffer

/-- The requester's part: VERSION, CAPABILITIES with the flags `fr`, ALGORITHMS. -/
theorem requester_part {fq fr : UInt32} (hfq : Requester.configToGetCapabilities c = .ok ⟨12, fq⟩) (hbr : OnlyBits rspFlagBit fr.toNat)
    (hoffer : Requester.configToNegotiateAlgorithms c = .ok (configuredOffer crypto)) (e0 e1 e2 : Env) (b0 b1 b2 : Bytes)
    (h0 : 4 ≤ b0.length) (h1 : 12 ≤ b1.length) (h2 : 48 ≤ b2.length) (ht : 138 ≤ c.transcriptSize) :
    ∃ r0 r1 r2 r3 r4 r5, Requester.nextRequest c e0 b0 (Requester.new c root) = (.ok (Wire.header .getVersion ++ Wire.getVersion), r0) ∧
      Requester.handleMsg c cr (Wire.header .version ++ Wire.version ⟨2, supportedVersions⟩) r0 = (.ok false, r1) ∧
      Requester.nextRequest c e1 b1 r1 = (.ok (Wire.header .getCapabilities ++ Wire.getCapabilities ⟨12, fq⟩), r2) ∧
      Requester.handleMsg c cr (Wire.header .capabilities ++ Wire.capabilities ⟨12, fr⟩) r2 = (.ok false, r3) ∧
      Requester.nextRequest c e2 b2 r3 = (.ok (Wire.header .negotiateAlgorithms ++ Wire.negotiateAlgorithms (configuredOffer crypto)), r4) ∧
      Requester.handleMsg c cr (Wire.header .algorithms ++ Wire.algorithms honestAnswer) r4 = (.ok (! (fq.toNat.testBit 1 && fr.toNat.testBit 1)), r5) := by
  have lv : (Wire.header .getVersion ++ Wire.getVersion).length = 4 := by decide
  have lv' : (Wire.header .version ++ Wire.version ⟨2, supportedVersions⟩).length = 10 := by decide
  have lc : ∀ m, (Wire.header .getCapabilities ++ Wire.getCapabilities m).length = 12 := by intro m; simp [Wire.getCapabilities, zeros, le_length, header_length]
  have lc' : ∀ m, (Wire.header .capabilities ++ Wire.capabilities m).length = 12 := by intro m; simp [Wire.capabilities, zeros, le_length, header_length]
  have la : (Wire.negotiateAlgorithms (configuredOffer crypto)).length = 46 := by cases crypto <;> decide +kernel
  have la' : (Wire.algorithms honestAnswer).length = 50 := by decide +kernel
  have hnew : (Requester.new c root).transcript.buf.length = c.transcriptSize := by simp [Requester.new, Transcript.new]
  obtain ⟨r0, a0, k0, s0, t0⟩ := send_version (c := c) (env := e0) (buf := b0) (r := Requester.new c root) rfl h0 (by rw [hnew]; omega)
  obtain ⟨r1, a1, k1, s1, t1⟩ := accept_version (c := c) (cr := cr) k0.wf s0 (by rw [t0, lv, k0.cap, hnew]; omega)
  obtain ⟨r2, a2, k2, s2, t2⟩ := send_capabilities (env := e1) (buf := b1) hfq k1.wf s1 h1 (by rw [t1, t0, List.length_append, lv, lv', k1.cap, k0.cap, hnew]; omega)
  obtain ⟨r3, a3, k3, s3, t3⟩ := accept_capabilities (c := c) (cr := cr) (m := ⟨12, fr⟩) hbr k2.wf s2
    (by rw [t2, t1, t0, List.length_append, List.length_append, lv, lv', lc, k2.cap, k1.cap, k0.cap, hnew]; omega)
  obtain ⟨r4, a4, k4, s4, t4⟩ := send_algorithms (env := e2) (buf := b2) hoffer la k3.wf s3 h2
    (by rw [t3, t2, t1, t0, List.length_append, List.length_append, List.length_append, lv, lv', lc, lc', k3.cap, k2.cap, k1.cap, k0.cap, hnew]; omega)
  obtain ⟨r5, a5, _⟩ := accept_algorithms (c := c) (cr := cr) honestAnswer_wf (configured_valid crypto) la' k4.wf s4
    (by rw [t4, t3, t2, t1, t0, List.length_append, List.length_append, List.length_append, List.length_append, lv, lv', lc, lc', k4.cap, k3.cap, k2.cap, k1.cap, k0.cap, hnew,
          List.length_append, header_length, la]; omega)
  rw [bothHave_cert] at a5
  exact ⟨r0, r1, r2, r3, r4, r5, a0, a1, a2, a3, a4, a5⟩

/-- The responder's part. -/
theorem responder_part {fq fr : UInt32} (hl : slots.length = c'.numSlots) (h8' : c'.numSlots ≤ 8) (run : RspRun c' cr' slots es q) (ha : alive es = true)
    (hbq : OnlyBits reqFlagBit fq.toNat) (hfr : Responder.configToCapabilities c' = .ok ⟨12, fr⟩) (e0 e1 e2 : Env) (b0 b1 b2 : Bytes)
    (h0 : 10 ≤ b0.length) (h1 : 12 ≤ b1.length) (h2 : 52 ≤ b2.length) (ht : 138 ≤ c'.transcriptSize) :
    ∃ q0 q1 q2, Responder.handleMsg c' cr' e0 (Wire.header .getVersion ++ Wire.getVersion) b0 q = (.ok ⟨Wire.header .version ++ Wire.version ⟨2, supportedVersions⟩, none⟩, q0) ∧
      Responder.handleMsg c' cr' e1 (Wire.header .getCapabilities ++ Wire.getCapabilities ⟨12, fq⟩) b1 q0 = (.ok ⟨Wire.header .capabilities ++ Wire.capabilities ⟨12, fr⟩, none⟩, q1) ∧
      Responder.handleMsg c' cr' e2 (Wire.header .negotiateAlgorithms ++ Wire.negotiateAlgorithms (configuredOffer crypto)) b2 q1 =
        (.ok ⟨Wire.header .algorithms ++ Wire.algorithms honestAnswer, none⟩, q2) := by
  have lv : (Wire.header .getVersion ++ Wire.getVersion).length = 4 := by decide
  have lv' : (Wire.header .version ++ Wire.version ⟨2, supportedVersions⟩).length = 10 := by decide
  have lc : ∀ m, (Wire.header .getCapabilities ++ Wire.getCapabilities m).length = 12 := by intro m; simp [Wire.getCapabilities, zeros, le_length, header_length]
  have lc' : ∀ m, (Wire.header .capabilities ++ Wire.capabilities m).length = 12 := by intro m; simp [Wire.capabilities, zeros, le_length, header_length]
  have la : (Wire.negotiateAlgorithms (configuredOffer crypto)).length = 46 := by cases crypto <;> decide +kernel
  obtain ⟨st', hlive⟩ := run_live hl h8' run ha
  obtain ⟨q0, a0, k0, s0, t0⟩ := reply_version (c := c') (cr := cr') (env := e0) (buf := b0) hl h8' hlive.toRspKept hlive.state hlive.mat.live h0 (by omega)
  obtain ⟨q1, a1, k1, s1, t1⟩ := reply_capabilities (c := c') (cr := cr') (env := e1) (buf := b1) hl h8' k0 s0 (m := ⟨12, fq⟩) hbq hfr h1 (by rw [t0, List.length_append, lv, lv']; omega)
  obtain ⟨q2, a2, _⟩ := reply_algorithms (c := c') (cr := cr') (env := e2) (buf := b2) hl h8' k1 s1 (configuredOffer_wf crypto) (configuredOffer_nonempty crypto) rfl
    (configured_choice crypto) la h2 (by rw [t1, t0, List.length_append, List.length_append, List.length_append, lv, lv', lc, lc']; omega)
  exact ⟨q0, q1, q2, a0, a1, a2⟩

end Downgrade
open Downgrade

/-- **C115, negation.** One bit is enough: let any two builds of valid configurations talk (the requester has a signing algorithm), say with CERT_CAP and CHAL_CAP on both sides,
and let a man in the middle clear CERT_CAP in the CAPABILITIES response and touch nothing else. The requester reports completion after ALGORITHMS. No hash, signature or certificate
is asked for, whatever the root and the verifier. -/
theorem c115_one_bit (hv : ValidConfig crypto i) (hb : Built crypto i n c) (hv' : ValidConfig crypto' i') (hb' : Built crypto' i' n' c') (hsig : i.asymmetricSigning ≠ [])
    (hl : slots.length = i'.numSlots) (run : RspRun c' cr' slots es q) (ha : alive es = true) (x y z : Round)
    (hx : 4 ≤ x.reqBuf.length ∧ 10 ≤ x.rspBuf.length) (hy : 12 ≤ y.reqBuf.length ∧ 12 ≤ y.rspBuf.length) (hz : 48 ≤ z.reqBuf.length ∧ 52 ≤ z.rspBuf.length)
    (ht : 138 ≤ i.transcriptBufSize) (ht' : 138 ≤ i'.transcriptBufSize) :
    ∃ ends, editedTalk withoutCert c c' cr cr' [x, y, z] (Requester.new c root, q) = some ([false, false, true], ends) := by
  obtain ⟨⟨fq, hfq, hbq⟩, _, hoffer⟩ := built_facts hv hb
  obtain ⟨_, ⟨fr, hfr, hbr⟩, _⟩ := built_facts hv' hb'
  have h8' : c'.numSlots ≤ 8 := by rw [hb'.numSlots]; exact hv'.slots.2
  rw [← hb'.numSlots] at hl
  rw [← hb.transcriptSize] at ht
  rw [← hb'.transcriptSize] at ht'
  obtain ⟨r0, r1, r2, r3, r4, r5, a0, a1, a2, a3, a4, a5⟩ := requester_part (c := c) (cr := cr) (root := root) hfq (masked_only hbr) (hoffer hsig) x.reqEnv y.reqEnv z.reqEnv
    x.reqBuf y.reqBuf z.reqBuf hx.1 hy.1 hz.1 ht
  obtain ⟨q0, q1, q2, g0, g1, g2⟩ := responder_part (crypto := crypto) hl h8' run ha hbq hfr x.rspEnv y.rspEnv z.rspEnv x.rspBuf y.rspBuf z.rspBuf hx.2 hy.2 hz.2 ht'
  have h1 : (! (fq.toNat.testBit 1 && (fr &&& 0xFFFFFFFD).toNat.testBit 1)) = true := by rw [masked]; simp
  rw [h1] at a5
  refine ⟨(r5, q2), ?_⟩
  simp only [editedTalk, edited, a0, g0, edit_version, a1, a2, g1, edit_capabilities, a3, a4, g2, edit_algorithms, a5]

/-- **C115, negation.** Three fixed messages, the same for all, complete every requester that has a signing algorithm: any configuration, root, verifier and nonces. Whoever sends
them needs no key. -/
theorem c115_keyless_peer (hv : ValidConfig crypto i) (hb : Built crypto i n c) (hsig : i.asymmetricSigning ≠ []) (e0 e1 e2 : Env) (b0 b1 b2 : Bytes)
    (h0 : 4 ≤ b0.length) (h1 : 12 ≤ b1.length) (h2 : 48 ≤ b2.length) (ht : 138 ≤ i.transcriptBufSize) (k0 k1 k2 : Bytes) (hk : keylessReplies = [k0, k1, k2]) :
    (reqBehaviour c cr (Requester.new c root) [.next e0 b0, .recv k0, .next e1 b1, .recv k1, .next e2 b2, .recv k2]).getLast? = some (.recv k2 (.ok true)) := by
  obtain ⟨⟨fq, hfq, hbq⟩, _, hoffer⟩ := built_facts hv hb
  rw [← hb.transcriptSize] at ht
  obtain ⟨r0, r1, r2, r3, r4, r5, a0, a1, a2, a3, a4, a5⟩ := requester_part (c := c) (cr := cr) (root := root) (fr := 0) hfq (by intro j hj; simp at hj) (hoffer hsig) e0 e1 e2
    b0 b1 b2 h0 h1 h2 ht
  rw [keyless_wire] at hk
  simp only [List.cons.injEq, and_true] at hk
  obtain ⟨rfl, rfl, rfl⟩ := hk
  simp only [reqBehaviour, ReqCall.run, a0, a1, a2, a3, a4, a5]
  simp

/-- **C115**, what is true: the requester authenticates its peer exactly if the two capability words it saw both have CERT_CAP and CHAL_CAP, and then the message on which it
completes is a CHALLENGE_AUTH (code 0x03), which the caller can check. Otherwise the message is another one, and the very same history, completion included, happens with any
other root certificate, hash and verifier: nothing was verified. -/
theorem c115_completion_partial {es : List ReqEvent} {r : Requester} (h8 : c.numSlots ≤ 8) {rsp : Bytes} (run : ReqRun c cr root (es ++ [.recv rsp (.ok true)]) r) :
    let l := conversation (reqMsgs es ++ [rsp])
    (l.both 1 = true ∧ l.both 2 = true → code rsp = some 0x03 ∧ ∃ m0 m1 m2 m3 cert slot chain nonce sig, accepted es = [m0, m1, m2, m3, cert] ∧
      Authenticated c cr root (conversation (reqMsgs es)) cert rsp slot chain nonce sig) ∧
    (¬ (l.both 1 = true ∧ l.both 2 = true) → code rsp ≠ some 0x03 ∧ ∀ (cr' : Crypto) (root' : Bytes), ∃ r', ReqRun c cr' root' (es ++ [.recv rsp (.ok true)]) r') := by
  intro l
  have hpath := c41_history (es2 := []) run
  obtain ⟨r1, x, run1, hx, _⟩ := run.last
  have hok : (Requester.handleMsg c cr rsp r1).1 = .ok true := by
    cases x with
    | next env buf => simp [ReqCall.run] at hx
    | recv rsp' =>
      simp only [ReqCall.run, ReqEvent.recv.injEq] at hx
      rw [hx.1]; exact hx.2.symm
  have hacc : accepted (es ++ [.recv rsp (.ok true)]) = accepted es ++ [rsp] := by rw [accepted_append]; rfl
  have hmsgs : reqMsgs (es ++ [.recv rsp (.ok true)]) = reqMsgs es ++ [rsp] := by rw [reqMsgs_append]; rfl
  rw [hacc, hmsgs, List.map_append] at hpath
  change _ = (path l).map some at hpath
  have hlast : code rsp = ((path l).map some).getLast?.join := by rw [← hpath]; simp
  constructor
  · rintro ⟨b1, b2⟩
    have hcode : code rsp = some 0x03 := by rw [hlast]; simp [path, b1, b2]
    obtain ⟨_, m0, m1, m2, m3, cert, slot, chain, nonce, sig, ha, hauth⟩ := c42_authenticated h8 run1 rsp hcode true hok
    exact ⟨hcode, m0, m1, m2, m3, cert, slot, chain, nonce, sig, ha, hauth⟩
  · intro hno
    have hmem : some 0x03 ∉ (path l).map some := by
      cases b1 : l.both 1 <;> cases b2 : l.both 2 <;> simp [path, b1, b2] at hno ⊢
    have hall : ∀ m ∈ accepted es ++ [rsp], code m ≠ some 0x03 := by
      intro m hm he
      apply hmem
      rw [← hpath, ← List.map_append, ← he]
      exact List.mem_map_of_mem hm
    refine ⟨hall rsp (by simp), fun cr' root' => ?_⟩
    have hf : failed (es ++ [.recv rsp (.ok true)]) = false := by
      rw [failed_append]
      cases hf : failed es with
      | true => exact absurd (List.mem_singleton.mpr rfl) (c43_never_completes run hf rsp)
      | false => rfl
    obtain ⟨calls, h1, h2⟩ := run.calls
    clear h2
    have hc : ∀ m, ReqCall.recv m ∈ calls → code m ≠ some 0x03 := by
      intro m hm
      apply hall
      rw [← hacc, h1]
      rw [h1] at hf
      clear h1 hlast hpath run run1 hx hok
      generalize Requester.new c root = r0 at hf ⊢
      induction calls generalizing r0 with
      | nil => simp at hm
      | cons y ys ih =>
        simp only [reqBehaviour, failed, List.any_cons, Bool.or_eq_false_iff] at hf
        obtain ⟨hf1, hf2⟩ := hf
        rcases List.mem_cons.mp hm with rfl | hm
        · simp only [ReqCall.run] at hf1
          simp only [reqBehaviour, ReqCall.run, accepted, List.filterMap_cons]
          cases hr : (Requester.handleMsg c cr m r0).1 with
          | ok b => simp
          | err e => simp [hr] at hf1
          | panic k => simp [hr] at hf1
        · have := ih hm _ hf2
          simp only [reqBehaviour, accepted, List.filterMap_cons] at this ⊢
          split <;> simp [this]
    have := ReqRun.of c cr' root' calls
    rw [← c109_trust_unseen (cr := cr) (root := root) calls hc, ← h1] at this
    exact ⟨_, this⟩

/-! The premises are met: both builds have CERT_CAP and CHAL_CAP and complete in six exchanges when left alone, and in three with the man in the middle. -/
example : (∃ ends, talk honestCfg otherCfg honestCrypto honestCrypto tightRounds (Requester.new honestCfg [1, 2, 3], Responder.new otherCfg [some honestSlot]) =
      some ([false, false, false, false, false, true], ends)) ∧
    ∃ ends, editedTalk withoutCert honestCfg otherCfg honestCrypto honestCrypto (tightRounds.take 3) (Requester.new honestCfg [1, 2, 3], Responder.new otherCfg [some honestSlot]) =
      some ([false, false, true], ends) :=
  ⟨c97_builds_interoperate honestConfig_valid honestConfig_built otherConfig_valid otherConfig_built (by decide) honest_pair_demo .new rfl tightRounds (by decide +kernel) (by decide +kernel) tight_room,
    c115_one_bit honestConfig_valid honestConfig_built otherConfig_valid otherConfig_built (by decide) rfl .new rfl _ _ _ ⟨by decide +kernel, by decide +kernel⟩ ⟨by decide +kernel, by decide +kernel⟩
      ⟨by decide +kernel, by decide +kernel⟩ (by decide +kernel) (by decide +kernel)⟩

/-- The edit changes one bit of one message. -/
example : withoutCert [0x11, 0x61, 0, 0, 0, 12, 0, 0, 6, 0, 0, 0] = [0x11, 0x61, 0, 0, 0, 12, 0, 0, 4, 0, 0, 0] ∧ withoutCert (demoReplies[0]?.getD []) = demoReplies[0]?.getD [] := by decide +kernel

/-- Both cases of the last theorem occur: the demonstration session completes with CHALLENGE_AUTH, and the one with the three fixed messages without. -/
example : (∃ es rsp r, ReqRun demoCfg demoCrypto [1, 2, 3] (es ++ [.recv rsp (.ok true)]) r ∧ code rsp = some 0x03) ∧
    ∃ es rsp r, ReqRun honestCfg honestCrypto [1, 2, 3] (es ++ [.recv rsp (.ok true)]) r ∧ code rsp = some 0x63 := by
  constructor
  · have := ReqRun.of demoCfg demoCrypto [1, 2, 3] (demoReqCalls 12)
    rw [← show (reqBehaviour demoCfg demoCrypto (Requester.new demoCfg [1, 2, 3]) (demoReqCalls 12)).dropLast ++ [.recv (demoReplies[5]?.getD []) (.ok true)] =
      reqBehaviour demoCfg demoCrypto (Requester.new demoCfg [1, 2, 3]) (demoReqCalls 12) by decide +kernel] at this
    exact ⟨_, _, _, this, by decide +kernel⟩
  · have := ReqRun.of honestCfg honestCrypto [1, 2, 3] [.next demoReqEnv (zeros 48), .recv (keylessReplies[0]?.getD []), .next demoReqEnv (zeros 48),
      .recv (keylessReplies[1]?.getD []), .next demoReqEnv (zeros 48), .recv (keylessReplies[2]?.getD [])]
    have hl := c115_keyless_peer (cr := honestCrypto) (root := [1, 2, 3]) honestConfig_valid honestConfig_built (by decide) demoReqEnv demoReqEnv demoReqEnv (zeros 48) (zeros 48) (zeros 48)
      (by decide) (by decide) (by decide) (by decide +kernel) _ _ _ (show keylessReplies = [keylessReplies[0]?.getD [], keylessReplies[1]?.getD [], keylessReplies[2]?.getD []] from rfl)
    obtain ⟨pre, hpre⟩ := List.getLast?_eq_some_iff.mp hl
    rw [hpre] at this
    exact ⟨_, _, _, this, by decide +kernel⟩

end
end Spdm

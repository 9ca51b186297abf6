import Verif.Props.Response
import Verif.Props.ReqPanics
import Verif.Props.Calls
/-!
# C122: the responses accepted at any moment, asked for or not
-/
namespace Spdm
open Spec

variable {c : Cfg} {cr : Crypto} {root : Bytes} {es : List ReqEvent} {r : Requester} {offer : NegotiateAlgorithms}

/-- A requester that waits for nothing more has said that the handshake is complete. -/
theorem newSession_completed (run : ReqRun c cr root es r) (hf : failed es = false) (hs : r.state = some .newSession) : ∃ m, .recv m (.ok true) ∈ es := by
  induction run with
  | new => simp [Requester.new] at hs
  | @next es r env buf run ih =>
    have hf' : failed es = false := by rw [failed_append] at hf; simpa using (Bool.or_eq_false_iff.mp hf).1
    obtain ⟨st, hl⟩ := req_live' run hf'
    have : r.state = some .newSession := by
      rcases hp : Requester.nextRequest c env buf r with ⟨x, r'⟩
      rw [hp] at hs
      obtain ⟨_, ⟨out, st', rfl, _, hs', hsend⟩ | ⟨hx, st', hs', hidle, _⟩⟩ := next_refines hl.state hl.wf hp
      · simp only at hs
        rw [hs', Option.some.injEq] at hs
        generalize r'.transcript.get = tr' at hsend
        cases hsend <;> simp_all
      · simp only at hs
        rw [hs', Option.some.injEq] at hs
        rw [hl.state]
        cases hidle <;> simp_all
    obtain ⟨m, hm⟩ := ih hf' this
    exact ⟨m, List.mem_append_left _ hm⟩
  | @recv es r rsp run ih =>
    rw [failed_append] at hf
    obtain ⟨_, hf2⟩ := Bool.or_eq_false_iff.mp hf
    rcases hx : Requester.handleMsg c cr rsp r with ⟨x, r'⟩
    rw [hx] at hf2
    cases x with
    | ok b =>
      obtain ⟨_, st, st', _, hb, _, hl'⟩ := req_recv run (rsp := rsp) (b := b) (by rw [hx])
      rw [hl'.state, Option.some.injEq] at hs
      subst hs
      exact ⟨rsp, by simp [hb]⟩
    | err e => simp [failed] at hf2
    | panic k => simp [failed] at hf2

/-- **C122.** At any moment of a session in which nothing was refused, whether or not a request was written, the requester accepts exactly the responses of the relation
`Acceptable` for which the transcript has room - but CAPABILITIES only if GET_CAPABILITIES was written since the last accepted response, ALGORITHMS only if since then
`next_request` was called with a buffer of at least 48 bytes (it may have failed), and nothing once the handshake is complete.  VERSION, DIGESTS, CERTIFICATE and
CHALLENGE_AUTH need no request. -/
theorem c122_accepted_iff (h0 : 0 < c.numSlots) (h8 : c.numSlots ≤ 8) (henc : EncoderFits c) (ho : Requester.configToNegotiateAlgorithms c = .ok offer)
    (run : ReqRun c cr root es r) (hf : failed es = false) (rsp : Bytes) (b : Bool) :
    (Requester.handleMsg c cr rsp r).1 = .ok b ↔
      Acceptable c cr root offer (accepted es) (conversation (reqMsgs es)) rsp b ∧ ((conversation (reqMsgs es)).add rsp).text.length ≤ c.transcriptSize ∧
      (code rsp = some 0x61 → pending es = true) ∧ (code rsp = some 0x63 → offerMade es = true) ∧ ∀ m, .recv m (.ok true) ∉ es := by
  obtain ⟨st, hl⟩ := req_live' run hf
  obtain ⟨st0, hst0, hout⟩ := outstanding ho run hf
  rw [hl.state, Option.some.injEq] at hst0
  subst hst0
  constructor
  · intro hok
    obtain ⟨_, st1, st', hl1, rfl, hrecv, hl'⟩ := req_recv run hok
    have : st1 = st := by have := hl1.state; rw [hl.state, Option.some.injEq] at this; exact this.symm
    subst this
    refine ⟨recv_acceptable h0 h8 ho hl.mat hrecv, ?_, ?_⟩
    · rw [← (recv_match hl.mat hrecv).1, Transcript.get_length hl'.wf, ← hl'.cap]
      exact hl'.wf
    · have hnd : ∀ m, .recv m (.ok true) ∉ es := by
        intro m hm
        obtain ⟨es1, es2, rfl⟩ := List.append_of_mem hm
        have run' := run.recv (rsp := rsp)
        rw [List.append_assoc, List.cons_append] at run'
        rcases c41_complete_is_final run' (.recv rsp (Requester.handleMsg c cr rsp r).1) (by simp) with ⟨_, _, h⟩ | ⟨_, _, _, h⟩ | ⟨m, k, h⟩
        · cases h
        · cases h
        · rw [hok] at h; cases h
      generalize (Requester.handleMsg c cr rsp r).2.transcript.get = tr' at hrecv
      cases hrecv with
      | version h3 hh => rw [code_of_take hh]; exact ⟨by simp [Wire.header], by simp [Wire.header], hnd⟩
      | capabilities hr => exact ⟨fun _ => hout.1.symm, by rw [hr, List.append_assoc, code_header]; simp [Wire.header], hnd⟩
      | algorithms h3 hh => exact ⟨by rw [code_of_take hh]; simp [Wire.header], fun _ => hout.symm, hnd⟩
      | digests h3 hh => rw [code_of_take hh]; exact ⟨by simp [Wire.header], by simp [Wire.header], hnd⟩
      | certificate hr => rw [hr, List.append_assoc, code_header]; exact ⟨by simp [Wire.header], by simp [Wire.header], hnd⟩
      | challenge h3 hh => rw [code_of_take hh]; exact ⟨by simp [Wire.header], by simp [Wire.header], hnd⟩
  · rintro ⟨hacc, hroom, hc, ha, hn⟩
    have hrd : Ready st := by
      have hm := hl.mat
      generalize accepted es = acc at hacc hm
      generalize conversation (reqMsgs es) = l at hacc hm
      cases hm with
      | capabilities =>
        cases hacc
        have := hc (by rw [List.append_assoc]; rfl)
        rw [this] at hout
        exact hout
      | algorithms =>
        cases hacc
        have := ha (by rw [List.append_assoc]; rfl)
        rw [this] at hout
        exact hout
      | done =>
        obtain ⟨m, hm⟩ := newSession_completed run hf hl.state
        exact absurd hm (hn m)
      | _ => trivial
    obtain ⟨st', r1, he⟩ := acceptable_handle h0 h8 henc ho hl.mat hrd hacc hl.root hl.wf hl.text (by rw [hl.cap]; exact hroom)
    have hok : (Requester.handleMsg c cr rsp r).1 = .ok (decide (st' = .newSession)) := by simp only [Requester.handleMsg, hl.state, he]
    obtain ⟨_, st1, st1', hl1, hd1, hrecv, _⟩ := req_recv run hok
    have h2 := recv_acceptable h0 h8 ho hl1.mat hrecv
    rw [hok, hd1, hacc.one_outcome h2]

/-- C122 for every configuration the build accepts. -/
theorem c122_built_accepted_iff {crypto : Bool} {i : SpdmConfig} {nonceSize : Nat} (hv : ValidConfig crypto i) (hb : Built crypto i nonceSize c)
    (run : ReqRun c cr root es r) (hf : failed es = false) (rsp : Bytes) (b : Bool) :
    (Requester.handleMsg c cr rsp r).1 = .ok b ↔
      Acceptable c cr root (builtOffer crypto i) (accepted es) (conversation (reqMsgs es)) rsp b ∧ ((conversation (reqMsgs es)).add rsp).text.length ≤ i.transcriptBufSize ∧
      (code rsp = some 0x61 → pending es = true) ∧ (code rsp = some 0x63 → offerMade es = true) ∧ ∀ m, .recv m (.ok true) ∉ es := by
  rw [← hb.transcriptSize]
  refine c122_accepted_iff (by rw [hb.numSlots]; exact hv.slots.1) (by rw [hb.numSlots]; exact hv.slots.2) (by unfold EncoderFits; rw [hb.maxSignatureSize]; decide) ?_ run hf rsp b
  obtain ⟨asym, h1, h2⟩ := c54_algorithms crypto i nonceSize c hv hb
  have : asym = if i.asymmetricSigning = [] then 0 else 0x10 := by
    apply UInt32.toNat_inj.mp
    apply Nat.eq_of_testBit_eq
    intro k
    rw [Bool.eq_iff_iff, h2 k]
    split
    · rename_i h; simp [h]
    · rename_i h
      simp only [ne_eq, h, not_false_eq_true, and_true]
      rw [show (0x10 : UInt32).toNat = 2 ^ 4 from rfl, Nat.testBit_two_pow]
      simp [eq_comm]
  rw [h1, this]
  rfl

/-- C122 at work: the lazy application's last response completes the handshake though nothing is pending, and so is acceptable. -/
example : pending (reqBehaviour demoCfg demoCrypto (Requester.new demoCfg [1, 2, 3]) lazyCalls) = false ∧
    Acceptable demoCfg demoCrypto [1, 2, 3] (builtOffer true { cryptoToml with asymmetricSigning := ["ECDSA_ECC_NIST_P256"] })
      (accepted (reqBehaviour demoCfg demoCrypto (Requester.new demoCfg [1, 2, 3]) lazyCalls))
      (conversation (reqMsgs (reqBehaviour demoCfg demoCrypto (Requester.new demoCfg [1, 2, 3]) lazyCalls))) lazyAuth true :=
  ⟨by decide +kernel, ((c122_accepted_iff (by decide) (by decide) (by unfold EncoderFits; decide) demo_offer
    (Spec.ReqRun.of demoCfg demoCrypto [1, 2, 3] lazyCalls) (by decide +kernel) _ _).mp (by decide +kernel)).1⟩

/-- The last two conditions matter: an acceptable CAPABILITIES is refused if GET_CAPABILITIES was not written, an acceptable ALGORITHMS if `next_request` was not called. -/
example : (Requester.handleMsg demoCfg demoCrypto (demoReplies[1]?.getD []) (demoRequester 2)).1.isOk = false ∧
    (Requester.handleMsg demoCfg demoCrypto (demoReplies[1]?.getD []) (demoRequester 3)).1.isOk = true ∧
    (Requester.handleMsg demoCfg demoCrypto (demoReplies[2]?.getD []) (demoRequester 4)).1.isOk = false ∧
    (Requester.handleMsg demoCfg demoCrypto (demoReplies[2]?.getD []) (demoRequester 5)).1.isOk = true := by decide +kernel

end Spdm

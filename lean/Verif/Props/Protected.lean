import Verif.Props.Tamper
import Verif.Lemmas.Shape
import Verif.Spec.Protected
/-!
# What it takes for the negotiation to be protected (C126)
-/
namespace Spdm
open Spec

variable {c c' : Cfg} {cr cr' : Crypto} {root : Bytes} {slots : List (Option FilledSlot)} {es : List ReqEvent} {es' : List RspEvent} {r : Requester} {r' : Responder}

/-- **C126.** The premises of C50: an arbitrary network, and what verifies was signed by the responder.  Suppose moreover that whoever feeds the responder hands it only requests of
the negotiation without bytes behind their ends (the three lengths can be checked in front of `handle_msg`), and that the requester's
NEGOTIATE_ALGORITHMS does not occur in the requester's transcript from byte 70 on (which can be checked in the transcript).  If the requester accepts a CHALLENGE_AUTH, then
both sides agree on the capabilities of the requester, those of the responder, the hash and the signature algorithm — whatever bytes the requester has accepted behind the responses, and
whatever follows the negotiation — or the two transcripts are a collision. -/
theorem c126_negotiation_protected (hl : slots.length = c'.numSlots) (h8' : c'.numSlots ≤ 8) (h8 : c.numSlots ≤ 8) (run : ReqRun c cr root es r)
    (run' : RspRun c' cr' slots es' r')
    (hkey : ∀ leaf inters a m der, cr.chainOk leaf a root inters 1638316800 = true → cr.sigOk leaf a m der = true → ∃ i, (i, m) ∈ r'.signed)
    (rsp : Bytes) (hk : code rsp = some 0x03) (b : Bool) (hok : (Requester.handleMsg c cr rsp r).1 = .ok b)
    (hexact : ∀ env req buf res, RspEvent.call env req buf res ∈ es' → ExactRequest req)
    (honce : ∀ m ∈ reqMsgs es, code m = some 0xE3 → ¬ OccursFrom 70 m (Requester.handleMsg c cr rsp r).2.transcript.get) :
    ∃ es1 env req buf res es2 auth, es' = es1 ++ .call env req buf res :: es2 ∧ alive es1 = true ∧ code req = some 0x83 ∧ AuthFor cr' slots es1 env req auth ∧
      (Agree (conversation (reqMsgs es)) (conversation (rspMsgs es1)) ∧
          (Requester.handleMsg c cr rsp r).2.transcript.get = (conversation (rspMsgs es1)).text ++ req ++ auth ∨
        Collides (cr.hash (UInt32.ofNat (conversation (reqMsgs es)).hash)) (cr'.hash (UInt32.ofNat (conversation (rspMsgs es1)).hash))
          (Requester.handleMsg c cr rsp r).2.transcript.get ((conversation (rspMsgs es1)).text ++ req ++ auth)) := by
  obtain ⟨es1, env, req, buf, res, es2, auth, h1, h2, hlr, h3, h4, _, h5⟩ := c50_tampering_detected hl h8' h8 run run' hkey rsp hk b hok
  refine ⟨es1, env, req, buf, res, es2, auth, h1, h2, h3, h4, ?_⟩
  rcases h5 with h5 | h5
  · refine .inl ⟨?_, h5⟩
    obtain ⟨hf, st, st', hlive, hb, hrecv, hlive'⟩ := req_recv run hok
    have hq := reqRun_shape run hf hlive.state
    have hdone : ReqDone c (reqMsgs es) (conversation (reqMsgs es)) := by
      revert hrecv
      generalize (Requester.handleMsg c cr rsp r).2.transcript.get = tr'
      intro hrecv
      cases hrecv with
      | version h3 hh _ _ _ => rw [code_of_take hh] at hk; simp [Wire.header] at hk
      | capabilities hr _ => rw [hr, List.append_assoc, code_header] at hk; simp [Wire.header] at hk
      | algorithms h3 hh _ _ _ _ => rw [code_of_take hh] at hk; simp [Wire.header] at hk
      | digests h3 hh _ _ => rw [code_of_take hh] at hk; simp [Wire.header] at hk
      | certificate hr _ => rw [hr, List.append_assoc, code_header] at hk; simp [Wire.header] at hk
      | challenge =>
        rcases hq with hq | hq
        · exact hq
        · exfalso
          unfold Tight at hq
          rw [← hlive.text, Transcript.get_length hlive.wf, ← hlive.cap] at hq
          have := hlive.wf
          unfold Transcript.WF at this
          omega
    obtain ⟨r1, run1⟩ : ∃ r1, RspRun c' cr' slots es1 r1 := Spec.RspRun.initial (es2 := .call env req buf res :: es2) (r' := r') (by rw [← h1]; exact run')
    obtain ⟨st1, hl1⟩ : ∃ st1, RspLive c' slots es1 r1 st1 := by
      rcases rspRun_inv hl h8' run1 with ⟨_, h⟩ | ⟨h, _⟩
      · exact h
      · rw [h2] at h; simp at h
    have hs1 := rspRun_shape hl h8' run1 (fun env req buf res hm => hexact env req buf res (by rw [h1]; exact List.mem_append_left _ hm)) h2 hl1.state
    have hdone' : RspDone (conversation (rspMsgs es1)) := by
      have hm := hl1.mat
      generalize lastReq es1 = p at hm hlr
      cases hm with
      | version => simp at hlr
      | capabilities => simp at hlr
      | algorithms => simp at hlr
      | idAuth => exact hs1
      | challenge => exact hs1
    have ht := hlive'.text
    rw [reqMsgs_append, show reqMsgs [ReqEvent.recv rsp (.ok b)] = [rsp] from rfl, conversation_snoc] at ht
    obtain ⟨x, hx⟩ := add_keeps (l := conversation (reqMsgs es)) (m := rsp) (k := 0x03) hk (by decide)
    rw [hx] at ht
    refine parts_agree hdone hdone' (x := x) (y := req ++ auth) ?_ ?_
    · rw [← List.append_assoc, ← h5, ht]
    · intro m hm hc
      have := honce m hm hc
      rwa [ht] at this
  · exact .inr h5

instance (req : Bytes) : Decidable (ExactRequest req) := by unfold ExactRequest; infer_instance

/-- The requests of a history are exact, as a check. -/
def exactRequests (es : List RspEvent) : Bool :=
  es.all fun e => match e with | .call _ req _ _ => decide (ExactRequest req) | .reset => true

theorem exactRequests_sound {es : List RspEvent} (h : exactRequests es = true) (env : Env) (req buf : Bytes) (res : Res Responder.Output) (hm : RspEvent.call env req buf res ∈ es) :
    ExactRequest req := by
  have := List.all_eq_true.mp h _ hm
  simpa using this

/-- `OccursFrom` as a check. -/
def occursFrom (i : Nat) (m text : Bytes) : Bool := (List.range (text.length + 1)).any fun k => decide (i ≤ k) && m.isPrefixOf (text.drop k)

theorem occursFrom_iff {i : Nat} {m text : Bytes} : occursFrom i m text = true ↔ OccursFrom i m text := by
  simp only [occursFrom, List.any_eq_true, List.mem_range, Bool.and_eq_true, decide_eq_true_eq, List.isPrefixOf_iff_prefix]
  constructor
  · rintro ⟨k, hk, hi, post, hp⟩
    refine ⟨text.take k, post, ?_, by simp; omega⟩
    rw [List.append_assoc, hp, List.take_append_drop]
  · rintro ⟨pre, post, rfl, hi⟩
    exact ⟨pre.length, by simp; omega, hi, post, by simp⟩

/-- The premises of C126 hold in the session. -/
example : (∀ env req buf res, RspEvent.call env req buf res ∈ demoEvents 6 → ExactRequest req) ∧
    (∀ m ∈ reqMsgs (demoReqEvents 11), code m = some 0xE3 → ¬ OccursFrom 70 m (demoRequester 12).transcript.get) ∧
    (∃ m ∈ reqMsgs (demoReqEvents 11), code m = some 0xE3 ∧ OccursFrom 38 m (demoRequester 12).transcript.get) ∧
    (Requester.handleMsg demoCfg demoCrypto (demoReplies[5]?.getD []) (demoRequester 11)).1 = .ok true := by
  refine ⟨exactRequests_sound (by decide +kernel), ?_, ⟨demoNegotiate, by decide +kernel, by decide +kernel, occursFrom_iff.mp (by decide +kernel)⟩, by decide +kernel⟩
  intro m hm hc
  have h : ∀ m ∈ reqMsgs (demoReqEvents 11), code m = some 0xE3 → occursFrom 70 m (demoRequester 12).transcript.get = false := by decide +kernel
  rw [← occursFrom_iff, h m hm hc]
  simp

/-! ### Neither of the two premises can be dropped -/

/-- Without the first: in the spliced session of C57 the offer occurs once, but a GET_CAPABILITIES has bytes behind its end — and the sides disagree. -/
theorem c126_exactness_needed : exactRequests splicedEvents = false ∧
    (∀ m ∈ reqMsgs splicedReqEvents, code m = some 0xE3 → occursFrom 70 m (reqAfter demoCfg demoCrypto (Requester.new demoCfg [1, 2, 3])
      (splicedReplies.flatMap fun rsp => [.next demoReqEnv (zeros 200), .recv rsp])).transcript.get = false) ∧
    ¬ Agree (conversation (reqMsgs splicedReqEvents)) (conversation (rspMsgs splicedEvents)) := by
  refine ⟨by decide +kernel, by decide +kernel, fun h => ?_⟩
  have := h.2.1
  revert this
  decide +kernel

/-- A GET_CAPABILITIES the requester never sent. -/
def forgedAsk : Bytes := [0x11, 0xE1, 0, 0, 0, 7, 0, 0, 0, 0, 0, 0]

/-- The responder's first three replies to the forged negotiation. -/
def forgedStart : List Bytes :=
  (behaviour demoCfg demoCrypto (Responder.new demoCfg demoSlots) ([demoGetVersion, forgedAsk, demoNegotiate].map demoCall)).filterMap
    fun e => match e with | .call _ _ _ (.ok ⟨out, none⟩) => some out | _ => none

/-- What the network hands to the responder: its own negotiation, and then a GET_DIGESTS behind which the requester's negotiation is hidden. -/
def hiddenRequests : List Bytes :=
  [demoGetVersion, forgedAsk, demoNegotiate,
    demoGetDigests ++ (demoGetCapabilities ++ forgedCapabilities ++ demoNegotiate ++ (forgedStart[2]?.getD []) ++ demoGetDigests), demoGetCertificate, demoChallenge]

def hiddenEvents : List RspEvent := behaviour demoCfg demoCrypto (Responder.new demoCfg demoSlots) (hiddenRequests.map demoCall)

/-- What the network hands to the requester: a VERSION behind which the responder's negotiation is hidden, then a forged CAPABILITIES. -/
def hiddenReplies : List Bytes :=
  match hiddenEvents.filterMap fun e => match e with | .call _ _ _ (.ok ⟨out, none⟩) => some out | _ => none with
  | v :: caps :: algs :: rest => (v ++ forgedAsk ++ caps ++ demoNegotiate ++ algs ++ demoGetDigests) :: forgedCapabilities :: algs :: rest
  | _ => []

def hiddenReqCalls : List ReqCall := hiddenReplies.flatMap fun rsp => [.next demoReqEnv (zeros 200), .recv rsp]

def hiddenReqEvents : List ReqEvent := reqBehaviour demoCfg demoCrypto (Requester.new demoCfg [1, 2, 3]) hiddenReqCalls

/-- Without the second: all three requests of the negotiation are exact, and the requester completes with the transcript the responder signed — but its offer stands there a second time,
behind a GET_DIGESTS, and the sides disagree on the capabilities of both.  (So a responder that checks lengths should check them all.) -/
theorem c126_single_offer_needed : exactRequests hiddenEvents = true ∧
    ReqRun demoCfg demoCrypto [1, 2, 3] hiddenReqEvents (reqAfter demoCfg demoCrypto (Requester.new demoCfg [1, 2, 3]) hiddenReqCalls) ∧
    (∃ es1 rsp, hiddenReqEvents = es1 ++ [.recv rsp (.ok true)]) ∧
    (reqAfter demoCfg demoCrypto (Requester.new demoCfg [1, 2, 3]) hiddenReqCalls).transcript.get =
      (after demoCfg demoCrypto (Responder.new demoCfg demoSlots) (hiddenRequests.map demoCall)).transcript.get ∧ alive hiddenEvents = true ∧
    (conversation (reqMsgs hiddenReqEvents)).reqCaps = 6 ∧ (conversation (rspMsgs hiddenEvents)).reqCaps = 0 ∧
    (conversation (reqMsgs hiddenReqEvents)).rspCaps = 0x46 ∧ (conversation (rspMsgs hiddenEvents)).rspCaps = 6 :=
  ⟨by decide +kernel, ReqRun.of _ _ _ _, ⟨hiddenReqEvents.take 11, hiddenReplies[5]?.getD [], by decide +kernel⟩, by decide +kernel, by decide +kernel, by decide +kernel,
    by decide +kernel, by decide +kernel, by decide +kernel⟩

end Spdm

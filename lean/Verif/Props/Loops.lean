import Verif.Loops
import Verif.Spec.Loops
import Verif.Props.NoCrypto
import Verif.Props.Interop
/-!
# C112: the example programs of the README
-/
namespace Spdm
open Spec

section
variable {c c' : Cfg} {cr cr' : Crypto} {root : Bytes} {slots : List (Option FilledSlot)} {peer : List Bytes → Option Bytes} {env env' : Nat → Env} {buf buf' : Nat → Bytes}

/-! ## The requester's loop -/

theorem written_append (es es' : List ReqEvent) : written (es ++ es') = written es ++ written es' := by simp [written]

/-- What the loop does is a history of the requester. -/
theorem loop_history {n : Nat} {sent sent' : List Bytes} {r r' : Requester} {es : List ReqEvent} {e : Readme.End}
    (run : ReqRun c cr root es r) (hw : written es = sent) (hacc : (accepted es).length = sent.length)
    (hcodes : sent.map code = (requestCodes.take sent.length).map some) (h : Readme.requester c cr peer env buf n sent r = some (e, sent', r')) :
    sent'.length ≤ 6 ∧ sent'.map code = (requestCodes.take sent'.length).map some ∧
      ∃ es', ReqRun c cr root es' r' ∧ written es' = sent' ∧ (e = .complete → JustCompleted es') ∧ (e ≠ .complete → ¬ JustCompleted es') := by
  have hsix : sent.length ≤ 6 := by
    have := congrArg List.length hcodes
    simp only [List.length_map, List.length_take] at this
    have h6 : requestCodes.length = 6 := rfl
    omega
  induction n generalizing sent r es with
  | zero => simp [Readme.requester] at h
  | succ n ih =>
    have run1 := run.next (env sent.length) (buf sent.length)
    rcases h1 : Requester.nextRequest c (env sent.length) (buf sent.length) r with ⟨req | e1 | k1, r1⟩ <;> simp only [Readme.requester, h1, Option.some.injEq, Prod.mk.injEq] at h <;> rw [h1] at run1
    · have hok : (Requester.nextRequest c (env sent.length) (buf sent.length) r).1 = .ok req := by rw [h1]
      obtain ⟨g1, g2⟩ := c45_requests run _ _ _ hok
      have hlt : sent.length < 6 := by
        rw [hacc] at g2
        have : (path (conversation (reqMsgs es))).length ≤ 6 := by simp only [path]; split <;> (try split) <;> simp
        omega
      rw [hacc] at g1
      have hcodes' : (sent ++ [req]).map code = (requestCodes.take (sent ++ [req]).length).map some := by
        have hr : requestCodes[sent.length]? = some (requestCodes[sent.length]'hlt) := List.getElem?_eq_getElem hlt
        rw [List.map_append, hcodes, List.length_append, List.length_singleton, List.take_add_one, hr, List.map_append, List.map_cons, g1, hr]
        rfl
      have hw' : written (es ++ [.next (env sent.length) (buf sent.length) (.ok req)]) = sent ++ [req] := by rw [written_append, hw]; rfl
      have hlen' : (sent ++ [req]).length ≤ 6 := by simp only [List.length_append, List.length_singleton]; omega
      rcases h2 : peer (sent ++ [req]) with _ | rsp <;> simp only [h2, Option.some.injEq, Prod.mk.injEq] at h
      · obtain ⟨rfl, rfl, rfl⟩ := h
        refine ⟨hlen', hcodes', _, run1, hw', by simp, fun _ => ?_⟩
        rintro ⟨es0, x, hx⟩
        have := List.append_inj_right' hx rfl
        simp at this
      · have run2 := run1.recv rsp
        have hw2 : ∀ res, written (es ++ [.next (env sent.length) (buf sent.length) (.ok req)] ++ [.recv rsp res]) = sent ++ [req] := fun res => by
          rw [written_append, hw']; simp [written]
        rcases h3 : Requester.handleMsg c cr rsp r1 with ⟨(_ | _) | e2 | k2, r2⟩ <;> simp only [h3, Option.some.injEq, Prod.mk.injEq] at h <;> rw [h3] at run2
        · refine ih run2 (hw2 _) ?_ hcodes' h hlen'
          rw [accepted_append, accepted_append, List.length_append, List.length_append, hacc]
          simp [accepted]
        · obtain ⟨rfl, rfl, rfl⟩ := h
          exact ⟨hlen', hcodes', _, run2, hw2 _, fun _ => ⟨_, _, rfl⟩, fun hn => absurd rfl hn⟩
        · obtain ⟨rfl, rfl, rfl⟩ := h
          refine ⟨hlen', hcodes', _, run2, hw2 _, by simp, fun _ => ?_⟩
          rintro ⟨es0, x, hx⟩
          have := List.append_inj_right' hx rfl
          simp at this
        · obtain ⟨rfl, rfl, rfl⟩ := h
          refine ⟨hlen', hcodes', _, run2, hw2 _, by simp, fun _ => ?_⟩
          rintro ⟨es0, x, hx⟩
          have := List.append_inj_right' hx rfl
          simp at this
    · obtain ⟨rfl, rfl, rfl⟩ := h
      refine ⟨hsix, hcodes, _, run1, by rw [written_append, hw]; simp [written], by simp, fun _ => ?_⟩
      rintro ⟨es0, x, hx⟩
      have := List.append_inj_right' hx rfl
      simp at this
    · obtain ⟨rfl, rfl, rfl⟩ := h
      refine ⟨hsix, hcodes, _, run1, by rw [written_append, hw]; simp [written], by simp, fun _ => ?_⟩
      rintro ⟨es0, x, hx⟩
      have := List.append_inj_right' hx rfl
      simp at this

/-- The loop has ended after as many iterations as there are responses to be had. -/
theorem loop_ends {B : Nat} (hB : ∀ es r, ReqRun c cr root es r → (path (conversation (reqMsgs es))).length ≤ B) {n : Nat} {sent : List Bytes} {r : Requester} {es : List ReqEvent}
    (run : ReqRun c cr root es r) (hacc : (accepted es).length = sent.length) (hn : B ≤ sent.length + n) (hlt : sent.length < B) :
    ∃ x : Readme.End × List Bytes × Requester, Readme.requester c cr peer env buf n sent r = some x ∧ x.2.1.length ≤ B := by
  induction n generalizing sent r es with
  | zero => omega
  | succ n ih =>
    have run1 := run.next (env sent.length) (buf sent.length)
    rcases h1 : Requester.nextRequest c (env sent.length) (buf sent.length) r with ⟨req | e1 | k1, r1⟩ <;> simp only [Readme.requester, h1] <;> rw [h1] at run1
    · have hl' : (sent ++ [req]).length ≤ B := by simp only [List.length_append, List.length_singleton]; omega
      rcases h2 : peer (sent ++ [req]) with _ | rsp <;> simp only
      · exact ⟨_, rfl, hl'⟩
      · rcases h3 : Requester.handleMsg c cr rsp r1 with ⟨(_ | _) | e2 | k2, r2⟩ <;> simp only
        · have run2 := run1.recv rsp
          have hok : (Requester.handleMsg c cr rsp r1).1 = .ok false := by rw [h3]
          obtain ⟨_, st, st', _, hb, _, hl⟩ := req_recv run1 hok
          rw [h3] at run2 hl
          have hacc' : (accepted (es ++ [.next (env sent.length) (buf sent.length) (.ok req)] ++ [.recv rsp (.ok false)])).length = (sent ++ [req]).length := by
            rw [accepted_append, accepted_append, List.length_append, List.length_append, hacc]; simp [accepted]
          have hlt' : (sent ++ [req]).length < B := by
            have h4 := (path_of hl.mat).2 (fun h => by rw [h] at hb; simp at hb)
            have h5 := hB _ _ run2
            dsimp only at h4 h5
            omega
          exact ih run2 hacc' (by simp only [List.length_append, List.length_singleton]; omega) hlt'
        all_goals exact ⟨_, rfl, hl'⟩
    all_goals exact ⟨_, rfl, by show sent.length ≤ B; omega⟩

theorem path_le (l : Log) : (path l).length ≤ 6 := by simp only [path]; split <;> (try split) <;> simp

/-- **C112.** Whatever the peer sends, whatever buffers are used and numbers drawn, the requester's loop has ended after six iterations at the latest. -/
theorem c112_requester_ends (peer : List Bytes → Option Bytes) (env : Nat → Env) (buf : Nat → Bytes) :
    ∃ e sent r, Readme.requester c cr peer env buf 6 [] (Requester.new c root) = some (e, sent, r) := by
  obtain ⟨⟨e, sent, r⟩, h, _⟩ := loop_ends (peer := peer) (env := env) (buf := buf) (n := 6) (sent := []) (fun es _ _ => path_le (conversation (reqMsgs es))) (ReqRun.new (c := c) (cr := cr) (root := root)) rfl (by simp) (by simp)
  exact ⟨e, sent, r, h⟩

/-- **C112.** The requests it has sent are GET_VERSION, GET_CAPABILITIES, NEGOTIATE_ALGORITHMS, GET_DIGESTS, GET_CERTIFICATE and CHALLENGE in this order, each once, as far as it came; what it
did is a history of the requester, so that the other properties apply; and the loop was left, rather than broken off, exactly if the last `handle_msg` reported completion. -/
theorem c112_requester_history {n : Nat} {e : Readme.End} {sent : List Bytes} {r : Requester}
    (h : Readme.requester c cr peer env buf n [] (Requester.new c root) = some (e, sent, r)) :
    sent.length ≤ 6 ∧ sent.map code = (requestCodes.take sent.length).map some ∧
      ∃ es, ReqRun c cr root es r ∧ written es = sent ∧ (e = .complete ↔ JustCompleted es) := by
  obtain ⟨h1, h2, es, h3, h4, h5, h6⟩ := loop_history .new rfl rfl rfl h
  exact ⟨h1, h2, es, h3, h4, h5, fun hj => Classical.byContradiction fun hn => h6 hn hj⟩

/-- **C112.** In a build without CERT_CAP, as with the default configuration, at most three requests are sent: GET_VERSION, GET_CAPABILITIES and NEGOTIATE_ALGORITHMS. -/
theorem c112_vca_only {crypto : Bool} {i : SpdmConfig} {nonceSize : Nat} (hv : ValidConfig crypto i) (hb : Built crypto i nonceSize c) (hno : "CERT_CAP" ∉ i.capabilities)
    (peer : List Bytes → Option Bytes) (env : Nat → Env) (buf : Nat → Bytes) :
    ∃ e sent r, Readme.requester c cr peer env buf 3 [] (Requester.new c root) = some (e, sent, r) ∧ sent.map code = (requestCodes.take sent.length).map some ∧ sent.length ≤ 3 := by
  have hB : ∀ es r, ReqRun c cr root es r → (path (conversation (reqMsgs es))).length ≤ 3 := by
    intro es r run
    have h0 : (conversation (reqMsgs es)).reqCaps.testBit 1 = false := by
      rcases reqCaps_configured run with h | ⟨m, h1, h2⟩
      · rw [h]; rfl
      · obtain ⟨⟨flags, g1, g2⟩, _⟩ := c54_capabilities crypto i nonceSize c hv hb
        rw [g1, Res.ok.injEq] at h1
        subst h1
        rw [h2]
        rcases hx : flags.toNat.testBit 1 with _ | _
        · rfl
        · obtain ⟨a, ha, hk⟩ := (g2 1).mp hx
          have : a = "CERT_CAP" := by simpa [capabilityBits] using hk
          exact absurd (this ▸ ha) hno
    simp [path, Log.both, h0]
  obtain ⟨⟨e, sent, r⟩, h, hl⟩ := loop_ends (peer := peer) (env := env) (buf := buf) (n := 3) (sent := []) hB (ReqRun.new (c := c) (cr := cr) (root := root)) rfl (by simp) (by simp)
  exact ⟨e, sent, r, h, (c112_requester_history h).2.1, hl⟩

/-! ## The responder's loop -/

/-- A response is never empty. -/
theorem step_out {st st' : RspState} {tr tr' req out : Bytes} {sg : List (Nat × Bytes)} {e : Env} (h : Step c cr e slots st tr req out tr' sg st') : out ≠ [] := by
  cases h <;> simp_all [Wire.header, authMsg]

/-- What the loop does is a history of the responder. -/
theorem serve_history (hl : slots.length = c.numSlots) (h8 : c.numSlots ≤ 8) {reqs outs : List Bytes} {i : Nat} {es : List RspEvent} {q q' : Responder} {stop : Option Readme.Stop}
    (run : RspRun c cr slots es q) (ha : alive es = true) (h : Readme.responder c cr env buf i reqs q = (outs, stop, q')) :
    ∃ es', RspRun c cr slots (es ++ es') q' ∧
      (stop = none → alive (es ++ es') = true ∧ outs.length = reqs.length ∧ exchanges (es ++ es') = exchanges es ++ reqs.zip outs) ∧
      (∀ e, stop = some (.error e) → ∃ pre req post j, reqs = pre ++ req :: post ∧ outs.length = pre.length + 1 ∧ outs.getLast? = some (errorReply (buf j) (errorBytes e))) ∧
      (∀ k, stop = some (.abort k) → outs.length < reqs.length) ∧
      (∀ out ∈ outs, out ≠ [] ∨ ∃ j e, out = errorReply (buf j) (errorBytes e)) := by
  induction reqs generalizing i es q outs with
  | nil =>
    simp only [Readme.responder, Prod.mk.injEq] at h
    obtain ⟨rfl, rfl, rfl⟩ := h
    exact ⟨[], by simpa using run, fun _ => ⟨by simpa using ha, rfl, by simp⟩, by simp, by simp, by simp⟩
  | cons req reqs ih =>
    have run1 := run.call (env i) req (buf i)
    rcases h1 : Responder.handleMsg c cr (env i) req (buf i) q with ⟨⟨out, _ | e1⟩ | e1 | k1, q1⟩ <;> simp only [Readme.responder, h1] at h <;> rw [h1] at run1
    · rcases h2 : Readme.responder c cr env buf (i + 1) reqs q1 with ⟨outs2, stop2, q2⟩
      simp only [h2, Prod.mk.injEq] at h
      obtain ⟨rfl, rfl, rfl⟩ := h
      have ha1 : alive (es ++ [.call (env i) req (buf i) (.ok ⟨out, none⟩)]) = true := by rw [alive_snoc]; exact ha
      obtain ⟨es', g1, g2, g3, g4, g5⟩ := ih run1 ha1 h2
      refine ⟨.call (env i) req (buf i) (.ok ⟨out, none⟩) :: es', by simpa using g1, fun hs => ?_, fun e he => ?_, fun k hk => ?_, fun o ho => ?_⟩
      · obtain ⟨a1, a2, a3⟩ := g2 hs
        refine ⟨by simpa using a1, by simp [a2], ?_⟩
        rw [exchanges_snoc] at a3
        simpa [addExchange] using a3
      · obtain ⟨pre, x, post, j, b1, b2, b3⟩ := g3 e he
        refine ⟨req :: pre, x, post, j, by rw [b1]; rfl, by simp [b2], ?_⟩
        rcases outs2 with _ | ⟨o, os⟩
        · simp at b3
        · rw [List.getLast?_cons_cons]; exact b3
      · have := g4 k hk
        simpa using this
      · rcases List.mem_cons.mp ho with rfl | ho
        · obtain ⟨st, st', sg, _, _, step, _, _⟩ := run_step hl h8 run ha (env := env i) (req := req) (buf := buf i) (out := o) (by rw [h1])
          exact .inl (step_out step)
        · exact g5 o ho
    · simp only [Prod.mk.injEq] at h
      obtain ⟨rfl, rfl, rfl⟩ := h
      refine ⟨_, run1, by simp, fun e he => ?_, by simp, fun o ho => ?_⟩
      rotate_left
      · have := ((c34_errors_uniform hl h8 run (env i) req (buf i)).2 out e1 (by rw [h1])).1
        rw [List.mem_singleton] at ho
        exact .inr ⟨i, e1, by rw [ho, this]⟩
      simp only [Option.some.injEq, Readme.Stop.error.injEq] at he
      subst he
      have := ((c34_errors_uniform hl h8 run (env i) req (buf i)).2 out e1 (by rw [h1])).1
      exact ⟨[], req, reqs, i, rfl, rfl, by rw [this]; rfl⟩
    · exact absurd (show (Responder.handleMsg c cr (env i) req (buf i) q).1 = .err e1 by rw [h1]) ((c34_errors_uniform hl h8 run (env i) req (buf i)).1 e1)
    · simp only [Prod.mk.injEq] at h
      obtain ⟨rfl, rfl, rfl⟩ := h
      exact ⟨_, run1, by simp, by simp, by simp, by simp⟩

/-- An answered request other than GET_VERSION takes at least seven bytes of the transcript. -/
theorem step_grows {st st' : RspState} {tr tr' req out : Bytes} {sg : List (Nat × Bytes)} {e : Env} (h : Step c cr e slots st tr req out tr' sg st') (hno : code req ≠ some 0x84) :
    tr.length + 7 ≤ tr'.length := by
  cases h with
  | getVersion _ hreq => exact absurd (by rw [hreq, List.append_assoc]; exact code_header _ _) hno
  | getCapabilities hreq =>
    rw [hreq]
    simp [Wire.header, Wire.getCapabilities, Wire.capabilities]
    omega
  | negotiate hreq =>
    have := congrArg List.length hreq
    simp [Wire.header] at this
    simp [Wire.header, Wire.algorithms]
    omega
  | getDigests h3 =>
    simp [Wire.header, Wire.digests]
    omega
  | getCertificate hreq =>
    rw [hreq]
    simp [Wire.header, Wire.getCertificate, Wire.certificate]
    omega
  | challenge hreq _ _ _ _ _ _ _ _ hauth =>
    rw [hreq, hauth]
    simp [Wire.header, Wire.challenge, authMsg]
    omega

/-- The transcript grows by seven bytes at least with each request answered that is no GET_VERSION. -/
theorem serve_grows (hl : slots.length = c.numSlots) (h8 : c.numSlots ≤ 8) {reqs outs : List Bytes} {i : Nat} {es : List RspEvent} {q q' : Responder}
    (run : RspRun c cr slots es q) (ha : alive es = true) (h : Readme.responder c cr env buf i reqs q = (outs, none, q')) (hno : ∀ m ∈ reqs, code m ≠ some 0x84) :
    q.transcript.get.length + 7 * reqs.length ≤ q'.transcript.get.length := by
  induction reqs generalizing i es q outs with
  | nil =>
    simp only [Readme.responder, Prod.mk.injEq] at h
    obtain ⟨_, _, rfl⟩ := h
    simp
  | cons req reqs ih =>
    have run1 := run.call (env i) req (buf i)
    rcases h1 : Responder.handleMsg c cr (env i) req (buf i) q with ⟨⟨out, _ | e1⟩ | e1 | k1, q1⟩ <;> simp only [Readme.responder, h1] at h <;> rw [h1] at run1
    · rcases h2 : Readme.responder c cr env buf (i + 1) reqs q1 with ⟨outs2, stop2, q2⟩
      simp only [h2, Prod.mk.injEq] at h
      obtain ⟨rfl, rfl, rfl⟩ := h
      have ha1 : alive (es ++ [.call (env i) req (buf i) (.ok ⟨out, none⟩)]) = true := by rw [alive_snoc]; exact ha
      have g := ih run1 ha1 h2 (fun m hm => hno m (List.mem_cons_of_mem _ hm))
      obtain ⟨st, st', sg, hlive, _, step, _, _⟩ := run_step hl h8 run ha (env := env i) (req := req) (buf := buf i) (out := out) (by rw [h1])
      have g2 := step_grows step (hno req (List.mem_cons_self ..))
      rw [h1] at g2
      rw [hlive.text, List.length_cons]
      dsimp only at g g2
      omega
    all_goals simp at h

/-- The loop on two lists of requests, one after the other. -/
theorem serve_append {pre post outs : List Bytes} {i : Nat} {q q' : Responder} (h : Readme.responder c cr env buf i (pre ++ post) q = (outs, none, q')) :
    ∃ outs1 outs2 q1, Readme.responder c cr env buf i pre q = (outs1, none, q1) ∧ Readme.responder c cr env buf (i + pre.length) post q1 = (outs2, none, q') := by
  induction pre generalizing i q outs with
  | nil => exact ⟨[], outs, q, rfl, by simpa using h⟩
  | cons req pre ih =>
    rw [List.cons_append] at h
    rcases h1 : Responder.handleMsg c cr (env i) req (buf i) q with ⟨⟨out, _ | e1⟩ | e1 | k1, q1⟩ <;> simp only [Readme.responder, h1] at h
    · rcases h2 : Readme.responder c cr env buf (i + 1) (pre ++ post) q1 with ⟨outs2, stop2, q2⟩
      simp only [h2, Prod.mk.injEq] at h
      obtain ⟨rfl, rfl, rfl⟩ := h
      obtain ⟨o1, o2, qq, a1, a2⟩ := ih h2
      refine ⟨out :: o1, o2, qq, ?_, ?_⟩
      · simp only [Readme.responder, h1, a1]
      · rw [List.length_cons, show i + (pre.length + 1) = i + 1 + pre.length by omega]; exact a2
    all_goals simp at h

/-- **C112.** The responder's loop sends a response to every request it has received, also to the one that ends it: then an ERROR.  With a response buffer of eight bytes no response is empty.  Only an
abort leaves a request without response (C82 says which). -/
theorem c112_every_request_answered (hl : slots.length = c.numSlots) (h8 : c.numSlots ≤ 8) {es : List RspEvent} {q : Responder} (run : RspRun c cr slots es q) (ha : alive es = true)
    (hbuf : ∀ j, 8 ≤ (buf j).length) (i : Nat) (reqs : List Bytes) {outs : List Bytes} {stop : Option Readme.Stop} {q' : Responder}
    (h : Readme.responder c cr env buf i reqs q = (outs, stop, q')) :
    (stop = none → outs.length = reqs.length) ∧
    (∀ e, stop = some (.error e) → ∃ pre req post, reqs = pre ++ req :: post ∧ outs.length = pre.length + 1 ∧ outs.getLast? = some (Wire.header .error ++ errorBytes e)) ∧
    (∀ k, stop = some (.abort k) → outs.length < reqs.length) ∧ (∀ out ∈ outs, out ≠ []) := by
  obtain ⟨es', _, h1, h2, h3, h4⟩ := serve_history hl h8 run ha h
  have herr : ∀ j e, errorReply (buf j) (errorBytes e) = Wire.header .error ++ errorBytes e := fun j e => by
    rw [errorReply, if_pos]
    have : (errorBytes e).length ≤ 6 := by unfold errorBytes; split <;> simp
    have := hbuf j
    omega
  refine ⟨fun hs => (h1 hs).2.1, fun e he => ?_, h3, fun out ho => ?_⟩
  · obtain ⟨pre, req, post, j, a1, a2, a3⟩ := h2 e he
    exact ⟨pre, req, post, a1, a2, by rw [a3, herr]⟩
  · rcases h4 out ho with hx | ⟨j, e, rfl⟩
    · exact hx
    · rw [herr]
      simp [Wire.header]

/-- **C112.** The responder's loop cannot go on for ever without a GET_VERSION: if it has answered `n` requests in a row none of which is a GET_VERSION, then TRANSCRIPT_SIZE is at least `7 n`.  So
after TRANSCRIPT_SIZE / 7 requests at most it ends, unless the peer starts over. -/
theorem c112_responder_bounded (hl : slots.length = c.numSlots) (h8 : c.numSlots ≤ 8) {es : List RspEvent} {q q' : Responder} (run : RspRun c cr slots es q) (ha : alive es = true)
    {i : Nat} {pre post outs : List Bytes} (h : Readme.responder c cr env buf i (pre ++ post) q = (outs, none, q')) (hno : ∀ m ∈ post, code m ≠ some 0x84) :
    7 * post.length ≤ c.transcriptSize := by
  obtain ⟨o1, o2, q1, h1, h2⟩ := serve_append h
  obtain ⟨es1, run1, g1, _, _, _⟩ := serve_history hl h8 run ha h1
  have hg := serve_grows hl h8 run1 (g1 rfl).1 h2 hno
  obtain ⟨es2, run2, g2, _, _, _⟩ := serve_history hl h8 run1 (g1 rfl).1 h2
  obtain ⟨st, hlive⟩ := run_live hl h8 run2 (g2 rfl).1
  have hw := hlive.wf
  have hc := hlive.cap
  have : q'.transcript.get.length ≤ q'.transcript.buf.length := by simp [Transcript.get]
  omega

/-! ## The two loops together -/

/-- One more request for the responder's loop. -/
theorem serve_snoc {reqs outs : List Bytes} {i : Nat} {q q1 q2 : Responder} {req rsp : Bytes} (h : Readme.responder c' cr' env' buf' i reqs q = (outs, none, q1))
    (h1 : Responder.handleMsg c' cr' (env' (i + reqs.length)) req (buf' (i + reqs.length)) q1 = (.ok ⟨rsp, none⟩, q2)) :
    Readme.responder c' cr' env' buf' i (reqs ++ [req]) q = (outs ++ [rsp], none, q2) := by
  induction reqs generalizing i q outs with
  | nil =>
    simp only [Readme.responder, Prod.mk.injEq] at h
    obtain ⟨rfl, _, rfl⟩ := h
    simp only [List.length_nil, Nat.add_zero] at h1
    simp [Readme.responder, h1]
  | cons m reqs ih =>
    rcases h2 : Responder.handleMsg c' cr' (env' i) m (buf' i) q with ⟨⟨out, _ | e1⟩ | e1 | k1, qa⟩ <;> simp only [Readme.responder, h2] at h
    · rcases h3 : Readme.responder c' cr' env' buf' (i + 1) reqs qa with ⟨outs2, stop2, qb⟩
      simp only [h3, Prod.mk.injEq] at h
      obtain ⟨rfl, rfl, rfl⟩ := h
      have := ih h3 (by rw [List.length_cons, show i + (reqs.length + 1) = i + 1 + reqs.length by omega] at h1; exact h1)
      rw [List.cons_append]
      simp only [Readme.responder, h2, this, List.cons_append]
    all_goals simp at h

/-- The rounds of a conversation, one for each iteration of the two loops. -/
def roundsFrom (env env' : Nat → Env) (buf buf' : Nat → Bytes) (i k : Nat) : List Round := (List.range' i k).map fun j => ⟨env j, env' j, buf j, buf' j⟩

/-- Two endpoints that talk to each other until the requester says that it is done, as the two loops. -/
theorem loops_of_talk {k : Nat} {q0 q q' : Responder} {r r' : Requester} {sent outs : List Bytes} (h : Readme.responder c' cr' env' buf' 0 sent q0 = (outs, none, q)) (hlen : outs.length = sent.length)
    (ht : talk c c' cr cr' (roundsFrom env env' buf buf' sent.length (k + 1)) (r, q) = some (List.replicate k false ++ [true], (r', q'))) {n : Nat} (hn : k < n) :
    ∃ sent' outs', Readme.requester c cr (Readme.served c' cr' env' buf' id q0) env buf n sent r = some (.complete, sent', r') ∧ sent'.length = sent.length + (k + 1) ∧
      Readme.responder c' cr' env' buf' 0 sent' q0 = (outs', none, q') := by
  induction k generalizing sent outs q r n with
  | zero =>
    obtain ⟨n, rfl⟩ : ∃ m, n = m + 1 := ⟨n - 1, by omega⟩
    rw [roundsFrom, List.range'_succ, List.range'_zero, List.map_cons, List.map_nil] at ht
    simp only [talk, exchange] at ht
    rcases h1 : Requester.nextRequest c (env sent.length) (buf sent.length) r with ⟨req | _ | _, ra⟩ <;> simp only [h1, reduceCtorEq] at ht
    rcases h2 : Responder.handleMsg c' cr' (env' sent.length) req (buf' sent.length) q with ⟨⟨rsp, _ | _⟩ | _ | _, rb⟩ <;> simp only [h2, reduceCtorEq] at ht
    rcases h3 : Requester.handleMsg c cr rsp ra with ⟨b | _ | _, rc⟩ <;> simp only [h3, reduceCtorEq, Option.some.injEq, Prod.mk.injEq] at ht
    obtain ⟨hb, rfl, rfl⟩ := ht
    have hs := serve_snoc h (by rw [Nat.zero_add]; exact h2)
    have hp : Readme.served c' cr' env' buf' id q0 (sent ++ [req]) = some rsp := by simp [Readme.served, hs, hlen]
    obtain rfl : b = true := by simpa using hb
    exact ⟨sent ++ [req], outs ++ [rsp], by simp only [Readme.requester, h1, hp, h3], by simp, hs⟩
  | succ k ih =>
    obtain ⟨n, rfl⟩ : ∃ m, n = m + 1 := ⟨n - 1, by omega⟩
    rw [roundsFrom, List.range'_succ, List.map_cons] at ht
    simp only [talk, exchange] at ht
    rcases h1 : Requester.nextRequest c (env sent.length) (buf sent.length) r with ⟨req | _ | _, ra⟩ <;> simp only [h1, reduceCtorEq] at ht
    rcases h2 : Responder.handleMsg c' cr' (env' sent.length) req (buf' sent.length) q with ⟨⟨rsp, _ | _⟩ | _ | _, rb⟩ <;> simp only [h2, reduceCtorEq] at ht
    rcases h3 : Requester.handleMsg c cr rsp ra with ⟨b | _ | _, rc⟩ <;> simp only [h3, reduceCtorEq] at ht
    rcases h4 : talk c c' cr cr' ((List.range' (sent.length + 1) (k + 1)).map fun j => ⟨env j, env' j, buf j, buf' j⟩) (rc, rb) with _ | ⟨bs', r2, r2'⟩ <;>
      simp only [h4, reduceCtorEq, Option.some.injEq, Prod.mk.injEq, List.replicate_succ, List.cons_append, List.cons.injEq] at ht
    obtain ⟨⟨rfl, rfl⟩, rfl, rfl⟩ := ht
    have hs := serve_snoc h (by rw [Nat.zero_add]; exact h2)
    have hp : Readme.served c' cr' env' buf' id q0 (sent ++ [req]) = some rsp := by simp [Readme.served, hs, hlen]
    obtain ⟨sent', outs', g1, g2, g3⟩ := ih (sent := sent ++ [req]) hs (by simp [hlen]) (by rw [List.length_append, List.length_singleton]; exact h4) (n := n) (by omega)
    refine ⟨sent', outs', by simp only [Readme.requester, h1, hp, h3]; exact g1, by rw [g2]; simp; omega, g3⟩

/-- **C112.** With the message received passed to `handle_msg` (`request`, where the README has `&req_buf`), the two programs complete: a requester and a responder built from two valid configurations,
both honest, with the room C97 asks for, the responder new or after any conversation without a failure.  The requester's loop is left after exactly the exchanges that their common capabilities
call for, and the responder's loop has answered them all and goes on. -/
theorem c112_pair_completes_partial {i i' : SpdmConfig} {n : Nat} {slot : FilledSlot} {es : List RspEvent} {q : Responder} (hv : ValidConfig true i) (hb : Built true i n c) (hv' : ValidConfig true i')
    (hb' : Built true i' n c') (hsig : i.asymmetricSigning ≠ []) (hon : HonestPair c c' cr cr' root slots slot) (run : RspRun c' cr' slots es q) (ha : alive es = true)
    (env env' : Nat → Env) (buf buf' : Nat → Bytes) (hx : ∀ j, (env j).nonce.length = n ∧ (env' j).nonce.length = n)
    (hroom : EnoughRoom c c' n (digestsOf (cr.hash 1) slots).length (Wire.chain slot.certChain).length (roundsFrom env env' buf buf' 0 (exchangesNeeded (common i.capabilities i'.capabilities)))) :
    ∃ sent outs r q', Readme.requester c cr (Readme.served c' cr' env' buf' id q) env buf 6 [] (Requester.new c root) = some (.complete, sent, r) ∧
      sent.length = exchangesNeeded (common i.capabilities i'.capabilities) ∧ Readme.responder c' cr' env' buf' 0 sent q = (outs, none, q') := by
  obtain ⟨⟨r', q'⟩, ht⟩ := c97_builds_interoperate hv hb hv' hb' hsig hon run ha (roundsFrom env env' buf buf' 0 (exchangesNeeded (common i.capabilities i'.capabilities)))
    (by simp [roundsFrom]) (by intro x hx'; simp only [roundsFrom, List.mem_map] at hx'; obtain ⟨j, _, rfl⟩ := hx'; exact hx j) hroom
  have hk : 1 ≤ exchangesNeeded (common i.capabilities i'.capabilities) ∧ exchangesNeeded (common i.capabilities i'.capabilities) ≤ 6 := by
    unfold exchangesNeeded; split <;> (try split) <;> simp
  obtain ⟨k, hk'⟩ : ∃ k, exchangesNeeded (common i.capabilities i'.capabilities) = k + 1 := ⟨exchangesNeeded (common i.capabilities i'.capabilities) - 1, by omega⟩
  rw [hk'] at ht hk ⊢
  simp only [roundsFrom, List.length_map, List.length_range', Nat.add_sub_cancel] at ht
  obtain ⟨sent, outs, g1, g2, g3⟩ := loops_of_talk (sent := []) (outs := []) (q0 := q) rfl rfl ht (n := 6) (by omega)
  exact ⟨sent, outs, r', q', g1, by simpa using g2, g3⟩

/-- The hypotheses are met: buffers of 200 bytes. -/
theorem roomy_buffers : EnoughRoom honestCfg otherCfg 4 (digestsOf (honestCrypto.hash 1) [some honestSlot]).length (Wire.chain honestSlot.certChain).length
    (roundsFrom (fun _ => demoReqEnv) (fun _ => demoEnv) (fun _ => zeros 200) (fun _ => zeros 200) 0 6) where
  requests := by
    intro k x need hx hn
    match k with
    | 0 | 1 | 2 | 3 | 4 | 5 => cases hx; cases hn; decide +kernel
    | k + 6 => cases hn
  responses := by
    intro k x need hx hn
    match k with
    | 0 | 1 | 2 | 3 | 4 | 5 => cases hx; cases hn; decide +kernel
    | k + 6 => cases hn
  transcript := by decide +kernel
  transcript' := by decide +kernel

example : ∃ sent outs r q', Readme.requester honestCfg honestCrypto (Readme.served otherCfg honestCrypto (fun _ => demoEnv) (fun _ => zeros 200) id (Responder.new otherCfg [some honestSlot]))
      (fun _ => demoReqEnv) (fun _ => zeros 200) 6 [] (Requester.new honestCfg [1, 2, 3]) = some (.complete, sent, r) ∧ sent.length = 6 ∧
      Readme.responder otherCfg honestCrypto (fun _ => demoEnv) (fun _ => zeros 200) 0 sent (Responder.new otherCfg [some honestSlot]) = (outs, none, q') :=
  c112_pair_completes_partial honestConfig_valid honestConfig_built otherConfig_valid otherConfig_built (by decide) honest_pair_demo .new rfl _ _ _ _ (fun _ => ⟨rfl, rfl⟩) roomy_buffers

/-- The bound of `c112_responder_bounded` is approached: with empty slots each GET_DIGESTS of three bytes takes seven bytes. -/
example : (Readme.responder { demoCfg with transcriptSize := 170 } demoCrypto (fun _ => demoEnv) (fun _ => zeros 100) 0
    (demoRequests.take 3 ++ List.replicate 4 [0x11, 0x81, 0]) (Responder.new { demoCfg with transcriptSize := 170 } [none, none])).2.1 = none ∧
    (Readme.responder { demoCfg with transcriptSize := 170 } demoCrypto (fun _ => demoEnv) (fun _ => zeros 100) 0
    (demoRequests.take 3 ++ List.replicate 5 [0x11, 0x81, 0]) (Responder.new { demoCfg with transcriptSize := 170 } [none, none])).2.1 = some (.error .bufferFull) := by
  decide +kernel

end

/-! ## As the README has it -/

/-- A transcript that holds the whole buffers too. -/
def readmeCfg : Cfg := { demoCfg with transcriptSize := 1024 }

/-- **C112, as written, fails.** With the responder's loop as the README has it, the whole of `req_buf` passed to `handle_msg`, the bytes that follow the request become part of what the responder signs: the
requester rejects the signature.  The same parties, buffers and numbers complete if the request alone is passed. -/
theorem c112_readme_pair_fails :
    (Readme.requester readmeCfg demoCrypto (Readme.served readmeCfg demoCrypto (fun _ => demoEnv) (fun _ => zeros 256) (Readme.wholeBuffers (zeros 64)) (Responder.new readmeCfg demoSlots))
        (fun _ => demoReqEnv) (fun _ => zeros 64) 6 [] (Requester.new readmeCfg [1, 2, 3])).map (·.1) = some (.response .invalidSignature) ∧
    (Readme.requester readmeCfg demoCrypto (Readme.served readmeCfg demoCrypto (fun _ => demoEnv) (fun _ => zeros 256) id (Responder.new readmeCfg demoSlots))
        (fun _ => demoReqEnv) (fun _ => zeros 64) 6 [] (Requester.new readmeCfg [1, 2, 3])).map (·.1) = some .complete := by
  decide +kernel

end Spdm

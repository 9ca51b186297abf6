import Verif.Props.Loops
import Verif.Props.Tamper
/-!
# C112: the responder's loop as the README has it never authenticates
-/
namespace Spdm
open Spec

section
variable {c c' : Cfg} {cr cr' : Crypto} {root : Bytes} {slots : List (Option FilledSlot)} {env env' : Nat → Env} {buf buf' : Nat → Bytes} {reqBuf : Bytes}

/-- A requester accepts the six responses only. -/
theorem recv_code {st st' : ReqState} {tr tr' rsp : Bytes} (h : ReqRecv c cr root st tr rsp tr' st') : code rsp ∈ ([some 0x04, some 0x61, some 0x63, some 0x01, some 0x02, some 0x03] : List (Option UInt8)) := by
  cases h with
  | version _ hh => rw [code_of_take hh]; decide
  | capabilities hr => rw [hr, List.append_assoc, code_header]; decide
  | algorithms _ hh => rw [code_of_take hh]; decide
  | digests _ hh => rw [code_of_take hh]; decide
  | certificate hr => rw [hr, List.append_assoc, code_header]; decide
  | challenge _ hh => rw [code_of_take hh]; decide

theorem errorReply_code (b x : Bytes) : code (errorReply b x) ∉ ([some 0x04, some 0x61, some 0x63, some 0x01, some 0x02, some 0x03] : List (Option UInt8)) := by
  unfold errorReply
  split
  · rw [code_header]; decide
  · decide

/-- The last buffer: the message, and at least the size of the buffer. -/
theorem wholeBuffers_snoc (b : Bytes) (ms : List Bytes) (m : Bytes) :
    ∃ x, Readme.wholeBuffers b (ms ++ [m]) = Readme.wholeBuffers b ms ++ [m ++ x] ∧ b.length ≤ (m ++ x).length := by
  induction ms generalizing b with
  | nil => exact ⟨b.drop m.length, rfl, by simp; omega⟩
  | cons a ms ih =>
    obtain ⟨x, h1, h2⟩ := ih (Readme.fill b a)
    refine ⟨x, by simp [Readme.wholeBuffers, h1], Nat.le_trans ?_ h2⟩
    simp [Readme.fill]
    omega

theorem wholeBuffers_length (b : Bytes) (ms : List Bytes) : (Readme.wholeBuffers b ms).length = ms.length := by
  induction ms generalizing b with
  | nil => rfl
  | cons a ms ih => simp [Readme.wholeBuffers, ih]

/-- The same algorithms, and a shorter text. -/
def Behind (l l' : Log) : Prop := l.asym = l'.asym ∧ l.hash = l'.hash ∧ l.text.length < l'.text.length

/-- Hearing the same response keeps it so. -/
theorem Behind.response {l l' : Log} (h : Behind l l') {m : Bytes} (hm : code m ≠ some 0x84) : Behind (l.add m) (l'.add m) := by
  obtain ⟨h1, h2, h3⟩ := h
  unfold Log.add
  split
  · exact absurd ‹_› hm
  all_goals refine ⟨?_, ?_, ?_⟩ <;> simp [h1, h2] <;> omega

/-- So does a request that is longer on one side. -/
theorem Behind.request {l l' : Log} (h : Behind l l') {m x : Bytes} (hm : code m ∈ (requestCodes.map some)) (h84 : code m ≠ some 0x84) : Behind (l.add m) (l'.add (m ++ x)) := by
  obtain ⟨h1, h2, h3⟩ := h
  have hc : code (m ++ x) = code m := by
    unfold code at hm ⊢
    rcases m with _ | ⟨a, _ | ⟨b, m⟩⟩
    · simp [requestCodes] at hm
    · simp [requestCodes] at hm
    · rfl
  simp only [requestCodes, List.map_cons, List.map_nil, List.mem_cons, List.not_mem_nil, or_false] at hm
  unfold Log.add
  rw [hc]
  rcases hm with hm | hm | hm | hm | hm | hm <;> first | exact absurd hm h84 | (rw [hm]; refine ⟨?_, ?_, ?_⟩ <;> simp [h1, h2] <;> omega)

/-- What an event asked. -/
def asked : RspEvent → Option Bytes
  | .call _ req _ _ => some req
  | .reset => none

/-- The two loops so far: the requester with its history, and the responder with its history, all of whose calls have succeeded. -/
structure Joint (c c' : Cfg) (cr cr' : Crypto) (root : Bytes) (slots : List (Option FilledSlot)) (env' : Nat → Env) (buf' : Nat → Bytes) (reqBuf : Bytes) (es : List ReqEvent) (es' : List RspEvent) (sent outs : List Bytes) (r : Requester) (q : Responder) : Prop where
  run : ReqRun c cr root es r
  run' : RspRun c' cr' slots es' q
  live : alive es' = true
  serve : Readme.responder c' cr' env' buf' 0 (Readme.wholeBuffers reqBuf sent) (Responder.new c' slots) = (outs, none, q)
  len : outs.length = sent.length
  acc : (accepted es).length = sent.length
  asks : es'.map asked = (Readme.wholeBuffers reqBuf sent).map some
  oks : ∀ e ∈ es', ∃ env req buf out, e = .call env req buf (.ok ⟨out, none⟩)
  codes : (Readme.wholeBuffers reqBuf sent).map code = (requestCodes.take sent.length).map some
  said : (exchanges es').getLast?.map Prod.snd = outs.getLast?
  behind : sent ≠ [] → Behind (conversation (reqMsgs es)) (conversation (rspMsgs es'))

/-- What the loop does to the responder on a failing request. -/
theorem serve_snoc_error {reqs outs : List Bytes} {i : Nat} {q q1 q2 : Responder} {req rsp : Bytes} {e : Err} (h : Readme.responder c' cr' env' buf' i reqs q = (outs, none, q1))
    (h1 : Responder.handleMsg c' cr' (env' (i + reqs.length)) req (buf' (i + reqs.length)) q1 = (.ok ⟨rsp, some e⟩, q2)) :
    (Readme.responder c' cr' env' buf' i (reqs ++ [req]) q).1 = outs ++ [rsp] := by
  induction reqs generalizing i q outs with
  | nil =>
    simp only [Readme.responder, Prod.mk.injEq] at h
    obtain ⟨rfl, _, rfl⟩ := h
    simp only [List.length_nil, Nat.add_zero] at h1
    simp [Readme.responder, h1]
  | cons m reqs ih =>
    rcases h2 : Responder.handleMsg c' cr' (env' i) m (buf' i) q with ⟨⟨out, _ | e1⟩ | e1 | k1, qa⟩ <;> simp only [Readme.responder, h2] at h
    · rcases h3 : Readme.responder c' cr' env' buf' (i + 1) reqs qa with ⟨outs2, stop2, qb⟩
      simp only [h3, Prod.mk.injEq] at h
      obtain ⟨rfl, rfl, rfl⟩ := h
      have := ih h3 (by rw [List.length_cons, show i + (reqs.length + 1) = i + 1 + reqs.length by omega] at h1; exact h1)
      rw [List.cons_append]
      simp only [Readme.responder, h2, this, List.cons_append]
    all_goals simp at h

theorem serve_snoc_stop {reqs outs : List Bytes} {i : Nat} {q q1 : Responder} {req : Bytes} (h : Readme.responder c' cr' env' buf' i reqs q = (outs, none, q1))
    (h1 : ∀ o, (Responder.handleMsg c' cr' (env' (i + reqs.length)) req (buf' (i + reqs.length)) q1).1 ≠ .ok o) :
    (Readme.responder c' cr' env' buf' i (reqs ++ [req]) q).1 = outs := by
  induction reqs generalizing i q outs with
  | nil =>
    simp only [Readme.responder, Prod.mk.injEq] at h
    obtain ⟨rfl, _, rfl⟩ := h
    simp only [List.length_nil, Nat.add_zero] at h1
    rcases h2 : Responder.handleMsg c' cr' (env' i) req (buf' i) q with ⟨o | e1 | k1, qa⟩ <;> rw [h2] at h1
    · exact absurd rfl (h1 o)
    · simp [Readme.responder, h2]
    · simp [Readme.responder, h2]
  | cons m reqs ih =>
    rcases h2 : Responder.handleMsg c' cr' (env' i) m (buf' i) q with ⟨⟨out, _ | e1⟩ | e1 | k1, qa⟩ <;> simp only [Readme.responder, h2] at h
    · rcases h3 : Readme.responder c' cr' env' buf' (i + 1) reqs qa with ⟨outs2, stop2, qb⟩
      simp only [h3, Prod.mk.injEq] at h
      obtain ⟨rfl, rfl, rfl⟩ := h
      have := ih h3 (by rw [List.length_cons, show i + (reqs.length + 1) = i + 1 + reqs.length by omega] at h1; exact h1)
      rw [List.cons_append]
      simp only [Readme.responder, h2, this]
    all_goals simp at h

/-- One exchange more. -/
theorem Joint.step {es : List ReqEvent} {es' : List RspEvent} {sent outs : List Bytes} {r : Requester} {q : Responder} (hl : slots.length = c'.numSlots) (h8' : c'.numSlots ≤ 8) (hbuf : 5 ≤ reqBuf.length)
    (J : Joint c c' cr cr' root slots env' buf' reqBuf es es' sent outs r q) {e : Env} {b req rsp : Bytes} {r1 r2 : Requester} {flag : Bool}
    (h1 : Requester.nextRequest c e b r = (.ok req, r1)) (h2 : Readme.served c' cr' env' buf' (Readme.wholeBuffers reqBuf) (Responder.new c' slots) (sent ++ [req]) = some rsp)
    (h3 : Requester.handleMsg c cr rsp r1 = (.ok flag, r2)) :
    ∃ es2' q2, Joint c c' cr cr' root slots env' buf' reqBuf (es ++ [.next e b (.ok req)] ++ [.recv rsp (.ok flag)]) es2' (sent ++ [req]) (outs ++ [rsp]) r2 q2 := by
  have run1 := J.run.next e b
  rw [h1] at run1
  have run2 := run1.recv rsp
  rw [h3] at run2
  obtain ⟨_, st, st', _, _, hsend, hcode, hlt, _⟩ := req_next J.run (env := e) (buf := b) (out := req) (by rw [h1])
  obtain ⟨_, sta, stb, hla, _, hrecv, _⟩ := req_recv run1 (rsp := rsp) (b := flag) (by rw [h3])
  have hrc := recv_code hrecv
  have h84 : code rsp ≠ some 0x84 := fun h => by rw [h] at hrc; revert hrc; decide
  rw [J.acc] at hcode hlt
  have hlt6 : sent.length < 6 := Nat.lt_of_lt_of_le hlt (path_le _)
  have hmem : code req ∈ requestCodes.map some := by
    rw [← hcode]
    match h : sent.length, hlt6 with
    | 0, _ | 1, _ | 2, _ | 3, _ | 4, _ | 5, _ => simp [requestCodes]
  obtain ⟨x, hx1, hx2⟩ := wholeBuffers_snoc reqBuf sent req
  have hcx : code (req ++ x) = code req := by
    unfold code at hmem ⊢
    rcases req with _ | ⟨a, _ | ⟨b, m⟩⟩
    · simp [requestCodes] at hmem
    · simp [requestCodes] at hmem
    · rfl
  have hidx : 0 + (Readme.wholeBuffers reqBuf sent).length = sent.length := by rw [wholeBuffers_length]; omega
  unfold Readme.served at h2
  rw [hx1, show (sent ++ [req]).length - 1 = sent.length by simp] at h2
  have run3 := J.run'.call (env' sent.length) (req ++ x) (buf' sent.length)
  rcases h4 : Responder.handleMsg c' cr' (env' sent.length) (req ++ x) (buf' sent.length) q with ⟨⟨out, _ | e1⟩ | e1 | k1, q2⟩
  · have hs := serve_snoc (req := req ++ x) J.serve (by rw [hidx]; exact h4)
    rw [hs, List.getElem?_append_right (by rw [J.len])] at h2
    simp only [J.len, Nat.sub_self, List.getElem?_cons_zero, Option.some.injEq] at h2
    subst h2
    rw [h4] at run3
    refine ⟨_, q2, run2, run3, by rw [alive_snoc]; exact J.live, by rw [hx1]; exact hs, by simp [J.len], ?_, ?_, ?_, ?_, by rw [exchanges_snoc]; simp [addExchange], fun _ => ?_⟩
    · rw [accepted_append, accepted_append, List.length_append, List.length_append, J.acc]; simp [accepted]
    · rw [List.map_append, J.asks, hx1, List.map_append]; rfl
    · intro ev hev
      rcases List.mem_append.mp hev with hev | hev
      · exact J.oks ev hev
      · rw [List.mem_singleton] at hev
        exact ⟨_, _, _, _, hev⟩
    · have hr : requestCodes[sent.length]? = some (requestCodes[sent.length]'hlt6) := List.getElem?_eq_getElem hlt6
      rw [hx1, List.map_append, J.codes, List.map_cons, hcx, ← hcode, List.length_append, List.length_singleton, List.take_add_one, hr, List.map_append]
      rfl
    · rw [rspMsgs_ok, reqMsgs_append, reqMsgs_append, show reqMsgs [ReqEvent.next e b (.ok req)] = [req] from rfl, show reqMsgs [ReqEvent.recv out (.ok flag)] = [out] from rfl,
        List.append_assoc, show ([req] ++ [out] : List Bytes) = [req, out] from rfl, conversation_snoc2, conversation_snoc2]
      apply Behind.response _ h84
      by_cases hs0 : sent = []
      · subst hs0
        have hc84 : code req = some 0x84 := by rw [← hcode]; rfl
        have hlen4 : req.length = 4 := by
          generalize (Requester.nextRequest c e b r).2.transcript.get = tr' at hsend
          cases hsend with
          | version => rfl
          | _ => rw [code_header] at hc84; exact absurd hc84 (by decide)
        unfold Log.add
        rw [hcx, hc84]
        exact ⟨rfl, rfl, by show req.length < (req ++ x).length; omega⟩
      · apply (J.behind hs0).request hmem
        intro h
        rw [h] at hcode
        have : sent.length ≠ 0 := fun h => hs0 (List.eq_nil_of_length_eq_zero h)
        match h : sent.length, hlt6 with
        | 0, _ => exact absurd h this
        | 1, _ | 2, _ | 3, _ | 4, _ | 5, _ => rw [h] at hcode; revert hcode; decide
  · have hs := serve_snoc_error (req := req ++ x) J.serve (by rw [hidx]; exact h4)
    rw [hs, List.getElem?_append_right (by rw [J.len])] at h2
    simp only [J.len, Nat.sub_self, List.getElem?_cons_zero, Option.some.injEq] at h2
    subst h2
    have := ((c34_errors_uniform hl h8' J.run' (env' sent.length) (req ++ x) (buf' sent.length)).2 out e1 (by rw [h4])).1
    rw [this] at hrc
    exact absurd hrc (errorReply_code _ _)
  · have hs := serve_snoc_stop (req := req ++ x) J.serve (by rw [hidx, h4]; simp)
    rw [hs, List.getElem?_eq_none (by rw [J.len])] at h2
    simp at h2
  · have hs := serve_snoc_stop (req := req ++ x) J.serve (by rw [hidx, h4]; simp)
    rw [hs, List.getElem?_eq_none (by rw [J.len])] at h2
    simp at h2

theorem last_is_challenge {a b : List (Option UInt8)} (h : a ++ some 0x83 :: b = (requestCodes.take 6).map some) : a.length = 5 ∧ b = [] := by
  rcases a with _ | ⟨a1, _ | ⟨a2, _ | ⟨a3, _ | ⟨a4, _ | ⟨a5, _ | ⟨a6, a⟩⟩⟩⟩⟩⟩ <;> simp [requestCodes] at h ⊢
  exact h.2.2.2.2.2

/-- Leaving the loop after six requests: the last response was a CHALLENGE_AUTH the requester has accepted. -/
theorem Joint.loop {es : List ReqEvent} {es' : List RspEvent} {sent outs sent' : List Bytes} {r r' : Requester} {q : Responder} (hl : slots.length = c'.numSlots) (h8' : c'.numSlots ≤ 8) (hbuf : 5 ≤ reqBuf.length)
    (J : Joint c c' cr cr' root slots env' buf' reqBuf es es' sent outs r q) {n : Nat}
    (h : Readme.requester c cr (Readme.served c' cr' env' buf' (Readme.wholeBuffers reqBuf) (Responder.new c' slots)) env buf n sent r = some (.complete, sent', r')) :
    ∃ es1 es2 rsp outs2 r1 q2, (Requester.handleMsg c cr rsp r1).1 = .ok true ∧ (Requester.handleMsg c cr rsp r1).2 = r' ∧ ReqRun c cr root es1 r1 ∧
      Joint c c' cr cr' root slots env' buf' reqBuf (es1 ++ [.recv rsp (.ok true)]) es2 sent' (outs2 ++ [rsp]) r' q2 := by
  induction n generalizing es es' sent outs r q with
  | zero => simp [Readme.requester] at h
  | succ n ih =>
    rcases h1 : Requester.nextRequest c (env sent.length) (buf sent.length) r with ⟨req | e1 | k1, r1⟩ <;> simp only [Readme.requester, h1, Option.some.injEq, Prod.mk.injEq, reduceCtorEq, false_and] at h
    rcases h2 : Readme.served c' cr' env' buf' (Readme.wholeBuffers reqBuf) (Responder.new c' slots) (sent ++ [req]) with _ | rsp <;>
      simp only [h2, Option.some.injEq, Prod.mk.injEq, reduceCtorEq, false_and] at h
    rcases h3 : Requester.handleMsg c cr rsp r1 with ⟨(_ | _) | e2 | k2, r2⟩ <;> simp only [h3, Option.some.injEq, Prod.mk.injEq, reduceCtorEq, false_and] at h
    · obtain ⟨es2', q2, J2⟩ := J.step hl h8' hbuf h1 h2 h3
      exact ih J2 h
    · obtain ⟨_, rfl, rfl⟩ := h
      obtain ⟨es2', q2, J2⟩ := J.step hl h8' hbuf h1 h2 h3
      have run1 := J.run.next (env sent.length) (buf sent.length)
      rw [h1] at run1
      exact ⟨_, es2', rsp, _, r1, q2, by rw [h3], by rw [h3], run1, J2⟩

/-- **C112, as written, fails always.** Let the responder's loop be as the README has it, with a `req_buf` of five bytes at least, and suppose, as in C50, that what verifies under a leaf certificate
for which the requester's root vouches was signed by the responder in this conversation.  Then the requester's loop is never left after a CHALLENGE — unless the transcripts of the two sides, which
are different, are a collision of the negotiated hash functions. -/
theorem c112_readme_never_authenticates (hl : slots.length = c'.numSlots) (h8' : c'.numSlots ≤ 8) (h8 : c.numSlots ≤ 8) (hbuf : 5 ≤ reqBuf.length) {n : Nat} {sent : List Bytes} {r : Requester}
    (hkey : ∀ leaf inters a m der, cr.chainOk leaf a root inters 1638316800 = true → cr.sigOk leaf a m der = true →
      ∃ i, (i, m) ∈ (Readme.responder c' cr' env' buf' 0 (Readme.wholeBuffers reqBuf sent) (Responder.new c' slots)).2.2.signed)
    (h : Readme.requester c cr (Readme.served c' cr' env' buf' (Readme.wholeBuffers reqBuf) (Responder.new c' slots)) env buf n [] (Requester.new c root) = some (.complete, sent, r)) :
    sent.length < 6 ∨ ∃ es a, RspRun c' cr' slots es (Readme.responder c' cr' env' buf' 0 (Readme.wholeBuffers reqBuf sent) (Responder.new c' slots)).2.2 ∧
      a = UInt32.ofNat (conversation (rspMsgs es)).hash ∧ Collides (cr.hash a) (cr'.hash a) r.transcript.get
      (Readme.responder c' cr' env' buf' 0 (Readme.wholeBuffers reqBuf sent) (Responder.new c' slots)).2.2.transcript.get := by
  have hle := (c112_requester_history h).1
  by_cases h6 : sent.length = 6
  swap
  · exact .inl (by omega)
  refine .inr ?_
  have J0 : Joint c c' cr cr' root slots env' buf' reqBuf [] [] [] [] (Requester.new c root) (Responder.new c' slots) :=
    ⟨.new, .new, rfl, rfl, rfl, rfl, rfl, by simp, rfl, rfl, fun h => absurd rfl h⟩
  obtain ⟨es1, es2, rsp, outs2, r1, q2, hok, hr1, run1, J⟩ := J0.loop hl h8' hbuf h
  rw [J.serve] at hkey ⊢
  dsimp only at hkey ⊢
  obtain ⟨_, sta, stb, hla, hb, hrecv, hlb⟩ := req_recv run1 hok
  have hacc := J.acc
  rw [h6] at hacc
  have hst : stb = .newSession := by simpa using hb.symm
  have hp := (path_of hlb.mat).1 hst
  have hk : code rsp = some 0x03 := by
    have hlen : (path (conversation (reqMsgs (es1 ++ [.recv rsp (.ok true)])))).length = 6 := by
      have := congrArg List.length hp
      simp only [List.length_map] at this
      omega
    rw [accepted_append, show accepted [ReqEvent.recv rsp (.ok true)] = [rsp] from rfl, List.map_append] at hp
    revert hp hlen
    generalize conversation (reqMsgs (es1 ++ [.recv rsp (.ok true)])) = l
    unfold path
    split
    · split
      · intro hp _
        have := List.append_inj_right' (s₂ := [some 0x04, some 0x61, some 0x63, some 0x01, some 0x02]) (t₂ := [some 0x03]) hp rfl
        simpa using this
      · intro _ h
        simp at h
    · intro _ h
      simp at h
  have hr : (Requester.handleMsg c cr rsp r1).2.transcript.get = r.transcript.get := by
    rw [hr1]
  obtain ⟨e1, en, req, bf, res, e2, auth, a1, a2, _, a3, _, a4, a5⟩ := c50_tampering_detected hl h8' h8 run1 J.run' hkey rsp hk true hok
  have hpos : e1.length = 5 ∧ e2 = [] := by
    have hq := J.asks
    have hcd := J.codes
    have hwl := wholeBuffers_length reqBuf sent
    generalize Readme.wholeBuffers reqBuf sent = w at hq hcd hwl
    rw [a1, List.map_append, List.map_cons] at hq
    obtain ⟨w1, w2, rfl, hw1, hw2⟩ := List.map_eq_append_iff.mp hq.symm
    obtain ⟨x, w3, rfl, hx, hw3⟩ := List.map_eq_cons_iff.mp hw2
    obtain rfl : x = req := by simpa [asked] using hx
    rw [List.map_append, List.map_cons, a3, h6] at hcd
    obtain ⟨b1, b2⟩ := last_is_challenge hcd
    have l1 := congrArg List.length hw1
    have l3 := congrArg List.length hw3
    have l4 := congrArg List.length b2
    simp only [List.length_map, List.length_nil] at l1 l3 l4 b1
    exact ⟨by omega, List.eq_nil_of_length_eq_zero (by omega)⟩
  obtain ⟨hpos, rfl⟩ := hpos
  obtain ⟨en', req', bf', out, he⟩ := J.oks (.call en req bf res) (by rw [a1]; simp)
  cases he
  have ht := a4 out rfl
  have hall : conversation (rspMsgs e1 ++ [req, out]) = conversation (rspMsgs es2) := by rw [a1, rspMsgs_ok]
  rw [hall] at ht
  have hbeh := J.behind (fun h0 => by rw [h0] at h6; simp at h6)
  have hqt : q2.transcript.get = (conversation (rspMsgs es2)).text := c35_transcript_exact hl h8' J.run' J.live
  rw [hr, ht, ← hqt] at a5
  have hne : r.transcript.get ≠ q2.transcript.get := by
    intro h
    have h2 := hbeh.2.2
    rw [← hqt, ← hlb.text, hr, h] at h2
    omega
  rcases a5 with a5 | a5
  · exact absurd a5 hne
  · have hout : out = rsp := by
      have := J.said
      rw [a1, exchanges_snoc] at this
      simpa [addExchange] using this
    subst hout
    have hh1 : (conversation (reqMsgs es1)).hash = (conversation (rspMsgs es2)).hash := by
      have := hbeh.2.1
      rw [reqMsgs_append, show reqMsgs [ReqEvent.recv out (.ok true)] = [out] from rfl, conversation_snoc] at this
      simpa [Log.add, hk] using this
    have hh : (conversation (rspMsgs es2)).hash = (conversation (rspMsgs e1)).hash := by
      rw [a1, rspMsgs_ok, conversation_snoc2]
      simp [Log.add, hk, a3]
    rw [hh1, ← hh] at a5
    exact ⟨es2, _, J.run', rfl, a5⟩

/-- The hypotheses are met: with a hash that has one value only, the two programs complete after six requests, although the transcripts differ. -/
def weakCrypto : Crypto := { demoCrypto with
  hash := fun _ _ => List.replicate 32 1
  sigOk := fun _ _ m _ => decide (m = List.replicate 32 1) }

/-- What the requester's loop does with it. -/
def weakEnd : Option (Readme.End × List Bytes × Requester) :=
  Readme.requester readmeCfg weakCrypto (Readme.served readmeCfg weakCrypto (fun _ => demoEnv) (fun _ => zeros 256) (Readme.wholeBuffers (zeros 64)) (Responder.new readmeCfg demoSlots))
    (fun _ => demoReqEnv) (fun _ => zeros 64) 6 [] (Requester.new readmeCfg [1, 2, 3])

example : ∃ sent r, weakEnd = some (.complete, sent, r) ∧ sent.length = 6 ∧ ∃ a, Collides (weakCrypto.hash a) (weakCrypto.hash a) r.transcript.get
    (Readme.responder readmeCfg weakCrypto (fun _ => demoEnv) (fun _ => zeros 256) 0 (Readme.wholeBuffers (zeros 64) sent) (Responder.new readmeCfg demoSlots)).2.2.transcript.get := by
  have h1 : weakEnd.map (fun x => (x.1, x.2.1)) = some (.complete, demoRequests) := by decide +kernel
  rcases h : weakEnd with _ | ⟨e, sent, r⟩ <;> rw [h] at h1 <;> simp only [Option.map_none, Option.map_some, reduceCtorEq, Option.some.injEq, Prod.mk.injEq] at h1
  obtain ⟨rfl, rfl⟩ := h1
  refine ⟨_, r, rfl, rfl, ?_⟩
  rcases c112_readme_never_authenticates rfl (by decide) (by decide) (by decide) (fun _ _ _ m _ _ hs => ⟨0, by
    have : m = List.replicate 32 1 := of_decide_eq_true hs
    subst this
    decide +kernel⟩) h with h6 | h6
  · exact absurd h6 (by decide)
  · obtain ⟨_, a, _, _, h6⟩ := h6
    exact ⟨a, h6⟩

end
end Spdm

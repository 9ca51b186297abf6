import Verif.Lemmas.Noise
/-! C127: noise on the line. -/
namespace Spdm
open Spec

variable {c c' : Cfg} {cr cr' : Crypto} {root : Bytes} {slots : List (Option FilledSlot)} {es : List ReqEvent} {es' : List RspEvent} {r : Requester} {r' : Responder}
  {xs : List Exchanged} {x : Exchanged}

theorem line_last (h : Line es es' (xs ++ [x])) : ∃ esb es0 env buf b esc, es = esb ++ [.next env buf (.ok x.sent)] ++ (.recv x.heard (.ok b) :: esc) ∧ Line esb es0 xs ∧ reqMsgs esc = [] := by
  generalize hys : xs ++ [x] = ys at h
  induction h with
  | start => simp at hys
  | vain env buf res _ hres ih =>
    obtain ⟨esb, es0, env1, buf1, b, esc, h1, h2, h3⟩ := ih hys
    refine ⟨esb, es0, env1, buf1, b, esc ++ [.next env buf res], by rw [h1]; simp, h2, ?_⟩
    rw [reqMsgs_append, h3]
    cases res with
    | ok o => simp [Res.isOk] at hres
    | err e => rfl
    | panic k => rfl
  | @exchange es es' zs env env' buf buf' z err b hl ih =>
    obtain ⟨rfl, h2⟩ := List.append_inj' hys rfl
    simp only [List.cons.injEq, and_true] at h2
    subst h2
    exact ⟨es, es', env, buf, b, [], by simp, hl, rfl⟩

/-- What both theorems start from. -/
theorem noise_core (hl : slots.length = c'.numSlots) (h8' : c'.numSlots ≤ 8) (h8 : c.numSlots ≤ 8) (hq : ∀ a ∈ c.asymSigning, a = "ECDSA_ECC_NIST_P256")
    (run : ReqRun c cr root es r) (run' : RspRun c' cr' slots es' r')
    (hkey : ∀ leaf inters a m der, cr.chainOk leaf a root inters 1638316800 = true → cr.sigOk leaf a m der = true → ∃ i, (i, m) ∈ r'.signed)
    (line : Line es es' (xs ++ [x])) (hk : code x.heard = some 0x03) :
    xs.length = 5 ∧ codes ((xs ++ [x]).map (·.heard)) = [some 0x04, some 0x61, some 0x63, some 0x01, some 0x02, some 0x03] ∧ 64 ≤ x.heard.length ∧ 6 < x.heard.length ∧
    (conversation (near xs ++ [x.sent])).asym = 16 ∧
    r.transcript.get = (near xs).flatten ++ (x.sent ++ x.heard.take (x.heard.length - 64)) ∧
    ∃ pre y post es0 es1 env buf err es2 auth, xs ++ [x] = pre ++ y :: post ∧ Line es0 es1 pre ∧ es' = es1 ++ .call env y.received buf (.ok ⟨y.answered, err⟩) :: es2 ∧
      (post = [] → es2 = []) ∧ alive es1 = true ∧ (lastReq es1 = some 0x82 ∨ lastReq es1 = some 0x83) ∧ rspMsgs es1 = far pre ∧ code y.received = some 0x83 ∧ AuthFor cr' slots es1 env y.received auth ∧
      (err = none → ∃ sig, y.answered = auth ++ sig ∧ 64 ≤ sig.length ∧ sig.length = sizeFor signatureSizes (conversation (far pre)).asym) ∧
      (∀ e, err = some e → y.answered.length ≤ 8 ∧ code y.answered ≠ some 0x03 ∧ post = []) ∧
      (r.transcript.get = (conversation (far pre)).text ++ y.received ++ auth ∨
        Collides (cr.hash (UInt32.ofNat (conversation (reqMsgs es)).hash)) (cr'.hash (UInt32.ofNat (conversation (rspMsgs es1)).hash))
          r.transcript.get ((conversation (rspMsgs es1)).text ++ y.received ++ auth)) := by
  have hnear := line_near line
  obtain ⟨esb, es0, env0, buf0, b, esc, hes, hlb, hesc⟩ := line_last line
  have htext := c44_transcript_exact run hnear.1
  rw [hnear.2.1, near_snoc, show near xs ++ [x.sent, x.heard] = (near xs ++ [x.sent]) ++ [x.heard] by simp] at htext
  have run0 := run
  rw [hes, show esb ++ [ReqEvent.next env0 buf0 (.ok x.sent)] ++ (.recv x.heard (.ok b) :: esc) = (esb ++ [.next env0 buf0 (.ok x.sent)] ++ [.recv x.heard (.ok b)]) ++ esc by simp] at run0
  obtain ⟨ra, _, runa, _, _⟩ := run0.split
  obtain ⟨rb, call, runb, hcall, hra⟩ := runa.last
  cases call with
  | next env1 buf1 => simp [ReqCall.run] at hcall
  | recv rsp =>
  simp only [ReqCall.run, ReqEvent.recv.injEq] at hcall
  obtain ⟨rfl, hok⟩ := hcall
  have hok := hok.symm
  have hmb : reqMsgs (esb ++ [.next env0 buf0 (.ok x.sent)]) = near xs ++ [x.sent] := by rw [reqMsgs_append, (line_near hlb).2.1]; rfl
  obtain ⟨hb, m0, m1, m2, m3, cert, slot, chain, nonce, sig, hacc, hau⟩ := c42_authenticated h8 runb x.heard hk b hok
  obtain ⟨hf, st, st', hlive, hbd, hrecv, hlive'⟩ := req_recv runb hok
  have hst : st' = .newSession := by rw [hb] at hbd; exact of_decide_eq_true hbd.symm
  have hacc0 : accepted (esb ++ [.next env0 buf0 (.ok x.sent)]) = xs.map (·.heard) := by
    rw [accepted_append, (line_near hlb).2.2]; simp [accepted]
  have hfive : xs.length = 5 := by
    have := congrArg List.length hacc
    rw [hacc0, List.length_map] at this
    exact this
  have hsix : codes ((xs ++ [x]).map (·.heard)) = [some 0x04, some 0x61, some 0x63, some 0x01, some 0x02, some 0x03] := by
    have := (path_of hlive'.mat).1 hst
    rw [accepted_append, hacc0] at this
    rw [List.map_append]
    exact six_codes this (by simp [hfive])
  have hasym : (conversation (near xs ++ [x.sent])).asym = 16 := by
    have hm := hlive.mat
    rw [hmb] at hm
    generalize conversation (near xs ++ [x.sent]) = l at hm
    rw [hacc] at hm
    generalize hxx : [m0, m1, m2, m3, cert] = acc at hm
    cases hm with
    | challenge _ _ h2 hw => rw [hw.asym]; exact p256_selected hq h2
    | done hd =>
      exfalso
      subst hxx
      have hst5 : ∃ s, ReqState.newSession = .challenge s := by
        generalize (Requester.handleMsg c cr x.heard rb).2.transcript.get = tr' at hrecv
        cases hrecv
      obtain ⟨s, hs⟩ := hst5
      simp at hs
    | version => simp at hxx
    | capabilities => simp at hxx
    | algorithms => simp at hxx
    | digests => simp at hxx
    | certificate => simp at hxx
  have hs64 : sig.length = 64 := by
    rw [hau.sigSize, hmb, hasym]; rfl
  obtain ⟨bb, mask, summary, olen, opq, tail, hrsp, _⟩ := hau.response
  have hlen : sig.length + 6 < x.heard.length + 1 := by
    rw [hrsp]
    simp only [List.length_append, List.length_cons, List.length_nil, le_length]
    omega
  have htext2 : (conversation (near xs ++ [x.sent])).text = (near xs).flatten ++ x.sent := by
    have hcodes := line_codes h8 line run
    rcases xs with _ | ⟨x0, xs⟩
    · simp at hfive
    have h0 := hcodes 0 x0 (by simp)
    have hn : near (x0 :: xs) ++ [x.sent] = x0.sent :: (x0.heard :: near xs ++ [x.sent]) := by simp [near]
    rw [hn, text_whole x0.sent _ (by rw [h0.1]; rfl)]
    · simp [near]
    · have req_ne : ∀ i : Nat, requestCodes[i]? ≠ some 0x03 ∧ (0 < i → requestCodes[i]? ≠ some 0x84) := by
        intro i
        rcases i with _ | _ | _ | _ | _ | _ | i <;> simp [requestCodes]
      have hear_ne : ∀ i z, (x0 :: xs ++ [x])[i]? = some z → i < 5 → code z.heard ≠ some 0x84 ∧ code z.heard ≠ some 0x03 := by
        intro i z hz hi
        obtain ⟨_, h2, h3⟩ := hcodes i z hz
        refine ⟨?_, fun h => absurd (h3 h) (by omega)⟩
        intro h84
        rw [h84] at h2
        revert h2
        decide
      have hx0 := hear_ne 0 x0 (by simp) (by omega)
      intro m hm
      simp only [List.cons_append, List.mem_cons, List.mem_append, List.not_mem_nil, or_false] at hm
      rcases hm with rfl | hm | rfl
      · exact hx0
      · simp only [near, List.mem_flatMap] at hm
        obtain ⟨z, hz, hm⟩ := hm
        obtain ⟨i, hi⟩ := List.getElem?_of_mem hz
        have hi5 : i < xs.length := by rw [List.getElem?_eq_some_iff] at hi; exact hi.1
        simp only [List.length_cons] at hfive
        have hz' : (x0 :: xs ++ [x])[i + 1]? = some z := by
          rw [List.cons_append, List.getElem?_cons_succ, List.getElem?_append_left hi5, hi]
        simp only [List.mem_cons, List.not_mem_nil, or_false] at hm
        rcases hm with rfl | rfl
        · rw [(hcodes _ _ hz').1]
          exact ⟨(req_ne _).2 (by omega), (req_ne _).1⟩
        · exact hear_ne _ _ hz' (by omega)
      · have hx := hcodes 5 x (by rw [← hfive]; simp)
        rw [hx.1]
        exact ⟨(req_ne _).2 (by omega), (req_ne _).1⟩
  have hget : r.transcript.get = (near xs).flatten ++ (x.sent ++ x.heard.take (x.heard.length - 64)) := by
    rw [htext, conversation_snoc]
    simp only [Log.add, hk]
    rw [htext2, hasym, show sizeFor signatureSizes 16 = 64 from rfl, List.append_assoc]
  refine ⟨hfive, hsix, by omega, by omega, hasym, hget, ?_⟩
  obtain ⟨es1, env, req, buf, res, es2, auth, g1, g2, hlr, g3, g4, g5, g6⟩ := c50_tampering_detected hl h8' h8 runb run' hkey x.heard hk b hok
  obtain ⟨pre, y, post, esp, err, k1, k2, rfl, rfl, k5⟩ := line_cut line g1
  have hfar := line_far k2 g2
  have hrr : (Requester.handleMsg c cr x.heard rb).2.transcript.get = r.transcript.get := by
    rw [hlive'.text, reqMsgs_append, hmb, htext]; rfl
  have hrun1 : ∃ r1, RspRun c' cr' slots es1 r1 ∧ (Responder.handleMsg c' cr' env y.received buf r1).1 = .ok ⟨y.answered, err⟩ := by
    have h := run'
    rw [g1, show es1 ++ RspEvent.call env y.received buf (.ok ⟨y.answered, err⟩) :: es2 = (es1 ++ [.call env y.received buf (.ok ⟨y.answered, err⟩)]) ++ es2 by simp] at h
    obtain ⟨r2, h2⟩ := h.initial
    obtain ⟨r1, h1, h3, _⟩ := h2.last
    exact ⟨r1, h1, h3.symm⟩
  obtain ⟨r1, hr1, hres⟩ := hrun1
  refine ⟨pre, y, post, esp, es1, env, buf, err, es2, auth, k1, k2, g1, k5, g2, hlr, hfar, g3, g4, ?_, ?_, ?_⟩
  · rintro rfl
    have h64 := sig_size hl h8' hr1 g3 hres
    obtain ⟨j', s', mask', sig', q1, q2, q3, q4, q5, q6, _⟩ := c36_signature_covers_transcript hl h8' hr1 env y.received buf y.answered g3 hres
    obtain ⟨j, mk, s, p1, p2, p3, p4⟩ := g4
    rw [q1] at p1
    cases p1
    rw [q2] at p2
    cases p2
    cases mask_unique q3 p3
    refine ⟨sig', by rw [q4, p4], by rw [q6]; exact h64, by rw [q6, hfar]⟩
  · rintro e rfl
    obtain ⟨o1, o2⟩ := (c34_errors_uniform hl h8' hr1 env y.received buf).2 y.answered e hres
    refine ⟨?_, ?_, ?_⟩
    · rw [o1]
      unfold errorReply
      split
      · rw [List.length_append]
        have : (errorBytes e).length ≤ 6 := by
          unfold errorBytes
          split <;> decide
        simp only [Wire.header, List.length_cons, List.length_nil]
        omega
      · simp
    · rw [o1]
      intro h03
      have := errorReply_code buf (errorBytes e)
      rw [h03] at this
      exact this (by decide)
    · by_contra hp
      -- a further call would abort
      obtain ⟨e2, es3, rfl⟩ : ∃ e2 es3, es2 = e2 :: es3 := by
        rcases es2 with _ | ⟨e2, es3⟩
        · exfalso
          have hcount : ∀ {es es' xs}, Line es es' xs → es'.length = xs.length := by
            intro es es' xs h
            induction h with
            | start => rfl
            | vain _ _ _ _ _ ih => exact ih
            | exchange _ _ _ _ _ _ _ _ ih => simp [ih]
          have c1 := hcount line
          have c2 := hcount k2
          rw [g1, k1] at c1
          simp only [List.length_append, List.length_cons, List.length_nil] at c1
          exact hp (List.eq_nil_of_length_eq_zero (by omega))
        · exact ⟨e2, es3, rfl⟩
      have hcalls : ∀ {es es' xs}, Line es es' xs → ∀ e ∈ es', ∃ env req buf o, e = RspEvent.call env req buf (.ok o) := by
        intro es es' xs h
        induction h with
        | start => intro e he; simp at he
        | vain _ _ _ _ _ ih => exact ih
        | exchange env env' buf buf' x err b _ ih =>
          intro e he
          rcases List.mem_append.mp he with he | he
          · exact ih e he
          · simp only [List.mem_singleton] at he
            exact ⟨_, _, _, _, he⟩
      obtain ⟨env2, req2, buf2, o2', rfl⟩ := hcalls line e2 (by rw [g1]; simp)
      have h := run'
      rw [g1, show es1 ++ RspEvent.call env y.received buf (.ok ⟨y.answered, some e⟩) :: .call env2 req2 buf2 (.ok o2') :: es3 =
        ((es1 ++ [.call env y.received buf (.ok ⟨y.answered, some e⟩)]) ++ [.call env2 req2 buf2 (.ok o2')]) ++ es3 by simp] at h
      obtain ⟨r3, h3⟩ := h.initial
      obtain ⟨r2, h2, h4, _⟩ := h3.last
      have := run_alive hl h8' h2 h4.symm
      rw [alive_snoc] at this
      simp [addAlive] at this
  · rw [hrr] at g6
    rcases g6 with g6 | g6
    · left
      rw [g6, hfar]
    · right
      rw [hmb] at g6
      have hh : (conversation (reqMsgs es)).hash = (conversation (near xs ++ [x.sent])).hash := by
        rw [hnear.2.1, near_snoc, show near xs ++ [x.sent, x.heard] = (near xs ++ [x.sent]) ++ [x.heard] by simp, conversation_snoc]
        simp only [Log.add, hk]
      rw [hh]
      exact g6

/-- **C127**, bit errors.  A requester and a new responder talk over a line that delivers every message in order and with its length, but may alter any number of bytes of any of them.  Let nobody forge
signatures (as in C50).  If the requester accepts the CHALLENGE_AUTH, then nothing was altered: the responder received what the requester sent, the requester heard what the responder
answered, in every exchange, with the sole exception of the bytes of the signature; or the two transcripts collide. -/
theorem c127_bit_errors_detected (hl : slots.length = c'.numSlots) (h8' : c'.numSlots ≤ 8) (h8 : c.numSlots ≤ 8) (hq : ∀ a ∈ c.asymSigning, a = "ECDSA_ECC_NIST_P256")
    (run : ReqRun c cr root es r) (run' : RspRun c' cr' slots es' r')
    (hkey : ∀ leaf inters a m der, cr.chainOk leaf a root inters 1638316800 = true → cr.sigOk leaf a m der = true → ∃ i, (i, m) ∈ r'.signed)
    (line : Line es es' (xs ++ [x])) (hk : code x.heard = some 0x03) (hsame : ∀ y ∈ xs ++ [x], y.SameLengths) :
    ∃ es1 env req buf res es2 auth, es' = es1 ++ .call env req buf res :: es2 ∧ AuthFor cr' slots es1 env req auth ∧
      ((es2 = [] ∧ req = x.sent ∧ (∀ y ∈ xs, y.Intact) ∧ x.received = x.sent ∧ ∃ sig sig', x.answered = auth ++ sig ∧ x.heard = auth ++ sig' ∧ sig'.length = sig.length) ∨
        Collides (cr.hash (UInt32.ofNat (conversation (reqMsgs es)).hash)) (cr'.hash (UInt32.ofNat (conversation (rspMsgs es1)).hash))
          r.transcript.get ((conversation (rspMsgs es1)).text ++ req ++ auth)) := by
  obtain ⟨_, _, h64, h6, _, hget, pre, y, post, es0, es1, env, buf, err, es2, auth, k1, k2, k3, k4, k5, _, k6, k7, k8, k9, k10, k11⟩ :=
    noise_core hl h8' h8 hq run run' hkey line hk
  refine ⟨es1, env, y.received, buf, _, es2, auth, k3, k8, ?_⟩
  rcases k11 with k11 | k11
  swap
  · exact .inr k11
  left
  rw [hget] at k11
  obtain ⟨hb1, hb2⟩ := text_bound (far pre)
  have hx := hsame x (by simp)
  have hlen := congrArg List.length k11
  simp only [List.length_append, List.length_take] at hlen
  have herr : err = none := by
    rcases err with _ | e
    · rfl
    obtain ⟨q1, _, q3⟩ := k10 e rfl
    subst q3
    obtain ⟨_, hxy⟩ := List.append_inj' k1 rfl
    simp only [List.cons.injEq, and_true] at hxy
    subst hxy
    have := hx.2
    omega
  obtain ⟨sig, hans, hs64, _⟩ := k9 herr
  have hpost : post = [] := by
    rcases List.eq_nil_or_concat post with h | ⟨p, z, hz⟩
    · exact h
    exfalso
    subst hz
    rw [show pre ++ y :: p.concat z = (pre ++ y :: p) ++ [z] by simp] at k1
    obtain ⟨hxs, _⟩ := List.append_inj' k1 rfl
    have hpre : (near pre).flatten.length = (far pre).flatten.length := same_length fun w hw => hsame w (by simp [hxs, hw])
    have hy := hsame y (by simp [hxs])
    have hn : (near xs).flatten.length = (near pre).flatten.length + (y.sent.length + (y.heard.length + (near p).flatten.length)) := by
      rw [hxs]; simp [near]
    have h1 := hy.1
    have h2 := hy.2
    rw [hans, List.length_append] at h2
    omega
  subst hpost
  obtain ⟨hxs, hxy⟩ := List.append_inj' k1 rfl
  simp only [List.cons.injEq, and_true] at hxy
  subst hxy
  subst hxs
  have hsame' : ∀ y ∈ xs, y.SameLengths := fun w hw => hsame w (by simp [hw])
  have hpre := same_length hsame'
  have h1 := hx.1
  have h2 := hx.2
  have h3 := congrArg List.length hans
  rw [List.length_append] at h3
  rw [hb2 (by omega), List.append_assoc] at k11
  obtain ⟨i1, i2⟩ := same_intact hsame' k11
  obtain ⟨i3, i4⟩ := List.append_inj i2 h1.symm
  refine ⟨k4 rfl, i3.symm, i1, i3.symm, sig, x.heard.drop (x.heard.length - 64), hans, ?_, ?_⟩
  · rw [← i4]; exact (List.take_append_drop _ _).symm
  · have := congrArg List.length i4
    rw [List.length_take] at this
    rw [List.length_drop]
    omega

theorem near_intact (h : ∀ x ∈ xs, x.Intact) : near xs = far xs := by
  induction xs with
  | nil => rfl
  | cons x xs ih =>
    have hx := h x (by simp)
    have := ih fun y hy => h y (by simp [hy])
    simp only [near, far, List.flatMap_cons] at this ⊢
    rw [hx.1, hx.2, this]

/-- Every call on the line is the far end of an exchange. -/
theorem line_calls (h : Line es es' xs) {env : Env} {req buf : Bytes} {res : Res Responder.Output} (hm : .call env req buf res ∈ es') :
    ∃ z ∈ xs, z.received = req ∧ ∃ env' buf', .next env' buf' (.ok z.sent) ∈ es := by
  induction h with
  | start => simp at hm
  | vain env1 buf1 res1 _ _ ih =>
    obtain ⟨z, h1, h2, e, b, h3⟩ := ih hm
    exact ⟨z, h1, h2, e, b, List.mem_append_left _ h3⟩
  | exchange env1 env' buf1 buf' z err b _ ih =>
    rcases List.mem_append.mp hm with hm | hm
    · obtain ⟨z, h1, h2, e, b, h3⟩ := ih hm
      exact ⟨z, List.mem_append_left _ h1, h2, e, b, List.mem_append_left _ h3⟩
    · simp only [List.mem_singleton, RspEvent.call.injEq] at hm
      obtain ⟨_, rfl, _⟩ := hm
      exact ⟨z, by simp, rfl, env1, buf1, by simp⟩

/-- Every exchange on the line has a call of the responder. -/
theorem line_answers (h : Line es es' xs) {z : Exchanged} (hz : z ∈ xs) : ∃ env buf err, .call env z.received buf (.ok ⟨z.answered, err⟩) ∈ es' := by
  induction h with
  | start => simp at hz
  | vain env1 buf1 res1 _ _ ih => exact ih hz
  | exchange env1 env' buf1 buf' y err b _ ih =>
    rcases List.mem_append.mp hz with hz | hz
    · obtain ⟨e, b, r, h⟩ := ih hz
      exact ⟨e, b, r, List.mem_append_left _ h⟩
    · simp only [List.mem_singleton] at hz
      subst hz
      exact ⟨env', buf', err, by simp⟩

theorem call_codes (hl : slots.length = c'.numSlots) (h8 : c'.numSlots ≤ 8) (run' : RspRun c' cr' slots es' r') {env : Env} {req buf out : Bytes}
    (h : .call env req buf (.ok ⟨out, none⟩) ∈ es') : ∃ k ∈ requestCodes, code req = some k ∧ code out = some (k &&& 0x7F) := by
  obtain ⟨es1, es2, rfl⟩ := List.append_of_mem h
  rw [show es1 ++ .call env req buf (.ok ⟨out, none⟩) :: es2 = (es1 ++ [.call env req buf (.ok ⟨out, none⟩)]) ++ es2 by simp] at run'
  obtain ⟨r1, h1⟩ := run'.initial
  obtain ⟨r0, h0, hres, _⟩ := h1.last
  exact step_codes hl h8 h0 hres.symm

/-- While the responder has not failed, all its answers on the line are responses. -/
theorem line_alive (hl : slots.length = c'.numSlots) (h8 : c'.numSlots ≤ 8) (run' : RspRun c' cr' slots es' r') (h : Line es es' xs) (ha : alive es' = true) :
    ∀ z ∈ xs, ∃ k ∈ requestCodes, code z.received = some k ∧ code z.answered = some (k &&& 0x7F) := by
  induction h generalizing r' with
  | start => intro z hz; simp at hz
  | vain env1 buf1 res1 _ _ ih => exact ih run' ha
  | exchange env1 env' buf1 buf' y err b _ ih =>
    rw [alive_snoc] at ha
    obtain ⟨r1, h1, _, _⟩ := run'.last
    cases err with
    | some e => simp [addAlive] at ha
    | none =>
      intro z hz
      rcases List.mem_append.mp hz with hz | hz
      · exact ih h1 ha z hz
      · simp only [List.mem_singleton] at hz
        subst hz
        exact call_codes hl h8 run' (List.mem_append_right _ (List.mem_singleton_self _))

theorem add_asym {l : Log} {m : Bytes} (h84 : code m ≠ some 0x84) (h63 : code m ≠ some 0x63) : (l.add m).asym = l.asym := by
  unfold Log.add
  split <;> simp_all

theorem add_asym_selected {l : Log} {m : Bytes} (h63 : code m = some 0x63) : (l.add m).asym = (Log.empty.add m).asym := by
  unfold Log.add
  split <;> simp_all

/-- **C127**, one altered message.  As before, but now the line may replace one message, a request or a response, by anything at all, of any length; all others arrive as they were sent.  If the requester
accepts the CHALLENGE_AUTH, then that message was not altered either, except for the signature in the CHALLENGE_AUTH (or the responder's last response was an ERROR after it had
signed, and the line replaced that by the CHALLENGE_AUTH); or the two transcripts collide. -/
theorem c127_one_alteration_detected (h0' : 0 < c'.numSlots) (hl : slots.length = c'.numSlots) (h8' : c'.numSlots ≤ 8) (h8 : c.numSlots ≤ 8)
    (hcap : ∀ a ∈ c'.capabilities, ∃ k, (a, k) ∈ capabilityBits) (hh : ∀ m, (cr'.hash 1 m).length = 32) (hq : ∀ a ∈ c.asymSigning, a = "ECDSA_ECC_NIST_P256")
    (run : ReqRun c cr root es r) (run' : RspRun c' cr' slots es' r')
    (hkey : ∀ leaf inters a m der, cr.chainOk leaf a root inters 1638316800 = true → cr.sigOk leaf a m der = true → ∃ i, (i, m) ∈ r'.signed)
    (line : Line es es' (xs ++ [x])) (hk : code x.heard = some 0x03) (hone : AtMostOneAltered (xs ++ [x])) (n : Nat)
    (hn : ∀ env buf res, .next env buf res ∈ es → env.nonce.length = n) (hn' : ∀ env req buf res, .call env req buf res ∈ es' → env.nonce.length = n) :
    ∃ es1 env req buf res es2 auth, es' = es1 ++ .call env req buf res :: es2 ∧ AuthFor cr' slots es1 env req auth ∧
      ((es2 = [] ∧ req = x.sent ∧ (∀ y ∈ xs, y.Intact) ∧ x.received = x.sent ∧
          ∃ sig', x.heard = auth ++ sig' ∧ ((∃ sig, x.answered = auth ++ sig) ∨ ∃ e, res = .ok ⟨x.answered, some e⟩)) ∨
        Collides (cr.hash (UInt32.ofNat (conversation (reqMsgs es)).hash)) (cr'.hash (UInt32.ofNat (conversation (rspMsgs es1)).hash))
          r.transcript.get ((conversation (rspMsgs es1)).text ++ req ++ auth)) := by
  obtain ⟨hfive, hsix, h64, h6, hasym, hget, pre, y, post, es0, es1, env, buf, err, es2, auth, k1, k2, k3, k4, k5, hlr, k6, k7, k8, k9, k10, k11⟩ :=
    noise_core hl h8' h8 hq run run' hkey line hk
  refine ⟨es1, env, y.received, buf, _, es2, auth, k3, k8, ?_⟩
  rcases k11 with k11 | k11
  swap
  · exact .inr k11
  left
  obtain ⟨p, w, q, ho1, ho2, ho3⟩ := hone
  have hall : (∀ z ∈ xs ++ [x], z.received = z.sent) ∨ (∀ z ∈ xs ++ [x], z.heard = z.answered) := by
    rcases ho3 with h | h
    · left
      intro z hz
      rw [ho1] at hz
      simp only [List.mem_append, List.mem_cons] at hz
      rcases hz with hz | rfl | hz
      · exact (ho2 z (by simp [hz])).1
      · exact h
      · exact (ho2 z (by simp [hz])).1
    · right
      intro z hz
      rw [ho1] at hz
      simp only [List.mem_append, List.mem_cons] at hz
      rcases hz with hz | rfl | hz
      · exact (ho2 z (by simp [hz])).2
      · exact h
      · exact (ho2 z (by simp [hz])).2
  have hcodes := line_codes h8 line run
  have hheard : ∀ (i : Nat) (z : Exchanged), (xs ++ [x])[i]? = some z → ([some 0x04, some 0x61, some 0x63, some 0x01, some 0x02, some 0x03] : List (Option UInt8))[i]? = some (code z.heard) := by
    intro i z hz
    rw [← hsix]
    simp only [codes, List.getElem?_map, hz]
    rfl
  -- the codes the responder received
  have hrec : ∀ (i : Nat) (z : Exchanged), (xs ++ [x])[i]? = some z → code z.received = requestCodes[i]? := by
    intro i z hz
    rcases hall with h | h
    · rw [h z (List.mem_of_getElem? hz)]
      exact (hcodes i z hz).1
    · have hmem := List.mem_of_getElem? hz
      obtain ⟨e1, b1, er, hc⟩ := line_answers line hmem
      have hin := (hcodes i z hz).2.1
      rw [h z hmem] at hin
      have := genuine_ok h8' hl run' hc hin
      subst this
      obtain ⟨k, hk1, hk2, hk3⟩ := call_codes hl h8' run' hc
      have hz6 := hheard i z hz
      rw [h z hmem, hk3] at hz6
      rw [hk2]
      have hi : i < 6 := by
        have := (List.getElem?_eq_some_iff.mp hz).1
        simp [hfive] at this
        exact this
      clear hk2 hk3
      revert k
      have : i = 0 ∨ i = 1 ∨ i = 2 ∨ i = 3 ∨ i = 4 ∨ i = 5 := by omega
      rcases this with rfl | rfl | rfl | rfl | rfl | rfl <;> simp only [requestCodes] <;> decide
  have hpre5 : pre.length = 5 := by
    have hy := hrec pre.length y (by rw [k1]; simp)
    rw [k7] at hy
    generalize pre.length = i at hy
    rcases i with _ | _ | _ | _ | _ | _ | i <;> simp [requestCodes] at hy ⊢
  have hpost : post = [] := by
    have := congrArg List.length k1
    simp only [List.length_append, List.length_cons, List.length_nil, hfive, hpre5] at this
    exact List.eq_nil_of_length_eq_zero (by omega)
  subst hpost
  obtain ⟨hxs, hxy⟩ := List.append_inj' k1 rfl
  simp only [List.cons.injEq, and_true] at hxy
  subst hxy
  subst hxs
  obtain ⟨r1, hr1⟩ : ∃ r1, RspRun c' cr' slots es1 r1 := Spec.RspRun.initial (es2 := .call env x.received buf (.ok ⟨x.answered, err⟩) :: es2) (r' := r') (by rw [← k3]; exact run')
  have halive := line_alive hl h8' hr1 k2 k5
  -- the responder's text
  have htext : (conversation (far xs)).text = (far xs).flatten := by
    have hone' : ∀ (i : Nat) z, xs[i]? = some z → (0 < i → code z.received ≠ some 0x84) ∧ code z.received ≠ some 0x03 ∧ code z.answered ≠ some 0x84 ∧ code z.answered ≠ some 0x03 := by
      intro i z hz
      have hi : i < 5 := by
        have := (List.getElem?_eq_some_iff.mp hz).1
        omega
      have h1 := hrec i z (by rw [List.getElem?_append_left (by omega)]; exact hz)
      obtain ⟨k, hk1, hk2, hk3⟩ := halive z (List.mem_of_getElem? hz)
      rw [hk2] at h1
      rw [hk2, hk3]
      clear hk2 hk3
      revert h1
      revert k
      have : i = 0 ∨ i = 1 ∨ i = 2 ∨ i = 3 ∨ i = 4 := by omega
      rcases this with rfl | rfl | rfl | rfl | rfl <;> simp only [requestCodes] <;> decide
    rcases xs with _ | ⟨x0, xs⟩
    · simp at hfive
    have hf : far (x0 :: xs) = x0.received :: (x0.answered :: far xs) := by simp [far]
    rw [hf]
    refine text_whole _ _ (by rw [hrec 0 x0 (by simp)]; rfl) ?_
    intro m hm
    simp only [List.mem_cons, far, List.mem_flatMap, List.not_mem_nil, or_false] at hm
    rcases hm with rfl | ⟨z, hz, hm⟩
    · exact (hone' 0 x0 (by simp)).2.2
    · obtain ⟨i, hi⟩ := List.getElem?_of_mem hz
      have := hone' (i + 1) z (by simpa using hi)
      rcases hm with rfl | rfl
      · exact ⟨this.1 (by omega), this.2.1⟩
      · exact this.2.2
  -- the responder's signature algorithm
  have hasym' : (conversation (far xs)).asym = 16 := by
    rcases hall with h | h
    · have hs1 : ∀ env req buf res, .call env req buf res ∈ es1 → Asked n 16 req ∧ env.nonce.length = n := by
        intro env1 req1 buf1 res1 hc
        have hc' : RspEvent.call env1 req1 buf1 res1 ∈ es' := by rw [k3]; exact List.mem_append_left _ hc
        obtain ⟨z, hz1, hz2, env2, buf2, hz3⟩ := line_calls line hc'
        refine ⟨⟨c, usual_offer hq, ?_⟩, hn' _ _ _ _ hc'⟩
        rw [← hz2, h z hz1]
        exact sent_of run hn hz3
      have cl1 := rsp_clean h0' h8' hl hcap hh hr1 hs1
      have := (cl1.selected (fun env req buf res h => (hs1 env req buf res h).1) (by rcases hlr with h | h <;> simp [h])).2
      rwa [k6] at this
    · rw [← hasym]
      match xs, hfive with
      | [a, b, d, e, f], _ =>
        have c0 := hrec 0 a rfl
        have c1 := hrec 1 b rfl
        have c2 := hrec 2 d rfl
        have c3 := hrec 3 e rfl
        have c4 := hrec 4 f rfl
        have s0 := (hcodes 0 a rfl).1
        have s1 := (hcodes 1 b rfl).1
        have s2 := (hcodes 2 d rfl).1
        have s3 := (hcodes 3 e rfl).1
        have s4 := (hcodes 4 f rfl).1
        have s5 := (hcodes 5 x rfl).1
        have g0 := hheard 0 a rfl
        have g1 := hheard 1 b rfl
        have g2 := hheard 2 d rfl
        have g3 := hheard 3 e rfl
        have g4 := hheard 4 f rfl
        rw [h a (by simp)] at g0
        rw [h b (by simp)] at g1
        rw [h d (by simp)] at g2
        rw [h e (by simp)] at g3
        rw [h f (by simp)] at g4
        simp only [requestCodes, List.getElem?_cons_zero, List.getElem?_cons_succ, Option.some.injEq] at c0 c1 c2 c3 c4 s0 s1 s2 s3 s4 s5 g0 g1 g2 g3 g4
        simp only [conversation, near, far, List.flatMap_cons, List.flatMap_nil, List.append_nil, List.cons_append, List.nil_append, List.foldl_cons, List.foldl_nil,
          h a (by simp), h b (by simp), h d (by simp), h e (by simp), h f (by simp)]
        rw [add_asym (m := x.sent) (by rw [s5]; decide) (by rw [s5]; decide), add_asym (m := f.answered) (by rw [← g4]; decide) (by rw [← g4]; decide), add_asym (m := f.received) (by rw [c4]; decide) (by rw [c4]; decide), add_asym (m := e.answered) (by rw [← g3]; decide) (by rw [← g3]; decide), add_asym (m := e.received) (by rw [c3]; decide) (by rw [c3]; decide), add_asym_selected g2.symm,
          add_asym (m := f.answered) (by rw [← g4]; decide) (by rw [← g4]; decide), add_asym (m := f.sent) (by rw [s4]; decide) (by rw [s4]; decide), add_asym (m := e.answered) (by rw [← g3]; decide) (by rw [← g3]; decide), add_asym (m := e.sent) (by rw [s3]; decide) (by rw [s3]; decide)]
        exact (add_asym_selected g2.symm).symm
  -- where the CHALLENGE_AUTH arrived unaltered
  have hlast : x.heard = x.answered → x.heard.take (x.heard.length - 64) = auth ∧ ∃ sig, x.answered = auth ++ sig := by
    intro he
    have : err = none := by
      rcases err with _ | e
      · rfl
      · exact absurd (by rw [← he]; exact hk) (k10 e rfl).2.1
    obtain ⟨sig, g1, g2, g3⟩ := k9 this
    rw [hasym', show sizeFor signatureSizes 16 = 64 from rfl] at g3
    refine ⟨?_, sig, g1⟩
    rw [he, g1, List.length_append, g3, Nat.add_sub_cancel, List.take_left' rfl]
  rw [hget, htext, List.append_assoc] at k11
  have hfin : (∀ y ∈ xs, y.Intact) ∧ x.received = x.sent ∧ x.heard.take (x.heard.length - 64) = auth := by
    rcases List.eq_nil_or_concat q with rfl | ⟨q', z, rfl⟩
    · obtain ⟨hp, hw⟩ := List.append_inj' ho1 rfl
      simp only [List.cons.injEq, and_true] at hw
      subst hw
      subst hp
      have hint : ∀ y ∈ xs, y.Intact := fun y hy => ho2 y (by simp [hy])
      rw [near_intact hint] at k11
      have k12 := List.append_cancel_left k11
      rcases ho3 with h | h
      · rw [h] at k12
        exact ⟨hint, h, List.append_cancel_left k12⟩
      · obtain ⟨ha, _⟩ := hlast h
        rw [ha] at k12
        exact ⟨hint, (List.append_cancel_right k12).symm, ha⟩
    · rw [show p ++ w :: q'.concat z = (p ++ w :: q') ++ [z] by simp] at ho1
      obtain ⟨hp, hz⟩ := List.append_inj' ho1 rfl
      simp only [List.cons.injEq, and_true] at hz
      subst hz
      have hx := ho2 x (by simp)
      obtain ⟨ha, _⟩ := hlast hx.2
      rw [ha, hx.1] at k11
      have k12 := List.append_cancel_right k11
      have hp1 : ∀ y ∈ p, y.Intact := fun y hy => ho2 y (by simp [hy])
      have hq1 : ∀ y ∈ q', y.Intact := fun y hy => ho2 y (by simp [hy])
      have e1 := near_intact hp1
      have e2 := near_intact hq1
      rw [hp] at k12
      have en : near (p ++ w :: q') = near p ++ [w.sent, w.heard] ++ near q' := by simp [near]
      have ef : far (p ++ w :: q') = far p ++ [w.received, w.answered] ++ far q' := by simp [far]
      rw [en, ef, e1, e2] at k12
      simp only [List.flatten_append, List.flatten_cons, List.flatten_nil, List.append_nil] at k12
      have k13 := List.append_cancel_left (List.append_cancel_right k12)
      have hw : w.Intact := by
        rcases ho3 with h | h
        · rw [h] at k13
          exact ⟨h, List.append_cancel_left k13⟩
        · rw [h] at k13
          exact ⟨(List.append_cancel_right k13).symm, h⟩
      refine ⟨?_, hx.1, ha⟩
      intro y hy
      rw [hp] at hy
      simp only [List.mem_append, List.mem_cons] at hy
      rcases hy with hy | rfl | hy
      · exact hp1 y hy
      · exact hw
      · exact hq1 y hy
  refine ⟨k4 rfl, hfin.2.1, hfin.1, hfin.2.1, x.heard.drop (x.heard.length - 64), by rw [← hfin.2.2]; exact (List.take_append_drop _ _).symm, ?_⟩
  rcases err with _ | e
  · obtain ⟨sig, g1, _⟩ := k9 rfl
    exact .inl ⟨sig, g1⟩
  · exact .inr ⟨e, rfl⟩

/-! ### A session on the line -/

/-- The exchanges of two histories that alternate: a request written and a response accepted, against a call. -/
def exchangesOf : List ReqEvent → List RspEvent → Option (List Exchanged)
  | [], [] => some []
  | .next _ _ (.ok sent) :: .recv heard (.ok _) :: es, .call _ received _ (.ok ⟨answered, _⟩) :: es' => (exchangesOf es es').map (⟨sent, received, answered, heard⟩ :: ·)
  | _, _ => none

theorem exchangesOf_line : ∀ (es : List ReqEvent) (es' : List RspEvent) (ys : List Exchanged), exchangesOf es es' = some ys →
    ∀ es0 es0' xs, Line es0 es0' xs → Line (es0 ++ es) (es0' ++ es') (xs ++ ys) := by
  intro es es'
  fun_induction exchangesOf es es' with
  | case1 =>
    intro ys h es0 es0' xs hl
    simp only [Option.some.injEq] at h
    subst h
    simpa using hl
  | case2 env buf sent heard b es env' received buf' answered err es' ih =>
    intro ys h es0 es0' xs hl
    rw [Option.map_eq_some_iff] at h
    obtain ⟨zs, hz, rfl⟩ := h
    have := ih zs hz _ _ _ (Line.exchange env env' buf buf' ⟨sent, received, answered, heard⟩ err b hl)
    simpa using this
  | case3 => intro ys h; simp at h

/-- The requester's history of the whole session, and its exchanges. -/
def lineEvents : List ReqEvent := reqBehaviour demoCfg demoCryptoKey (Requester.new demoCfg [1, 2, 3]) (demoReqCalls 12)

def lineExchanges : List Exchanged := (exchangesOf lineEvents (demoEvents 6)).getD []

/-- The premises of both theorems hold in the session: six exchanges, the last one the accepted CHALLENGE_AUTH. -/
example : Line lineEvents (demoEvents 6) lineExchanges ∧ lineExchanges.length = 6 ∧ (∃ xs x, lineExchanges = xs ++ [x] ∧ code x.heard = some 0x03) ∧
    (∀ y ∈ lineExchanges, y.SameLengths) ∧ AtMostOneAltered lineExchanges ∧ ReqRun demoCfg demoCryptoKey [1, 2, 3] lineEvents (reqAfter demoCfg demoCryptoKey (Requester.new demoCfg [1, 2, 3]) (demoReqCalls 12)) ∧
    RspRun demoCfg demoCrypto demoSlots (demoEvents 6) (demoResponder 6) ∧ (∀ a ∈ demoCfg.asymSigning, a = "ECDSA_ECC_NIST_P256") ∧
    (∀ leaf inters a m der, demoCryptoKey.chainOk leaf a [1, 2, 3] inters 1638316800 = true → demoCryptoKey.sigOk leaf a m der = true → ∃ i, (i, m) ∈ (demoResponder 6).signed) ∧
    (∀ env buf res, .next env buf res ∈ lineEvents → env.nonce.length = 4) ∧ ∀ env req buf res, .call env req buf res ∈ demoEvents 6 → env.nonce.length = 4 := by
  have hint : ∀ y ∈ lineExchanges, y.received = y.sent ∧ y.heard = y.answered := by decide +kernel
  refine ⟨?_, by decide +kernel, ⟨lineExchanges.take 5, lineExchanges[5]?.getD ⟨[], [], [], []⟩, by decide +kernel, by decide +kernel⟩, ?_, ?_, ReqRun.of _ _ _ _, demo_run 6, by decide, ?_, ?_, ?_⟩
  · have h : (exchangesOf lineEvents (demoEvents 6)).isSome = true := by decide +kernel
    obtain ⟨ys, hy⟩ := Option.isSome_iff_exists.mp h
    have := exchangesOf_line _ _ _ hy [] [] [] .start
    simpa [lineExchanges, hy] using this
  · intro y hy
    exact ⟨by rw [(hint y hy).1], by rw [(hint y hy).2]⟩
  · have h : lineExchanges = lineExchanges.take 5 ++ (lineExchanges[5]?.getD ⟨[], [], [], []⟩) :: [] := by decide +kernel
    refine ⟨lineExchanges.take 5, _, [], h, fun y hy => ?_, ?_⟩
    · rw [List.append_nil] at hy
      exact hint y (List.mem_of_mem_take hy)
    · exact .inl (hint _ (by decide +kernel)).1
  · intro leaf inters a m der _ h
    simp only [demoCryptoKey, Bool.and_eq_true, List.any_eq_true, beq_iff_eq] at h
    obtain ⟨_, ⟨i, x⟩, hm, rfl⟩ := h
    exact ⟨i, hm⟩
  · have h : (lineEvents.all fun e => match e with | .next env _ _ => env.nonce.length == 4 | _ => true) = true := by decide +kernel
    intro env buf res hm
    simpa using List.all_eq_true.mp h _ hm
  · have h : ((demoEvents 6).all fun e => match e with | .call env _ _ _ => env.nonce.length == 4 | _ => true) = true := by decide +kernel
    intro env req buf res hm
    simpa using List.all_eq_true.mp h _ hm

/-- The session with one bit flipped on the line: bit 0 of the timeout in CAPABILITIES. -/
def noisyCalls (n : Nat) : List ReqCall :=
  (demoReqCalls n).mapIdx fun i call => match call with
    | .recv rsp => if i = 3 then .recv (rsp.set 5 13) else .recv rsp
    | _ => call

def noisyEvents : List ReqEvent := reqBehaviour demoCfg demoCryptoKey (Requester.new demoCfg [1, 2, 3]) (noisyCalls 10)

/-- Nobody notices during five exchanges, all of which keep their lengths and one of which is not intact; then the requester refuses the CHALLENGE_AUTH. -/
example : ∃ xs, Line noisyEvents (demoEvents 5) xs ∧ xs.length = 5 ∧ (∀ y ∈ xs, y.SameLengths) ∧ AtMostOneAltered xs ∧ ¬ (∀ y ∈ xs, y.Intact) ∧
    (Requester.handleMsg demoCfg demoCryptoKey (demoReplies[5]?.getD []) (reqAfter demoCfg demoCryptoKey (Requester.new demoCfg [1, 2, 3]) (noisyCalls 11))).1 =
      .err (.invalidSignature) ∧
    (Requester.handleMsg demoCfg demoCryptoKey (demoReplies[5]?.getD []) (reqAfter demoCfg demoCryptoKey (Requester.new demoCfg [1, 2, 3]) (demoReqCalls 11))).1 = .ok true := by
  have h : (exchangesOf noisyEvents (demoEvents 5)).isSome = true := by decide +kernel
  obtain ⟨ys, hy⟩ := Option.isSome_iff_exists.mp h
  have hys : ys = (exchangesOf noisyEvents (demoEvents 5)).getD [] := by rw [hy]; rfl
  refine ⟨ys, by simpa using exchangesOf_line _ _ _ hy [] [] [] .start, ?_⟩
  rw [hys]
  refine ⟨by decide +kernel, ?_, ?_, ?_, by decide +kernel, by decide +kernel⟩
  · simp only [Exchanged.SameLengths]
    decide +kernel
  · refine ⟨((exchangesOf noisyEvents (demoEvents 5)).getD []).take 1, ((exchangesOf noisyEvents (demoEvents 5)).getD [])[1]?.getD ⟨[], [], [], []⟩, ((exchangesOf noisyEvents (demoEvents 5)).getD []).drop 2, by decide +kernel, ?_, ?_⟩
    · simp only [Exchanged.Intact]
      decide +kernel
    · exact .inl (by decide +kernel)
  · simp only [Exchanged.Intact]
    decide +kernel

end Spdm

import Verif.Lemmas.Clean2
import Verif.DemoSession
/-! C116: authentication on a network that does not alter messages. -/
namespace Spdm
open Spec

variable {c c' : Cfg} {cr cr' : Crypto} {root : Bytes} {slots : List (Option FilledSlot)} {es : List ReqEvent} {es' : List RspEvent} {r : Requester} {r' : Responder}

/-- A written request is one of the six. -/
theorem sent_of {n : Nat} (run : ReqRun c cr root es r) (hn : ∀ env buf res, .next env buf res ∈ es → env.nonce.length = n) {env : Env} {buf out : Bytes}
    (h : .next env buf (.ok out) ∈ es) : Sent c n out := by
  have hnonce := hn _ _ _ h
  obtain ⟨es1, es2, rfl⟩ := List.append_of_mem h
  rw [show es1 ++ .next env buf (.ok out) :: es2 = (es1 ++ [.next env buf (.ok out)]) ++ es2 by simp] at run
  obtain ⟨r1, _, h1, _, _⟩ := run.split
  obtain ⟨r0, x, h0, hx, _⟩ := h1.last
  cases x with
  | next env' buf' =>
    simp only [ReqCall.run, ReqEvent.next.injEq] at hx
    obtain ⟨rfl, rfl, hx⟩ := hx
    obtain ⟨_, st, st', _, _, hsend, _⟩ := req_next h0 hx.symm
    exact ⟨env, _, _, _, _, hnonce, hsend⟩
  | recv rsp => simp [ReqCall.run] at hx

/-- What the responder returned as an error is not accepted. -/
theorem genuine_ok (h8 : c'.numSlots ≤ 8) (hl : slots.length = c'.numSlots) (run' : RspRun c' cr' slots es' r') {env : Env} {req buf rsp : Bytes} {err : Option Err}
    (h : .call env req buf (.ok ⟨rsp, err⟩) ∈ es') (hc : code rsp ∈ ([some 0x04, some 0x61, some 0x63, some 0x01, some 0x02, some 0x03] : List (Option UInt8))) : err = none := by
  rcases err with _ | e
  · rfl
  obtain ⟨es1, es2, rfl⟩ := List.append_of_mem h
  rw [show es1 ++ .call env req buf (.ok ⟨rsp, some e⟩) :: es2 = (es1 ++ [.call env req buf (.ok ⟨rsp, some e⟩)]) ++ es2 by simp] at run'
  obtain ⟨r1, h1⟩ := run'.initial
  obtain ⟨r0, h0, hres, _⟩ := h1.last
  rw [((c34_errors_uniform hl h8 h0 env req buf).2 rsp e hres.symm).1] at hc
  exact absurd hc (errorReply_code _ _)

theorem lowest_const (c : Cfg) : ∃ sw, ∀ m a, Requester.configToNegotiateAlgorithms c = .ok m → Lowest m.baseAsymAlgo.toNat a → a = sw := by
  by_cases h : ∃ m a, Requester.configToNegotiateAlgorithms c = .ok m ∧ Lowest m.baseAsymAlgo.toNat a
  · obtain ⟨m, a, h1, h2⟩ := h
    refine ⟨a, fun m' a' h1' h2' => ?_⟩
    rw [h1] at h1'
    cases h1'
    exact lowest_val_unique h2' h2
  · exact ⟨0, fun m a h1 h2 => absurd ⟨m, a, h1, h2⟩ h⟩

/-- Where a signature came from, with the request before. -/
theorem signed_after (hl : slots.length = c'.numSlots) (h8 : c'.numSlots ≤ 8) (run' : RspRun c' cr' slots es' r') :
    ∀ x ∈ r'.signed, ∃ es1 env req buf res es2 i slot mask, es' = es1 ++ .call env req buf res :: es2 ∧ alive es1 = true ∧ (lastReq es1 = some 0x82 ∨ lastReq es1 = some 0x83) ∧
      code req = some 0x83 ∧ req[2]? = some i ∧ slots[i.toNat]? = some (some slot) ∧ MaskOf slots mask ∧
      x = (i.toNat, cr'.hash (UInt32.ofNat (conversation (rspMsgs es1)).hash) ((conversation (rspMsgs es1)).text ++ req ++
        authPart (conversation (rspMsgs es1)) i mask (cr'.hash (UInt32.ofNat (conversation (rspMsgs es1)).hash) (Wire.chain slot.certChain)) env.nonce)) := by
  induction run' with
  | new => intro x hx; simp [Responder.new] at hx
  | @reset es r _ ih =>
    intro x hx
    obtain ⟨es1, env, req, buf, res, es2, i, slot, mask, h1, h2⟩ := ih x hx
    exact ⟨es1, env, req, buf, res, es2 ++ [.reset], i, slot, mask, by rw [h1]; simp, h2⟩
  | @call es r env req buf run ih =>
    intro x hx
    rcases c36_only_challenge_signs hl h8 run env req buf with h | ⟨ha, hp, hk, i, slot, mask, h1, h2, h3, h4⟩
    · rw [h] at hx
      obtain ⟨es1, env', req', buf', res, es2, i, slot, mask, h1, h2⟩ := ih x hx
      exact ⟨es1, env', req', buf', res, es2 ++ [.call env req buf (Responder.handleMsg c' cr' env req buf r).1], i, slot, mask, by rw [h1]; simp, h2⟩
    · simp only at h4
      rw [h4, List.mem_append] at hx
      rcases hx with hx | hx
      · obtain ⟨es1, env', req', buf', res, es2, i, slot, mask, h1, h2⟩ := ih x hx
        exact ⟨es1, env', req', buf', res, es2 ++ [.call env req buf (Responder.handleMsg c' cr' env req buf r).1], i, slot, mask, by rw [h1]; simp, h2⟩
      · simp only [List.mem_singleton] at hx
        exact ⟨es, env, req, buf, _, [], i, slot, mask, rfl, ha, hp, hk, h1, h2, h3, hx⟩

theorem recv_codes (run : ReqRun c cr root es r) {rsp : Bytes} {b : Bool} (h : .recv rsp (.ok b) ∈ es) :
    code rsp ∈ ([some 0x04, some 0x61, some 0x63, some 0x01, some 0x02, some 0x03] : List (Option UInt8)) := by
  obtain ⟨es1, es2, rfl⟩ := List.append_of_mem h
  rw [show es1 ++ .recv rsp (.ok b) :: es2 = (es1 ++ [.recv rsp (.ok b)]) ++ es2 by simp] at run
  obtain ⟨r1, _, h1, _, _⟩ := run.split
  obtain ⟨r0, x, h0, hx, _⟩ := h1.last
  cases x with
  | next env' buf' => simp [ReqCall.run] at hx
  | recv rsp' =>
    simp only [ReqCall.run, ReqEvent.recv.injEq] at hx
    obtain ⟨rfl, hx⟩ := hx
    obtain ⟨_, st, st', _, _, hrecv, _⟩ := req_recv h0 hx.symm
    exact recv_code hrecv

/-- Six responses of a session. -/
theorem six_codes {l : Log} {acc : List Bytes} (h : acc.map code = (path l).map some) (h6 : acc.length = 6) :
    codes acc = [some 0x04, some 0x61, some 0x63, some 0x01, some 0x02, some 0x03] := by
  have h6' : (path l).length = 6 := by
    have := congrArg List.length h
    rw [List.length_map, List.length_map] at this
    omega
  unfold codes
  rw [h]
  unfold path at h6' ⊢
  split at h6'
  · split at h6'
    · rename_i h1 h2
      rw [if_pos h1, if_pos h2]
      rfl
    · simp at h6'
  · simp at h6'

theorem records_plain {l : Log} {ms : List Bytes} (h : ∀ m ∈ ms, code m ≠ some 0x03) : records l ms = ms := by
  induction ms generalizing l with
  | nil => rfl
  | cons m ms ih =>
    rw [records, ih (fun m hm => h m (by simp [hm]))]
    congr 1
    unfold recorded
    split
    · rename_i hk; exact absurd hk (h m (by simp))
    · rfl

/-- From a signature to the run it was made in. -/
theorem clean_core {n sw : Nat} (h0' : 0 < c'.numSlots) (hl : slots.length = c'.numSlots) (h8' : c'.numSlots ≤ 8)
    (hcap : ∀ a ∈ c'.capabilities, ∃ k, (a, k) ∈ capabilityBits) (hh : ∀ m, (cr'.hash 1 m).length = 32) (run : ReqRun c cr root es r) (run' : RspRun c' cr' slots es' r')
    (rsp : Bytes) (hk : code rsp = some 0x03) (b : Bool) (hok : (Requester.handleMsg c cr rsp r).1 = .ok b)
    (hn : ∀ env buf res, .next env buf res ∈ es → env.nonce.length = n) (hgen : ∀ rsp' b', .recv rsp' (.ok b') ∈ es ++ [.recv rsp (.ok b)] → Gen n sw rsp')
    (hs : ∀ env req buf res, .call env req buf res ∈ es' → Asked n sw req ∧ env.nonce.length = n) (hb : b = true)
    {m0 m1 m2 m3 cert : Bytes} {slot : UInt8} {chain : CertificateChain} {nonce sig : Bytes} (hacc : accepted es = [m0, m1, m2, m3, cert])
    (hau : Authenticated c cr root (conversation (reqMsgs es)) cert rsp slot chain nonce sig) {i : Nat}
    (hi : (i, cr.hash (UInt32.ofNat (conversation (reqMsgs es)).hash) ((conversation (reqMsgs es)).text ++ rsp.take (rsp.length - sig.length))) ∈ r'.signed) :
    ∃ es1 env req buf res es2 auth, es' = es1 ++ .call env req buf res :: es2 ∧ alive es1 = true ∧ code req = some 0x83 ∧ (∃ q : UInt8, req[2]? = some q ∧ q.toNat = i) ∧ AuthFor cr' slots es1 env req auth ∧
      (Collides (cr.hash 1) (cr'.hash 1) (conversation (reqMsgs es ++ [rsp])).text ((conversation (rspMsgs es1)).text ++ req ++ auth) ∨
        codes (sinceVersion (reqMsgs es ++ [rsp])) = cleanRun.map some ∧
        sinceVersion (reqMsgs es) = sinceVersion (rspMsgs es1 ++ [req]) ∧ ∃ sig, rsp = auth ++ sig) := by
  have run2 : ReqRun c cr root (es ++ [.recv rsp (.ok b)]) (Requester.handleMsg c cr rsp r).2 := by rw [← hok]; exact .recv rsp run
  have hn2 : ∀ env buf res, .next env buf res ∈ es ++ [.recv rsp (.ok b)] → env.nonce.length = n := by
    intro env buf res h
    simp only [List.mem_append, List.mem_singleton, reduceCtorEq, or_false] at h
    exact hn _ _ _ h
  have cl' := rsp_clean h0' h8' hl hcap hh run' hs
  have cl : ReqClean n sw (es ++ [.recv rsp (.ok b)]) := req_clean run2 hn2 hgen
  have hmsgs : reqMsgs (es ++ [.recv rsp (.ok b)]) = reqMsgs es ++ [rsp] := by rw [reqMsgs_append]; rfl
  have hacc2 : accepted (es ++ [.recv rsp (.ok b)]) = accepted es ++ [rsp] := by rw [accepted_append]; rfl
  have cclean := cl.clean
  have cresp := cl.resp
  rw [hmsgs] at cclean cresp
  rw [hacc2] at cresp
  obtain ⟨hf, st, st', hlive, hbd, hrecv, hlive'⟩ := req_recv run hok
  have hst : st' = .newSession := by rw [hb] at hbd; exact of_decide_eq_true hbd.symm
  have hsix : codes (accepted es ++ [rsp]) = [some 0x04, some 0x61, some 0x63, some 0x01, some 0x02, some 0x03] := by
    have := (path_of hlive'.mat).1 hst
    rw [hacc2] at this
    exact six_codes this (by rw [hacc]; rfl)
  have hq : (conversation (reqMsgs es)).hash = 1 ∧ (conversation (reqMsgs es)).asym = sw := by
    have cl0 : ReqClean n sw es := req_clean run hn fun rsp' b' h => hgen rsp' b' (List.mem_append_left _ h)
    exact selected cl0.gen (cl0.seen (by rw [hacc]; simp))
  obtain ⟨es1, env, req, buf, res, es2, j, s, mask, h1, h2, hlast, h3, h4, h5, h6, h7⟩ := signed_after hl h8' run' _ hi
  obtain ⟨r1, run1⟩ : ∃ r1, RspRun c' cr' slots es1 r1 := Spec.RspRun.initial (es2 := .call env req buf res :: es2) (r' := r') (by rw [← h1]; exact run')
  have hs1 : ∀ env req buf res, .call env req buf res ∈ es1 → Asked n sw req ∧ env.nonce.length = n := by
    intro env' req' buf' res' h
    exact hs _ _ _ _ (by rw [h1]; exact List.mem_append_left _ h)
  have cl1 := rsp_clean h0' h8' hl hcap hh run1 hs1
  obtain ⟨e1, e2⟩ := cl1.selected (fun env req buf res h => (hs1 env req buf res h).1) (by rcases hlast with h | h <;> simp [h])
  obtain ⟨hreq, hnonce⟩ := hs env req buf res (by rw [h1]; simp)
  have hchain : (cr'.hash (UInt32.ofNat (conversation (rspMsgs es1)).hash) (Wire.chain s.certChain)).length = 32 := by rw [e1]; exact hh _
  generalize hcd : cr'.hash (UInt32.ofNat (conversation (rspMsgs es1)).hash) (Wire.chain s.certChain) = chainHash at h7 hchain
  generalize hauth : authPart (conversation (rspMsgs es1)) j mask chainHash env.nonce = auth at h7
  refine ⟨es1, env, req, buf, res, es2, auth, h1, h2, h3, ⟨j, h4, (congrArg Prod.fst h7).symm⟩, ⟨j, mask, s, h4, h5, h6, by rw [hcd, hauth]⟩, ?_⟩
  have htext : (conversation (reqMsgs es ++ [rsp])).text = (conversation (reqMsgs es)).text ++ rsp.take (rsp.length - sig.length) := by
    rw [conversation_snoc]
    simp only [Log.add, hk]
    rw [hau.sigSize]
  by_cases he : (conversation (reqMsgs es ++ [rsp])).text = (conversation (rspMsgs es1)).text ++ req ++ auth
  swap
  · left
    refine ⟨he, ?_⟩
    simp only [Prod.mk.injEq] at h7
    rw [htext]
    have := h7.2
    rw [hq.1, e1] at this
    exact this
  right
  -- the responder's conversation with a signature of the right size
  have hsz : (zeros (sizeFor signatureSizes sw)).length = sizeFor signatureSizes sw := by simp only [zeros, List.length_replicate]
  have hga : Gen n sw (auth ++ zeros (sizeFor signatureSizes sw)) := by
    rw [← hauth]
    exact auth_gen e1 hchain hnonce hsz
  have hca : code auth = some 0x03 := by rw [← hauth]; simp [authPart, code]
  have hca2 : code (auth ++ zeros (sizeFor signatureSizes sw)) = some 0x03 := by rw [← hauth]; simp [authPart, code]
  have hclean := noTrailing_exchange cl1.clean (hreq.gen).1 hga (hreq.gen).2 (fun _ => ⟨by rw [h3]; decide, e1, e2⟩)
  have h83 : ((conversation (rspMsgs es1)).add req) = { conversation (rspMsgs es1) with text := (conversation (rspMsgs es1)).text ++ req } := add_plain h3 (by decide)
  have htext' : (conversation (rspMsgs es1 ++ [req, auth ++ zeros (sizeFor signatureSizes sw)])).text = (conversation (rspMsgs es1)).text ++ req ++ auth := by
    rw [conversation_snoc2, h83]
    simp only [Log.add, hca2, e2]
    rw [List.length_append, hsz, Nat.add_sub_cancel, List.take_left' rfl]
  have heq := he.trans htext'.symm
  have hcodes := noTrailing_codes cclean hclean heq
  obtain ⟨ks, hks, hps⟩ := cl1.pairs
  obtain ⟨ks2, hks2, hps2⟩ := pairs_snoc hks hps (k := 0x83) (by decide) h3 (b := auth ++ zeros (sizeFor signatureSizes sw)) (by rw [hca2]; decide)
  have hfin : codes (sinceVersion (reqMsgs es ++ [rsp])) = cleanRun.map some := by
    rw [hcodes, hps2]
    rw [hcodes, hps2, hsix] at cresp
    exact pairs_clean hks2 cresp
  refine ⟨hfin, ?_⟩
  obtain ⟨hrec, _⟩ := noTrailing_unique cclean hclean heq
  have hn84 : code rsp ≠ some 0x84 := by rw [hk]; decide
  have hn84' : code (auth ++ zeros (sizeFor signatureSizes sw)) ≠ some 0x84 := by rw [hca2]; decide
  have hsp : rspMsgs es1 ++ [req, auth ++ zeros (sizeFor signatureSizes sw)] = (rspMsgs es1 ++ [req]) ++ [auth ++ zeros (sizeFor signatureSizes sw)] := by simp
  have hcodes2 := hcodes
  rw [hfin] at hcodes2
  rw [hsp] at hrec hcodes2
  rw [sinceVersion_snoc, if_neg hn84] at hrec hfin
  rw [sinceVersion_snoc, if_neg hn84', records_snoc] at hrec
  rw [sinceVersion_snoc, if_neg hn84'] at hcodes2
  rw [records_snoc] at hrec
  have plain : ∀ {ms : List Bytes} {m : Bytes}, codes (ms ++ [m]) = cleanRun.map some → ∀ x ∈ ms, code x ≠ some 0x03 := by
    intro ms m h x hx h03
    have : codes ms ++ [code m] = [some 0x84, some 0x04, some 0xE1, some 0x61, some 0xE3, some 0x63, some 0x81, some 0x01, some 0x82, some 0x02, some 0x83] ++ [some 0x03] := by
      simpa [codes, cleanRun] using h
    have hm := (List.append_inj' this rfl).1
    have hx' : code x ∈ codes ms := List.mem_map_of_mem hx
    rw [hm, h03] at hx'
    exact absurd hx' (by decide)
  rw [records_plain (plain hfin), records_plain (plain hcodes2.symm)] at hrec
  obtain ⟨ha, hb2⟩ := List.append_inj' hrec rfl
  refine ⟨ha, ?_⟩
  simp only [List.cons.injEq, and_true] at hb2
  have ef : ∀ ms, (sinceVersion ms).foldl Log.add Log.empty = conversation ms := conversation_since
  rw [ef, ef, conversation_snoc, h83] at hb2
  simp only [recorded, hk, hca2, e2] at hb2
  rw [List.length_append, hsz, Nat.add_sub_cancel, List.take_left' rfl] at hb2
  exact ⟨_, by rw [← hb2]; exact (List.take_append_drop _ _).symm⟩

/-- **C116.**  Let the network lose, delay, repeat and reorder messages as it likes, but not make any, and let nobody forge signatures (as in C50).  If the
requester accepts a CHALLENGE_AUTH, then the responder signed it, up to the signature, in answer to a CHALLENGE; and, since their last GET_VERSION, both had
exchanged the very same messages: the twelve of a session, each exactly once and in order.  Or the two transcripts are a collision of the hash function. -/
theorem c116_one_clean_run (h0' : 0 < c'.numSlots) (hl : slots.length = c'.numSlots) (h8' : c'.numSlots ≤ 8) (h8 : c.numSlots ≤ 8)
    (hcap : ∀ a ∈ c'.capabilities, ∃ k, (a, k) ∈ capabilityBits) (hh : ∀ m, (cr'.hash 1 m).length = 32) (run : ReqRun c cr root es r) (run' : RspRun c' cr' slots es' r')
    (hkey : ∀ leaf inters a m der, cr.chainOk leaf a root inters 1638316800 = true → cr.sigOk leaf a m der = true → ∃ i, (i, m) ∈ r'.signed)
    (rsp : Bytes) (hk : code rsp = some 0x03) (b : Bool) (hok : (Requester.handleMsg c cr rsp r).1 = .ok b) (hnet : Unaltered (es ++ [.recv rsp (.ok b)]) es') (n : Nat)
    (hn : ∀ env buf res, .next env buf res ∈ es → env.nonce.length = n) (hn' : ∀ env req buf res, .call env req buf res ∈ es' → env.nonce.length = n) :
    ∃ es1 env req buf res es2 auth, es' = es1 ++ .call env req buf res :: es2 ∧ alive es1 = true ∧ code req = some 0x83 ∧ AuthFor cr' slots es1 env req auth ∧
      (Collides (cr.hash 1) (cr'.hash 1) (conversation (reqMsgs es ++ [rsp])).text ((conversation (rspMsgs es1)).text ++ req ++ auth) ∨
        codes (sinceVersion (reqMsgs es ++ [rsp])) = cleanRun.map some ∧
        sinceVersion (reqMsgs es) = sinceVersion (rspMsgs es1 ++ [req]) ∧ ∃ sig, rsp = auth ++ sig) := by
  obtain ⟨sw, hsw⟩ := lowest_const c
  have run2 : ReqRun c cr root (es ++ [.recv rsp (.ok b)]) (Requester.handleMsg c cr rsp r).2 := by rw [← hok]; exact .recv rsp run
  have hn2 : ∀ env buf res, .next env buf res ∈ es ++ [.recv rsp (.ok b)] → env.nonce.length = n := by
    intro env buf res h
    simp only [List.mem_append, List.mem_singleton, reduceCtorEq, or_false] at h
    exact hn _ _ _ h
  have hs : ∀ env req buf res, .call env req buf res ∈ es' → Asked n sw req ∧ env.nonce.length = n := by
    intro env req buf res h
    obtain ⟨env', buf', h'⟩ := hnet.requests _ _ _ _ h
    exact ⟨⟨c, hsw, sent_of run2 hn2 h'⟩, hn' _ _ _ _ h⟩
  have cl' := rsp_clean h0' h8' hl hcap hh run' hs
  obtain ⟨hb, m0, m1, m2, m3, cert, slot, chain, nonce, sig, hacc, hau⟩ := c42_authenticated h8 run rsp hk b hok
  obtain ⟨der, _, hsig⟩ := hau.signature
  obtain ⟨i, hi⟩ := hkey _ _ _ _ _ hau.trust hsig
  suffices hg : ∀ rsp' b', .recv rsp' (.ok b') ∈ es ++ [.recv rsp (.ok b)] → Gen n sw rsp' by
    obtain ⟨es1, env, req, buf, res, es2, auth, h1, h2, h83, _, hau4, h3⟩ := clean_core h0' hl h8' hcap hh run run' rsp hk b hok hn hg hs hb hacc hau hi
    exact ⟨es1, env, req, buf, res, es2, auth, h1, h2, h83, hau4, h3⟩
  intro rsp' b' h
  obtain ⟨env, req, buf, err, hc⟩ := hnet.responses _ _ h
  have := genuine_ok h8' hl run' hc (recv_codes run2 h)
  subst this
  exact cl'.gen _ _ _ _ hc

/-! The premises hold in the session of `DemoSession`, with the verifier that accepts only what the responder signed (`demoCryptoKey`). -/

/-- `Unaltered` as a check. -/
def unaltered (es : List ReqEvent) (es' : List RspEvent) : Bool :=
  (es.all fun e => match e with
    | .recv rsp _ => es'.any fun e' => match e' with | .call _ _ _ (.ok ⟨out, _⟩) => out == rsp | _ => false
    | _ => true) &&
  es'.all fun e' => match e' with
    | .call _ req _ _ => es.any fun e => match e with | .next _ _ (.ok out) => out == req | _ => false
    | _ => true

theorem unaltered_sound {es : List ReqEvent} {es' : List RspEvent} (h : unaltered es es' = true) : Unaltered es es' := by
  unfold unaltered at h
  simp only [Bool.and_eq_true, List.all_eq_true] at h
  refine ⟨fun rsp res hm => ?_, fun env req buf res hm => ?_⟩
  · obtain ⟨e', he', h'⟩ := List.any_eq_true.mp (h.1 _ hm)
    split at h'
    · rw [beq_iff_eq] at h'
      subst h'
      exact ⟨_, _, _, _, he'⟩
    · simp at h'
  · obtain ⟨e', he', h'⟩ := List.any_eq_true.mp (h.2 _ hm)
    split at h'
    · rw [beq_iff_eq] at h'
      subst h'
      exact ⟨_, _, he'⟩
    · simp at h'

/-- The session, with the strict verifier. -/
def keyEvents : List ReqEvent := reqBehaviour demoCfg demoCryptoKey (Requester.new demoCfg [1, 2, 3]) (demoReqCalls 11)

example : 0 < demoCfg.numSlots ∧ demoSlots.length = demoCfg.numSlots ∧ demoCfg.numSlots ≤ 8 ∧ (∀ a ∈ demoCfg.capabilities, ∃ k, (a, k) ∈ capabilityBits) ∧
    (∀ m, (demoCrypto.hash 1 m).length = 32) ∧ ReqRun demoCfg demoCryptoKey [1, 2, 3] keyEvents (reqAfter demoCfg demoCryptoKey (Requester.new demoCfg [1, 2, 3]) (demoReqCalls 11)) ∧
    RspRun demoCfg demoCrypto demoSlots (demoEvents 6) (demoResponder 6) ∧ code (demoReplies[5]?.getD []) = some 0x03 ∧
    (Requester.handleMsg demoCfg demoCryptoKey (demoReplies[5]?.getD []) (reqAfter demoCfg demoCryptoKey (Requester.new demoCfg [1, 2, 3]) (demoReqCalls 11))).1 = .ok true ∧
    Unaltered (keyEvents ++ [.recv (demoReplies[5]?.getD []) (.ok true)]) (demoEvents 6) ∧
    (∀ env buf res, .next env buf res ∈ keyEvents → env.nonce.length = 4) ∧ ∀ env req buf res, .call env req buf res ∈ demoEvents 6 → env.nonce.length = 4 := by
  refine ⟨by decide, by decide, by decide, ?_, fun m => by simp [demoCrypto, demoHash], ReqRun.of _ _ _ _, demo_run 6, by decide +kernel, by decide +kernel,
    unaltered_sound (by decide +kernel), ?_, ?_⟩
  · intro a ha
    simp only [demoCfg, List.mem_cons, List.not_mem_nil, or_false] at ha
    rcases ha with rfl | rfl
    · exact ⟨1, by decide⟩
    · exact ⟨2, by decide⟩
  · have h : (keyEvents.all fun e => match e with | .next env _ _ => env.nonce.length == 4 | _ => true) = true := by decide +kernel
    intro env buf res hm
    simpa using List.all_eq_true.mp h _ hm
  · have h : ((demoEvents 6).all fun e => match e with | .call env _ _ _ => env.nonce.length == 4 | _ => true) = true := by decide +kernel
    intro env req buf res hm
    simpa using List.all_eq_true.mp h _ hm

end Spdm

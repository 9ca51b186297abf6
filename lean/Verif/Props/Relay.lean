import Verif.Spec.Relay
import Verif.Props.Network
import Verif.Props.Lossy
/-! C120: one session, one responder. -/
namespace Spdm
open Spec

variable {N : Network}

theorem reqOf_mem {i : Nat} {t : List NetEvent} {e : ReqEvent} (h : e ∈ reqOf i t) : .req i e ∈ t := by
  simp only [reqOf, List.mem_filterMap] at h
  obtain ⟨x, hx, he⟩ := h
  cases x with
  | req j y =>
    simp only at he
    split at he
    · rename_i hj
      subst hj
      cases he
      exact hx
    · cases he
  | rsp j y => cases he

theorem mem_reqOf {i : Nat} {t : List NetEvent} {e : ReqEvent} (h : .req i e ∈ t) : e ∈ reqOf i t := by
  simp only [reqOf, List.mem_filterMap]
  exact ⟨_, h, by simp⟩

theorem rspOf_mem {k : Nat} {t : List NetEvent} {e : RspEvent} (h : e ∈ rspOf k t) : .rsp k e ∈ t := by
  simp only [rspOf, List.mem_filterMap] at h
  obtain ⟨x, hx, he⟩ := h
  cases x with
  | rsp j y =>
    simp only at he
    split at he
    · rename_i hj
      subst hj
      cases he
      exact hx
    · cases he
  | req j y => cases he

theorem mem_rspOf {k : Nat} {t : List NetEvent} {e : RspEvent} (h : .rsp k e ∈ t) : e ∈ rspOf k t := by
  simp only [rspOf, List.mem_filterMap]
  exact ⟨_, h, by simp⟩

/-- P-256 is what such a requester prefers. -/
theorem usual_offer {c : Cfg} (h : ∀ a ∈ c.asymSigning, a = "ECDSA_ECC_NIST_P256") :
    ∀ m a, Requester.configToNegotiateAlgorithms c = .ok m → Lowest m.baseAsymAlgo.toNat a → a = 16 := by
  intro m a hm hl
  obtain ⟨w, h1, h2⟩ := parseFlags_ok BaseAsymAlgo.fromStr (fun _ k => k = 4) c.asymSigning 0 (by
    intro a ha
    rw [h a ha]
    exact ⟨4, rfl, by decide, rfl, fun j hj => hj⟩)
  have hw : m.baseAsymAlgo = w := by
    unfold Requester.configToNegotiateAlgorithms at hm
    rw [h1] at hm
    cases hm
    rfl
  rw [hw] at hl
  obtain ⟨k, hk, rfl⟩ := hl
  have hbit := hk.1
  rw [h2 k] at hbit
  have : k = 4 := by simp at hbit; exact hbit.2
  subst this
  rfl

/-- **C120.**  Any number of requesters and responders, and a network that may lose, delay, repeat, reorder and misdeliver messages, but makes none; a responder that is restarted counts as another one.
Let nobody forge signatures.  If a requester accepts a CHALLENGE_AUTH, then there is one responder, which has the accepted leaf certificate in the slot it was asked for, that signed it, up to the signature;
and since their last GET_VERSION the two had exchanged the very same messages: the twelve of a session, each exactly once and in order.  Or the two transcripts are a collision of
the hash function. -/
theorem c120_one_responder {i : Nat} {t : List NetEvent} {rsp : Bytes} {b : Bool} {n : Nat} (h : Happens N (t ++ [.req i (.recv rsp (.ok b))])) (hk : code rsp = some 0x03)
    (hq : ∀ i, (N.requester i).Usual) (hp : ∀ k, (N.responder k).Usual) (hu : Unforgeable N i t) (hnet : Relayed (t ++ [.req i (.recv rsp (.ok b))]))
    (hn : ∀ i env buf res, .req i (.next env buf res) ∈ t → env.nonce.length = n) (hn' : ∀ k env req buf res, .rsp k (.call env req buf res) ∈ t → env.nonce.length = n) :
    ∃ cert slot chain nonce sig, (accepted (reqOf i t))[4]? = some cert ∧
      Authenticated (N.requester i).cfg (N.requester i).crypto (N.requester i).root (conversation (reqMsgs (reqOf i t))) cert rsp slot chain nonce sig ∧
    ∃ k ta tb env req buf res auth j, ∃ s : FilledSlot, t = ta ++ .rsp k (.call env req buf res) :: tb ∧ alive (rspOf k ta) = true ∧ code req = some 0x83 ∧ 
      s.certChain.leafCert = chain.leafCert ∧ SignedText (N.responder k) (rspOf k ta) env req j s ((conversation (rspMsgs (rspOf k ta))).text ++ req ++ auth) ∧
      (Collides ((N.requester i).crypto.hash 1) ((N.responder k).crypto.hash 1) (conversation (reqMsgs (reqOf i t) ++ [rsp])).text
          ((conversation (rspMsgs (rspOf k ta))).text ++ req ++ auth) ∨
        codes (sinceVersion (reqMsgs (reqOf i t) ++ [rsp])) = cleanRun.map some ∧
        sinceVersion (reqMsgs (reqOf i t)) = sinceVersion (rspMsgs (rspOf k ta) ++ [req]) ∧ ∃ sig, rsp = auth ++ sig) := by
  obtain ⟨r, run, hok⟩ := happens_recv h
  have hmem : ∀ k e, NetEvent.rsp k e ∈ t ++ [.req i (.recv rsp (.ok b))] → NetEvent.rsp k e ∈ t := by
    intro k e he
    simpa using he
  have hs : ∀ k env req buf res, .call env req buf res ∈ rspOf k t → Asked n 16 req ∧ env.nonce.length = n := by
    intro k env req buf res hc
    have hc' := rspOf_mem hc
    obtain ⟨i', env', buf', hw⟩ := hnet.requests _ _ _ _ _ (List.mem_append_left _ hc')
    obtain ⟨r1, run1⟩ := h.req i'
    refine ⟨⟨(N.requester i').cfg, usual_offer (hq i').2, sent_of run1 ?_ (mem_reqOf hw)⟩, hn' _ _ _ _ _ hc'⟩
    intro env1 buf1 res1 h1
    have := reqOf_mem h1
    simp only [List.mem_append, List.mem_singleton, NetEvent.req.injEq, reduceCtorEq, and_false, or_false] at this
    exact hn _ _ _ _ this
  have hrsp : ∀ k, ∃ r', RspRun (N.responder k).cfg (N.responder k).crypto (N.responder k).slots (rspOf k t) r' := by
    intro k
    obtain ⟨r', run'⟩ := h.rsp k
    rw [rspOf_append] at run'
    exact ⟨r', by simpa [rspOf] using run'⟩
  have hclean : ∀ k, RspClean n 16 (rspOf k t) := by
    intro k
    obtain ⟨r', run'⟩ := hrsp k
    exact rsp_clean (hp k).2.1 (hp k).1.2 (hp k).1.1 (hp k).2.2.1 (hp k).2.2.2 run' (hs k)
  have hgen : ∀ rsp' b', .recv rsp' (.ok b') ∈ reqOf i t ++ [.recv rsp (.ok b)] → Gen n 16 rsp' := by
    intro rsp' b' hm
    have run2 : ReqRun (N.requester i).cfg (N.requester i).crypto (N.requester i).root (reqOf i t ++ [.recv rsp (.ok b)]) (Requester.handleMsg (N.requester i).cfg (N.requester i).crypto rsp r).2 := by
      rw [← hok]; exact .recv rsp run
    have hm' : NetEvent.req i (.recv rsp' (.ok b')) ∈ t ++ [.req i (.recv rsp (.ok b))] := by
      simp only [List.mem_append, List.mem_singleton] at hm ⊢
      rcases hm with hm | hm
      · exact .inl (reqOf_mem hm)
      · exact .inr (by rw [hm])
    obtain ⟨k, env, req, buf, err, hc⟩ := hnet.responses _ _ _ hm'
    have hc' := mem_rspOf (hmem _ _ hc)
    obtain ⟨r', run'⟩ := hrsp k
    have := genuine_ok (hp k).1.2 (hp k).1.1 run' hc' (recv_codes run2 hm)
    subst this
    exact (hclean k).gen _ _ _ _ hc'
  have hn1 : ∀ env buf res, .next env buf res ∈ reqOf i t → env.nonce.length = n := fun env buf res h1 => hn _ _ _ _ (reqOf_mem h1)
  obtain ⟨hb, m0, m1, m2, m3, cert, slot, chain, nonce, sig, hacc, hau⟩ := c42_authenticated (hq i).1 run rsp hk b hok
  obtain ⟨der, _, hsig⟩ := hau.signature
  obtain ⟨k, j, s, hsl, hleaf, r', run', hi⟩ := hu _ _ _ _ _ hau.trust hsig
  obtain ⟨es1, env, req, buf, res, es2, auth, h1, h2, hcr, ⟨q, hq1, hq2⟩, ⟨q2, mask, s2, hs1, hs2, hs3, hs4⟩, h3⟩ :=
    clean_core (hp k).2.1 (hp k).1.1 (hp k).1.2 (hp k).2.2.1 (hp k).2.2.2 run run' rsp hk b hok hn1 hgen (hs k) hb hacc hau hi
  obtain ⟨ta, tb, ht, hta⟩ := rspOf_split h1
  subst hta
  refine ⟨cert, slot, chain, nonce, sig, by rw [hacc]; rfl, hau, k, ta, tb, env, req, buf, res, auth, j, s, ht, h2, hcr, hleaf, ⟨q, mask, hq1, hq2, hsl, hs3, ?_⟩, h3⟩
  rw [hq1, Option.some.injEq] at hs1
  subst hs1
  rw [hq2, hsl, Option.some.injEq, Option.some.injEq] at hs2
  subst hs2
  rw [hs4]

/-! ### A session of which a second responder sees copies -/

/-- Requester 0 and responder 0 as in the demo session; responder 1 is handed copies of the first four requests and answers them too. -/
def relayTrace : List NetEvent :=
  (demoEvents 4).map (.rsp 1) ++
    (List.range 6).flatMap fun n => (demoNetReq[2 * n]?.toList.map (.req 0)) ++ ((demoEvents 6)[n]?.toList.map (.rsp 0)) ++ (demoNetReq[2 * n + 1]?.toList.map (.req 0))

theorem relayTrace_in : ∀ e ∈ relayTrace, NetEvent.inDemo e = true := List.all_eq_true.mp (by decide +kernel)

theorem relayTrace_happens : Happens demoNetwork relayTrace := by
  constructor
  · intro i
    by_cases hi : i = 0
    · subst hi
      rw [show reqOf 0 relayTrace = demoNetReq by decide +kernel]
      exact ⟨_, ReqRun.of _ _ _ _⟩
    · rw [show reqOf i relayTrace = [] by
        refine List.filterMap_eq_nil_iff.mpr fun e he => ?_
        have := relayTrace_in e he
        cases e with
        | req j x => simp only [NetEvent.inDemo, beq_iff_eq] at this; subst this; simp [Ne.symm hi]
        | rsp j x => rfl]
      exact ⟨_, .new⟩
  · intro k
    by_cases hk : k = 0
    · subst hk
      rw [show rspOf 0 relayTrace = demoEvents 6 by decide +kernel]
      exact ⟨_, RspRun.of _ _ _ _⟩
    by_cases hk1 : k = 1
    · subst hk1
      rw [show rspOf 1 relayTrace = demoEvents 4 by decide +kernel]
      exact ⟨_, RspRun.of _ _ _ _⟩
    · rw [show rspOf k relayTrace = [] by
        refine List.filterMap_eq_nil_iff.mpr fun e he => ?_
        have := relayTrace_in e he
        cases e with
        | rsp j x =>
          simp only [NetEvent.inDemo, Bool.or_eq_true, beq_iff_eq] at this
          have hj : j ≠ k := by omega
          simp [hj]
        | req j x => rfl]
      exact ⟨_, .new⟩

/-- `Relayed` as a check. -/
def relayed (t : List NetEvent) : Bool :=
  t.all fun e => match e with
    | .req _ (.recv rsp _) => t.any fun e' => match e' with | .rsp _ (.call _ _ _ (.ok ⟨out, _⟩)) => out == rsp | _ => false
    | .rsp _ (.call _ req _ _) => t.any fun e' => match e' with | .req _ (.next _ _ (.ok out)) => out == req | _ => false
    | _ => true

theorem relayed_sound {t : List NetEvent} (h : relayed t = true) : Relayed t := by
  unfold relayed at h
  simp only [List.all_eq_true] at h
  refine ⟨fun i rsp res hm => ?_, fun k env req buf res hm => ?_⟩
  · obtain ⟨e', he', h'⟩ := List.any_eq_true.mp (h _ hm)
    split at h'
    · rw [beq_iff_eq] at h'
      subst h'
      exact ⟨_, _, _, _, _, he'⟩
    · simp at h'
  · obtain ⟨e', he', h'⟩ := List.any_eq_true.mp (h _ hm)
    split at h'
    · rw [beq_iff_eq] at h'
      subst h'
      exact ⟨_, _, _, he'⟩
    · simp at h'

/-- The trace up to the last event. -/
def relayBefore : List NetEvent := relayTrace.take 21

theorem relayTrace_cut : relayTrace = relayBefore ++ [.req 0 (.recv (demoReplies[5]?.getD []) (.ok true))] := by decide +kernel

theorem relay_unforgeable : Unforgeable demoNetwork 0 relayBefore := by
  intro leaf inters a m der _ h
  have h' : demoCryptoKey.sigOk leaf a m der = true := h
  simp only [demoCryptoKey, demoCrypto, Bool.and_eq_true, List.any_eq_true, beq_iff_eq] at h'
  obtain ⟨⟨hl, _⟩, ⟨i, x⟩, hm, rfl⟩ := h'
  refine ⟨0, 0, ⟨0x10, 1, demoSessionChain, fun _ m => some (demoSign m)⟩, rfl, hl.symm, demoResponder 6, ?_, ?_⟩
  · rw [show rspOf 0 relayBefore = demoEvents 6 by decide +kernel]
    exact RspRun.of _ _ _ _
  · have : (demoResponder 6).signed.map Prod.fst = [0] := by decide +kernel
    have hi : i ∈ (demoResponder 6).signed.map Prod.fst := List.mem_map.mpr ⟨_, hm, rfl⟩
    rw [this] at hi
    simp only [List.mem_singleton] at hi
    subst hi
    exact hm

example : Happens demoNetwork (relayBefore ++ [.req 0 (.recv (demoReplies[5]?.getD []) (.ok true))]) ∧ Relayed (relayBefore ++ [.req 0 (.recv (demoReplies[5]?.getD []) (.ok true))]) ∧
    code (demoReplies[5]?.getD []) = some 0x03 ∧ (∀ i, (demoNetwork.requester i).Usual) ∧ (∀ k, (demoNetwork.responder k).Usual) ∧
    (∀ i env buf res, .req i (.next env buf res) ∈ relayBefore → env.nonce.length = 4) ∧ ∀ k env req buf res, .rsp k (.call env req buf res) ∈ relayBefore → env.nonce.length = 4 := by
  refine ⟨relayTrace_cut ▸ relayTrace_happens, relayTrace_cut ▸ relayed_sound (by decide +kernel), by decide +kernel, fun _ => ⟨show 2 ≤ 8 by decide, show ∀ a ∈ demoCfg.asymSigning, a = "ECDSA_ECC_NIST_P256" by decide⟩,
    fun k => ⟨demo_proper k, show 0 < 2 by decide, ?_, fun m => by simp [demoNetwork, demoCrypto, demoHash]⟩, ?_, ?_⟩
  · intro a ha
    simp only [demoNetwork, demoCfg, List.mem_cons, List.not_mem_nil, or_false] at ha
    rcases ha with rfl | rfl
    · exact ⟨1, by decide⟩
    · exact ⟨2, by decide⟩
  · have h : (relayBefore.all fun e => match e with | .req _ (.next env _ _) => env.nonce.length == 4 | _ => true) = true := by decide +kernel
    intro i env buf res hm
    simpa using List.all_eq_true.mp h _ hm
  · have h : (relayBefore.all fun e => match e with | .rsp _ (.call env _ _ _) => env.nonce.length == 4 | _ => true) = true := by decide +kernel
    intro k env req buf res hm
    simpa using List.all_eq_true.mp h _ hm

end Spdm

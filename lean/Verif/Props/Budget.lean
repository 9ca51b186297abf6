import Verif.Spec.Budget
import Verif.Props.Reply
import Verif.Props.Determined
import Verif.Props.Sizes
/-! C129: the transcript buffer is a budget of requests. -/
namespace Spdm
open Spec

variable {c : Cfg} {cr : Crypto} {slots : List (Option FilledSlot)} {es : List RspEvent} {r : Responder}

theorem add_longer {l : Log} {m : Bytes} (h : code m ≠ some 0x84) : l.text.length ≤ (l.add m).text.length := by
  unfold Log.add
  split <;> simp_all

theorem add_len {l : Log} {m : Bytes} (h : code m ≠ some 0x84) (h3 : code m ≠ some 0x03) : (l.add m).text.length = l.text.length + m.length := by
  unfold Log.add
  split <;> simp_all

/-- An answered request and its response take at least seven bytes of the transcript. -/
theorem reply_takes {env : Env} {prev : Option UInt8} {l : Log} {req out : Bytes} (h : Reply c cr env slots prev l req out) :
    (if code req = some 0x84 then 0 else l.text.length) + 7 ≤ ((l.add req).add out).text.length := by
  cases h with
  | version =>
    rw [if_pos (by rfl : code ([16, 132, 0, 0] ++ _) = some 132), add_len (by decide) (by decide)]
    simp only [List.length_cons, List.length_nil]
    omega
  | @capabilities _ m w tail hm hw =>
    rw [if_neg (by simp [code]), add_len (by simp [code]) (by simp [code])]
    have := add_longer (l := l) (m := [0x11, 0xE1] ++ Wire.getCapabilities m ++ tail) (by simp [code])
    simp only [List.length_append, List.length_cons, List.length_nil] at this ⊢
    omega
  | @algorithms _ m a bs tail hm ha =>
    rw [if_neg (by simp [code]), add_len (by simp [code]) (by simp [code])]
    have := add_longer (l := l) (m := [0x11, 0xE3] ++ bs ++ tail) (by simp [code])
    simp only [Wire.algorithms, List.length_append, List.length_cons, List.length_nil, le_length] at this ⊢
    omega
  | @digests _ mask _ tail hp ht hmask hfit =>
    rw [if_neg (by simp [code]), add_len (by simp [code]) (by simp [code]), add_len (by simp [code]) (by simp [code])]
    have := List.length_pos_iff.mpr ht
    simp only [List.length_append, List.length_cons, List.length_nil] at this ⊢
    omega
  | @certificate _ i _ offset length slot tail hp hs hfit =>
    rw [if_neg (by simp [code]), add_len (by simp [code]) (by simp [code])]
    have := add_longer (l := l) (m := [0x11, 0x82, i, 0] ++ le 2 offset.toNat ++ le 2 length.toNat ++ tail) (by simp [code])
    simp only [List.length_append, List.length_cons, List.length_nil, le_length] at this ⊢
    omega
  | @challenge _ i mask _ t nonce tail sig slot hp hn hs hfit hmask hds hss hd hd2 hsig hsl =>
    rw [if_neg (by simp [code]), add_plain (l := l) (m := [0x11, 0x83, i, Wire.hashType t] ++ nonce ++ tail) (k := 0x83) rfl (by decide)]
    have hc2 : Spec.code (authPart l i mask (cr.hash (UInt32.ofNat l.hash) (Wire.chain slot.certChain)) env.nonce ++ sig) = some 0x03 := rfl
    have htk : (authPart l i mask (cr.hash (UInt32.ofNat l.hash) (Wire.chain slot.certChain)) env.nonce ++ sig).take
        ((authPart l i mask (cr.hash (UInt32.ofNat l.hash) (Wire.chain slot.certChain)) env.nonce ++ sig).length - sizeFor signatureSizes l.asym) =
        authPart l i mask (cr.hash (UInt32.ofNat l.hash) (Wire.chain slot.certChain)) env.nonce := by
      rw [List.length_append, hsl, Nat.add_sub_cancel, List.take_left]
    simp only [Log.add, hc2, htk]
    simp only [authPart, List.length_append, List.length_cons, List.length_nil]
    omega

theorem answeredSince_snoc (es : List RspEvent) (env : Env) (req buf out : Bytes) :
    answeredSince (es ++ [.call env req buf (.ok ⟨out, none⟩)]) = if code req = some 0x84 then 1 else answeredSince es + 1 := by
  simp [answeredSince, exchanges_snoc, addExchange]

theorem rspMsgs_snoc' (es : List RspEvent) (env : Env) (req buf out : Bytes) :
    conversation (rspMsgs (es ++ [.call env req buf (.ok ⟨out, none⟩)])) = ((conversation (rspMsgs es)).add req).add out := by
  simp [rspMsgs, exchanges_snoc, addExchange, conversation]

section
variable (h0 : 0 < c.numSlots) (h8 : c.numSlots ≤ 8) (hl : slots.length = c.numSlots) (hn : ∀ a ∈ c.capabilities, ∃ k, (a, k) ∈ capabilityBits)
include h0 h8 hl hn

/-- A call either is answered, by a live responder, or leaves it dead. -/
theorem budget_inv (run : RspRun c cr slots es r) : 7 * answeredSince es ≤ (conversation (rspMsgs es)).text.length ∧ (conversation (rspMsgs es)).text.length ≤ c.transcriptSize := by
  induction run with
  | new => simp [answeredSince, exchanges, rspMsgs, conversation, Log.empty]
  | @call es r env req buf run ih =>
    rcases hx : (Responder.handleMsg c cr env req buf r).1 with ⟨out, _ | e⟩ | e | k
    · rcases ha : alive es with _ | _
      · obtain ⟨_, hd⟩ := run_dead hl h8 run ha
        exfalso
        rcases hd with hd | hd <;> simp [Responder.handleMsg, hd, Responder.handle, Responder.dispatch, M.die] at hx
      · obtain ⟨h1, h2, h3⟩ := (c80_answered_iff h0 h8 hl hn run ha env req buf out).1 hx
        rw [answeredSince_snoc, rspMsgs_snoc']
        have := reply_takes h1
        refine ⟨?_, h3⟩
        split at this
        · rename_i hk; rw [if_pos hk]; omega
        · rename_i hk; rw [if_neg hk]; omega
    all_goals simpa [answeredSince, rspMsgs, exchanges_snoc, addExchange] using ih
  | reset run ih => simp [answeredSince, exchanges_snoc, addExchange, rspMsgs, conversation, Log.empty]

/-- **C129.**  Between two GET_VERSIONs a responder answers at most a seventh as many requests as its transcript has bytes. -/
theorem c129_budget (run : RspRun c cr slots es r) : 7 * answeredSince es ≤ c.transcriptSize := by
  have := budget_inv h0 h8 hl hn run
  omega

omit h0 h8 hl hn in
/-- Without `reset` a dead responder stays dead. -/
theorem alive_of_more (calls : List RspCall) (hc : ∀ x ∈ calls, x ≠ .reset) (ha : alive (es ++ behaviour c cr r calls) = true) : alive es = true := by
  induction calls generalizing es r with
  | nil => simpa [behaviour] using ha
  | cons x xs ih =>
    have h1 : alive (es ++ [(x.run c cr r).1]) = true := ih (r := (x.run c cr r).2) (fun y hy => hc y (by simp [hy])) (by simpa [behaviour] using ha)
    rw [alive_snoc] at h1
    cases x with
    | reset => exact absurd rfl (hc .reset (by simp))
    | call env req buf =>
      simp only [RspCall.run] at h1
      rcases hx : (Responder.handleMsg c cr env req buf r).1 with ⟨out, _ | e⟩ | e | k <;> rw [hx] at h1 <;> simp [addAlive] at h1
      exact h1

omit h0 h8 hl hn in
theorem alive_call {env : Env} {req buf : Bytes} {res : Res Responder.Output} (h : alive (es ++ [.call env req buf res]) = true) : ∃ out, res = .ok ⟨out, none⟩ := by
  rw [alive_snoc] at h
  rcases res with ⟨out, _ | e⟩ | e | k <;> simp [addAlive] at h
  exact ⟨out, rfl⟩

omit h0 h8 hl hn in
theorem others_count (calls : List RspCall) (ho : ∀ x ∈ calls, OtherRequest x) (ha : alive (es ++ behaviour c cr r calls) = true) :
    answeredSince (es ++ behaviour c cr r calls) = answeredSince es + calls.length := by
  induction calls generalizing es r with
  | nil => simp [behaviour]
  | cons x xs ih =>
    have hs : es ++ behaviour c cr r (x :: xs) = es ++ [(x.run c cr r).1] ++ behaviour c cr (x.run c cr r).2 xs := by simp [behaviour]
    rw [hs] at ha ⊢
    have hxs : ∀ y ∈ xs, OtherRequest y := fun y hy => ho y (by simp [hy])
    rw [ih hxs ha]
    have h1 := alive_of_more xs (by intro y hy he; obtain ⟨_, _, _, h, _⟩ := hxs y hy; simp [he] at h) ha
    obtain ⟨env, req, buf, rfl, hk⟩ := ho x (by simp)
    simp only [RspCall.run] at h1 ⊢
    obtain ⟨out, hout⟩ := alive_call h1
    rw [hout, answeredSince_snoc, if_neg hk, List.length_cons]
    omega

/-- **C129.**  Whatever the requests and the buffers, a responder that is not sent GET_VERSION soon fails, and then stays failed until it is reset: after more than a seventh as many calls as
its transcript has bytes it is dead. -/
theorem c129_exhausted (run : RspRun c cr slots es r) (calls : List RspCall) (ho : ∀ x ∈ calls, OtherRequest x) (hmany : c.transcriptSize < 7 * calls.length) :
    alive (es ++ behaviour c cr r calls) = false := by
  rcases ha : alive (es ++ behaviour c cr r calls) with _ | _
  · rfl
  · have h1 := others_count calls ho ha
    have h2 := c129_budget h0 h8 hl hn (run.more calls)
    omega

omit h0 h8 hl hn in
theorem digests_again {env : Env} {prev : Option UInt8} {l : Log} {req out : Bytes} (h : Reply c cr env slots prev l req out) (hk : code req = some 0x81) (env' : Env) :
    (prev = some 0xE3 ∨ prev = some 0x81) ∧ Reply c cr env' slots prev l req out ∧ Reply c cr env' slots (some 0x81) ((l.add req).add out) req out ∧
      ((l.add req).add out).text.length = l.text.length + (req.length + out.length) := by
  cases h with
  | @digests p mask _ tail hp ht hmask hfit =>
    have e1 : (l.add ([0x11, 0x81] ++ tail)) = { l with text := l.text ++ ([0x11, 0x81] ++ tail) } := add_plain (k := 0x81) rfl (by decide)
    have e2 : ∀ l' : Log, l'.add ([0x11, 0x01, 0, mask] ++ digestsOf (cr.hash (UInt32.ofNat l.hash)) slots) =
        { l' with text := l'.text ++ ([0x11, 0x01, 0, mask] ++ digestsOf (cr.hash (UInt32.ofNat l.hash)) slots) } := fun l' => add_plain (k := 0x01) rfl (by decide)
    refine ⟨by rcases hp with rfl | rfl <;> simp, .digests hp ht hmask hfit, ?_, ?_⟩
    · rw [e1, e2]
      exact Reply.digests (l := { l with text := (l.text ++ ([0x11, 0x81] ++ tail)) ++ ([0x11, 0x01, 0, mask] ++ digestsOf (cr.hash (UInt32.ofNat l.hash)) slots) })
        (.inr rfl) ht hmask hfit
    · rw [e1, e2]
      simp only [List.length_append]
      omega
  | version => simp [code] at hk
  | capabilities => simp [code] at hk
  | algorithms => simp [code] at hk
  | certificate => simp [code] at hk
  | challenge => simp [code] at hk

/-- **C129.**  GET_DIGESTS can be repeated exactly as long as the transcript has room for requests and responses; with the next one the responder fails. -/
theorem c129_digests_exactly (run : RspRun c cr slots es r) (ha : alive es = true) {env : Env} {req out : Bytes}
    (hrep : Reply c cr env slots (lastReq es) (conversation (rspMsgs es)) req out) (hk : code req = some 0x81)
    (calls : List RspCall) (hc : ∀ x ∈ calls, ∃ env buf, x = .call env req buf ∧ out.length ≤ buf.length) :
    alive (es ++ behaviour c cr r calls) = true ↔ (conversation (rspMsgs es)).text.length + calls.length * (req.length + out.length) ≤ c.transcriptSize := by
  induction calls generalizing es r env with
  | nil => simpa [behaviour, ha] using (budget_inv h0 h8 hl hn run).2
  | cons x xs ih =>
    have hs : es ++ behaviour c cr r (x :: xs) = es ++ [(x.run c cr r).1] ++ behaviour c cr (x.run c cr r).2 xs := by simp [behaviour]
    have hxs : ∀ y ∈ xs, ∃ env buf, y = .call env req buf ∧ out.length ≤ buf.length := fun y hy => hc y (by simp [hy])
    rw [hs]
    obtain ⟨env1, buf, rfl, hb⟩ := hc x (by simp)
    obtain ⟨_, g2, g3, g4⟩ := digests_again hrep hk env1
    have run1 := RspRun.call env1 req buf run
    simp only [RspCall.run]
    have hlen : ((RspCall.call env1 req buf) :: xs).length * (req.length + out.length) = (req.length + out.length) + xs.length * (req.length + out.length) := by
      rw [List.length_cons, Nat.succ_mul]; omega
    rw [hlen]
    have hiff := c80_answered_iff h0 h8 hl hn run ha env1 req buf out
    rw [g4] at hiff
    rcases hx : (Responder.handleMsg c cr env1 req buf r).1 with ⟨o, _ | e⟩ | e | k
    case cons.ok.none =>
      have ho : o = out := ((c80_answered_iff h0 h8 hl hn run ha env1 req buf o).1 hx).1.unique h0 h8 g2
      subst ho
      rw [hx] at run1
      have := ih run1 (by simp [alive_snoc, addAlive, ha]) (env := env1) (by
        rw [rspMsgs_snoc']
        have : lastReq (es ++ [.call env1 req buf (.ok ⟨o, none⟩)]) = some 0x81 := by simp [lastReq, exchanges_snoc, addExchange, hk]
        rw [this]; exact g3) hxs
      rw [this, rspMsgs_snoc', g4]
      omega
    all_goals
      have hno : ¬ ((conversation (rspMsgs es)).text.length + (req.length + out.length) ≤ c.transcriptSize) := by
        intro h
        have := hiff.2 ⟨g2, hb, h⟩
        rw [hx] at this
        simp at this
      constructor
      · intro h
        have h1 := alive_of_more xs (by intro y hy he; obtain ⟨_, _, h, _⟩ := hxs y hy; simp [he] at h) h
        obtain ⟨out', h2⟩ := alive_call h1
        simp at h2
      · intro h
        omega

end

/-! ### The requester -/

section
variable {root : Bytes} {qs : List ReqEvent} {q : Requester} {crypto : Bool} {i : SpdmConfig} {nonceSize : Nat}

theorem path_after_request {l : Log} {out : Bytes} {n : Nat} (hk : requestCodes[n]? = code out) (hp : n < (path l).length) : n < (path (l.add out)).length := by
  have h3 : ∀ l : Log, 3 ≤ (path l).length := by intro l; unfold path; simp
  rcases n with _ | _ | _ | n
  · have := h3 (l.add out); omega
  · have := h3 (l.add out); omega
  · have := h3 (l.add out); omega
  · have : l.add out = { l with text := l.text ++ out } := by
      rcases n with _ | _ | _ | n
      · exact add_plain (k := 0x81) (by rw [← hk]; rfl) (by decide)
      · exact add_plain (k := 0x82) (by rw [← hk]; rfl) (by decide)
      · exact add_plain (k := 0x83) (by rw [← hk]; rfl) (by decide)
      · exfalso
        unfold path at hp
        revert hp
        split
        · split <;> simp
        · simp
    rw [this]
    exact hp

/-- **C129.**  A request (other than the first, GET_VERSION) can be written again and again exactly as long as the transcript has room for the copies. -/
theorem c129_requests_exactly (hv : ValidConfig crypto i) (hb : Built crypto i nonceSize c) (run : ReqRun c cr root qs q) (hf : failed qs = false) (hne : accepted qs ≠ [])
    (hp : (accepted qs).length < (path (conversation (reqMsgs qs))).length) (need : Nat) (hneed : (requestSizes nonceSize)[(accepted qs).length]? = some need)
    (calls : List ReqCall) (hc : ∀ x ∈ calls, ∃ env buf, x = .next env buf ∧ env.nonce.length = nonceSize ∧ need ≤ buf.length) :
    (∀ e ∈ reqBehaviour c cr q calls, Written e) ↔ (conversation (reqMsgs qs)).text.length + calls.length * need ≤ i.transcriptBufSize := by
  have hroom : (conversation (reqMsgs qs)).text.length ≤ i.transcriptBufSize := by
    obtain ⟨st, hl⟩ := req_live' run hf
    have := hl.wf
    rw [← hl.text, ← hb.transcriptSize, ← hl.cap]
    unfold Transcript.WF at this
    unfold Transcript.get
    rw [List.length_take]
    omega
  induction calls generalizing qs q with
  | nil => simpa [reqBehaviour] using hroom
  | cons x xs ih =>
    obtain ⟨env, buf, rfl, hn, hbuf⟩ := hc x (by simp)
    have hxs : ∀ x ∈ xs, ∃ env buf, x = .next env buf ∧ env.nonce.length = nonceSize ∧ need ≤ buf.length := fun y hy => hc y (by simp [hy])
    obtain ⟨need', hneed', hiff, hlen⟩ := c75_written_iff_fits hv hb run hf hp env hn buf
    obtain rfl : need' = need := by rw [hneed] at hneed'; simpa using hneed'.symm
    rw [if_neg hne] at hiff
    have hlen2 : (ReqCall.next env buf :: xs).length * need' = need' + xs.length * need' := by rw [List.length_cons, Nat.succ_mul]; omega
    rw [hlen2]
    simp only [reqBehaviour, ReqCall.run, List.forall_mem_cons]
    rcases hx : (Requester.nextRequest c env buf q).1 with out | e | k
    · obtain ⟨_, _, _, _, _, _, hcode, _, _⟩ := req_next run hx
      have run1 := ReqRun.next env buf run
      rw [hx] at run1
      have hacc : accepted (qs ++ [.next env buf (.ok out)]) = accepted qs := by simp [accepted]
      have hmsgs : conversation (reqMsgs (qs ++ [.next env buf (.ok out)])) = (conversation (reqMsgs qs)).add out := by
        simp [reqMsgs, ReqEvent.msg, conversation]
      have hk : code out ≠ some 0x84 ∧ code out ≠ some 0x03 := by
        have hpos : 0 < (accepted qs).length := List.length_pos_iff.mpr hne
        rw [← hcode]
        generalize (accepted qs).length = n at hpos
        rcases n with _ | _ | _ | _ | _ | _ | n <;> simp_all [requestCodes]
      have htext : ((conversation (reqMsgs qs)).add out).text.length = (conversation (reqMsgs qs)).text.length + need' := by
        rw [add_len hk.1 hk.2, hlen out hx]
      have hfit := (hiff.1 ⟨out, hx⟩).2
      have := ih run1 (by simpa [failed] using hf) (by rw [hacc]; exact hne) (by rw [hacc, hmsgs]; exact path_after_request hcode hp) (by rw [hacc]; exact hneed) hxs (by rw [hmsgs, htext]; exact hfit)
      rw [hmsgs, htext] at this
      constructor
      · rintro ⟨_, h⟩
        have := this.1 h
        omega
      · intro h
        exact ⟨⟨env, buf, out, rfl⟩, this.2 (by omega)⟩
    all_goals
      have hno : ¬ ((conversation (reqMsgs qs)).text.length + need' ≤ i.transcriptBufSize) := by
        intro h
        obtain ⟨o, ho⟩ := hiff.2 ⟨hbuf, h⟩
        rw [hx] at ho
        simp at ho
      constructor
      · rintro ⟨⟨_, _, _, h⟩, _⟩; simp at h
      · intro h; omega

end

/-! ### At work -/

/-- After GET_DIGESTS of the demo session 334 of the 512 bytes are left and every further GET_DIGESTS takes 40: eight more are answered, the ninth is fatal. -/
theorem demo_digests (k : Nat) : alive (demoEvents 4 ++ behaviour demoCfg demoCrypto (demoResponder 4) (List.replicate k (demoCall demoGetDigests))) = true ↔ k ≤ 8 := by
  have hok : (Responder.handleMsg demoCfg demoCrypto demoEnv demoGetDigests (zeros 200) (demoResponder 4)).1 = .ok ⟨demoReplies[3]?.getD [], none⟩ := by decide +kernel
  have hrep := (c80_answered_iff (by decide) (by decide) rfl demo_named (demo_run 4) (by decide +kernel) _ _ _ _).mp hok
  have := c129_digests_exactly (by decide) (by decide) rfl demo_named (demo_run 4) (by decide +kernel) hrep.1 rfl (List.replicate k (demoCall demoGetDigests)) (by
    intro x hx
    obtain ⟨_, rfl⟩ := List.mem_replicate.mp hx
    exact ⟨demoEnv, zeros 200, rfl, by decide +kernel⟩)
  rw [this]
  have h1 : (conversation (rspMsgs (demoEvents 4))).text.length = 178 := by decide +kernel
  have h2 : demoGetDigests.length + (demoReplies[3]?.getD []).length = 40 := by decide +kernel
  have h3 : demoCfg.transcriptSize = 512 := rfl
  rw [h1, h2, h3, List.length_replicate]
  omega

example : alive (demoEvents 4 ++ behaviour demoCfg demoCrypto (demoResponder 4) (List.replicate 8 (demoCall demoGetDigests))) = true ∧
    alive (demoEvents 4 ++ behaviour demoCfg demoCrypto (demoResponder 4) (List.replicate 9 (demoCall demoGetDigests))) = false ∧
    answeredSince (demoEvents 4 ++ behaviour demoCfg demoCrypto (demoResponder 4) (List.replicate 8 (demoCall demoGetDigests))) = 12 :=
  ⟨(demo_digests 8).mpr (by decide), by rcases h : alive (demoEvents 4 ++ behaviour demoCfg demoCrypto (demoResponder 4) (List.replicate 9 (demoCall demoGetDigests))) with _ | _
                                        · rfl
                                        · exact absurd ((demo_digests 9).mp h) (by decide), by decide +kernel⟩

/-- CHALLENGEs exhaust it too: seventy-four calls of any kind do. -/
example : alive (demoEvents 5 ++ behaviour demoCfg demoCrypto (demoResponder 5) (List.replicate 74 (demoCall demoChallenge))) = false :=
  c129_exhausted (by decide) (by decide) rfl demo_named (demo_run 5) _ (by
    intro x hx
    obtain ⟨_, rfl⟩ := List.mem_replicate.mp hx
    exact ⟨demoEnv, demoChallenge, zeros 200, rfl, by decide⟩) (by decide)

/-- A requester that has accepted VERSION writes GET_CAPABILITIES again and again, as often as its transcript allows. -/
example (k : Nat) : let calls : List ReqCall := demoReqCalls 2
    let q := reqAfter honestCfg honestCrypto (Requester.new honestCfg [1, 2, 3]) calls
    (∀ e ∈ reqBehaviour honestCfg honestCrypto q (List.replicate k (.next demoReqEnv (zeros 12))), Written e) ↔ 14 + k * 12 ≤ honestConfig.transcriptBufSize := by
  intro calls q
  have := c129_requests_exactly (cr := honestCrypto) honestConfig_valid honestConfig_built (ReqRun.of honestCfg honestCrypto [1, 2, 3] calls) (by decide +kernel) (by decide +kernel) (by decide +kernel) 12 (by decide +kernel)
    (List.replicate k (.next demoReqEnv (zeros 12))) (by
      intro x hx
      obtain ⟨_, rfl⟩ := List.mem_replicate.mp hx
      exact ⟨demoReqEnv, zeros 12, rfl, by decide, by decide⟩)
  have h1 : (conversation (reqMsgs (reqBehaviour honestCfg honestCrypto (Requester.new honestCfg [1, 2, 3]) calls))).text.length = 14 := by decide +kernel
  rw [h1, List.length_replicate] at this
  exact this

end Spdm

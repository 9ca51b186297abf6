import Verif.Spec.Shown
import Verif.Props.Accepts
import Verif.Props.Reply
import Verif.Lemmas.ReqCalls
import Verif.Lemmas.RspCalls
import Verif.Lemmas.Exact
import Verif.DemoSession
/-!
# C102: what `state()` shows
-/
namespace Spdm
open Spec

section
variable {c : Cfg} {cr : Crypto} {root : Bytes} {es : List ReqEvent} {r : Requester}

theorem says_of_parse {x : Ctx} (h0 : 0 < c.numSlots) (h8 : c.numSlots ≤ 8) {msg : Bytes} {t : MsgType} {m : AnyMsg} (ht : msg.take 2 = Wire.header t)
    (hp : AnyMsg.parse c x t (msg.drop 2) = .ok m) : Says c x msg m := by
  obtain ⟨hty, bs, rest, hb, hd⟩ := (c78_accepts_iff c x h0 h8 t _ m).mp hp
  refine ⟨bs, rest, ?_, hd⟩
  rw [hty, List.append_assoc, ← hb, ← ht, List.take_append_drop]

/-! ### The requester -/

/-- Requests that cannot have been sent yet. -/
def Early (c : Cfg) (es : List ReqEvent) : ReqState → Prop
  | .version => ∀ m ∈ reqMsgs es, code m ≠ some 0xE1 ∧ code m ≠ some 0xE3
  | .capabilities _ _ _ => ∀ m ∈ reqMsgs es, code m ≠ some 0xE3 ∧
      (code m = some 0xE1 → ∃ q, Requester.configToGetCapabilities c = .ok q ∧ m = Wire.header .getCapabilities ++ Wire.getCapabilities q)
  | _ => True

theorem reqMsgs_next (env : Env) (buf out : Bytes) : reqMsgs (es ++ [.next env buf (.ok out)]) = reqMsgs es ++ [out] := by simp [reqMsgs, ReqEvent.msg]
theorem reqMsgs_idle (env : Env) (buf : Bytes) {x : Res Bytes} (h : x.isOk = false) : reqMsgs (es ++ [.next env buf x]) = reqMsgs es := by
  cases x <;> simp [Res.isOk] at h <;> simp [reqMsgs, ReqEvent.msg]
theorem reqMsgs_recv (rsp : Bytes) (b : Bool) : reqMsgs (es ++ [.recv rsp (.ok b)]) = reqMsgs es ++ [rsp] := by simp [reqMsgs, ReqEvent.msg]
theorem accepted_next (env : Env) (buf : Bytes) (x : Res Bytes) : accepted (es ++ [.next env buf x]) = accepted es := by simp [accepted]
theorem accepted_recv (rsp : Bytes) (b : Bool) : accepted (es ++ [.recv rsp (.ok b)]) = accepted es ++ [rsp] := by simp [accepted]
theorem drawn_next (env : Env) (buf : Bytes) (x : Res Bytes) : drawn (es ++ [.next env buf x]) = some env.nonce := by simp [drawn, List.foldl_append]
theorem drawn_recv (rsp : Bytes) (b : Bool) : drawn (es ++ [.recv rsp (.ok b)]) = none := by simp [drawn, List.foldl_append]

theorem asked_more {es' : List ReqEvent} {out : Bytes} {ct : UInt8} {cap : UInt32} (he : reqMsgs es' = reqMsgs es ++ [out]) (hc : code out ≠ some 0xE1)
    (h : ReqShown.Asked es ct cap) : ReqShown.Asked es' ct cap := by
  obtain ⟨⟨m, h1, h2⟩, h3⟩ := h
  refine ⟨⟨m, by rw [he]; simp [h1], h2⟩, ?_⟩
  intro m hm hc'
  rw [he, List.mem_append, List.mem_singleton] at hm
  rcases hm with hm | rfl
  · exact h3 m hm hc'
  · exact absurd hc' hc

theorem asked_same {es' : List ReqEvent} {ct : UInt8} {cap : UInt32} (he : reqMsgs es' = reqMsgs es) (h : ReqShown.Asked es ct cap) : ReqShown.Asked es' ct cap := by
  unfold ReqShown.Asked at h ⊢
  rwa [he]

theorem none_more {ms : List Bytes} {out : Bytes} {P : Bytes → Prop} (h : ∀ m ∈ ms, P m) (ho : P out) : ∀ m ∈ ms ++ [out], P m := by
  intro m hm
  rw [List.mem_append, List.mem_singleton] at hm
  rcases hm with hm | rfl
  · exact h m hm
  · exact ho

theorem shown_send {env : Env} {st st' : ReqState} {tr tr' buf out : Bytes} (h : ReqShown c es st) (he : Early c es st) (hs : ReqSend c env st tr out tr' st') :
    ReqShown c (es ++ [.next env buf (.ok out)]) st' ∧ Early c (es ++ [.next env buf (.ok out)]) st' := by
  have hm := reqMsgs_next (es := es) env buf out
  have ha := accepted_next (es := es) env buf (.ok out)
  cases hs with
  | version =>
    refine ⟨by simpa [ReqShown, ha] using h, ?_⟩
    simp only [Early, hm]
    exact none_more he (by decide)
  | @capabilities v ct cap _ m hcfg =>
    obtain ⟨m0, h1, h2, h3⟩ := h
    have hc : code (Wire.header .getCapabilities ++ Wire.getCapabilities m) = some 0xE1 := code_header _ _
    refine ⟨⟨m0, by rw [ha]; exact h1, h2, .inr ⟨_, _, rfl, rfl, ⟨_, by rw [hm]; simp, hc⟩, ?_⟩⟩, ?_⟩
    · rw [hm]
      intro x hx hcx
      rw [List.mem_append, List.mem_singleton] at hx
      rcases hx with hx | rfl
      · obtain ⟨q, hq, rfl⟩ := (he x hx).2 hcx
        rw [hcfg] at hq
        cases hq
        rfl
      · rfl
    · simp only [Early, hm]
      exact none_more he ⟨by rw [hc]; decide, fun _ => ⟨m, hcfg, rfl⟩⟩
  | @algorithms v caps o _ m hcfg =>
    obtain ⟨m0, m1, h1, h2, ⟨h3, h4⟩, h5, h6⟩ := h
    have hc : code (Wire.header .negotiateAlgorithms ++ Wire.negotiateAlgorithms m) = some 0xE3 := code_header _ _
    refine ⟨⟨m0, m1, by rw [ha]; exact h1, h2, ⟨asked_more hm (by rw [hc]; decide) h3, h4⟩, ?_, ?_⟩, trivial⟩
    · intro q hq
      cases hq
      exact hcfg
    · rw [hm]
      intro x hx hcx
      rw [List.mem_append, List.mem_singleton] at hx
      rcases hx with hx | rfl
      · obtain ⟨q, rfl, hq⟩ := h6 x hx hcx
        have := h5 q rfl
        rw [hcfg] at this
        cases this
        exact ⟨_, rfl, hq⟩
      · exact ⟨m, rfl, rfl⟩
  | digests =>
    obtain ⟨m0, m1, m2, h1, h2, ⟨h3, h4⟩, h5⟩ := h
    exact ⟨⟨m0, m1, m2, by rw [ha]; exact h1, h2, ⟨asked_more hm (by decide) h3, h4⟩, h5⟩, trivial⟩
  | certificate hz =>
    obtain ⟨m0, m1, m2, m3, h1, h2, ⟨h3, h4⟩, h5, h6⟩ := h
    refine ⟨⟨m0, m1, m2, m3, by rw [ha]; exact h1, h2, ⟨asked_more hm ?_ h3, h4⟩, h5, h6⟩, trivial⟩
    rw [code_header]; decide
  | challenge =>
    obtain ⟨m0, m1, m2, m3, m4, h1, h2, ⟨h3, h4⟩, h5, h6, h7⟩ := h
    refine ⟨⟨m0, m1, m2, m3, m4, by rw [ha]; exact h1, h2, ⟨asked_more hm ?_ h3, h4⟩, h5, h6, ?_⟩, trivial⟩
    · rw [code_header]; decide
    · rw [drawn_next]

theorem shown_idle {env : Env} {st st' : ReqState} {buf : Bytes} {x : Res Bytes} (hx : x.isOk = false) (h : ReqShown c es st) (he : Early c es st) (hs : Idle c env st st')
    (hch : ∀ s, st = .challenge s → st' = .challenge { s with nonce := some env.nonce }) :
    ReqShown c (es ++ [.next env buf x]) st' ∧ Early c (es ++ [.next env buf x]) st' := by
  have hm := reqMsgs_idle (es := es) env buf hx
  have ha := accepted_next (es := es) env buf x
  have asked : ∀ {ct cap}, ReqShown.Asked es ct cap → ReqShown.Asked (es ++ [.next env buf x]) ct cap := fun h => asked_same hm h
  cases hs with
  | same =>
    constructor
    · cases st with
      | version => simpa [ReqShown, ha] using h
      | capabilities v ct cap =>
        obtain ⟨m0, h1, h2, h3⟩ := h
        refine ⟨m0, by rw [ha]; exact h1, h2, ?_⟩
        rcases h3 with ⟨h3, h4, h5⟩ | ⟨a, f, h3, h4, h5⟩
        · exact .inl ⟨h3, h4, by rw [hm]; exact h5⟩
        · exact .inr ⟨a, f, h3, h4, asked h5⟩
      | algorithms v caps o =>
        obtain ⟨m0, m1, h1, h2, ⟨h3, h4⟩, h5, h6⟩ := h
        exact ⟨m0, m1, by rw [ha]; exact h1, h2, ⟨asked h3, h4⟩, h5, by rw [hm]; exact h6⟩
      | idAuth v caps a o =>
        cases o with
        | none =>
          obtain ⟨m0, m1, m2, h1, h2, ⟨h3, h4⟩, h5⟩ := h
          exact ⟨m0, m1, m2, by rw [ha]; exact h1, h2, ⟨asked h3, h4⟩, h5⟩
        | some d =>
          obtain ⟨m0, m1, m2, m3, h1, h2, ⟨h3, h4⟩, h5, h6⟩ := h
          exact ⟨m0, m1, m2, m3, by rw [ha]; exact h1, h2, ⟨asked h3, h4⟩, h5, h6⟩
      | challenge s =>
        have hn : s.nonce = some env.nonce := by
          have := hch s rfl
          simp only [ReqState.challenge.injEq] at this
          exact congrArg ReqChallenge.nonce this
        obtain ⟨m0, m1, m2, m3, m4, h1, h2, ⟨h3, h4⟩, h5, h6, h7⟩ := h
        exact ⟨m0, m1, m2, m3, m4, by rw [ha]; exact h1, h2, ⟨asked h3, h4⟩, h5, h6, by rw [drawn_next, hn]⟩
      | newSession =>
        simp only [ReqShown, ha, hm]
        exact h
      | error => exact h
    · cases st <;> simp only [Early, hm] <;> exact he
  | algorithms hcfg =>
    obtain ⟨m0, m1, h1, h2, ⟨h3, h4⟩, h5, h6⟩ := h
    refine ⟨⟨m0, m1, by rw [ha]; exact h1, h2, ⟨asked h3, h4⟩, ?_, ?_⟩, trivial⟩
    · intro q hq
      cases hq
      exact hcfg
    · rw [hm]
      intro y hy hcy
      obtain ⟨q, rfl, hq⟩ := h6 y hy hcy
      have := h5 q rfl
      rw [hcfg] at this
      cases this
      exact ⟨_, rfl, hq⟩
  | challenge =>
    obtain ⟨m0, m1, m2, m3, m4, h1, h2, ⟨h3, h4⟩, h5, h6, h7⟩ := h
    exact ⟨⟨m0, m1, m2, m3, m4, by rw [ha]; exact h1, h2, ⟨asked h3, h4⟩, h5, h6, by rw [drawn_next]⟩, trivial⟩

theorem challenge_drawn {env : Env} {buf : Bytes} {s : ReqChallenge} (hs : r.state = some (.challenge s)) :
    (Requester.nextRequest c env buf r).2.state = some (.challenge { s with nonce := some env.nonce }) := by
  simp only [Requester.nextRequest, hs, Requester.writeReq]
  rw [M.run_bind_ok (m := Requester.setState _) (a := ()) (s' := { r with state := some (.challenge { s with nonce := some env.nonce }) }) rfl]
  refine (?_ : KeepsState _) { r with state := some (.challenge { s with nonce := some env.nonce }) }
  exact .bind (.lift _) fun _ => .bind (.extend _) fun _ => .pure _

theorem shown_recv (h0 : 0 < c.numSlots) (h8 : c.numSlots ≤ 8) {st st' : ReqState} {tr tr' rsp : Bytes} {b : Bool} (h : ReqShown c es st) (he : Early c es st)
    (hs : ReqRecv c cr root st tr rsp tr' st') (hdone : st' = .newSession → ReqShown c (es ++ [.recv rsp (.ok b)]) .newSession) :
    ReqShown c (es ++ [.recv rsp (.ok b)]) st' ∧ Early c (es ++ [.recv rsp (.ok b)]) st' := by
  have hm := reqMsgs_recv (es := es) rsp b
  have ha := accepted_recv (es := es) rsp b
  cases hs with
  | @version _ _ v e h3 hh hp hv he' =>
    have hc : code rsp = some 0x04 := code_of_take hh
    refine ⟨⟨rsp, by rw [ha, show accepted es = [] from h]; rfl, ⟨v, says_of_parse h0 h8 hh (by simp [AnyMsg.parse, hp, Res.map]), he'⟩, .inl ⟨rfl, rfl, ?_⟩⟩, ?_⟩
    · rw [hm]
      exact none_more (fun m hm => (he m hm).1) (by rw [hc]; decide)
    · simp only [Early, hm]
      exact none_more (fun m hm => ⟨(he m hm).2, fun h => absurd h (he m hm).1⟩) ⟨by rw [hc]; decide, fun h => by rw [hc] at h; simp at h⟩
  | @capabilities _ _ tail v ct cap m hr hmb =>
    have hc : code rsp = some 0x61 := by rw [hr, List.append_assoc]; exact code_header _ _
    obtain ⟨m0, h1, h2, h3⟩ := h
    rcases h3 with ⟨h3, -⟩ | ⟨a, f, h3, h4, h5⟩
    · simp at h3
    · cases h3
      cases h4
      refine ⟨⟨m0, rsp, by rw [ha, h1]; rfl, h2, ⟨asked_more hm (by rw [hc]; decide) h5, ⟨_, tail, hr, hmb, rfl⟩⟩, by simp, ?_⟩, trivial⟩
      rw [hm]
      intro x hx hcx
      rw [List.mem_append, List.mem_singleton] at hx
      rcases hx with hx | rfl
      · exact absurd hcx (he x hx).1
      · rw [hc] at hcx; simp at hcx
  | @algorithms _ _ v caps m a h3 hh hp hwf hl hv =>
    by_cases hb : Requester.bothHave caps ReqFlags.certCap RspFlags.certCap = true
    · rw [if_pos hb]
      have hc : code rsp = some 0x63 := code_of_take hh
      obtain ⟨m0, m1, h1, h2, ⟨h3, h4⟩, h5, h6⟩ := h
      exact ⟨⟨m0, m1, rsp, by rw [ha, h1]; rfl, h2, ⟨asked_more hm (by rw [hc]; decide) h3, h4⟩, says_of_parse h0 h8 hh (by simp [AnyMsg.parse, hp, Res.map])⟩, trivial⟩
    · rw [if_neg hb] at hdone ⊢
      exact ⟨hdone rfl, trivial⟩
  | @digests _ _ v caps a d size h3 hh hz hp =>
    have hc : code rsp = some 0x01 := code_of_take hh
    obtain ⟨m0, m1, m2, h1, h2, ⟨h3, h4⟩, h5⟩ := h
    refine ⟨⟨m0, m1, m2, rsp, by rw [ha, h1]; rfl, h2, ⟨asked_more hm (by rw [hc]; decide) h3, h4⟩, h5, ?_⟩, trivial⟩
    rw [getDigestSize_sizeFor hz]
    exact says_of_parse h0 h8 hh (by simp [AnyMsg.parse, hp, Res.map])
  | @certificate _ _ tail v caps a d m hr hmw =>
    by_cases hb : Requester.bothHave caps ReqFlags.chalCap RspFlags.chalCap = true
    · rw [if_pos hb]
      have hc : code rsp = some 0x02 := by rw [hr, List.append_assoc]; exact code_header _ _
      obtain ⟨m0, m1, m2, m3, h1, h2, ⟨h3, h4⟩, h5, h6⟩ := h
      exact ⟨⟨m0, m1, m2, m3, rsp, by rw [ha, h1]; rfl, h2, ⟨asked_more hm (by rw [hc]; decide) h3, h4⟩, h5, ⟨m, ⟨_, tail, hr, hmw, rfl⟩, rfl, rfl, rfl⟩, by rw [drawn_recv]⟩, trivial⟩
    · rw [if_neg hb] at hdone ⊢
      exact ⟨hdone rfl, trivial⟩
  | challenge => exact ⟨hdone rfl, trivial⟩

theorem shown_inv (h0 : 0 < c.numSlots) (h8 : c.numSlots ≤ 8) (run : ReqRun c cr root es r) (hf : failed es = false) :
    ∃ st, r.state = some st ∧ ReqShown c es st ∧ Early c es st := by
  induction run with
  | new => exact ⟨.version, rfl, rfl, by simp [Early, reqMsgs]⟩
  | @next es r env buf run ih =>
    have hf0 : failed es = false := by
      rw [failed_append] at hf
      simp only [Bool.or_eq_false_iff] at hf
      exact hf.1
    obtain ⟨st, hs, h, he⟩ := ih hf0
    obtain ⟨st1, hl⟩ := req_live' run hf0
    have hch := fun s (e : st = .challenge s) => challenge_drawn (c := c) (env := env) (buf := buf) (r := r) (hs.trans (congrArg some e))
    rcases hp : Requester.nextRequest c env buf r with ⟨x, r'⟩
    rw [hp] at hch
    obtain ⟨-, ⟨out, st', rfl, -, hs', hsend⟩ | ⟨hx, st', hs', hidle, -⟩⟩ := next_refines hs hl.wf hp
    · exact ⟨st', hs', shown_send h he hsend⟩
    · exact ⟨st', hs', shown_idle hx h he hidle fun s e => Option.some.inj (hs'.symm.trans (hch s e))⟩
  | @recv es r rsp run ih =>
    have hf0 : failed es = false := by
      rw [failed_append] at hf
      simp only [Bool.or_eq_false_iff] at hf
      exact hf.1
    obtain ⟨st, hs, h, he⟩ := ih hf0
    have hok : ∃ b, (Requester.handleMsg c cr rsp r).1 = .ok b := by
      rw [failed_append] at hf
      rcases hx : (Requester.handleMsg c cr rsp r).1 with b | e | k
      · exact ⟨b, rfl⟩
      all_goals
        rw [hx] at hf
        simp [failed] at hf
    obtain ⟨b, hb⟩ := hok
    obtain ⟨-, st1, st', hl, -, hrecv, hl'⟩ := req_recv run hb
    have : st1 = st := Option.some.inj (hl.state.symm.trans hs)
    subst this
    rw [hb]
    refine ⟨st', hl'.state, shown_recv h0 h8 h he hrecv ?_⟩
    rintro rfl
    have hmat := hl'.mat
    simp only [ReqShown]
    revert hmat
    generalize accepted (es ++ [.recv rsp (.ok b)]) = acc
    generalize conversation (reqMsgs (es ++ [.recv rsp (.ok b)])) = l
    intro hmat
    cases hmat with
    | done h => exact h

/-- **C102, requester.**  As long as no response was refused, `state()` shows a state in which every field is what the messages of the session said: the version is the
highest one common to the accepted VERSION message, the requester's capabilities those of the GET_CAPABILITIES it produced, the responder's those of the accepted CAPABILITIES
message, the algorithms those of the accepted ALGORITHMS message, the digests those of the accepted DIGESTS message, slot, chain and chain size those of the accepted
CERTIFICATE message and the nonce the one drawn by the last `next_request`. -/
theorem c102_requester (c : Cfg) (cr : Crypto) (h0 : 0 < c.numSlots) (h8 : c.numSlots ≤ 8) (root : Bytes) (es : List ReqEvent) (r : Requester)
    (run : ReqRun c cr root es r) (hf : failed es = false) : ∃ st, r.state = some st ∧ ReqShown c es st := by
  obtain ⟨st, h1, h2, -⟩ := shown_inv h0 h8 run hf
  exact ⟨st, h1, h2⟩

end

/-! ### The responder -/

section
variable {c : Cfg} {cr : Crypto} {slots : List (Option FilledSlot)} {es : List RspEvent} {r : Responder}

theorem since_pair (ms : List Bytes) {req out : Bytes} {k k' : UInt8} (h : code req = some k) (hk : k ≠ 0x84) (h' : code out = some k') (hk' : k' ≠ 0x84) :
    sinceVersion (ms ++ [req, out]) = sinceVersion ms ++ [req, out] := by
  rw [show ms ++ [req, out] = (ms ++ [req]) ++ [out] by simp, sinceVersion_snoc, sinceVersion_snoc, if_neg (by rw [h']; simpa using hk'), if_neg (by rw [h]; simpa using hk)]
  simp

theorem shown_step (h0 : 0 < c.numSlots) (h8 : c.numSlots ≤ 8) {env : Env} {st st' : RspState} {ms : List Bytes} {tr tr' req out : Bytes} {sg : List (Nat × Bytes)}
    (h : RspShown c (sinceVersion ms) st) (hs : Step c cr env slots st tr req out tr' sg st') : RspShown c (sinceVersion (ms ++ [req, out])) st' := by
  cases hs with
  | @getVersion _ _ _ tail live hreq =>
    have hc : code req = some 0x84 := by rw [hreq, List.append_assoc]; exact code_header _ _
    have hc' : code (Wire.header .version ++ Wire.version ⟨2, supportedVersions⟩) = some 0x04 := code_header _ _
    rw [show ms ++ [req, Wire.header .version ++ Wire.version ⟨2, supportedVersions⟩] = (ms ++ [req]) ++ [Wire.header .version ++ Wire.version ⟨2, supportedVersions⟩] by simp,
      sinceVersion_snoc, sinceVersion_snoc, if_neg (by rw [hc']; decide), if_pos hc]
    exact ⟨_, _, rfl⟩
  | @getCapabilities _ _ tail m a hreq hm hr =>
    have hc : code req = some 0xE1 := by rw [hreq, List.append_assoc]; exact code_header _ _
    rw [since_pair ms hc (by decide) (k' := 0x61) (code_header _ _) (by decide)]
    obtain ⟨q, p, h⟩ := h
    exact ⟨q, p, req, _, by rw [h]; rfl, ⟨_, tail, hreq, hm, rfl⟩, rfl⟩
  | @negotiate caps _ _ m a hreq hp hm ha =>
    have hc : code req = some 0xE3 := code_of_take hreq
    rw [since_pair ms hc (by decide) (k' := 0x63) (code_header _ _) (by decide)]
    obtain ⟨q, p, m1, m2, h, h'⟩ := h
    exact ⟨q, p, m1, m2, req, [], by rw [h]; rfl, h', ⟨m, says_of_parse h0 h8 hreq (by simp [AnyMsg.parse, hp, Res.map]), ha⟩, by simp⟩
  | @getDigests n _ _ d h3 hreq hd =>
    have hc : code req = some 0x81 := code_of_take hreq
    have hc' : code (Wire.header .digests ++ Wire.digests d) = some 0x01 := code_header _ _
    rw [since_pair ms hc (by decide) hc' (by decide)]
    obtain ⟨q, p, m1, m2, m3, more, h, h1, h2, h3⟩ := h
    refine ⟨q, p, m1, m2, m3, more ++ [req, _], by rw [h, List.append_assoc], h1, h2, ?_⟩
    intro m hm
    simp only [List.mem_append, List.mem_cons, List.not_mem_nil, or_false] at hm
    rcases hm with hm | rfl | rfl
    · exact h3 m hm
    · exact .inl hc
    · exact .inr hc'
  | @getCertificate n _ _ tail chain m hreq hs hcc =>
    have hc : code req = some 0x82 := by rw [hreq, List.append_assoc]; exact code_header _ _
    rw [since_pair ms hc (by decide) (k' := 0x02) (code_header _ _) (by decide)]
    obtain ⟨q, p, m1, m2, m3, more, h, h1, h2, h3⟩ := h
    exact ⟨q, p, m1, m2, m3, more ++ [req, _], by rw [h, List.append_assoc], h1, h2, req, by simp, hc⟩
  | @challenge n _ _ tail sig auth m slot mask ds ss hreq hn hds hss hs hlt hch hmask ring hauth hsig hsl =>
    have hc : code req = some 0x83 := by rw [hreq, List.append_assoc]; exact code_header _ _
    have hc' : code (auth ++ sig) = some 0x03 := by rw [hauth, authMsg, List.append_assoc]; exact code_header _ _
    rw [since_pair ms hc (by decide) hc' (by decide)]
    obtain ⟨q, p, m1, m2, m3, more, h, h1, h2, x, hx, hcx⟩ := h
    exact ⟨q, p, m1, m2, m3, more ++ [req, _], by rw [h, List.append_assoc], h1, h2, x, by simp [hx], hcx⟩

/-- **C102, responder.**  As long as no request was refused since creation or the last reset, `state()` shows a state in which every field is what the messages exchanged since
the last GET_VERSION said: the requester's capabilities those of its GET_CAPABILITIES, the responder's those it sent, the algorithms exactly those of the ALGORITHMS message it
sent, a choice among those of the NEGOTIATE_ALGORITHMS message; and the state itself is determined by how far the exchange got. -/
theorem c102_responder (c : Cfg) (cr : Crypto) (h0 : 0 < c.numSlots) (h8 : c.numSlots ≤ 8) (slots : List (Option FilledSlot)) (hl : slots.length = c.numSlots)
    (es : List RspEvent) (r : Responder) (run : RspRun c cr slots es r) (ha : alive es = true) :
    ∃ st, r.state = some st ∧ RspShown c (sinceVersion (rspMsgs es)) st := by
  induction run with
  | new => exact ⟨.version, rfl, rfl⟩
  | @call es r env req buf run ih =>
    have hok : alive es = true ∧ ∃ out, (Responder.handleMsg c cr env req buf r).1 = .ok ⟨out, none⟩ := by
      rw [alive_snoc] at ha
      rcases hx : (Responder.handleMsg c cr env req buf r).1 with ⟨out, _ | e⟩ | e | k <;> rw [hx] at ha <;> simp [addAlive] at ha
      exact ⟨ha, out, rfl⟩
    obtain ⟨ha', out, hout⟩ := hok
    obtain ⟨st, hs, h⟩ := ih ha'
    obtain ⟨st1, st', sg, hlive, hs', step, -, -⟩ := run_step hl h8 run ha' hout
    have : st1 = st := Option.some.inj (hlive.state.symm.trans hs)
    subst this
    refine ⟨st', hs', ?_⟩
    rw [hout, rspMsgs_ok]
    exact shown_step h0 h8 h step
  | @reset es r run ih =>
    refine ⟨.version, rfl, ?_⟩
    simp [rspMsgs, exchanges_snoc, addExchange, sinceVersion, RspShown]

theorem says_one {x : Ctx} (h0 : 0 < c.numSlots) (h8 : c.numSlots ≤ 8) {msg : Bytes} {m m' : AnyMsg} (ht : m.ty = m'.ty) (h : Says c x msg m) (h' : Says c x msg m') : m = m' := by
  obtain ⟨bs, tail, e, hd⟩ := h
  obtain ⟨bs', tail', e', hd'⟩ := h'
  rw [e, ht, List.append_assoc, List.append_assoc] at e'
  exact c78_one_meaning c x h0 h8 m m' ht bs bs' tail tail' (List.append_cancel_left e') hd hd'

theorem capabilities_inj {m m' : Capabilities} (h : Wire.capabilities m = Wire.capabilities m') : m = m' := by
  obtain ⟨a, f⟩ := m
  obtain ⟨a', f'⟩ := m'
  simp only [Wire.capabilities, List.append_assoc] at h
  replace h := List.append_cancel_left h
  simp only [List.cons_append, List.nil_append, List.cons.injEq] at h
  obtain ⟨rfl, h⟩ := h
  replace h := List.append_cancel_left h
  have := congrArg leVal h
  rw [leVal_four _ f.toNat_lt, leVal_four _ f'.toNat_lt] at this
  rw [UInt32.toNat_inj.mp this]

theorem shown_caps_one (h0 : 0 < c.numSlots) (h8 : c.numSlots ≤ 8) {m1 m2 : Bytes} {a b : Caps} (ha : RspShown.CapsShown c m1 m2 a) (hb : RspShown.CapsShown c m1 m2 b) : a = b := by
  have h1 := says_one h0 h8 (by rfl) ha.1 hb.1
  have h2 := capabilities_inj (List.append_cancel_left (ha.2.symm.trans hb.2))
  obtain ⟨q1, q2, p1, p2⟩ := a
  obtain ⟨q1', q2', p1', p2'⟩ := b
  simp at h1 h2
  simp [h1, h2]

theorem shown_algs_one (h0 : 0 < c.numSlots) (h8 : c.numSlots ≤ 8) {m3 : Bytes} {a b : Algorithms} (ha : RspShown.AlgorithmsShown c m3 a) (hb : RspShown.AlgorithmsShown c m3 b) :
    a = b := by
  obtain ⟨q, h1, h2⟩ := ha
  obtain ⟨q', h1', h2'⟩ := hb
  have := says_one h0 h8 (by rfl) h1 h1'
  simp at this
  subst this
  exact answers_unique h2 h2'

set_option linter.unusedTactic false in
/-- **C102, responder, determined.**  Two responders of the same configuration, with whatever slots, random numbers and histories, that exchanged the same messages since the last
GET_VERSION show the same. -/
theorem c102_responder_determined (c : Cfg) (cr cr' : Crypto) (h0 : 0 < c.numSlots) (h8 : c.numSlots ≤ 8) (slots slots' : List (Option FilledSlot))
    (hl : slots.length = c.numSlots) (hl' : slots'.length = c.numSlots) (es es' : List RspEvent) (r r' : Responder) (run : RspRun c cr slots es r)
    (run' : RspRun c cr' slots' es' r') (ha : alive es = true) (ha' : alive es' = true) (hm : sinceVersion (rspMsgs es) = sinceVersion (rspMsgs es')) :
    r.state = r'.state := by
  obtain ⟨st, hs, h⟩ := c102_responder c cr h0 h8 slots hl es r run ha
  obtain ⟨st', hs', h'⟩ := c102_responder c cr' h0 h8 slots' hl' es' r' run' ha'
  rw [hs, hs']
  rw [← hm] at h'
  generalize sinceVersion (rspMsgs es) = ms at h h'
  congr 1
  have far : ∀ {q p m1 m2 m3 m4 q' p' m1' m2' m3' m4' : Bytes} {more more' : List Bytes}, ms = [q, p, m1, m2, m3, m4] ++ more → ms = [q', p', m1', m2', m3', m4'] ++ more' →
      m1 = m1' ∧ m2 = m2' ∧ m3 = m3' ∧ more = more' := by
    intro _ _ _ _ _ _ _ _ _ _ _ _ _ _ e e'
    rw [e] at e'
    simp at e'
    simp [e']
  cases st <;> cases st' <;> simp only [RspShown] at h h'
  all_goals try rfl
  -- messages of different number
  all_goals try (first
    | (obtain ⟨_, _, e⟩ := h; rw [e] at h'; simp at h'; done)
    | (obtain ⟨_, _, e⟩ := h'; rw [e] at h; simp at h; done)
    | (obtain ⟨_, _, _, _, e, _⟩ := h; rw [e] at h'; simp at h'; done)
    | (obtain ⟨_, _, _, _, e, _⟩ := h'; rw [e] at h; simp at h; done)
    | (rw [h] at h'; simp at h'; done)
    | (rw [h'] at h; simp at h; done))
  · obtain ⟨q, p, m1, m2, e, hc⟩ := h
    obtain ⟨q', p', m1', m2', e', hc'⟩ := h'
    rw [e] at e'
    simp only [List.cons.injEq, and_true] at e'
    obtain ⟨-, -, rfl, rfl⟩ := e'
    rw [shown_caps_one h0 h8 hc hc']
  · rename_i n n'
    obtain ⟨q, p, m1, m2, m3, more, e, hc, hq, hx⟩ := h
    obtain ⟨q', p', m1', m2', m3', more', e', hc', hq', hx'⟩ := h'
    obtain ⟨rfl, rfl, rfl, rfl⟩ := far e e'
    have h1 := shown_caps_one h0 h8 hc hc'
    have h2 := shown_algs_one h0 h8 hq hq'
    obtain ⟨n1, n2⟩ := n
    obtain ⟨n1', n2'⟩ := n'
    simp at h1 h2
    rw [h1, h2]
  · obtain ⟨q, p, m1, m2, m3, more, e, hc, hq, hx⟩ := h
    obtain ⟨q', p', m1', m2', m3', more', e', hc', hq', x, hx', hx2⟩ := h'
    obtain ⟨rfl, rfl, rfl, rfl⟩ := far e e'
    rcases hx x hx' with h | h <;> rw [h] at hx2 <;> simp at hx2
  · obtain ⟨q, p, m1, m2, m3, more, e, hc, hq, x, hx', hx2⟩ := h
    obtain ⟨q', p', m1', m2', m3', more', e', hc', hq', hx⟩ := h'
    obtain ⟨rfl, rfl, rfl, rfl⟩ := far e e'
    rcases hx x hx' with h | h <;> rw [h] at hx2 <;> simp at hx2
  · rename_i n n'
    obtain ⟨q, p, m1, m2, m3, more, e, hc, hq, hx⟩ := h
    obtain ⟨q', p', m1', m2', m3', more', e', hc', hq', hx'⟩ := h'
    obtain ⟨rfl, rfl, rfl, rfl⟩ := far e e'
    have h1 := shown_caps_one h0 h8 hc hc'
    have h2 := shown_algs_one h0 h8 hq hq'
    obtain ⟨n1, n2⟩ := n
    obtain ⟨n1', n2'⟩ := n'
    simp at h1 h2
    rw [h1, h2]

/-- Non-vacuity: what the two endpoints of the demonstration session show. -/
example : 0 < demoCfg.numSlots ∧ demoCfg.numSlots ≤ 8 ∧ demoSlots.length = demoCfg.numSlots ∧ alive (demoEvents 6) = true ∧ failed (demoReqEvents 11) = false ∧
    (demoResponder 6).state = some (.challenge ⟨⟨12, 6, 12, 6⟩, ⟨1, 1, 0x10, 1, 4, [⟨.dhe, 2⟩, ⟨.aead, 2⟩, ⟨.reqBaseAsym, 0x10⟩, ⟨.keySchedule, 1⟩]⟩⟩) := by
  decide +kernel

/-- A `next_request` that failed for lack of room still changes the nonce shown: it is not the one of any message. -/
example : failed (reqBehaviour demoCfg demoCrypto (Requester.new demoCfg [1, 2, 3]) (demoReqCalls 11 ++ [.next ⟨[9, 9, 9, 9], 0⟩ []])) = false ∧
    drawn (reqBehaviour demoCfg demoCrypto (Requester.new demoCfg [1, 2, 3]) (demoReqCalls 11 ++ [.next ⟨[9, 9, 9, 9], 0⟩ []])) = some [9, 9, 9, 9] ∧
    ((reqAfter demoCfg demoCrypto (Requester.new demoCfg [1, 2, 3]) (demoReqCalls 11 ++ [.next ⟨[9, 9, 9, 9], 0⟩ []])).state.bind fun st => match st with
      | .challenge s => some (s.nonce, s.certSlot, s.version) | _ => none) = some (some [9, 9, 9, 9], 0, ⟨1, 1, 0, 0⟩) := by
  decide +kernel

end

end Spdm

import Verif.Lemmas.RspRun
import Verif.Spec.Replay
/-! Responders that no user can tell apart. -/
namespace Spdm
open Spec

structure RSim (r r0 : Responder) : Prop where
  slots : r.slots = r0.slots
  state : r.state = r0.state
  cap : r.transcript.buf.length = r0.transcript.buf.length
  tr : r.state ≠ none → r.state ≠ some .error → TSim r.transcript r0.transcript

theorem rsim_call {c : Cfg} {cr : Crypto} {env : Env} {req buf : Bytes} {r r0 : Responder} (h : RSim r r0) :
    (Responder.handleMsg c cr env req buf r).1 = (Responder.handleMsg c cr env req buf r0).1 ∧
    RSim (Responder.handleMsg c cr env req buf r).2 (Responder.handleMsg c cr env req buf r0).2 := by
  obtain ⟨s, t, st, sg⟩ := r
  obtain ⟨s0, t0, st0, sg0⟩ := r0
  obtain ⟨h1, h2, h3, h4⟩ := h
  simp only at h1 h2 h3 h4
  subst h1 h2
  rcases st with _ | st
  · exact ⟨rfl, rfl, rfl, h3, by simp [Responder.handleMsg]⟩
  · by_cases he : st = .error
    · subst he
      exact ⟨rfl, rfl, rfl, h3, by simp [Responder.handleMsg, Responder.handle, Responder.dispatch]⟩
    · have ht := h4 (by simp) (by simpa using he)
      obtain ⟨g1, g2⟩ := handle_resp c cr env s st req ⟨buf, t, sg⟩ ⟨buf, t0, sg0⟩ ⟨rfl, ht⟩
      simp only [Responder.handleMsg]
      rcases hx : Responder.handle c cr env s st req ⟨buf, t, sg⟩ with ⟨x, h'⟩
      rcases hy : Responder.handle c cr env s st req ⟨buf, t0, sg0⟩ with ⟨y, h0'⟩
      rw [hx, hy] at g1 g2
      simp only at g1 g2
      subst g1
      rcases x with ⟨o, st'⟩ | e | k
      · exact ⟨rfl, rfl, rfl, g2.tr.cap, fun _ _ => g2.tr⟩
      · exact ⟨rfl, rfl, rfl, g2.tr.cap, fun _ _ => g2.tr⟩
      · exact ⟨rfl, rfl, rfl, g2.tr.cap, fun _ _ => g2.tr⟩

theorem rsim_reset {r r0 : Responder} (h : RSim r r0) : RSim r.reset r0.reset :=
  ⟨h.slots, rfl, h.cap, fun _ _ => TSim.clear h.cap⟩

theorem rsim_behaviour {c : Cfg} {cr : Crypto} {r r0 : Responder} (h : RSim r r0) (calls : List RspCall) :
    behaviour c cr r calls = behaviour c cr r0 calls := by
  induction calls generalizing r r0 with
  | nil => rfl
  | cons x xs ih =>
    cases x with
    | call env req buf =>
      obtain ⟨h1, h2⟩ := rsim_call (c := c) (cr := cr) (env := env) (req := req) (buf := buf) h
      simp only [behaviour, RspCall.run]
      rw [h1, ih h2]
    | reset =>
      simp only [behaviour, RspCall.run]
      rw [ih (rsim_reset h)]

theorem rsim_fresh {c : Cfg} {slots : List (Option FilledSlot)} {r : Responder} (h : RspKept c slots r) : RSim r.reset (Responder.new c slots) := by
  refine ⟨h.slots, rfl, ?_, fun _ _ => ⟨Transcript.clear_wf _, Transcript.new_wf c, rfl, by simp [Responder.reset, Responder.new], ?_⟩⟩
  · simp [Responder.reset, Responder.new, Transcript.clear, Transcript.new, h.cap]
  · simp [Responder.reset, Responder.new, Transcript.clear, Transcript.new, h.cap]

/-- GET_VERSION in two arbitrary states. -/
theorem versionHandle_forgets {req : Bytes} {h h0 : HState} (hr : h.rsp = h0.rsp) (hc : h.tr.buf.length = h0.tr.buf.length) :
    (Responder.versionHandle req h).1 = (Responder.versionHandle req h0).1 ∧
    (Responder.versionHandle req h).2.rsp = (Responder.versionHandle req h0).2.rsp ∧
    (Responder.versionHandle req h).2.tr.buf.length = (Responder.versionHandle req h0).2.tr.buf.length ∧
    ((Responder.versionHandle req h).1.isOk = true → TSim (Responder.versionHandle req h).2.tr (Responder.versionHandle req h0).2.tr) := by
  unfold Responder.versionHandle
  rcases hp : MsgType.getVersion.parseHeader req with (_ | _) | e | k <;> simp only
  · rcases hx : index req 0 with g | e | k
    · rw [lift_run rfl, lift_run rfl]
      exact ⟨rfl, hr, hc, fun hk => by simp [Res.isOk] at hk⟩
    · rw [M.run_bind_err (e := e) (s' := h) (by rw [M.run_lift]), M.run_bind_err (e := e) (s' := h0) (by rw [M.run_lift])]
      exact ⟨rfl, hr, hc, fun hk => by simp [Res.isOk] at hk⟩
    · rw [M.run_bind_panic (k := k) (s' := h) (by rw [M.run_lift]), M.run_bind_panic (k := k) (s' := h0) (by rw [M.run_lift])]
      exact ⟨rfl, hr, hc, fun hk => by simp [Res.isOk] at hk⟩
  · unfold Responder.handleGetVersion
    rcases hs : sliceFrom req headerSize with body | e | k
    · rw [lift_run rfl, lift_run rfl]
      rcases hb : GetVersion.parseBody body with u | e | k
      · rw [lift_run rfl, lift_run rfl]
        rw [M.run_bind_ok (m := H.clear) rfl, M.run_bind_ok (m := H.clear) rfl]
        have := (Resp.extend req).bind (f := fun _ => (do
            let size ← H.write .version Version.default.writeBody
            let out ← H.rspTo size
            H.extend out
            pure (size, RspState.capabilities) : H (Nat × RspState)))
          (fun _ => (Resp.write _ _).bind fun _ => (Resp.rspTo _).bind fun _ => (Resp.extend _).bind fun _ => Resp.pure _)
        obtain ⟨a, b⟩ := this { h with tr := h.tr.clear } { h0 with tr := h0.tr.clear } ⟨hr, TSim.clear hc⟩
        exact ⟨a, b.rsp, b.tr.cap, fun _ => b.tr⟩
      · rw [M.run_bind_err (e := e) (s' := h) (by rw [M.run_lift]), M.run_bind_err (e := e) (s' := h0) (by rw [M.run_lift])]
        exact ⟨rfl, hr, hc, fun hk => by simp [Res.isOk] at hk⟩
      · rw [M.run_bind_panic (k := k) (s' := h) (by rw [M.run_lift]), M.run_bind_panic (k := k) (s' := h0) (by rw [M.run_lift])]
        exact ⟨rfl, hr, hc, fun hk => by simp [Res.isOk] at hk⟩
    · rw [M.run_bind_err (e := e) (s' := h) (by rw [M.run_lift]), M.run_bind_err (e := e) (s' := h0) (by rw [M.run_lift])]
      exact ⟨rfl, hr, hc, fun hk => by simp [Res.isOk] at hk⟩
    · rw [M.run_bind_panic (k := k) (s' := h) (by rw [M.run_lift]), M.run_bind_panic (k := k) (s' := h0) (by rw [M.run_lift])]
      exact ⟨rfl, hr, hc, fun hk => by simp [Res.isOk] at hk⟩
  · exact ⟨rfl, hr, hc, fun hk => by simp [Res.isOk] at hk⟩
  · exact ⟨rfl, hr, hc, fun hk => by simp [Res.isOk] at hk⟩

/-- In a live state a GET_VERSION request goes to the version handler. -/
theorem dispatch_getVersion {c : Cfg} {cr : Crypto} {env : Env} {slots : List (Option FilledSlot)} {st : RspState} (hst : st ≠ .error) {req : Bytes}
    (hk : code req = some 0x84) : Responder.dispatch c cr env slots st req = Responder.versionHandle req := by
  have key : ∀ rest, Responder.resetOnGetVersion req rest = Responder.versionHandle req := by
    intro rest
    unfold Responder.resetOnGetVersion
    rcases hp : MsgType.getVersion.parseHeader req with (_ | _) | e | k <;> simp only
    · have := (parseHeader_false hp).2
      exact absurd hk (by rw [code]; simpa [Wire.header] using this)
    · unfold Responder.versionHandle; simp only [hp]
    · unfold Responder.versionHandle; simp only [hp]
  cases st with
  | error => exact absurd rfl hst
  | version => rfl
  | capabilities => exact key _
  | algorithms caps => exact key _
  | idAuth n => exact key _
  | challenge n => exact key _

theorem rsim_getVersion {c : Cfg} {cr : Crypto} {env : Env} {slots : List (Option FilledSlot)} {r : Responder} (hl : slots.length = c.numSlots) (h8 : c.numSlots ≤ 8)
    (hk : RspKept c slots r) {st : RspState} (hs : r.state = some st) (hst : st ≠ .error) {req buf : Bytes} (hc : code req = some 0x84) :
    (Responder.handleMsg c cr env req buf r).1 = (Responder.handleMsg c cr env req buf (Responder.new c slots)).1 ∧
    RSim (Responder.handleMsg c cr env req buf r).2 (Responder.handleMsg c cr env req buf (Responder.new c slots)).2 ∧
    (∀ out, (Responder.handleMsg c cr env req buf r).1 = .ok ⟨out, none⟩ →
      (Responder.handleMsg c cr env req buf r).2.transcript.get = (Responder.handleMsg c cr env req buf (Responder.new c slots)).2.transcript.get) := by
  have hcap : r.transcript.buf.length = (Transcript.new c).buf.length := by rw [hk.cap]; simp [Transcript.new]
  obtain ⟨a1, a2, a3, a4⟩ := versionHandle_forgets (req := req) (h := ⟨buf, r.transcript, r.signed⟩) (h0 := ⟨buf, Transcript.new c, []⟩) rfl hcap
  have d1 : Responder.dispatch c cr env slots st req ⟨buf, r.transcript, r.signed⟩ = Responder.versionHandle req ⟨buf, r.transcript, r.signed⟩ := by
    rw [dispatch_getVersion hst hc]
  have d2 : Responder.dispatch c cr env slots .version req ⟨buf, Transcript.new c, []⟩ = Responder.versionHandle req ⟨buf, Transcript.new c, []⟩ := by
    rw [dispatch_getVersion (by simp) hc]
  rcases hx : Responder.versionHandle req ⟨buf, r.transcript, r.signed⟩ with ⟨x, h'⟩
  rcases hy : Responder.versionHandle req ⟨buf, Transcript.new c, []⟩ with ⟨y, h0'⟩
  rw [hx, hy] at a1 a2 a3 a4
  rw [hx] at d1
  rw [hy] at d2
  simp only at a1 a2 a3 a4
  subst a1
  obtain ⟨c1, c2, c3⟩ := handle_cases d1
  obtain ⟨e1, e2, e3⟩ := handle_cases d2
  simp only [Responder.handleMsg, hs, hk.slots, Responder.new]
  rcases x with ⟨n, st'⟩ | e | k
  · obtain ⟨_, hn, _⟩ := dispatch_refines hl h8 hk.wf d1
    obtain ⟨_, hn0, _⟩ := dispatch_refines hl h8 (Transcript.new_wf c) d2
    rw [c1 n st' rfl hn, e1 n st' rfl hn0]
    have ts := a4 rfl
    refine ⟨by simp only [a2], ⟨rfl, rfl, a3, fun _ _ => ts⟩, fun _ _ => ts.get⟩
  · obtain ⟨h1, p1, p2, _⟩ := c2 e rfl
    obtain ⟨h2, q1, q2, _⟩ := e2 e rfl
    rw [p1, q1]
    refine ⟨rfl, ⟨rfl, rfl, by simp only [p2, q2]; exact a3, fun _ h => absurd rfl h⟩, ?_⟩
    intro out ho
    simp at ho
  · rw [c3 k rfl, e3 k rfl]
    exact ⟨rfl, ⟨rfl, rfl, a3, fun h _ => absurd rfl h⟩, fun _ h => by simp at h⟩

end Spdm

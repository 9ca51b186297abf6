import Verif.Lemmas.RspSim
/-! Consequences of the responder invariant for single calls. -/
namespace Spdm
open Spec

section
variable {c : Cfg} {cr : Crypto} {slots : List (Option FilledSlot)} {es : List RspEvent} {r : Responder}

/-- A history without failure is in a live state. -/
theorem run_live (hl : slots.length = c.numSlots) (h8 : c.numSlots ≤ 8) (run : RspRun c cr slots es r) (ha : alive es = true) :
    ∃ st, RspLive c slots es r st := by
  rcases rspRun_inv hl h8 run with ⟨_, h⟩ | ⟨h, _⟩
  · exact h
  · rw [ha] at h; simp at h

theorem run_dead (hl : slots.length = c.numSlots) (h8 : c.numSlots ≤ 8) (run : RspRun c cr slots es r) (ha : alive es = false) :
    RspKept c slots r ∧ (r.state = some .error ∨ r.state = none) := by
  rcases rspRun_inv hl h8 run with ⟨h, _⟩ | ⟨_, h⟩
  · rw [ha] at h; simp at h
  · exact h

theorem run_kept (hl : slots.length = c.numSlots) (h8 : c.numSlots ≤ 8) (run : RspRun c cr slots es r) : RspKept c slots r := by
  rcases rspRun_inv hl h8 run with ⟨_, st, h⟩ | ⟨_, h, _⟩
  · exact h.toRspKept
  · exact h

theorem RMatch.live {k : Option UInt8} {l : Log} {st : RspState} (h : RMatch k l st) : st ≠ .error := by
  cases h <;> simp

/-- An accepted call is a step. -/
theorem run_step (hl : slots.length = c.numSlots) (h8 : c.numSlots ≤ 8) (run : RspRun c cr slots es r) (ha : alive es = true) {env : Env} {req buf out : Bytes}
    (hok : (Responder.handleMsg c cr env req buf r).1 = .ok ⟨out, none⟩) :
    ∃ st st' sg, RspLive c slots es r st ∧ (Responder.handleMsg c cr env req buf r).2.state = some st' ∧
      Step c cr env slots st (conversation (rspMsgs es)).text req out (Responder.handleMsg c cr env req buf r).2.transcript.get sg st' ∧
      (Responder.handleMsg c cr env req buf r).2.signed = r.signed ++ sg ∧ out.length ≤ buf.length := by
  obtain ⟨st, hlive⟩ := run_live hl h8 run ha
  have ho := call_outcome (cr := cr) (env := env) (req := req) (buf := buf) hl h8 hlive.toRspKept hlive.state
  rw [hok] at ho
  generalize ho' : Res.ok (Responder.Output.mk out none) = x at ho
  cases ho with
  | ok hk hs step hsg h3 hlen =>
    simp only [Res.ok.injEq, Responder.Output.mk.injEq, and_true] at ho'
    subst ho'
    rw [hlive.text] at step
    exact ⟨st, _, _, hlive, hs, step, hsg, hlen⟩
  | err hk hs he => simp at ho'
  | panic hk hs he => simp at ho'

/-- An accepted call shows the responder was alive. -/
theorem run_alive (hl : slots.length = c.numSlots) (h8 : c.numSlots ≤ 8) (run : RspRun c cr slots es r) {env : Env} {req buf : Bytes} {o : Responder.Output}
    (hok : (Responder.handleMsg c cr env req buf r).1 = .ok o) : alive es = true := by
  by_contra hc
  obtain ⟨_, hd⟩ := run_dead hl h8 run (by simpa using hc)
  obtain ⟨k, hp⟩ := dead_call (c := c) (cr := cr) (env := env) (req := req) (buf := buf) hd
  rw [hp] at hok
  simp at hok

/-- The signer log after a call is the one of the state's handler. -/
theorem call_signed {st : RspState} (hl : slots.length = c.numSlots) (h8 : c.numSlots ≤ 8) (hk : RspKept c slots r) (hs : r.state = some st) {env : Env} {req buf : Bytes} :
    (Responder.handleMsg c cr env req buf r).2.signed = (Responder.dispatch c cr env slots st req ⟨buf, r.transcript, r.signed⟩).2.signed := by
  rcases hd : Responder.dispatch c cr env slots st req ⟨buf, r.transcript, r.signed⟩ with ⟨x, h'⟩
  obtain ⟨c1, c2, c3⟩ := handle_cases hd
  cases x with
  | ok v =>
    obtain ⟨n, st'⟩ := v
    obtain ⟨_, hn, _⟩ := dispatch_refines hl h8 hk.wf hd
    have := c1 n st' rfl hn
    simp only [Responder.handleMsg, hs, hk.slots, this]
  | err e =>
    obtain ⟨h'', h1, h2, h4⟩ := c2 e rfl
    simp only [Responder.handleMsg, hs, hk.slots, h1]
    exact h4
  | panic k =>
    have h1 := c3 k rfl
    simp only [Responder.handleMsg, hs, hk.slots, h1]

/-- A failing handler makes the call report the error. -/
theorem call_refuses (hl : slots.length = c.numSlots) (h8 : c.numSlots ≤ 8) (hk : RspKept c slots r) {st : RspState} (hs : r.state = some st) {env : Env} {req buf : Bytes} {e : Err}
    (hd : (Responder.dispatch c cr env slots st req ⟨buf, r.transcript, r.signed⟩).1 = .err e) :
    (Responder.handleMsg c cr env req buf r).1 = .ok ⟨errorReply buf (Wire.error (Responder.errorToMsg e)), some e⟩ ∧
    (Responder.handleMsg c cr env req buf r).2.state = some .error := by
  have ho := call_outcome (cr := cr) (env := env) (req := req) (buf := buf) hl h8 hk hs
  rcases hd' : Responder.dispatch c cr env slots st req ⟨buf, r.transcript, r.signed⟩ with ⟨x, h'⟩
  rw [hd'] at hd
  simp only at hd
  subst hd
  obtain ⟨_, c2, _⟩ := handle_cases hd'
  obtain ⟨h'', h1, h2, h4⟩ := c2 e rfl
  simp only [Responder.handleMsg, hs, hk.slots, h1]
  exact ⟨trivial, trivial⟩

theorem expect_other {t : MsgType} {req : Bytes} {k : UInt8} (h3 : 3 ≤ req.length) (hk : code req = some k) (hne : k ≠ t.spdmCode) :
    t.parseHeader req = .ok false ∧ ∃ g, Responder.expect t req = .err (.unexpectedMsg t.spdmCode g) := by
  match req, h3 with
  | b0 :: b1 :: b2 :: rest, _ =>
    simp only [code, List.getElem?_cons_succ, List.getElem?_cons_zero, Option.some.injEq] at hk
    subst hk
    have hp : t.parseHeader (b0 :: b1 :: b2 :: rest) = .ok false := by
      simp only [MsgType.parseHeader]
      rw [if_neg (by simp)]
      simp [hne]
    refine ⟨hp, b0, ?_⟩
    unfold Responder.expect
    rw [hp]
    simp only
    rw [index_ok (by simp)]
    rfl

theorem lift_fail {σ α β : Type} {x : Res α} {e : Err} {f : α → M σ β} {s : σ} (h : x = .err e) : (M.lift x >>= f) s = (.err e, s) := by
  rw [M.run_bind_err (m := M.lift x) (e := e) (s' := s) (by rw [M.run_lift, h])]

/-- A request that may not follow the last one makes the handler fail. -/
theorem dispatch_refuses {l : Log} {st : RspState} {p : Option UInt8} (hm : RMatch p l st) {env : Env} {req : Bytes} {k : UInt8} (h3 : 3 ≤ req.length)
    (hk : code req = some k) (hno : allowed p k = false) (h : HState) :
    ∃ e g, (Responder.dispatch c cr env slots st req h) = (.err (.unexpectedMsg e g), h) := by
  have hv : k ≠ 0x84 := by rintro rfl; simp [allowed] at hno
  have hnv := (expect_other (t := .getVersion) h3 hk (by simpa [MsgType.spdmCode] using hv)).1
  have key : ∀ rest, Responder.resetOnGetVersion req rest = rest := by
    intro rest; unfold Responder.resetOnGetVersion; rw [hnv]
  cases hm with
  | version =>
    obtain ⟨_, g, he⟩ := expect_other (t := .getVersion) h3 hk (by simpa [MsgType.spdmCode] using hv)
    refine ⟨MsgType.getVersion.spdmCode, g, ?_⟩
    simp only [Responder.dispatch, Responder.versionHandle, hnv]
    unfold Responder.expect at he
    rw [hnv] at he
    simp only at he
    rcases hi : index req 0 with x | x | x
    · rw [hi] at he
      simp only [Res.ok_bind, Res.err.injEq, Err.unexpectedMsg.injEq] at he
      rw [lift_run rfl, he.2]
      rfl
    · rw [hi] at he; simp only [index] at hi; split at hi <;> simp at hi
    · rw [hi] at he; simp [bind, Res.bind] at he
  | capabilities =>
    obtain ⟨_, g, he⟩ := expect_other (t := .getCapabilities) h3 hk (by rintro rfl; simp [MsgType.spdmCode, allowed] at hno)
    exact ⟨_, g, by simp only [Responder.dispatch, Responder.capabilitiesHandle, key]; exact lift_fail he⟩
  | algorithms _ _ =>
    obtain ⟨_, g, he⟩ := expect_other (t := .negotiateAlgorithms) h3 hk (by rintro rfl; simp [MsgType.spdmCode, allowed] at hno)
    exact ⟨_, g, by simp only [Responder.dispatch, Responder.algorithmsHandle, key]; exact lift_fail he⟩
  | idAuth hp _ =>
    obtain ⟨hd, _⟩ := expect_other (t := .getDigests) h3 hk (by rintro rfl; rcases hp with rfl | rfl <;> simp [MsgType.spdmCode, allowed] at hno)
    obtain ⟨_, g, he⟩ := expect_other (t := .getCertificate) h3 hk (by rintro rfl; rcases hp with rfl | rfl <;> simp [MsgType.spdmCode, allowed] at hno)
    refine ⟨MsgType.getCertificate.spdmCode, g, ?_⟩
    simp only [Responder.dispatch, Responder.idAuthHandle, key]
    rw [lift_run hd]
    simp only [Bool.false_eq_true, if_false]
    exact lift_fail he
  | challenge hp _ =>
    obtain ⟨_, g, he⟩ := expect_other (t := .challenge) h3 hk (by rintro rfl; rcases hp with rfl | rfl <;> simp [MsgType.spdmCode, allowed] at hno)
    exact ⟨_, g, by simp only [Responder.dispatch, Responder.challengeHandle, key]; exact lift_fail he⟩

theorem errorBytes_eq (e : Err) : Wire.error (Responder.errorToMsg e) = errorBytes e := by
  cases e <;> first | rfl | (rename_i r; cases r <;> rfl)

end
end Spdm

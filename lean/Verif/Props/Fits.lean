import Verif.Props.Determined
import Verif.Spec.Fits
/-! C76, refusals: a request that is refused for another reason than lack of room, or that aborts, fares the same with every larger buffer. -/
namespace Spdm
open Spec Spec.Faults

/-- Requirement by requirement: the same outcome if it is not met, and the same requirement, unless it is one of room, which only gets easier. -/
inductive Easier : Checks ResponderError → Checks ResponderError → Prop
  | nil : Easier [] []
  | same {p : Prop} {f : Fault ResponderError} {cs cs' : Checks ResponderError} : Easier cs cs' → Easier ((p, f) :: cs) ((p, f) :: cs')
  | room {p q : Prop} {d : ResponderError} {cs cs' : Checks ResponderError} : DidNotFit d → (p → q) → Easier cs cs' → Easier (need p d cs) (need q d cs')

theorem Easier.refl : ∀ cs, Easier cs cs
  | [] => .nil
  | _ :: cs => .same (Easier.refl cs)

theorem Easier.append (a : Checks ResponderError) {b b' : Checks ResponderError} (h : Easier b b') : Easier (a ++ b) (a ++ b') := by
  induction a with
  | nil => exact h
  | cons x a ih => exact .same ih

theorem Easier.first {cs cs' : Checks ResponderError} (h : Easier cs cs') {f : Fault ResponderError} (hf : First cs f) (hn : ∀ d, f = .error d → ¬ DidNotFit d) : First cs' f := by
  induction h with
  | nil => cases hf
  | same _ ih =>
    cases hf with
    | here hp => exact .here hp
    | later hp hl => exact .later hp (ih hl)
  | room hd hpq _ ih =>
    cases hf with
    | here _ => exact absurd hd (hn _ rfl)
    | later hp hl => exact .later (hpq hp) (ih hl)

theorem Easier.back {cs cs' : Checks ResponderError} (h : Easier cs cs') {f : Fault ResponderError} (hf : First cs' f) : First cs f ∨ ∃ d, DidNotFit d ∧ First cs (.error d) := by
  induction h with
  | nil => cases hf
  | same _ ih =>
    cases hf with
    | here hp => exact .inl (.here hp)
    | later hp hl =>
      rcases ih hl with h | ⟨d, hd, h⟩
      · exact .inl (.later hp h)
      · exact .inr ⟨d, hd, .later hp h⟩
  | @room p q d cs cs' hd hpq _ ih =>
    by_cases hp : p
    · cases hf with
      | here hq => exact absurd (hpq hp) hq
      | later _ hl =>
        rcases ih hl with h | ⟨d, hd, h⟩
        · exact .inl (.later hp h)
        · exact .inr ⟨d, hd, .later hp h⟩
    · exact .inr ⟨d, hd, .here hp⟩

variable {c : Cfg} {cr : Crypto} {env : Env} {slots : List (Option FilledSlot)} {mask : UInt8} {es : List RspEvent} {r : Responder}

section
variable {room room' : Nat} {prev : Option UInt8} {l : Log} {req : Bytes} (hr : room ≤ room')
include hr

theorem easier_reply : Easier (replyChecks c cr env slots room prev l req) (replyChecks c cr env slots room' prev l req) :=
  .room (.inl rfl) (fun h out ho => Nat.le_trans (h out ho) hr) (Easier.refl _)

theorem easier_challenge (i : UInt8) (s : FilledSlot) : Easier (challengeChecks c cr env mask room l req i s) (challengeChecks c cr env mask room' l req i s) := by
  unfold challengeChecks chainChecks
  exact .same (.same (.same (.same (.room (.inr (.inl rfl)) (fun h => by omega) (.room (.inr (.inr rfl)) (fun h => by omega)
    (.room (.inr (.inl rfl)) (fun h => by omega) (Easier.refl _)))))))

omit hr in
theorem easier_digests {h : Nat} {rest rest' : Checks ResponderError} (e : Easier rest rest') : ∀ slots, Easier (digestChecks c cr h slots rest) (digestChecks c cr h slots rest')
  | [] => e
  | none :: slots => easier_digests e slots
  | some _ :: slots => .same (.same (.same (easier_digests e slots)))

theorem easier_request : Easier (requestChecks c cr env slots mask room prev l req) (requestChecks c cr env slots mask room' prev l req) := by
  have hrep := easier_reply (c := c) (cr := cr) (env := env) (slots := slots) (prev := prev) (l := l) (req := req) hr
  refine .same (.same (.same ?_))
  unfold bodyChecks
  by_cases h1 : req.getD 1 0 = 0x84
  · rw [if_pos h1, if_pos h1]; exact Easier.append _ hrep
  rw [if_neg h1, if_neg h1]
  by_cases h2 : req.getD 1 0 = 0xE1
  · rw [if_pos h2, if_pos h2]; exact Easier.append _ hrep
  rw [if_neg h2, if_neg h2]
  by_cases h3 : req.getD 1 0 = 0xE3
  · rw [if_pos h3, if_pos h3]; exact Easier.append _ (.same (.same hrep))
  rw [if_neg h3, if_neg h3]
  by_cases h4 : req.getD 1 0 = 0x81
  · rw [if_pos h4, if_pos h4]; exact easier_digests hrep _
  rw [if_neg h4, if_neg h4]
  by_cases h5 : req.getD 1 0 = 0x82
  · rw [if_pos h5, if_pos h5]
    refine Easier.append _ ?_
    rcases slots[(req.getD 2 0).toNat]? with _ | o
    · exact Easier.refl _
    · exact .same (.same hrep)
  rw [if_neg h5, if_neg h5]
  refine .same (.same (Easier.append _ ?_))
  rcases slots[(req.getD 2 0).toNat]? with _ | _ | s
  · exact Easier.refl _
  · exact Easier.refl _
  · exact easier_challenge hr _ _

end

section
variable (h0 : 0 < c.numSlots) (h8 : c.numSlots ≤ 8) (hl : slots.length = c.numSlots) (hn : ∀ a ∈ c.capabilities, ∃ k, (a, k) ∈ capabilityBits)
include h0 h8 hl hn

/-- **C76**: a request that is refused for another reason than lack of room is refused for the same reason with every larger buffer, and the ERROR sent is the same (if there was room for it). -/
theorem c76_refused_larger_buffer (run : RspRun c cr slots es r) (ha : alive es = true) (env : Env) (req buf buf' out : Bytes) (d : ResponderError)
    (hd : (Responder.handleMsgT c cr env req buf r).1 = .ok ⟨out, some d⟩) (hroom : ¬ DidNotFit d) (hlen : buf.length ≤ buf'.length) :
    ∃ out', (Responder.handleMsgT c cr env req buf' r).1 = .ok ⟨out', some d⟩ ∧ (out ≠ [] → out' = out) := by
  obtain ⟨mask, hm⟩ := c124_mask (c := c) h8 hl
  have hf := ((c124_outcome h0 h8 hl hn hm run ha env req buf).2.1 d).1 ⟨out, hd⟩
  have hf' := (easier_request hlen).first hf (fun d' he => by cases he; exact hroom)
  obtain ⟨out', ho⟩ := ((c124_outcome h0 h8 hl hn hm run ha env req buf').2.1 d).2 hf'
  refine ⟨out', ho, fun hne => ?_⟩
  have e := (c124_sent h0 h8 hl hn run ha env req buf).2 out d hd
  have e' := (c124_sent h0 h8 hl hn run ha env req buf').2 out' d ho
  by_cases hs : 2 + (errorFor d).length ≤ buf.length
  · rw [if_pos hs] at e
    rw [if_pos (Nat.le_trans hs hlen)] at e'
    rw [e, e']
  · rw [if_neg hs] at e
    exact absurd e hne

/-- **C76**: a request that aborts the responder does so with every larger buffer. -/
theorem c76_aborts_larger_buffer (run : RspRun c cr slots es r) (ha : alive es = true) (env : Env) (req buf buf' : Bytes)
    (hd : ∃ k, (Responder.handleMsgT c cr env req buf r).1 = .panic k) (hlen : buf.length ≤ buf'.length) : ∃ k, (Responder.handleMsgT c cr env req buf' r).1 = .panic k := by
  obtain ⟨mask, hm⟩ := c124_mask (c := c) h8 hl
  have hf := (c124_outcome h0 h8 hl hn hm run ha env req buf).2.2.1 hd
  exact (c124_outcome h0 h8 hl hn hm run ha env req buf').2.2.2 ((easier_request hlen).first hf (fun d' he => by cases he))

/-- **C76**: seen from the larger buffer: with a smaller one a request is refused for the same reason, or because something did not fit. -/
theorem c76_refused_smaller_buffer (run : RspRun c cr slots es r) (ha : alive es = true) (env : Env) (req buf buf' out : Bytes) (d : ResponderError)
    (hd : (Responder.handleMsgT c cr env req buf' r).1 = .ok ⟨out, some d⟩) (hlen : buf.length ≤ buf'.length) :
    ∃ out' d', (Responder.handleMsgT c cr env req buf r).1 = .ok ⟨out', some d'⟩ ∧ (d' = d ∨ DidNotFit d') := by
  obtain ⟨mask, hm⟩ := c124_mask (c := c) h8 hl
  have hf := ((c124_outcome h0 h8 hl hn hm run ha env req buf').2.1 d).1 ⟨out, hd⟩
  rcases (easier_request hlen).back hf with h | ⟨d', hd', h⟩
  · obtain ⟨o, ho⟩ := ((c124_outcome h0 h8 hl hn hm run ha env req buf).2.1 d).2 h
    exact ⟨o, d, ho, .inl rfl⟩
  · obtain ⟨o, ho⟩ := ((c124_outcome h0 h8 hl hn hm run ha env req buf).2.1 d').2 h
    exact ⟨o, d', ho, .inr hd'⟩

end

/-! ### Non-vacuity -/

-- In the demonstration session a request out of order is refused with 4 bytes of room (the ERROR has exactly 4) and with 200 alike; with 2 bytes the ERROR does not fit; a request of two
-- bytes aborts.  GET_VERSION with 9 bytes of room is refused for lack of room and answered with 200.
example : (Responder.handleMsgT demoCfg demoCrypto demoEnv [0x11, 0x82, 0, 0, 0, 0, 0, 1] (zeros 4) (demoResponder 2)).1 = .ok ⟨[0x12, 0x7F, 4, 0], some (.unexpectedMsgCode 0xE3 0x11)⟩ ∧
    ¬ DidNotFit (.unexpectedMsgCode 0xE3 0x11) ∧
    (Responder.handleMsgT demoCfg demoCrypto demoEnv [0x11, 0x82, 0, 0, 0, 0, 0, 1] (zeros 200) (demoResponder 2)).1 = .ok ⟨[0x12, 0x7F, 4, 0], some (.unexpectedMsgCode 0xE3 0x11)⟩ ∧
    (Responder.handleMsgT demoCfg demoCrypto demoEnv [0x11, 0x82, 0, 0, 0, 0, 0, 1] (zeros 2) (demoResponder 2)).1 = .ok ⟨[], some (.unexpectedMsgCode 0xE3 0x11)⟩ ∧
    (Responder.handleMsgT demoCfg demoCrypto demoEnv [0x10, 0x84] (zeros 0) (demoResponder 2)).1 = .panic .assertion ∧
    (Responder.handleMsgT demoCfg demoCrypto demoEnv [0x10, 0x84, 0, 0] (zeros 9) (demoResponder 0)).1 = .ok ⟨[0x12, 0x7F] ++ errorFor .bufferFull, some .bufferFull⟩ ∧
    demoAnswer 0 [0x10, 0x84, 0, 0] 200 ≠ [] :=
  ⟨by decide +kernel, by simp [DidNotFit], by decide +kernel, by decide +kernel, by decide +kernel, by decide +kernel, by decide +kernel⟩
end Spdm

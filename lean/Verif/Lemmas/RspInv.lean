import Verif.Lemmas.WLen
import Verif.Lemmas.ReqInv
/-! The invariant of responder histories. -/
namespace Spdm
open Spec

/-- State of a responder whose last accepted request has code `k`, in the conversation `l`. -/
inductive RMatch : Option UInt8 → Log → RspState → Prop
  | version {l : Log} : RMatch none l .version
  | capabilities {l : Log} : RMatch (some 0x84) l .capabilities
  | algorithms {l : Log} {caps : Caps} (hq : l.reqCaps = caps.requesterCap.toNat) (hp : l.rspCaps = caps.responderCap.toNat) :
      RMatch (some 0xE1) l (.algorithms caps)
  | idAuth {l : Log} {k : UInt8} {n : Negotiated} (hk : k = 0xE3 ∨ k = 0x81) (hw : Words l n.caps n.algorithms) : RMatch (some k) l (.idAuth n)
  | challenge {l : Log} {k : UInt8} {n : Negotiated} (hk : k = 0x82 ∨ k = 0x83) (hw : Words l n.caps n.algorithms) : RMatch (some k) l (.challenge n)

/-- One accepted exchange. -/
theorem step_match {c : Cfg} {cr : Crypto} {env : Env} {slots : List (Option FilledSlot)} {k : Option UInt8} {l : Log} {st st' : RspState}
    {req out tr' : Bytes} {sg : List (Nat × Bytes)} (hm : RMatch k l st) (hs : Step c cr env slots st l.text req out tr' sg st') :
    tr' = ((l.add req).add out).text ∧ RMatch (code req) ((l.add req).add out) st' ∧ ∃ k', code req = some k' ∧ allowed k k' = true := by
  cases hs with
  | getVersion live hreq =>
    have hc : code req = some 0x84 := by rw [hreq, List.append_assoc]; exact code_header _ _
    have hadd : l.add req = { Log.empty with text := req } := by simp only [Log.add, hc]
    have hc2 : code (Wire.header .version ++ Wire.version ⟨2, supportedVersions⟩) = some 0x04 := code_header _ _
    rw [hadd, add_plain hc2 (by decide), hc]
    exact ⟨rfl, .capabilities, _, rfl, by simp [allowed]⟩
  | @getCapabilities _ _ tail m r hreq hm' hr =>
    have hc : code req = some 0xE1 := by rw [hreq, List.append_assoc]; exact code_header _ _
    have hadd : l.add req = { l with reqCaps := m.flags.toNat, text := l.text ++ req } := by
      simp only [Log.add, hc]
      rw [hreq, getCapabilities_word]
    have hc2 : code (Wire.header .capabilities ++ Wire.capabilities r) = some 0x61 := code_header _ _
    have hw := capabilities_word (m := r) []
    rw [List.append_nil] at hw
    rw [hadd, hc]
    generalize ho : Wire.header .capabilities ++ Wire.capabilities r = o at *
    have hadd2 : ∀ l : Log, l.add o = { l with rspCaps := r.flags.toNat, text := l.text ++ o } := by
      intro l; simp only [Log.add, hc2, hw]
    rw [hadd2]
    cases hm with
    | capabilities => exact ⟨rfl, .algorithms rfl rfl, _, rfl, by simp [allowed]⟩
  | @negotiate caps _ _ m a hreq hp hm' ha =>
    have hc : code req = some 0xE3 := code_of_take hreq
    have hc2 : code (Wire.header .algorithms ++ Wire.algorithms a) = some 0x63 := code_header _ _
    have hw := algorithms_words a []
    rw [List.append_nil] at hw
    rw [add_plain hc (by decide), hc]
    generalize ho : Wire.header .algorithms ++ Wire.algorithms a = o at *
    have hadd2 : ∀ l : Log, l.add o = { l with asym := a.baseAsymAlgoSelected.toNat, hash := a.baseHashAlgoSelected.toNat, text := l.text ++ o } := by
      intro l; simp only [Log.add, hc2, hw.1, hw.2]
    rw [hadd2]
    cases hm with
    | algorithms hq hp => exact ⟨rfl, .idAuth (.inl rfl) ⟨hq, hp, rfl, rfl⟩, _, rfl, by simp [allowed]⟩
  | @getDigests n _ _ d h3 hreq hd =>
    have hc : code req = some 0x81 := code_of_take hreq
    have hc2 : code (Wire.header .digests ++ Wire.digests d) = some 0x01 := code_header _ _
    rw [add_plain hc (by decide), add_plain hc2 (by decide), hc]
    cases hm with
    | idAuth hk hw =>
      refine ⟨rfl, .idAuth (.inr rfl) ⟨hw.req, hw.rsp, hw.hash, hw.asym⟩, _, rfl, ?_⟩
      rcases hk with rfl | rfl <;> rfl
  | @getCertificate n _ _ tail chain m hreq hs hcc =>
    have hc : code req = some 0x82 := by rw [hreq, List.append_assoc]; exact code_header _ _
    have hc2 : code (Wire.header .certificate ++ Wire.certificate ⟨m.slot, UInt16.ofNat chain.length, 0, chain⟩) = some 0x02 := code_header _ _
    rw [add_plain hc (by decide), add_plain hc2 (by decide), hc]
    cases hm with
    | idAuth hk hw =>
      refine ⟨rfl, .challenge (.inl rfl) ⟨hw.req, hw.rsp, hw.hash, hw.asym⟩, _, rfl, ?_⟩
      rcases hk with rfl | rfl <;> rfl
  | @challenge n _ _ tail sig auth m slot mask ds ss hreq hn hds hss hs hlt hch hmask ring hauth hsig hsl =>
    have hc : code req = some 0x83 := by rw [hreq, List.append_assoc]; exact code_header _ _
    have hc2 : code (auth ++ sig) = some 0x03 := by rw [hauth, authMsg, List.append_assoc]; exact code_header _ _
    rw [add_plain hc (by decide), hc]
    cases hm with
    | challenge hk hw =>
      have hss' : sizeFor signatureSizes l.asym = ss := by rw [hw.asym]; exact getSignatureSize_sizeFor hss
      have htake : (auth ++ sig).take ((auth ++ sig).length - ss) = auth := by
        rw [List.length_append, hsl, Nat.add_sub_cancel, List.take_left]
      have hadd2 : ∀ l' : Log, l'.asym = l.asym → l'.add (auth ++ sig) = { l' with text := l'.text ++ auth } := by
        intro l' hl'; simp only [Log.add, hc2, hl', hss', htake]
      rw [hadd2 _ (by rfl)]
      refine ⟨rfl, .challenge (.inr rfl) ⟨hw.req, hw.rsp, hw.hash, hw.asym⟩, _, rfl, ?_⟩
      rcases hk with rfl | rfl <;> rfl

/-- What every history keeps. -/
structure RspKept (c : Cfg) (slots : List (Option FilledSlot)) (r : Responder) : Prop where
  slots : r.slots = slots
  wf : r.transcript.WF
  cap : r.transcript.buf.length = c.transcriptSize

/-- The invariant of a responder in use. -/
structure RspLive (c : Cfg) (slots : List (Option FilledSlot)) (es : List RspEvent) (r : Responder) (st : RspState) : Prop extends RspKept c slots r where
  state : r.state = some st
  text : r.transcript.get = (conversation (rspMsgs es)).text
  mat : RMatch (lastReq es) (conversation (rspMsgs es)) st

theorem exchanges_snoc (es : List RspEvent) (e : RspEvent) : exchanges (es ++ [e]) = addExchange (exchanges es) e := by
  simp only [exchanges, List.foldl_append, List.foldl_cons, List.foldl_nil]

theorem alive_snoc (es : List RspEvent) (e : RspEvent) : alive (es ++ [e]) = addAlive (alive es) e := by
  simp only [alive, List.foldl_append, List.foldl_cons, List.foldl_nil]

theorem lastReq_ok (es : List RspEvent) (env : Env) (req buf out : Bytes) : lastReq (es ++ [.call env req buf (.ok ⟨out, none⟩)]) = code req := by
  simp [lastReq, exchanges_snoc, addExchange]

theorem rspMsgs_ok (es : List RspEvent) (env : Env) (req buf out : Bytes) :
    rspMsgs (es ++ [.call env req buf (.ok ⟨out, none⟩)]) = rspMsgs es ++ [req, out] := by
  simp [rspMsgs, exchanges_snoc, addExchange]

/-- Outcome of one call on a responder in use. -/
inductive CallOutcome (c : Cfg) (cr : Crypto) (env : Env) (slots : List (Option FilledSlot)) (st : RspState) (req buf : Bytes) (r : Responder) :
    Res Responder.Output → Responder → Prop
  | ok {out : Bytes} {st' : RspState} {sg : List (Nat × Bytes)} {r' : Responder} (hk : RspKept c slots r') (hs : r'.state = some st')
      (step : Step c cr env slots st r.transcript.get req out r'.transcript.get sg st') (hsg : r'.signed = r.signed ++ sg) (h3 : 3 ≤ out.length) (hlen : out.length ≤ buf.length) :
      CallOutcome c cr env slots st req buf r (.ok ⟨out, none⟩) r'
  | err {e : Err} {r' : Responder} (hk : RspKept c slots r') (hs : r'.state = some .error)
      (he : (Responder.dispatch c cr env slots st req ⟨buf, r.transcript, r.signed⟩).1 = .err e) :
      CallOutcome c cr env slots st req buf r (.ok ⟨errorReply buf (Wire.error (Responder.errorToMsg e)), some e⟩) r'
  | panic {k : PanicKind} {r' : Responder} (hk : RspKept c slots r') (hs : r'.state = none)
      (he : (Responder.dispatch c cr env slots st req ⟨buf, r.transcript, r.signed⟩).1 = .panic k) : CallOutcome c cr env slots st req buf r (.panic k) r'

theorem call_outcome {c : Cfg} {cr : Crypto} {env : Env} {slots : List (Option FilledSlot)} (hl : slots.length = c.numSlots) (h8 : c.numSlots ≤ 8)
    {st : RspState} {req buf : Bytes} {r : Responder} (hk : RspKept c slots r) (hs : r.state = some st) :
    CallOutcome c cr env slots st req buf r (Responder.handleMsg c cr env req buf r).1 (Responder.handleMsg c cr env req buf r).2 := by
  rcases hd : Responder.dispatch c cr env slots st req ⟨buf, r.transcript, r.signed⟩ with ⟨x, h'⟩
  have hkeep := dispatch_keeps c cr env slots st req ⟨buf, r.transcript, r.signed⟩
  rw [hd] at hkeep
  obtain ⟨k1, k2⟩ := hkeep
  simp only at k1 k2
  obtain ⟨c1, c2, c3⟩ := handle_cases hd
  have hsl := hk.slots
  cases x with
  | ok v =>
    obtain ⟨n, st'⟩ := v
    obtain ⟨hkp, hn, h3, sg, hst, hsg⟩ := dispatch_refines hl h8 hk.wf hd
    have := c1 n st' rfl hn
    simp only [Responder.handleMsg, hs, hsl, this]
    refine .ok (st' := st') (sg := sg) ⟨rfl, hkp.wf, hkp.cap.trans hk.cap⟩ rfl hst hsg ?_ ?_
    · simp only [List.length_take]; omega
    · have := hkp.len
      simp only at this
      simp only [List.length_take]; omega
  | err e =>
    obtain ⟨h'', h1, h2, h4⟩ := c2 e rfl
    simp only [Responder.handleMsg, hs, hsl, h1]
    exact .err ⟨rfl, by rw [h2]; exact k1 hk.wf, by rw [h2]; exact k2.trans hk.cap⟩ rfl (by rw [hd])
  | panic k =>
    have h1 := c3 k rfl
    simp only [Responder.handleMsg, hs, hsl, h1]
    exact .panic ⟨rfl, k1 hk.wf, k2.trans hk.cap⟩ rfl (by rw [hd])

/-- A responder that failed does nothing. -/
theorem dead_call {c : Cfg} {cr : Crypto} {env : Env} {req buf : Bytes} {r : Responder} (hs : r.state = some .error ∨ r.state = none) :
    ∃ k, (Responder.handleMsg c cr env req buf r) = (.panic k, { r with state := none }) := by
  rcases hs with hs | hs
  · exact ⟨.unimplemented, by simp [Responder.handleMsg, hs, Responder.handle, Responder.dispatch]⟩
  · refine ⟨.unwrapNone, ?_⟩
    simp only [Responder.handleMsg, hs]
    cases r
    simp only at hs
    rw [hs]

/-- Every history keeps the invariant. -/
theorem rspRun_inv {c : Cfg} {cr : Crypto} {slots : List (Option FilledSlot)} (hl : slots.length = c.numSlots) (h8 : c.numSlots ≤ 8)
    {es : List RspEvent} {r : Responder} (h : RspRun c cr slots es r) :
    (alive es = true ∧ ∃ st, RspLive c slots es r st) ∨
    (alive es = false ∧ RspKept c slots r ∧ (r.state = some .error ∨ r.state = none)) := by
  induction h with
  | new =>
    refine .inl ⟨rfl, .version, ⟨⟨rfl, Transcript.new_wf c, by simp [Responder.new, Transcript.new]⟩, rfl, ?_, .version⟩⟩
    simp [Responder.new, rspMsgs, exchanges, conversation, Log.empty]
  | @call es r env req buf _ ih =>
    rcases ih with ⟨ha, st, hlive⟩ | ⟨ha, hk, hst⟩
    · have ho := call_outcome (cr := cr) (env := env) (req := req) (buf := buf) hl h8 hlive.toRspKept hlive.state
      revert ho
      generalize (Responder.handleMsg c cr env req buf r).1 = x
      generalize (Responder.handleMsg c cr env req buf r).2 = r'
      intro ho
      cases ho with
      | ok hk hs step hsg h3 hlen =>
        left
        rw [hlive.text] at step
        obtain ⟨t1, t2, _⟩ := step_match hlive.mat step
        refine ⟨by rw [alive_snoc]; exact ha, _, hk, hs, ?_, ?_⟩
        · rw [rspMsgs_ok, conversation_snoc2]; exact t1
        · rw [lastReq_ok, rspMsgs_ok, conversation_snoc2]; exact t2
      | err hk hs he => exact .inr ⟨by rw [alive_snoc]; rfl, hk, .inl hs⟩
      | panic hk hs he => exact .inr ⟨by rw [alive_snoc]; rfl, hk, .inr hs⟩
    · right
      obtain ⟨k, hp⟩ := dead_call (c := c) (cr := cr) (env := env) (req := req) (buf := buf) hst
      rw [hp, alive_snoc]
      exact ⟨rfl, ⟨hk.slots, hk.wf, hk.cap⟩, .inr rfl⟩
  | @reset es r _ ih =>
    left
    have hk : RspKept c slots r := by
      rcases ih with ⟨_, st, hlive⟩ | ⟨_, hk, _⟩
      · exact hlive.toRspKept
      · exact hk
    refine ⟨by rw [alive_snoc]; rfl, .version, ⟨⟨hk.slots, Transcript.clear_wf _, hk.cap⟩, rfl, ?_, ?_⟩⟩
    · simp [Responder.reset, rspMsgs, exchanges_snoc, addExchange, conversation, Log.empty]
    · simp only [lastReq, exchanges_snoc, addExchange]
      exact .version

end Spdm

import Verif.Lemmas.RspCalls
import Verif.Lemmas.ReqInv
import Verif.Lemmas.Errs
import Verif.Lemmas.Msgs4
import Verif.DemoSession
/-!
# Negotiation: C27 to C31, C55, C56

`ReqRun c cr root es r` and `RspRun c cr slots es r` (Spec/Session.lean) are the histories of a requester and of a responder.
-/
namespace Spdm
open Spec

section
variable {c : Cfg} {cr : Crypto} {root : Bytes} {es : List ReqEvent} {r : Requester}

/-! ## C27: version -/

theorem req_live (run : ReqRun c cr root es r) {st : ReqState} (hs : r.state = some st) (hne : st ≠ .error) :
    failed es = false ∧ ReqLive c root es r st := by
  rcases reqRun_inv run with ⟨hf, st', hl⟩ | ⟨_, h | h⟩
  · have := hl.state
    rw [hs] at this
    simp only [Option.some.injEq] at this
    subst this
    exact ⟨hf, hl⟩
  · rw [hs] at h; simp only [Option.some.injEq] at h; exact absurd h hne
  · rw [hs] at h; simp at h

theorem req_alive (run : ReqRun c cr root es r) (hf : failed es = false) : ∃ st, ReqLive c root es r st := by
  rcases reqRun_inv run with ⟨_, h⟩ | ⟨h, _⟩
  · exact h
  · rw [hf] at h; simp at h

/-- **C27**: in every history, the version the requester has agreed on is the greatest one that both it and the accepted VERSION response
list. -/
theorem c27_highest_common (run : ReqRun c cr root es r) (st : ReqState) (e : VersionEntry) (hs : r.state = some st) (hv : agreedVersion st = some e) :
    ∃ m v, (accepted es)[0]? = some m ∧ m.take 2 = [0x10, 0x04] ∧ Version.parseBody (m.drop 2) = .ok v ∧ HighestCommon v e := by
  obtain ⟨_, hl⟩ := req_live run hs (by rintro rfl; simp [agreedVersion] at hv)
  have key : ∀ {m : Bytes} {e' : VersionEntry} {acc : List Bytes}, VersionOf m e' → acc[0]? = some m → some e' = some e →
      ∃ m v, acc[0]? = some m ∧ m.take 2 = [0x10, 0x04] ∧ Version.parseBody (m.drop 2) = .ok v ∧ HighestCommon v e := by
    rintro m e' acc ⟨h1, v, h2, _, h3⟩ ha he
    simp only [Option.some.injEq] at he
    subst he
    exact ⟨m, v, ha, h1, h2, h3⟩
  have hm := hl.mat
  generalize accepted es = acc at hm ⊢
  cases hm with
  | version => simp [agreedVersion] at hv
  | capabilities h0 => exact key h0 rfl hv
  | algorithms h0 => exact key h0 rfl hv
  | digests h0 => exact key h0 rfl hv
  | certificate h0 => exact key h0 rfl hv
  | challenge h0 => exact key h0 rfl hv
  | done => simp [agreedVersion] at hv

theorem first_state (run : ReqRun c cr root es r) (hf : failed es = false) (ha : accepted es = []) :
    r.state = some .version ∧ r.transcript.WF ∧ r.transcript.buf.length = c.transcriptSize := by
  obtain ⟨st, hl⟩ := req_alive run hf
  have hm := hl.mat
  rw [ha] at hm
  have : st = .version := by
    generalize hx : ([] : List Bytes) = acc at hm
    cases hm with
    | version => rfl
    | done h => subst hx; simp [path] at h
    | _ => simp at hx
  subst this
  exact ⟨hl.state, hl.wf, hl.cap⟩

/-- **C27**, the first response: `NoSupportedVersions` is reported exactly for a VERSION response that lists no common version. -/
theorem c27_no_common (run : ReqRun c cr root es r) (hf : failed es = false) (ha : accepted es = []) (m : Bytes) :
    (Requester.handleMsg c cr m r).1 = .err .noSupportedVersions ↔
      3 ≤ m.length ∧ m.take 2 = [0x10, 0x04] ∧ ∃ v, Version.parseBody (m.drop 2) = .ok v ∧ ∀ e ∈ listed v, e ∉ supportedVersions := by
  obtain ⟨hs, hw, hcap⟩ := first_state run hf ha
  have hmsg : (Requester.handleMsg c cr m r).1 = .err .noSupportedVersions ↔ (Requester.handle c cr .version m { r with state := none }).1 = .err .noSupportedVersions := by
    unfold Requester.handleMsg
    rw [hs]
    simp only
    rcases Requester.handle c cr .version m { r with state := none } with ⟨x | x | x, r'⟩ <;> simp
  rw [hmsg]
  constructor
  · intro h
    simp only [Requester.handle] at h
    rcases h1 : Responder.expect .version m with _ | e | k
    · obtain ⟨h3, hh⟩ := expect_ok_inv h1
      rw [lift_run h1] at h
      have hsl : sliceFrom m headerSize = .ok (m.drop 2) := by unfold sliceFrom headerSize; rw [if_pos (by omega)]
      rw [lift_run hsl] at h
      rcases h2 : Version.parseBody (m.drop 2) with v | e | k
      · rw [lift_run h2] at h
        have hv := Version.parse_wf h2
        obtain ⟨o, f1, f2, f3⟩ := findMax_run v (by have := hv.len; have := hv.num; omega)
        rw [lift_run f1] at h
        cases o with
        | none => exact ⟨h3, hh, v, rfl, f3 rfl⟩
        | some e =>
          simp only at h
          exfalso
          have hx := (ErrIn.bind (S := fun e => e = .bufferFull) (p := Requester.extend m) (q := fun _ => (Pure.pure (ReqState.capabilities e none none) : M Requester ReqState))
            (by
              intro s e' he
              unfold Requester.extend Transcript.extend at he
              simp only at he
              split at he
              · simpa using he.symm
              · simp at he)
            (fun _ => .pure _)) _ _ h
          simp at hx
      · rw [lift_fail h2] at h
        simp only [Res.err.injEq] at h
        subst h
        rcases Version.read_errs _ _ h2 with ⟨x, hx⟩ | hx <;> simp at hx
      · rw [M.run_bind_panic (k := k) (s' := { r with state := none }) (by rw [M.run_lift, h2])] at h
        simp at h
    · rw [lift_fail h1] at h
      simp only [Res.err.injEq] at h
      subst h
      rcases expect_errs _ _ _ h1 with hx | ⟨x, g, hx⟩ <;> simp at hx
    · rw [M.run_bind_panic (k := k) (s' := { r with state := none }) (by rw [M.run_lift, h1])] at h
      simp at h
  · rintro ⟨h3, hh, v, h2, hno⟩
    have hsl : sliceFrom m headerSize = .ok (m.drop 2) := by unfold sliceFrom headerSize; rw [if_pos (by omega)]
    simp only [Requester.handle]
    rw [lift_run (expect_ok (t := .version) h3 hh), lift_run hsl, lift_run h2]
    have hv := Version.parse_wf h2
    obtain ⟨o, f1, f2, f3⟩ := findMax_run v (by have := hv.len; have := hv.num; omega)
    rw [lift_run f1]
    cases o with
    | none => rfl
    | some e => exact absurd (f2 e rfl).2.1 (hno e (f2 e rfl).1)

/-- **C27**, the other half: a VERSION response with a common version is accepted whenever the transcript has room for it. -/
theorem c27_common_accepted (run : ReqRun c cr root es r) (hf : failed es = false) (ha : accepted es = []) (m : Bytes) (v : Version)
    (h3 : 3 ≤ m.length) (hh : m.take 2 = [0x10, 0x04]) (hp : Version.parseBody (m.drop 2) = .ok v) (hc : ∃ e ∈ listed v, e ∈ supportedVersions)
    (hroom : r.transcript.get.length + m.length ≤ c.transcriptSize) :
    (Requester.handleMsg c cr m r).1 = .ok false ∧ ∃ st e, (Requester.handleMsg c cr m r).2.state = some st ∧ agreedVersion st = some e ∧ HighestCommon v e := by
  obtain ⟨hs, hw, hcap⟩ := first_state run hf ha
  have hsl : sliceFrom m headerSize = .ok (m.drop 2) := by unfold sliceFrom headerSize; rw [if_pos (by omega)]
  have hv := Version.parse_wf hp
  obtain ⟨o, f1, f2, f3⟩ := findMax_run v (by have := hv.len; have := hv.num; omega)
  cases o with
  | none => obtain ⟨e, h1, h2⟩ := hc; exact absurd h2 (f3 rfl e h1)
  | some e =>
    obtain ⟨t, e1, _⟩ := Requester.extend_run (r := { r with state := none }) (bs := m) (by exact hw) (by simp only; rw [hcap]; exact hroom)
    have hrun : Requester.handle c cr .version m { r with state := none } = (.ok (.capabilities e none none), { rootCert := r.rootCert, transcript := t, state := none }) := by
      simp only [Requester.handle]
      rw [lift_run (expect_ok (t := .version) h3 hh), lift_run hsl, lift_run hp, lift_run f1]
      simp only
      rw [M.run_bind_ok e1]
      rfl
    unfold Requester.handleMsg
    rw [hs]
    simp only [hrun]
    exact ⟨by simp, _, e, rfl, rfl, f2 e rfl⟩

/-- The demo session agrees on 1.1; a response that only lists 1.2 is refused. -/
example : (demoRequester 2).state = some (.capabilities ⟨1, 1, 0, 0⟩ none none) := by decide +kernel
example : (Requester.handleMsg demoCfg demoCrypto [0x10, 0x04, 0, 0, 0, 1, 0, 0x12] (demoRequester 1)).1 = .err .noSupportedVersions := by decide +kernel
example : failed (demoReqEvents 1) = false ∧ accepted (demoReqEvents 1) = [] := by decide +kernel

/-! ## C30: the requester accepts only what it offered -/

theorem algOf_selected {m : Bytes} {a : Algorithms} (h : AlgOf c m a) : ∃ o, Requester.configToNegotiateAlgorithms c = .ok o ∧ SelectedFrom o a := by
  obtain ⟨_, hp, hwf, o, ho, hv⟩ := h
  obtain ⟨o1, o2, o3, o4⟩ := offer_wf ho
  obtain ⟨v1, v2, v3, v4, v5⟩ := (ensureValid_iff (by rw [o1, o2]; decide) hwf).mp hv
  refine ⟨o, ho, v1, v4, v2, v3, ?_⟩
  intro i p hip hi
  have hex : ∃ j q, Requester.offeredRequests[j]? = some q ∧ j < 4 ∧ q.kind = p.kind := by
    cases p.kind
    · exact ⟨0, _, rfl, by omega, rfl⟩
    · exact ⟨1, _, rfl, by omega, rfl⟩
    · exact ⟨2, _, rfl, by omega, rfl⟩
    · exact ⟨3, _, rfl, by omega, rfl⟩
  obtain ⟨j, q, hq, hj, hk⟩ := hex
  rw [← o1] at hq
  refine ⟨q, ?_, hk, v5 i p hip hi j q hq (by rw [o2]; exact hj) hk⟩
  rw [List.mem_take_iff_getElem]
  obtain ⟨hlt, hge⟩ := List.getElem?_eq_some_iff.mp hq
  exact ⟨j, by rw [o2, o1] at *; simp [Requester.offeredRequests] at hlt ⊢; omega, hge⟩

/-- **C30**: in every history, the third accepted response is an ALGORITHMS message all of whose selections are among those of the offer
the requester sends (the one its configuration defines). -/
theorem c30_selected_offered (run : ReqRun c cr root es r) (m : Bytes) (h2 : (accepted es)[2]? = some m) (hf : failed es = false) :
    m.take 2 = [0x11, 0x63] ∧ ∃ a o, Algorithms.parseBody (m.drop 2) = .ok a ∧ Requester.configToNegotiateAlgorithms c = .ok o ∧ SelectedFrom o a := by
  obtain ⟨st, hl⟩ := req_alive run hf
  have hm := hl.mat
  have key : ∀ {a : Algorithms}, AlgOf c m a → m.take 2 = [0x11, 0x63] ∧ ∃ a o, Algorithms.parseBody (m.drop 2) = .ok a ∧ Requester.configToNegotiateAlgorithms c = .ok o ∧ SelectedFrom o a := by
    intro a h
    obtain ⟨o, ho, hsel⟩ := algOf_selected h
    exact ⟨h.1, a, o, h.2.1, ho, hsel⟩
  generalize accepted es = acc at hm h2
  cases hm with
  | version => simp at h2
  | capabilities => simp at h2
  | algorithms => simp at h2
  | digests _ _ h => simp at h2; subst h2; exact key h
  | certificate _ _ h => simp at h2; subst h2; exact key h
  | challenge _ _ h => simp at h2; subst h2; exact key h
  | done _ _ h =>
    obtain ⟨m', a, h1, h3⟩ := h
    rw [h2] at h1
    simp only [Option.some.injEq] at h1
    subst h1
    exact key h3

/-- **C30**, what the requester uses afterwards: the algorithms in its state are single ones out of its offer. -/
theorem c30_agreed_offered (run : ReqRun c cr root es r) (st : ReqState) (a : Algorithms) (hs : r.state = some st) (ha : agreedAlgorithms st = some a) :
    ∃ o, Requester.configToNegotiateAlgorithms c = .ok o ∧ SelectedFrom o a := by
  obtain ⟨_, hl⟩ := req_live run hs (by rintro rfl; simp [agreedAlgorithms] at ha)
  have hm := hl.mat
  generalize accepted es = acc at hm
  cases hm with
  | version => simp [agreedAlgorithms] at ha
  | capabilities => simp [agreedAlgorithms] at ha
  | algorithms => simp [agreedAlgorithms] at ha
  | digests _ _ h => simp only [agreedAlgorithms, Option.some.injEq] at ha; subst ha; exact algOf_selected h
  | certificate _ _ h => simp only [agreedAlgorithms, Option.some.injEq] at ha; subst ha; exact algOf_selected h
  | challenge _ _ h => simp only [agreedAlgorithms, Option.some.injEq] at ha; subst ha; exact algOf_selected h
  | done => simp [agreedAlgorithms] at ha

/-- The check itself does not look for a request of the same type: for an offer without algorithm structures it accepts a response that
selects a DHE group.  C30 holds because the offer always has all four types. -/
theorem c30_check_alone_insufficient :
    Requester.ensureValidAlgorithmsSelected (some ⟨1, 0x10, 1, 0, List.replicate 4 ⟨.dhe, 0⟩⟩)
      ⟨1, 1, 0x10, 1, 1, [⟨.dhe, 2⟩, ⟨.dhe, 0⟩, ⟨.dhe, 0⟩, ⟨.dhe, 0⟩]⟩ = .ok () := by decide +kernel

example : (agreedAlgorithms <$> (demoRequester 6).state) = some (some ⟨1, 1, 0x10, 1, 4, [⟨.dhe, 2⟩, ⟨.aead, 2⟩, ⟨.reqBaseAsym, 0x10⟩, ⟨.keySchedule, 1⟩]⟩) := by
  decide +kernel
/-- A P-384 selection is refused by a requester that only offered P-256. -/
example : (Requester.handleMsg demoCfg demoCrypto ([0x11, 0x63] ++ Wire.algorithms ⟨1, 1, 0x80, 1, 0, List.replicate 4 ⟨.dhe, 0⟩⟩) (demoRequester 5)).1 =
    .err (.selectedAlgorithmNotRequested 2) := by decide +kernel

end

/-! ## C28, C29, C31: the responder's choice -/

section
variable {c : Cfg} {cr : Crypto} {slots : List (Option FilledSlot)} {es : List RspEvent} {r : Responder}

/-- An accepted NEGOTIATE_ALGORITHMS. -/
theorem negotiate_step (hl : slots.length = c.numSlots) (h8 : c.numSlots ≤ 8) (run : RspRun c cr slots es r) {env : Env} {req buf out : Bytes}
    (hk : code req = some 0xE3) (hok : (Responder.handleMsg c cr env req buf r).1 = .ok ⟨out, none⟩) :
    ∃ m a, NegotiateAlgorithms.parseBody (req.drop 2) = .ok m ∧ NegotiateWF m ∧ Answers m a ∧ out = [0x11, 0x63] ++ Wire.algorithms a := by
  obtain ⟨st, st', sg, hlive, _, step, _, _⟩ := run_step hl h8 run (run_alive hl h8 run hok) hok
  generalize (Responder.handleMsg c cr env req buf r).2.transcript.get = tr' at step
  cases step with
  | getVersion _ hreq => rw [hreq, List.append_assoc, code_header] at hk; simp [Wire.header] at hk
  | getCapabilities hreq => rw [hreq, List.append_assoc, code_header] at hk; simp [Wire.header] at hk
  | getDigests _ hreq => rw [code_of_take hreq] at hk; simp [Wire.header] at hk
  | getCertificate hreq => rw [hreq, List.append_assoc, code_header] at hk; simp [Wire.header] at hk
  | challenge hreq => rw [hreq, List.append_assoc, code_header] at hk; simp [Wire.header] at hk
  | @negotiate _ _ _ m a hreq hp hm ha => exact ⟨m, a, hp, hm, ha, rfl⟩

/-- **C28**: in every history, an accepted NEGOTIATE_ALGORITHMS is answered with an ALGORITHMS message that selects, in every field and every
algorithm structure, exactly the lowest offered bit, with the same types in the same order. -/
theorem c28_selects_offered (hl : slots.length = c.numSlots) (h8 : c.numSlots ≤ 8) (run : RspRun c cr slots es r) (env : Env) (req buf out : Bytes)
    (hk : code req = some 0xE3) (hok : (Responder.handleMsg c cr env req buf r).1 = .ok ⟨out, none⟩) :
    ∃ m a, NegotiateAlgorithms.parseBody (req.drop 2) = .ok m ∧ Answers m a ∧ out = [0x11, 0x63] ++ Wire.algorithms a := by
  obtain ⟨m, a, h1, _, h2, h3⟩ := negotiate_step hl h8 run hk hok
  exact ⟨m, a, h1, h2, h3⟩

theorem rsp_algorithms_state (hl : slots.length = c.numSlots) (h8 : c.numSlots ≤ 8) (run : RspRun c cr slots es r) (ha : alive es = true)
    (hlast : lastReq es = some 0xE1) : ∃ caps, RspLive c slots es r (.algorithms caps) := by
  obtain ⟨st, hlive⟩ := run_live hl h8 run ha
  have hm := hlive.mat
  generalize lastReq es = p at hm hlast
  cases hm with
  | version => simp at hlast
  | capabilities => simp at hlast
  | @algorithms _ caps => exact ⟨caps, hlive⟩
  | challenge hk => rcases hk with rfl | rfl <;> simp at hlast
  | idAuth hk => rcases hk with rfl | rfl <;> simp at hlast

/-- **C28 and C29**, availability: after GET_CAPABILITIES every NEGOTIATE_ALGORITHMS whose offer leaves something to choose everywhere is
answered, if the buffers have room.  For C29 this is the part that holds: missing are the offers with an empty mask, for which C29 is false
(`c29_empty_offer_aborts`). -/
theorem c29_nonempty_offer_partial (hl : slots.length = c.numSlots) (h8 : c.numSlots ≤ 8) (run : RspRun c cr slots es r) (ha : alive es = true)
    (hlast : lastReq es = some 0xE1) (env : Env) (req buf : Bytes) (m : NegotiateAlgorithms) (h3 : 3 ≤ req.length) (hh : req.take 2 = [0x11, 0xE3])
    (hp : NegotiateAlgorithms.parseBody (req.drop 2) = .ok m) (h0 : NonEmptyOffer m)
    (hbuf : 36 + 4 * m.numAlgorithmRequests.toNat ≤ buf.length)
    (htr : (conversation (rspMsgs es)).text.length + req.length + (36 + 4 * m.numAlgorithmRequests.toNat) ≤ c.transcriptSize) :
    ∃ out, (Responder.handleMsg c cr env req buf r).1 = .ok ⟨out, none⟩ := by
  obtain ⟨caps, hlive⟩ := rsp_algorithms_state hl h8 run ha hlast
  have hm : NegotiateWF m := by
    obtain ⟨bs, tail, _, h2⟩ := NegotiateAlgorithms.inverts.parse hp
    exact h2.1
  obtain ⟨n, h', a, _, hd⟩ := algorithms_run (caps := caps) hm h0 h3 hh hp (h := ⟨buf, r.transcript, r.signed⟩) hlive.wf hbuf
    (by simp only [hlive.text, hlive.cap]; exact htr)
  obtain ⟨out, r', sg, hx, _⟩ := call_accepts (env := env) (cr := cr) hl h8 hlive.toRspKept hlive.state hd
  exact ⟨out, by rw [hx]⟩

/-- **C28**, whole: after GET_CAPABILITIES every NEGOTIATE_ALGORITHMS that parses with non-empty masks is answered, if the buffers have room,
and the answer selects exactly the lowest offered bit everywhere. -/
theorem c28_nonempty_offer_answered (hl : slots.length = c.numSlots) (h8 : c.numSlots ≤ 8) (run : RspRun c cr slots es r) (ha : alive es = true)
    (hlast : lastReq es = some 0xE1) (env : Env) (req buf : Bytes) (m : NegotiateAlgorithms) (h3 : 3 ≤ req.length) (hh : req.take 2 = [0x11, 0xE3])
    (hp : NegotiateAlgorithms.parseBody (req.drop 2) = .ok m) (h0 : NonEmptyOffer m)
    (hbuf : 36 + 4 * m.numAlgorithmRequests.toNat ≤ buf.length)
    (htr : (conversation (rspMsgs es)).text.length + req.length + (36 + 4 * m.numAlgorithmRequests.toNat) ≤ c.transcriptSize) :
    ∃ a, (Responder.handleMsg c cr env req buf r).1 = .ok ⟨[0x11, 0x63] ++ Wire.algorithms a, none⟩ ∧ Answers m a := by
  obtain ⟨out, hok⟩ := c29_nonempty_offer_partial hl h8 run ha hlast env req buf m h3 hh hp h0 hbuf htr
  obtain ⟨m', a, h1, h2, h4⟩ := c28_selects_offered hl h8 run env req buf out (code_of_take (t := .negotiateAlgorithms) hh) hok
  rw [hp] at h1
  simp only [Res.ok.injEq] at h1
  subst h1
  exact ⟨a, by rw [hok, h4], h2⟩

/-- **C29** is false of the code: after GET_CAPABILITIES, every NEGOTIATE_ALGORITHMS that parses, fits the transcript and offers nothing in
some mask aborts the responder. -/
theorem c29_empty_offer_aborts (hl : slots.length = c.numSlots) (h8 : c.numSlots ≤ 8) (run : RspRun c cr slots es r) (ha : alive es = true)
    (hlast : lastReq es = some 0xE1) (env : Env) (req buf : Bytes) (m : NegotiateAlgorithms) (h3 : 3 ≤ req.length) (hh : req.take 2 = [0x11, 0xE3])
    (hp : NegotiateAlgorithms.parseBody (req.drop 2) = .ok m) (h0 : ¬ NonEmptyOffer m)
    (htr : (conversation (rspMsgs es)).text.length + req.length ≤ c.transcriptSize) :
    (Responder.handleMsg c cr env req buf r).1 = .panic .overflow := by
  obtain ⟨caps, hlive⟩ := rsp_algorithms_state hl h8 run ha hlast
  have hm : NegotiateWF m := by
    obtain ⟨bs, tail, _, h2⟩ := NegotiateAlgorithms.inverts.parse hp
    exact h2.1
  have hsl : sliceFrom req headerSize = .ok (req.drop 2) := by unfold sliceFrom headerSize; rw [if_pos (by omega)]
  obtain ⟨t', e3, g3, w3, c3⟩ := H.extend_run (h := ⟨buf, r.transcript, r.signed⟩) (bs := req) hlive.wf (by simp only [hlive.text, hlive.cap]; exact htr)
  have hd : Responder.dispatch c cr env slots (.algorithms caps) req ⟨buf, r.transcript, r.signed⟩ = (.panic .overflow, ⟨buf, t', r.signed⟩) := by
    simp only [Responder.dispatch]
    unfold Responder.algorithmsHandle
    rw [resetOnGetVersion_other (t := .negotiateAlgorithms) (by decide) h3 hh]
    rw [lift_run (expect_ok (t := .negotiateAlgorithms) h3 hh), lift_run hsl, lift_run hp, M.run_bind_ok e3]
    rw [M.run_bind_panic (k := .overflow) (by rw [M.run_lift, chooseAlgorithms_panic hm h0])]
  have h1 := (handle_cases hd).2.2 _ rfl
  simp only [Responder.handleMsg, hlive.state, hlive.slots, h1]

/-- **C29** is false, a witness: an offer with an empty hash mask. -/
theorem c29_witness : (Responder.handleMsg demoCfg demoCrypto demoEnv ([0x11, 0xE3] ++ Wire.negotiateAlgorithms { demoSessionOffer with baseHashAlgo := 0 }) (zeros 200) (demoResponder 2)).1 =
    .panic .overflow := by decide +kernel

/-- **C31**: for every offer with distinct types that the responder answers, the answer parses back to the selection made and passes the
requester's check of that offer. -/
theorem c31_selection_accepted (hl : slots.length = c.numSlots) (h8 : c.numSlots ≤ 8) (run : RspRun c cr slots es r) (env : Env) (req buf out : Bytes)
    (m : NegotiateAlgorithms) (hk : code req = some 0xE3) (hok : (Responder.handleMsg c cr env req buf r).1 = .ok ⟨out, none⟩)
    (hp : NegotiateAlgorithms.parseBody (req.drop 2) = .ok m) (hspec : m.measurementSpec = 1) (hd : DistinctKinds m) :
    ∃ a, Algorithms.parseBody (out.drop 2) = .ok a ∧ Answers m a ∧ Requester.ensureValidAlgorithmsSelected (some m) a = .ok () := by
  obtain ⟨m', a, h1, hm, h2, h3⟩ := negotiate_step hl h8 run hk hok
  rw [hp] at h1
  simp only [Res.ok.injEq] at h1
  subst h1
  have hwf := answers_wf hm (by rw [hspec]; rfl) h2
  have hlow : ∀ {o s : Nat}, Lowest o s → Offered o s := fun ⟨k, hk, hs⟩ => ⟨k, hk.1, hs⟩
  refine ⟨a, ?_, h2, (ensureValid_iff (by rw [hm.len]; exact hm.num) hwf).mpr ⟨h2.spec, hlow h2.asym, hlow h2.hash, hlow h2.mhash, ?_⟩⟩
  · rw [h3, show ([0x11, 0x63] ++ Wire.algorithms a : Bytes).drop 2 = Wire.algorithms a ++ [] by simp]
    exact (Algorithms.reads hwf).parse []
  · intro k p hkp hk' j q hjq hj hkind
    obtain ⟨q', p', g1, g2, g3, g4⟩ := h2.algs k (by rw [← h2.num]; exact hk')
    rw [hkp] at g2
    simp only [Option.some.injEq] at g2
    subst g2
    have := hd j k q q' hj (by rw [← h2.num]; exact hk') hjq g1 (by rw [hkind, g3])
    subst this
    rw [hjq] at g1
    simp only [Option.some.injEq] at g1
    subst g1
    exact hlow g4

/-- **C31**, the restriction to distinct types is needed: of an offer with two DHE structures the responder answers both, and the requester
rejects the answer. -/
theorem c31_duplicate_kinds_rejected :
    let m : NegotiateAlgorithms := ⟨1, 0x10, 1, 2, [⟨.dhe, 1⟩, ⟨.dhe, 2⟩, ⟨.dhe, 0⟩, ⟨.dhe, 0⟩]⟩
    ∃ out a, (Responder.handleMsg demoCfg demoCrypto demoEnv ([0x11, 0xE3] ++ Wire.negotiateAlgorithms m) (zeros 200) (demoResponder 2)).1 = .ok ⟨out, none⟩ ∧
      Algorithms.parseBody (out.drop 2) = .ok a ∧ Requester.ensureValidAlgorithmsSelected (some m) a = .err (.selectedAlgorithmNotRequested 5) :=
  ⟨[0x11, 0x63] ++ Wire.algorithms ⟨1, 1, 0x10, 1, 2, [⟨.dhe, 1⟩, ⟨.dhe, 2⟩, ⟨.dhe, 0⟩, ⟨.dhe, 0⟩]⟩, ⟨1, 1, 0x10, 1, 2, [⟨.dhe, 1⟩, ⟨.dhe, 2⟩, ⟨.dhe, 0⟩, ⟨.dhe, 0⟩]⟩,
    by decide +kernel, by decide +kernel, by decide +kernel⟩

example : alive (demoEvents 2) = true ∧ lastReq (demoEvents 2) = some 0xE1 ∧ (conversation (rspMsgs (demoEvents 2))).text.length = 38 := by decide +kernel
example : NegotiateAlgorithms.parseBody (demoNegotiate.drop 2) = .ok demoSessionOffer ∧ demoSessionOffer.measurementSpec = 1 := by decide +kernel
example : NonEmptyOffer demoSessionOffer := ⟨by decide, by decide, by
  intro i a h hi
  have : i < 4 := hi
  have hc : i = 0 ∨ i = 1 ∨ i = 2 ∨ i = 3 := by omega
  rcases hc with rfl | rfl | rfl | rfl <;> simp [demoSessionOffer] at h <;> subst h <;> decide⟩
example : DistinctKinds demoSessionOffer := by
  intro i j a b hi hj ha hb hab
  have hi : i < 4 := hi
  have hj : j < 4 := hj
  have hc : i = 0 ∨ i = 1 ∨ i = 2 ∨ i = 3 := by omega
  have hd : j = 0 ∨ j = 1 ∨ j = 2 ∨ j = 3 := by omega
  rcases hc with rfl | rfl | rfl | rfl <;> rcases hd with rfl | rfl | rfl | rfl <;> simp [demoSessionOffer] at ha hb <;> subst ha hb <;> simp_all
example : (Responder.handleMsg demoCfg demoCrypto demoEnv demoNegotiate (zeros 200) (demoResponder 2)).1 =
    .ok ⟨[0x11, 0x63] ++ Wire.algorithms ⟨1, 1, 0x10, 1, 4, [⟨.dhe, 2⟩, ⟨.aead, 2⟩, ⟨.reqBaseAsym, 0x10⟩, ⟨.keySchedule, 1⟩]⟩, none⟩ := by decide +kernel

end

/-! ## C55: sizes -/

/-- **C55**, digests: for one selected hash the size is the one of the specification, and the call panics exactly when the selection is not a
single defined algorithm or its digest is larger than the configured maximum.  It never returns an error. -/
theorem c55_digest_size (c : Cfg) (h : UInt32) :
    (∀ n, BaseHashAlgo.getDigestSize c h = .ok n ↔ ∃ i : Nat, h.toNat = 2 ^ i ∧ digestSizes[i]? = some n ∧ n ≤ c.maxDigestSize) ∧
    ((BaseHashAlgo.getDigestSize c h).isPanic = true ↔ ¬ ∃ i n : Nat, h.toNat = 2 ^ i ∧ digestSizes[i]? = some n ∧ n ≤ c.maxDigestSize) := by
  refine ⟨fun n => getDigestSize_ok, ?_⟩
  have he : RErrIn (fun _ => False) (BaseHashAlgo.getDigestSize c h) := by
    unfold BaseHashAlgo.getDigestSize BaseHashAlgo.checkedDigestSize
    have k : ∀ n : Nat, RErrIn (fun _ => False) (if n ≤ c.maxDigestSize then Res.ok n else .panic .unwrapNone) := fun n => .ite (.ok _) (.panic _)
    exact .ite (k _) (.ite (k _) (.ite (k _) (.panic _)))
  constructor
  · rintro hp ⟨i, n, h1⟩
    rw [getDigestSize_ok.mpr ⟨i, h1⟩] at hp
    simp [Res.isPanic] at hp
  · intro hn
    rcases hx : BaseHashAlgo.getDigestSize c h with n | e | k
    · obtain ⟨i, h1⟩ := getDigestSize_ok.mp hx
      exact absurd ⟨i, n, h1⟩ hn
    · exact (he e hx).elim
    · rfl

/-- **C55**, signatures. -/
theorem c55_signature_size (c : Cfg) (a : UInt32) :
    (∀ n, BaseAsymAlgo.getSignatureSize c a = .ok n ↔ ∃ i : Nat, a.toNat = 2 ^ i ∧ signatureSizes[i]? = some n ∧ n ≤ c.maxSignatureSize) ∧
    ((BaseAsymAlgo.getSignatureSize c a).isPanic = true ↔ ¬ ∃ i n : Nat, a.toNat = 2 ^ i ∧ signatureSizes[i]? = some n ∧ n ≤ c.maxSignatureSize) := by
  refine ⟨fun n => getSignatureSize_ok, ?_⟩
  have he : RErrIn (fun _ => False) (BaseAsymAlgo.getSignatureSize c a) := by
    unfold BaseAsymAlgo.getSignatureSize BaseAsymAlgo.checkedSignatureSize
    have k : ∀ n : Nat, RErrIn (fun _ => False) (if n ≤ c.maxSignatureSize then Res.ok n else .panic .unwrapNone) := fun n => .ite (.ok _) (.panic _)
    exact .ite (k _) (.ite (k _) (.ite (k _) (.ite (k _) (.ite (k _) (.ite (k _) (.panic _))))))
  constructor
  · rintro hp ⟨i, n, h1⟩
    rw [getSignatureSize_ok.mpr ⟨i, h1⟩] at hp
    simp [Res.isPanic] at hp
  · intro hn
    rcases hx : BaseAsymAlgo.getSignatureSize c a with n | e | k
    · obtain ⟨i, h1⟩ := getSignatureSize_ok.mp hx
      exact absurd ⟨i, n, h1⟩ hn
    · exact (he e hx).elim
    · rfl

example : BaseHashAlgo.getDigestSize demoCfg 2 = .ok 48 ∧ (BaseHashAlgo.getDigestSize demoCfg 3).isPanic = true ∧
    BaseAsymAlgo.getSignatureSize demoCfg 0x80 = .ok 96 ∧ (BaseAsymAlgo.getSignatureSize demoCfg 1).isPanic = true := by decide +kernel

/-! ## C56: error codes -/

/-- **C56**: different error codes have different bytes. -/
theorem c56_codes_distinct (k k' : ErrorKind) (h : k.byte = k'.byte) : k = k' := by
  cases k <;> cases k' <;> first | rfl | (simp [ErrorKind.byte] at h)

/-- **C56**, writing: the third byte of a serialised ERROR message is the code of its kind, so messages with the same bytes are of the same
kind. -/
theorem c56_code_written (m : ErrorMsg) (buf : Bytes) (n : Nat) (h : (MsgType.error.write m.writeBody buf).1 = .ok n) (hv : ∀ id v, m = .vendorDefined id v → v.opaqueLen ≤ v.opaqueErrorData.length) :
    (MsgType.error.write m.writeBody buf).2.take 3 = [0x12, 0x7F, (ErrorKind.of m).byte] := by
  rcases hp : MsgType.error.write m.writeBody buf with ⟨x, b⟩
  rw [hp] at h
  simp only at h
  subst h
  obtain ⟨h1, h2, h3⟩ := write_ok_inv (ErrorMsg.writes hv) hp
  simp only
  rw [h3, List.take_append_of_le_length (by cases m <;> simp [Wire.error, Wire.header, Spec.le])]
  cases m <;> rfl

theorem ErrorMsg.kind_inverts : Inverts ErrorMsg.read (fun bs m => ∃ c0 d rest, bs = c0 :: d :: rest ∧ c0 = (ErrorKind.of m).byte) := by
  unfold ErrorMsg.read
  have key : ∀ {b : UInt8} {m : ErrorMsg}, b = (ErrorKind.of m).byte → Inverts (Pure.pure m : R ErrorMsg) (fun _ m => b = (ErrorKind.of m).byte) := by
    intro b m h
    refine (Inverts.pure m).mono ?_
    rintro bs a ⟨_, rfl⟩
    exact h
  have next : ∀ {α : Type} {p : R α} {P : Bytes → α → Prop} {q : α → R ErrorMsg} {b : UInt8}, Inverts p P →
      (∀ a, Inverts (q a) (fun _ m => b = (ErrorKind.of m).byte)) → Inverts (p >>= q) (fun _ m => b = (ErrorKind.of m).byte) := by
    intro α p P q b hp hq
    refine (Inverts.bind hp hq).mono ?_
    rintro bs m ⟨b1, b2, a, rfl, _, h⟩
    exact h
  refine (Inverts.bind Inverts.getByte fun c0 => Inverts.bind Inverts.getByte (Q := fun _ _ m => c0 = (ErrorKind.of m).byte) fun d => ?_).mono ?_
  · repeat' (first | (refine Inverts.ite (fun h => ?_) (fun h => ?_)))
    all_goals first
      | exact key h
      | exact next Inverts.getU32 fun _ => key h
      | exact next Inverts.getByte fun _ => key h
      | exact next Inverts.getByte fun _ => next Inverts.getByte fun _ => next Inverts.getByte fun _ => next Inverts.getByte fun _ => key h
      | skip
    · split
      · exact (Inverts.fail _).mono fun _ _ h => h.elim
      · exact next Inverts.getByte fun _ => next (VendorId.inverts _) fun _ => key h
    · exact (Inverts.fail _).mono fun _ _ h => h.elim
  · rintro bs m ⟨b1, b2, c0, rfl, rfl, b3, b4, d, rfl, rfl, h⟩
    exact ⟨c0, d, b4, rfl, h⟩

/-- **C56**, parsing: a parsed message is of the kind its first body byte denotes. -/
theorem c56_code_parsed (body : Bytes) (m : ErrorMsg) (h : ErrorMsg.parseBody body = .ok m) : body[0]? = some (ErrorKind.of m).byte := by
  obtain ⟨bs, tail, h1, c0, d, rest, h2, h3⟩ := ErrorMsg.kind_inverts.parse h
  rw [h1, h2]
  simp [h3]

/-- **C56**, every defined code but the vendor's is accepted whatever follows, if four more bytes follow. -/
theorem c56_defined_accepted (k : ErrorKind) (hk : k ≠ .vendorDefined) (d : UInt8) (rest : Bytes) (h4 : 4 ≤ rest.length) :
    ∃ m, ErrorMsg.parseBody (k.byte :: d :: rest) = .ok m ∧ ErrorKind.of m = k := by
  match rest, h4 with
  | a :: b :: e :: f :: rest, _ =>
    cases k with
    | vendorDefined => exact absurd rfl hk
    | _ =>
      refine ⟨_, by
        simp only [ErrorMsg.parseBody, ErrorMsg.read, ErrorKind.byte]
        rfl, rfl⟩

/-- **C56**, every other byte is rejected as an invalid code. -/
theorem c56_undefined_rejected (b d : UInt8) (rest : Bytes) (h : ∀ k : ErrorKind, k.byte ≠ b) :
    ErrorMsg.parseBody (b :: d :: rest) = .err .invalidErrorCode := by
  have hb : ∀ k : ErrorKind, b ≠ k.byte := fun k e => h k e.symm
  have h1 := hb .invalidRequest; have h2 := hb .busy; have h3 := hb .unexpectedRequest; have h4 := hb .unspecified; have h5 := hb .decryptError
  have h6 := hb .unsupportedRequest; have h7 := hb .requestInFlight; have h8 := hb .invalidResponseCode; have h9 := hb .sessionLimitExceeded
  have h10 := hb .sessionRequired; have h11 := hb .resetRequired; have h12 := hb .responseTooLarge; have h13 := hb .requestTooLarge
  have h14 := hb .largeResponse; have h15 := hb .messageLost; have h16 := hb .versionMismatch; have h17 := hb .responseNotReady
  have h18 := hb .requestResynch; have h19 := hb .vendorDefined
  simp only [ErrorKind.byte] at *
  have g1 : Reader.getByte (Reader.new (b :: d :: rest)) = (.ok b, ⟨b :: d :: rest, 1, 0⟩) := by simp [Reader.getByte, Reader.new, Reader.isAligned, Reader.isEmpty]
  have g2 : Reader.getByte ⟨b :: d :: rest, 1, 0⟩ = (.ok d, ⟨b :: d :: rest, 2, 0⟩) := by simp [Reader.getByte, Reader.isAligned, Reader.isEmpty]
  unfold ErrorMsg.parseBody ErrorMsg.read
  rw [M.run_bind_ok g1, M.run_bind_ok g2]
  simp [*, M.fail]

example : (∀ k : ErrorKind, k.byte ≠ 0x02) ∧ ErrorMsg.parseBody [0x42, 0, 1, 2, 3, 4] = .ok (.responseNotReady 1 2 3 4) :=
  ⟨by intro k; cases k <;> decide, by decide +kernel⟩

end Spdm

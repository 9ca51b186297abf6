import Verif.Spec.Noise
import Verif.Props.Relay
/-! Lemmas for C127. -/
namespace Spdm
open Spec

variable {c c' : Cfg} {cr cr' : Crypto} {root : Bytes} {slots : List (Option FilledSlot)} {es : List ReqEvent} {es' : List RspEvent} {r : Requester} {r' : Responder} {xs : List Exchanged}

/-- What the requester has of the exchanges. -/
def near (xs : List Exchanged) : List Bytes := xs.flatMap fun x => [x.sent, x.heard]

/-- What the responder has of the exchanges. -/
def far (xs : List Exchanged) : List Bytes := xs.flatMap fun x => [x.received, x.answered]

theorem near_snoc (xs : List Exchanged) (x : Exchanged) : near (xs ++ [x]) = near xs ++ [x.sent, x.heard] := by simp [near]
theorem far_snoc (xs : List Exchanged) (x : Exchanged) : far (xs ++ [x]) = far xs ++ [x.received, x.answered] := by simp [far]

theorem line_near (h : Line es es' xs) : failed es = false ∧ reqMsgs es = near xs ∧ accepted es = xs.map (·.heard) := by
  induction h with
  | start => exact ⟨rfl, rfl, rfl⟩
  | vain env buf res _ hres ih =>
    obtain ⟨h1, h2, h3⟩ := ih
    refine ⟨by rw [failed_append, h1]; rfl, ?_, ?_⟩
    · rw [reqMsgs_append, h2]
      cases res with
      | ok o => simp [Res.isOk] at hres
      | err e => simp [reqMsgs, ReqEvent.msg]
      | panic k => simp [reqMsgs, ReqEvent.msg]
    · rw [accepted_append, h3]; simp [accepted]
  | exchange env env' buf buf' x err b _ ih =>
    obtain ⟨h1, h2, h3⟩ := ih
    refine ⟨by rw [failed_append, h1]; rfl, ?_, ?_⟩
    · rw [reqMsgs_append, h2, near_snoc]; rfl
    · rw [accepted_append, h3, List.map_append]; rfl

theorem line_far (h : Line es es' xs) (ha : alive es' = true) : rspMsgs es' = far xs := by
  induction h with
  | start => rfl
  | vain env buf res _ hres ih => exact ih ha
  | exchange env env' buf buf' x err b _ ih =>
    rw [alive_snoc] at ha
    cases err with
    | none => rw [rspMsgs_ok, ih ha, far_snoc]
    | some e => simp [addAlive] at ha

/-- Where a call of the responder is on the line. -/
theorem line_cut (h : Line es es' xs) {es1 es2 : List RspEvent} {env : Env} {req buf : Bytes} {res : Res Responder.Output} (he : es' = es1 ++ .call env req buf res :: es2) :
    ∃ pre y post es0 err, xs = pre ++ y :: post ∧ Line es0 es1 pre ∧ y.received = req ∧ res = .ok ⟨y.answered, err⟩ ∧ (post = [] → es2 = []) := by
  induction h generalizing es2 with
  | start => simp at he
  | vain _ _ _ _ _ ih => exact ih he
  | @exchange es es' xs env1 env' buf1 buf' x err b hl ih =>
    rcases List.eq_nil_or_concat es2 with rfl | ⟨es3, e, rfl⟩
    · obtain ⟨h1, h2⟩ := List.append_inj' he rfl
      simp only [List.cons.injEq, RspEvent.call.injEq, and_true] at h2
      obtain ⟨rfl, rfl, rfl, rfl⟩ := h2
      subst h1
      exact ⟨xs, x, [], es, err, rfl, hl, rfl, rfl, fun _ => rfl⟩
    · rw [show es1 ++ .call env req buf res :: es3.concat e = (es1 ++ .call env req buf res :: es3) ++ [e] by simp] at he
      obtain ⟨h1, _⟩ := List.append_inj' he rfl
      obtain ⟨pre, y, post, es0, er, g1, g2, g3, g4, g5⟩ := ih h1
      exact ⟨pre, y, post ++ [x], es0, er, by rw [g1]; simp, g2, g3, g4, by simp⟩

/-- What the requester sent and heard, by position. -/
theorem line_codes (h8 : c.numSlots ≤ 8) (h : Line es es' xs) (run : ReqRun c cr root es r) : ∀ i x, xs[i]? = some x →
    code x.sent = requestCodes[i]? ∧ code x.heard ∈ ([some 0x04, some 0x61, some 0x63, some 0x01, some 0x02, some 0x03] : List (Option UInt8)) ∧ (code x.heard = some 0x03 → i = 5) := by
  induction h generalizing r with
  | start => intro i x hx; simp at hx
  | vain env buf res _ _ ih =>
    obtain ⟨r1, _, h1, _, _⟩ := run.last
    exact ih h1
  | @exchange es es' xs env env' buf buf' x err b hl ih =>
    have hmem : ReqEvent.recv x.heard (.ok b) ∈ es ++ [.next env buf (.ok x.sent), .recv x.heard (.ok b)] := by simp
    have hcodes := recv_codes run hmem
    rw [show es ++ [ReqEvent.next env buf (.ok x.sent), .recv x.heard (.ok b)] = (es ++ [.next env buf (.ok x.sent)]) ++ [.recv x.heard (.ok b)] by simp] at run
    obtain ⟨r2, y2, h2, hy2, _⟩ := run.last
    obtain ⟨r1, y1, h1, hy1, _⟩ := h2.last
    intro i z hz
    rcases Nat.lt_or_ge i xs.length with hi | hi
    · rw [List.getElem?_append_left hi] at hz
      exact ih h1 i z hz
    · rw [List.getElem?_append_right hi] at hz
      obtain ⟨hz1, rfl⟩ : i = xs.length ∧ z = x := by
        rcases hd : i - xs.length with _ | k
        · rw [hd] at hz
          exact ⟨by omega, by simpa using hz.symm⟩
        · rw [hd] at hz; simp at hz
      subst hz1
      have hlen : (accepted es).length = xs.length := by rw [(line_near hl).2.2, List.length_map]
      refine ⟨?_, hcodes, ?_⟩
      · cases y1 with
        | next env1 buf1 =>
          simp only [ReqCall.run, ReqEvent.next.injEq] at hy1
          obtain ⟨rfl, rfl, hy1⟩ := hy1
          obtain ⟨_, _, _, _, _, _, h1', _⟩ := req_next h1 hy1.symm
          rw [← h1', hlen]
        | recv rsp => simp [ReqCall.run] at hy1
      · intro h03
        cases y2 with
        | next env1 buf1 => simp [ReqCall.run] at hy2
        | recv rsp =>
          simp only [ReqCall.run, ReqEvent.recv.injEq] at hy2
          obtain ⟨rfl, hy2⟩ := hy2
          obtain ⟨_, m0, m1, m2, m3, cert, _, _, _, _, hacc, _⟩ := c42_authenticated h8 h2 _ h03 b hy2.symm
          rw [accepted_append] at hacc
          have : (accepted es).length = 5 := by
            have h0 : accepted [ReqEvent.next env buf (.ok z.sent)] = [] := rfl
            rw [h0, List.append_nil] at hacc
            rw [hacc]; rfl
          omega

/-! ### Texts -/

theorem add_text {l : Log} {m : Bytes} (h84 : code m ≠ some 0x84) (h03 : code m ≠ some 0x03) : (l.add m).text = l.text ++ m := by
  unfold Log.add
  split
  all_goals first
    | (rename_i hq; exact absurd hq h84)
    | (rename_i hq; exact absurd hq h03)
    | rfl

/-- The text is all of the messages if the first one only can be a GET_VERSION and none is a CHALLENGE_AUTH. -/
theorem text_whole (m : Bytes) (ms : List Bytes) (hm : code m = some 0x84) (h : ∀ x ∈ ms, code x ≠ some 0x84 ∧ code x ≠ some 0x03) :
    (conversation (m :: ms)).text = (m :: ms).flatten := by
  induction ms using List.reverseRecOn with
  | nil => simp [conversation, Log.add, hm]
  | append_singleton ms x ih =>
    have hx := h x (by simp)
    rw [← List.cons_append, conversation_snoc, add_text hx.1 hx.2, ih fun y hy => h y (by simp [hy])]
    simp

/-- The text has no more bytes than the messages, and is all of them if it has as many. -/
theorem text_bound (ms : List Bytes) : (conversation ms).text.length ≤ ms.flatten.length ∧
    ((conversation ms).text.length = ms.flatten.length → (conversation ms).text = ms.flatten) := by
  induction ms using List.reverseRecOn with
  | nil => exact ⟨Nat.le_refl _, fun _ => rfl⟩
  | append_singleton ms m ih =>
    obtain ⟨i1, i2⟩ := ih
    rw [conversation_snoc]
    simp only [List.flatten_append, List.flatten_cons, List.flatten_nil, List.append_nil, List.length_append]
    by_cases h84 : code m = some 0x84
    · have : ((conversation ms).add m).text = m := by simp [Log.add, h84]
      rw [this]
      refine ⟨by omega, fun h => ?_⟩
      rw [List.eq_nil_of_length_eq_zero (l := ms.flatten) (by omega)]
      rfl
    by_cases h03 : code m = some 0x03
    · have : ((conversation ms).add m).text = (conversation ms).text ++ m.take (m.length - sizeFor signatureSizes (conversation ms).asym) := by simp [Log.add, h03]
      rw [this, List.length_append, List.length_take]
      refine ⟨by omega, fun h => ?_⟩
      rw [i2 (by omega), List.take_of_length_le (by omega)]
    · rw [add_text h84 h03, List.length_append]
      exact ⟨by omega, fun h => by rw [i2 (by omega)]⟩

theorem same_length (h : ∀ x ∈ xs, x.SameLengths) : (near xs).flatten.length = (far xs).flatten.length := by
  induction xs with
  | nil => rfl
  | cons x xs ih =>
    have hx := h x (by simp)
    have := ih fun y hy => h y (by simp [hy])
    simp only [near, far, List.flatMap_cons, List.flatten_append, List.flatten_cons, List.flatten_nil, List.append_nil, List.length_append] at this ⊢
    rw [hx.1, hx.2, this]

theorem same_intact (h : ∀ x ∈ xs, x.SameLengths) {a b : Bytes} (he : (near xs).flatten ++ a = (far xs).flatten ++ b) : (∀ x ∈ xs, x.Intact) ∧ a = b := by
  induction xs with
  | nil => exact ⟨by simp, by simpa [near, far] using he⟩
  | cons x xs ih =>
    have hx := h x (by simp)
    simp only [near, far, List.flatMap_cons, List.flatten_append, List.flatten_cons, List.flatten_nil, List.append_nil, List.append_assoc] at he ih
    obtain ⟨e1, he⟩ := List.append_inj he hx.1.symm
    obtain ⟨e2, he⟩ := List.append_inj he hx.2
    obtain ⟨i1, i2⟩ := ih (fun y hy => h y (by simp [hy])) he
    refine ⟨?_, i2⟩
    intro y hy
    rcases List.mem_cons.mp hy with rfl | hy
    · exact ⟨e1.symm, e2⟩
    · exact i1 y hy

/-! ### Signatures -/

/-- The signature of an accepted CHALLENGE has at least 64 bytes. -/
theorem sig_size (hl : slots.length = c'.numSlots) (h8 : c'.numSlots ≤ 8) (run : RspRun c' cr' slots es' r') {env : Env} {req buf out : Bytes} (hk : code req = some 0x83)
    (hok : (Responder.handleMsg c' cr' env req buf r').1 = .ok ⟨out, none⟩) : 64 ≤ sizeFor signatureSizes (conversation (rspMsgs es')).asym := by
  obtain ⟨st, st', sg, hlive, _, step, hsg, _⟩ := run_step hl h8 run (run_alive hl h8 run hok) hok
  have hm := hlive.mat
  generalize lastReq es' = p at hm
  generalize (Responder.handleMsg c' cr' env req buf r').2.transcript.get = tr' at step
  cases step with
  | getVersion _ hreq => rw [hreq, List.append_assoc, code_header] at hk; simp [Wire.header] at hk
  | getCapabilities hreq => rw [hreq, List.append_assoc, code_header] at hk; simp [Wire.header] at hk
  | negotiate hreq => rw [code_of_take hreq] at hk; simp [Wire.header] at hk
  | getDigests _ hreq => rw [code_of_take hreq] at hk; simp [Wire.header] at hk
  | getCertificate hreq => rw [hreq, List.append_assoc, code_header] at hk; simp [Wire.header] at hk
  | @challenge n _ _ tail sig auth m slot mask ds ss hreq hn hds hss =>
    cases hm with
    | challenge _ hw =>
      rw [hw.asym, getSignatureSize_sizeFor hss]
      obtain ⟨i, _, h2, _⟩ := getSignatureSize_ok.mp hss
      have hmem := List.mem_of_getElem? h2
      revert hmem
      simp only [signatureSizes, List.mem_cons, List.not_mem_nil, or_false]
      omega

/-- Code of an accepted request and its answer. -/
theorem step_codes (hl : slots.length = c'.numSlots) (h8 : c'.numSlots ≤ 8) (run : RspRun c' cr' slots es' r') {env : Env} {req buf out : Bytes}
    (hok : (Responder.handleMsg c' cr' env req buf r').1 = .ok ⟨out, none⟩) : ∃ k ∈ requestCodes, code req = some k ∧ code out = some (k &&& 0x7F) := by
  obtain ⟨st, st', sg, hlive, _, step, hsg, _⟩ := run_step hl h8 run (run_alive hl h8 run hok) hok
  generalize (Responder.handleMsg c' cr' env req buf r').2.transcript.get = tr' at step
  cases step with
  | getVersion _ hreq => exact ⟨0x84, by decide, by rw [hreq, List.append_assoc, code_header]; rfl, by rw [code_header]; rfl⟩
  | getCapabilities hreq => exact ⟨0xE1, by decide, by rw [hreq, List.append_assoc, code_header]; rfl, by rw [code_header]; rfl⟩
  | negotiate hreq => exact ⟨0xE3, by decide, by rw [code_of_take hreq]; rfl, by rw [code_header]; rfl⟩
  | getDigests _ hreq => exact ⟨0x81, by decide, by rw [code_of_take hreq]; rfl, by rw [code_header]; rfl⟩
  | getCertificate hreq => exact ⟨0x82, by decide, by rw [hreq, List.append_assoc, code_header]; rfl, by rw [code_header]; rfl⟩
  | challenge hreq hn hds hss hs hlt hch hmask ring hauth =>
    exact ⟨0x83, by decide, by rw [hreq, List.append_assoc, code_header]; rfl, by rw [hauth]; simp [authMsg, code, Wire.header]; decide⟩

/-- A requester that offers P-256 only accepts P-256 only. -/
theorem p256_selected (hq : ∀ a ∈ c.asymSigning, a = "ECDSA_ECC_NIST_P256") {m : Bytes} {a : Algorithms} (h : AlgOf c m a) : a.baseAsymAlgoSelected.toNat = 16 := by
  obtain ⟨_, _, hwf, o, ho, hv⟩ := h
  obtain ⟨i, hi, h16⟩ := hwf.asym
  have hne : o.baseAsymAlgo &&& a.baseAsymAlgoSelected ≠ 0 := by
    intro h0
    unfold Requester.ensureValidAlgorithmsSelected at hv
    simp only at hv
    split at hv
    · simp at hv
    · simp at hv
  have hbit : o.baseAsymAlgo.toNat.testBit i = true := by
    by_contra hc
    apply hne
    apply UInt32.toNat_inj.mp
    apply Nat.eq_of_testBit_eq
    intro j
    rw [UInt32.toNat_and, Nat.testBit_and, h16, Nat.testBit_two_pow]
    by_cases hj : i = j
    · subst hj; simp at hc; simp [hc]
    · simp [hj]
  obtain ⟨w, h1, h2⟩ := parseFlags_ok BaseAsymAlgo.fromStr (fun _ k => k = 4) c.asymSigning 0 (by
    intro a ha
    rw [hq a ha]
    exact ⟨4, rfl, by decide, rfl, fun j hj => hj⟩)
  have hw : o.baseAsymAlgo = w := by
    unfold Requester.configToNegotiateAlgorithms at ho
    rw [h1] at ho
    cases ho
    rfl
  rw [hw, h2 i] at hbit
  have : i = 4 := by simp at hbit; exact hbit.2
  subst this
  rw [h16]

end Spdm

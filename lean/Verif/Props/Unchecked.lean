import Verif.Spec.Unchecked
import Verif.Props.Aborts
import Verif.Props.Slots
import Verif.Props.Negotiation
import Verif.Lemmas.Blows
/-!
# The build without overflow checks (C87)
-/
namespace Spdm
open Spec

/-! ### The operations -/

theorem Unchecked.firstBit_pos {w mask n : Nat} (hw : trailingZeros w n < w) : Unchecked.firstBit w mask n = Responder.firstBit w mask n := by
  unfold Unchecked.firstBit Responder.firstBit
  simp only [Nat.mod_eq_of_lt hw, if_pos hw]

theorem trailingZeros_pos {w n : Nat} (h0 : n ≠ 0) (hn : n < 2 ^ w) : trailingZeros w n < w := by
  by_contra h
  obtain ⟨i, hi, hl⟩ := lowest_exists h0 hn
  have := trailingZeros_ge h i hi
  rw [hl.1] at this; simp at this

theorem trailingZeros_zero (w : Nat) : trailingZeros w 0 = w := by
  unfold trailingZeros
  have : (List.range w).find? (fun i => (0 : Nat).testBit i) = none := by simp
  rw [this]; rfl

theorem Unchecked.firstBit_run {w k n : Nat} (hk : 1 ≤ k) (hw : k ≤ w) (hn : n < 2 ^ k) : ∃ b, Unchecked.firstBit w (2 ^ k - 1) n = .ok b ∧ LowestOrFirst n b ∧ b < 2 ^ k := by
  by_cases h0 : n = 0
  · subst h0
    refine ⟨1, ?_, .inr ⟨rfl, rfl⟩, Nat.one_lt_two_pow (by omega)⟩
    unfold Unchecked.firstBit
    simp only [trailingZeros_zero, Nat.mod_self]
    rw [if_pos (by rw [Nat.testBit_two_pow_sub_one]; exact decide_eq_true (by omega))]
  · obtain ⟨i, hi, hl⟩ := lowest_exists h0 hn
    have hlt : trailingZeros w n < w := trailingZeros_pos h0 (Nat.lt_of_lt_of_le hn (Nat.pow_le_pow_right (by omega) hw))
    refine ⟨2 ^ i, ?_, .inl ⟨i, hl, rfl⟩, Nat.pow_lt_pow_right (by omega) hi⟩
    rw [Unchecked.firstBit_pos hlt, firstBit_ok hw hi hl]

theorem kind_mask (k : AlgKind) : k.mask.toNat = 2 ^ algBits k - 1 ∧ 1 ≤ algBits k ∧ algBits k ≤ 9 := by cases k <;> decide

theorem Unchecked.chooseResponses_run (reqs : List AlgorithmRequest) (hb : ∀ a ∈ reqs, a.supported.toNat < 2 ^ algBits a.kind) (n i : Nat) (rs : List AlgorithmRequest)
    (h1 : i + n ≤ reqs.length) (h2 : i + n ≤ rs.length) :
    ∃ rs', Unchecked.chooseResponses reqs n i rs = .ok rs' ∧ rs'.length = rs.length ∧ (∀ j, j < i → rs'[j]? = rs[j]?) ∧
      ∀ j, i ≤ j → j < i + n → ∃ q p, reqs[j]? = some q ∧ rs'[j]? = some p ∧ p.kind = q.kind ∧ LowestOrFirst q.supported.toNat p.supported.toNat := by
  induction n generalizing i rs with
  | zero => exact ⟨rs, rfl, rfl, fun _ _ => rfl, fun j _ _ => by omega⟩
  | succ n ih =>
    have hi : i < reqs.length := by omega
    obtain ⟨km, k1, k9⟩ := kind_mask reqs[i].kind
    obtain ⟨b, e1, e2, e3⟩ := Unchecked.firstBit_run (w := 16) k1 (by omega) (hb reqs[i] (List.getElem_mem hi))
    have hb16 : b < 65536 := by
      have := Nat.pow_le_pow_right (n := 2) (by omega) k9
      omega
    have hset : setIndex rs i (⟨reqs[i].kind, UInt16.ofNat b⟩ : AlgorithmRequest) = .ok (rs.set i ⟨reqs[i].kind, UInt16.ofNat b⟩) := by
      unfold setIndex; rw [if_pos (by omega)]
    obtain ⟨rs', g1, g2, g3, g4⟩ := ih (i + 1) (rs.set i ⟨reqs[i].kind, UInt16.ofNat b⟩) (by omega) (by simp; omega)
    refine ⟨rs', ?_, by simpa using g2, ?_, ?_⟩
    · simp only [Unchecked.chooseResponses, index_ok hi, Res.ok_bind]
      rw [km, e1, Res.ok_bind, hset, Res.ok_bind, g1]
    · intro j hj
      rw [g3 j (by omega), List.getElem?_set_ne (by omega)]
    · intro j hj1 hj2
      rcases Nat.lt_or_ge i j with hij | hij
      · exact g4 j (by omega) (by omega)
      · have : j = i := by omega
        subst this
        refine ⟨reqs[j], ⟨reqs[j].kind, UInt16.ofNat b⟩, List.getElem?_eq_getElem hi, by rw [g3 j (by omega), List.getElem?_set_self (by omega)], rfl, ?_⟩
        have : (UInt16.ofNat b).toNat = b := UInt16.toNat_ofNat_of_lt' (by simpa [UInt16.size] using hb16)
        simpa only [this] using e2

/-- Without the checks every well-formed offer gets a selection. -/
theorem Unchecked.chooseAlgorithms_run {m : NegotiateAlgorithms} (hm : NegotiateWF m) : ∃ a, Unchecked.chooseAlgorithms m = .ok a ∧ AnswersAnyway m a := by
  obtain ⟨hash, a1, a2, a3⟩ := Unchecked.firstBit_run (w := 32) (k := 6) (by omega) (by omega) hm.hash
  obtain ⟨asym, b1, b2, b3⟩ := Unchecked.firstBit_run (w := 32) (k := 9) (by omega) (by omega) hm.asym
  obtain ⟨rs, c1, c2, c3, c4⟩ := Unchecked.chooseResponses_run m.algorithmRequests hm.bits m.numAlgorithmRequests.toNat 0 (List.replicate maxAlgorithmRequests AlgorithmRequest.dflt)
    (by have := hm.len; have := hm.num; omega) (by have := hm.num; simp [maxAlgorithmRequests]; omega)
  have e1 : (UInt32.ofNat hash).toNat = hash := UInt32.toNat_ofNat_of_lt' (by simp [UInt32.size]; omega)
  have e2 : (UInt32.ofNat asym).toNat = asym := UInt32.toNat_ofNat_of_lt' (by simp [UInt32.size]; omega)
  refine ⟨⟨m.measurementSpec, UInt32.ofNat hash, UInt32.ofNat asym, UInt32.ofNat hash, m.numAlgorithmRequests, rs⟩, ?_, ?_⟩
  · unfold Unchecked.chooseAlgorithms
    rw [hashMask, asymMask, a1, Res.ok_bind, b1, Res.ok_bind, c1, Res.ok_bind]
    rfl
  · exact ⟨rfl, by simpa only [e1] using a2, by simpa only [e2] using b2, by simpa only [e1] using a2, rfl, by simpa [maxAlgorithmRequests] using c2, fun i hi => c4 i (by omega) (by omega)⟩

theorem Unchecked.chooseResponses_same (reqs : List AlgorithmRequest) (n i : Nat) (rs : List AlgorithmRequest)
    (h : ∀ j a, reqs[j]? = some a → i ≤ j → j < i + n → a.supported.toNat ≠ 0) : Unchecked.chooseResponses reqs n i rs = Responder.chooseResponses reqs n i rs := by
  induction n generalizing i rs with
  | zero => rfl
  | succ n ih =>
    simp only [Unchecked.chooseResponses, Responder.chooseResponses]
    by_cases hi : i < reqs.length
    · simp only [index_ok hi, Res.ok_bind]
      rw [Unchecked.firstBit_pos (trailingZeros_pos (h i reqs[i] (List.getElem?_eq_getElem hi) (by omega) (by omega)) (UInt16.toNat_lt _))]
      congr 1; funext b
      congr 1; funext rs'
      exact ih (i + 1) rs' fun j a h1 h2 h3 => h j a h1 (by omega) (by omega)
    · have : index reqs i = .panic .indexOutOfBounds := by unfold index; rw [List.getElem?_eq_none (by omega)]
      rw [this]; rfl

/-- On offers that leave something to choose everywhere, both builds choose the same. -/
theorem Unchecked.chooseAlgorithms_same {m : NegotiateAlgorithms} (h0 : NonEmptyOffer m) : Unchecked.chooseAlgorithms m = Responder.chooseAlgorithms m := by
  unfold Unchecked.chooseAlgorithms Responder.chooseAlgorithms
  rw [Unchecked.firstBit_pos (trailingZeros_pos h0.hash (UInt32.toNat_lt _)), Unchecked.firstBit_pos (trailingZeros_pos h0.asym (UInt32.toNat_lt _)),
    Unchecked.chooseResponses_same _ _ _ _ (fun j a h1 _ h3 => h0.algs j a h1 (by omega))]

/-! ### The handlers -/

theorem run_same {σ α β : Type} {m : M σ α} {f g : α → M σ β} {s : σ} (h : ∀ a s', m s = (.ok a, s') → f a s' = g a s') : (m >>= f) s = (m >>= g) s := by
  rcases hm : m s with ⟨a | e | k, s'⟩
  · rw [M.run_bind_ok hm, M.run_bind_ok hm, h a s' hm]
  · rw [M.run_bind_err hm, M.run_bind_err hm]
  · rw [M.run_bind_panic hm, M.run_bind_panic hm]

theorem lift_same {σ α β : Type} {x : Res α} {f g : α → M σ β} {s : σ} (h : ∀ a, x = .ok a → f a s = g a s) : (M.lift x >>= f) s = (M.lift x >>= g) s :=
  run_same fun a s' e => by
    have := M.run_lift x s
    rw [this] at e
    simp only [Prod.mk.injEq] at e
    obtain ⟨e1, rfl⟩ := e
    exact h a e1

theorem reset_same {req : Bytes} {f g : H (Nat × RspState)} {h : HState} (e : f h = g h) : Responder.resetOnGetVersion req f h = Responder.resetOnGetVersion req g h := by
  unfold Responder.resetOnGetVersion
  rcases hp : MsgType.getVersion.parseHeader req with (_ | _) | _ | _ <;> simp only [e]

theorem Unchecked.sub_eq {a b : Nat} (h : b ≤ a) : Unchecked.sub a b = a - b := by unfold Unchecked.sub; rw [if_pos h]
theorem subChecked_eq {a b : Nat} (h : b ≤ a) : Responder.subChecked a b = .ok (a - b) := by unfold Responder.subChecked; rw [if_pos h]

theorem Unchecked.algorithms_same {caps : Caps} {req : Bytes} {h : HState} (hw : h.tr.WF) (hne : ¬ (EmptyOffer req ∧ h.tr.get.length + req.length ≤ h.tr.buf.length)) :
    Unchecked.algorithmsHandle caps req h = Responder.algorithmsHandle caps req h := by
  unfold Unchecked.algorithmsHandle Responder.algorithmsHandle
  refine reset_same (lift_same fun _ hx => lift_same fun body hb => lift_same fun m hm => run_same fun _ h1 e1 => ?_)
  obtain ⟨h3, hr⟩ := expect_ok_inv hx
  obtain ⟨_, rfl⟩ := sliceFrom_inv hb
  obtain ⟨_, _, _, _, hroom⟩ := H.extend_inv hw e1
  have h0 : NonEmptyOffer m := by
    by_contra hc
    exact hne ⟨⟨h3, hr, m, hm, hc⟩, hroom⟩
  rw [Unchecked.chooseAlgorithms_same h0]

theorem Unchecked.challenge_same {c : Cfg} {cr : Crypto} {env : Env} {n : Negotiated} {slots : List (Option FilledSlot)} (hl : slots.length = c.numSlots) (h8 : c.numSlots ≤ 8) {req : Bytes} {h : HState} :
    Unchecked.rspChallengeHandle c cr env n slots req h = Responder.challengeHandle c cr env n slots req h := by
  unfold Unchecked.rspChallengeHandle Responder.challengeHandle
  refine reset_same (lift_same fun _ _ => lift_same fun ds _ => lift_same fun ss _ => lift_same fun body _ => lift_same fun m _ => lift_same fun slot hs => lift_same fun d _ =>
    run_same fun _ h1 _ => lift_same fun mask _ => lift_same fun auth ha => run_same fun size h2 e2 => ?_)
  obtain ⟨rfl, _⟩ := authNew_inv ha
  have hlt : m.slot.toNat < c.numSlots := by have := (List.getElem?_eq_some_iff.mp (slotAt_some hs)).1; omega
  obtain ⟨bodyA, hwr, _, _⟩ := auth_layout (mask := mask) (mu := Responder.useMutualAuth n.caps) (d := d) (n := env.nonce) (ds := ds) (ss := ss) hlt h8
  obtain ⟨rfl, _, _⟩ := H.write_inv hwr (mapErr_ok_back e2)
  have hle : ss ≤ 2 + (bodyA ++ zeros ss).length := by simp [zeros]; omega
  rw [Unchecked.sub_eq hle, subChecked_eq hle]

theorem Unchecked.dispatch_same {c : Cfg} {cr : Crypto} {env : Env} {slots : List (Option FilledSlot)} (hl : slots.length = c.numSlots) (h8 : c.numSlots ≤ 8) {st : RspState} {req : Bytes} {h : HState}
    (hw : h.tr.WF) (hne : ∀ caps, st = .algorithms caps → ¬ (EmptyOffer req ∧ h.tr.get.length + req.length ≤ h.tr.buf.length)) :
    Unchecked.dispatch c cr env slots st req h = Responder.dispatch c cr env slots st req h := by
  cases st with
  | version => rfl
  | capabilities => rfl
  | algorithms caps => exact Unchecked.algorithms_same hw (hne caps rfl)
  | idAuth n => rfl
  | challenge n => exact Unchecked.challenge_same hl h8
  | error => rfl

theorem Unchecked.respond_of {c : Cfg} {cr : Crypto} {env : Env} {req buf : Bytes} {r : Responder} {st : RspState} (hs : r.state = some st)
    (e : Unchecked.dispatch c cr env r.slots st req ⟨buf, r.transcript, r.signed⟩ = Responder.dispatch c cr env r.slots st req ⟨buf, r.transcript, r.signed⟩) :
    Unchecked.respond c cr env req buf r = Responder.handleMsg c cr env req buf r := by
  unfold Unchecked.respond Responder.handleMsg
  simp only [hs, Unchecked.rspHandle, Responder.handle, e]
  rcases hd : Responder.dispatch c cr env r.slots st req ⟨buf, r.transcript, r.signed⟩ with ⟨⟨n, st'⟩ | er | k, h⟩
  · simp only []
    rcases hq : sliceTo h.rsp n with _ | _ | _ <;> rfl
  · simp only []
    rcases hq : H.write MsgType.error (Responder.errorToMsg er).writeBody h with ⟨n | _ | _, h'⟩
    · simp only []
      rcases hq' : sliceTo h'.rsp n with _ | _ | _ <;> rfl
    · rfl
    · rfl
  · rfl

section responder
variable {c : Cfg} {cr : Crypto} {slots : List (Option FilledSlot)} {es : List RspEvent} {r : Responder}

/-- **C87**, one call, the part that holds: a call has the same result and the same effect in both builds, except for a NEGOTIATE_ALGORITHMS with an empty mask, after GET_CAPABILITIES,
that fits the transcript.  Missing is exactly that case, where the builds differ (`c87_empty_offer_differs`). -/
theorem c87_call_partial (hl : slots.length = c.numSlots) (h8 : c.numSlots ≤ 8) (run : RspRun c cr slots es r) (env : Env) (req buf : Bytes)
    (hne : ¬ (alive es = true ∧ lastReq es = some 0xE1 ∧ EmptyOffer req ∧ (conversation (rspMsgs es)).text.length + req.length ≤ c.transcriptSize)) :
    Unchecked.respond c cr env req buf r = Responder.handleMsg c cr env req buf r := by
  rcases rspRun_inv hl h8 run with ⟨ha, st, hlive⟩ | ⟨_, hk, hs | hs⟩
  · refine Unchecked.respond_of hlive.state ?_
    rw [hlive.slots]
    refine Unchecked.dispatch_same hl h8 hlive.wf ?_
    rintro caps rfl ⟨h1, h2⟩
    refine hne ⟨ha, ?_, h1, ?_⟩
    · have hm := hlive.mat
      generalize lastReq es = k at hm ⊢
      cases hm; rfl
    · rw [← hlive.text, ← hlive.cap]; exact h2
  · exact Unchecked.respond_of hs rfl
  · unfold Unchecked.respond Responder.handleMsg; rw [hs]

/-- **C87** is false of the code: after GET_CAPABILITIES, a NEGOTIATE_ALGORITHMS with an empty mask aborts a responder built with overflow checks, and is answered by one built without:
it selects algorithm number 0 where nothing was offered, so that C28 fails too. -/
theorem c87_empty_offer_differs (hl : slots.length = c.numSlots) (h8 : c.numSlots ≤ 8) (run : RspRun c cr slots es r) (ha : alive es = true)
    (hlast : lastReq es = some 0xE1) (env : Env) (req buf : Bytes) (m : NegotiateAlgorithms) (h3 : 3 ≤ req.length) (hh : req.take 2 = [0x11, 0xE3])
    (hp : NegotiateAlgorithms.parseBody (req.drop 2) = .ok m) (h0 : ¬ NonEmptyOffer m)
    (hbuf : 36 + 4 * m.numAlgorithmRequests.toNat ≤ buf.length)
    (htr : (conversation (rspMsgs es)).text.length + req.length + (36 + 4 * m.numAlgorithmRequests.toNat) ≤ c.transcriptSize) :
    (Responder.handleMsg c cr env req buf r).1 = .panic .overflow ∧
    ∃ a r', Unchecked.respond c cr env req buf r = (.ok ⟨[0x11, 0x63] ++ Wire.algorithms a, none⟩, r') ∧ AnswersAnyway m a ∧ Responder.name r' = .ok "IdAuth" := by
  refine ⟨c29_empty_offer_aborts hl h8 run ha hlast env req buf m h3 hh hp h0 (by omega), ?_⟩
  obtain ⟨caps, hlive⟩ := rsp_algorithms_state hl h8 run ha hlast
  obtain ⟨_, _, _, hm, _⟩ := NegotiateAlgorithms.inverts.parse hp
  obtain ⟨a, ca, hans⟩ := Unchecked.chooseAlgorithms_run hm
  have hnum := hm.num
  have hlen := hans.len
  have hwl : (Wire.algorithms a).length = 34 + 4 * m.numAlgorithmRequests.toNat := by
    have := hans.num
    have hf : ∀ l : List AlgorithmRequest, (l.flatMap Wire.alg).length = 4 * l.length := by
      intro l
      induction l with
      | nil => rfl
      | cons x xs ih => rw [List.flatMap_cons, List.length_append, ih]; simp [Wire.alg, le_length]; omega
    simp only [Wire.algorithms, List.length_append, hf, List.length_take, le_length, zeros, List.length_replicate, List.length_cons, List.length_nil]
    rw [this, Nat.min_eq_left (by omega)]
  have hwr := Algorithms.writes hans.len (by rw [hans.num]; exact hm.num)
  have hsl : sliceFrom req headerSize = .ok (req.drop 2) := by unfold sliceFrom headerSize; rw [if_pos (by omega)]
  obtain ⟨t', e3, g3, w3, c3⟩ := H.extend_run (h := ⟨buf, r.transcript, r.signed⟩) (bs := req) hlive.wf (by simp only [hlive.text, hlive.cap]; omega)
  have hd : ∃ h', Unchecked.dispatch c cr env slots (.algorithms caps) req ⟨buf, r.transcript, r.signed⟩ = (.ok (2 + (Wire.algorithms a).length, .idAuth ⟨caps, a⟩), h') ∧
      h'.rsp.take (2 + (Wire.algorithms a).length) = Wire.header .algorithms ++ Wire.algorithms a ∧ 2 + (Wire.algorithms a).length ≤ h'.rsp.length := by
    simp only [Unchecked.dispatch]
    unfold Unchecked.algorithmsHandle
    rw [resetOnGetVersion_other (t := .negotiateAlgorithms) (by decide) h3 hh]
    rw [lift_run (expect_ok (t := .negotiateAlgorithms) h3 hh), lift_run hsl, lift_run hp, M.run_bind_ok e3, lift_run ca]
    rw [M.run_bind_ok (H.write_run hwr (by simp only; omega))]
    have hsz : sliceTo (Wire.header .algorithms ++ Wire.algorithms a ++ buf.drop (2 + (Wire.algorithms a).length)) (2 + (Wire.algorithms a).length) =
        .ok (Wire.header .algorithms ++ Wire.algorithms a) := by
      rw [sliceTo_ok (by simp [header_length]), msg_take]
    rw [M.run_bind_ok (a := Wire.header .algorithms ++ Wire.algorithms a) (s' := ⟨Wire.header .algorithms ++ Wire.algorithms a ++ buf.drop (2 + (Wire.algorithms a).length), t', r.signed⟩) (by unfold H.rspTo; simp only [hsz])]
    obtain ⟨t2, e4, _⟩ := H.extend_run (h := (⟨Wire.header .algorithms ++ Wire.algorithms a ++ buf.drop (2 + (Wire.algorithms a).length), t', r.signed⟩ : HState))
      (bs := Wire.header .algorithms ++ Wire.algorithms a) w3
      (by simp only [g3, c3, List.length_append, header_length, hlive.text, hlive.cap]; omega)
    rw [M.run_bind_ok e4]
    exact ⟨_, rfl, msg_take, by simp [header_length]⟩
  obtain ⟨h', d1, d2, d3⟩ := hd
  refine ⟨a, { r with transcript := h'.tr, signed := h'.signed, state := some (.idAuth ⟨caps, a⟩) }, ?_, hans, rfl⟩
  unfold Unchecked.respond
  simp only [hlive.state, hlive.slots, Unchecked.rspHandle, d1, sliceTo_ok d3, d2]
  rfl

/-- **C87**, histories: a history of the build with the checks in which no call aborts on an overflow is a history of the build without them. -/
theorem c87_history_partial (hl : slots.length = c.numSlots) (h8 : c.numSlots ≤ 8) (run : RspRun c cr slots es r)
    (hno : ∀ env req buf, .call env req buf (.panic .overflow) ∉ es) : UncheckedRun c cr slots es r := by
  induction run with
  | new => exact .new
  | @call es r env req buf run ih =>
    have h1 := ih fun e q b hmem => hno e q b (List.mem_append_left _ hmem)
    have hsame : Unchecked.respond c cr env req buf r = Responder.handleMsg c cr env req buf r := by
      refine c87_call_partial hl h8 run env req buf ?_
      rintro ⟨ha, hlast, ⟨h3, hh, m, hp, h0⟩, htr⟩
      have := c29_empty_offer_aborts hl h8 run ha hlast env req buf m h3 hh hp h0 htr
      exact hno env req buf (by rw [← this]; simp)
    rw [← hsame]
    exact .call env req buf h1
  | @reset es r _ ih => exact .reset (ih fun e q b hmem => hno e q b (List.mem_append_left _ hmem))

/-- **C87**, histories: a history of the build without the checks is a history of the build with them, up to the first empty offer after GET_CAPABILITIES. -/
theorem c87_release_history_partial (hl : slots.length = c.numSlots) (h8 : c.numSlots ≤ 8) (run : UncheckedRun c cr slots es r) :
    RspRun c cr slots es r ∨ ∃ before env req buf res rest, es = before ++ [.call env req buf res] ++ rest ∧ (∃ r0, RspRun c cr slots before r0) ∧
      alive before = true ∧ lastReq before = some 0xE1 ∧ EmptyOffer req := by
  induction run with
  | new => exact .inl .new
  | @call es r env req buf _ ih =>
    rcases ih with run | ⟨b, e, q, bf, rs, rest, rfl, h1, h2, h3, h4⟩
    · by_cases hne : alive es = true ∧ lastReq es = some 0xE1 ∧ EmptyOffer req ∧ (conversation (rspMsgs es)).text.length + req.length ≤ c.transcriptSize
      · exact .inr ⟨es, env, req, buf, (Unchecked.respond c cr env req buf r).1, [], by simp, ⟨r, run⟩, hne.1, hne.2.1, hne.2.2.1⟩
      · rw [c87_call_partial hl h8 run env req buf hne]
        exact .inl (.call env req buf run)
    · exact .inr ⟨b, e, q, bf, rs, rest ++ [.call env req buf (Unchecked.respond c cr env req buf r).1], by simp only [List.append_assoc], h1, h2, h3, h4⟩
  | @reset es r _ ih =>
    rcases ih with run | ⟨b, e, q, bf, rs, rest, rfl, h1, h2, h3, h4⟩
    · exact .inl (.reset run)
    · exact .inr ⟨b, e, q, bf, rs, rest ++ [.reset], by simp only [List.append_assoc], h1, h2, h3, h4⟩

end responder

/-- **C87** is false, a witness: the offer of `c29_witness`, without a hash algorithm, is answered with SHA-256 (bit 0 of the base hash field) by the build without the checks. -/
theorem c87_witness : ∃ out, (Unchecked.respond demoCfg demoCrypto demoEnv ([0x11, 0xE3] ++ Wire.negotiateAlgorithms { demoSessionOffer with baseHashAlgo := 0 }) (zeros 200) (demoResponder 2)).1 =
    .ok ⟨out, none⟩ ∧ leVal (field out 16 4) = 1 := by
  have h : (match (Unchecked.respond demoCfg demoCrypto demoEnv ([0x11, 0xE3] ++ Wire.negotiateAlgorithms { demoSessionOffer with baseHashAlgo := 0 }) (zeros 200) (demoResponder 2)).1 with
    | .ok ⟨out, none⟩ => leVal (field out 16 4) == 1 | _ => false) = true := by decide +kernel
  split at h
  · rename_i out e; exact ⟨out, e, by simpa using h⟩
  · simp at h

/-- The honest session is the same in both builds (the history theorem is not empty). -/
example : ∀ n, n ≤ 7 → UncheckedRun demoCfg demoCrypto demoSlots (demoEvents n) (demoResponder n) := fun n hn =>
  c87_history_partial rfl (by decide) (demo_run n) (by
    have : ∀ k : Fin 8, (demoEvents k.val).all (fun e => match e with | .call _ _ _ (.panic .overflow) => false | _ => true) = true := by decide +kernel
    intro env req buf hmem
    have h1 := this ⟨n, by omega⟩
    rw [List.all_eq_true] at h1
    have := h1 _ hmem
    simp at this)

/-! ### The requester -/

theorem Unchecked.checkSlot_same {s : UInt8} {m : ChallengeAuth} (h : m.slot.toNat < 8) : Unchecked.checkSlot s m = Requester.checkSlot s m := by
  unfold Unchecked.checkSlot Requester.checkSlot Requester.slotBit Unchecked.slotBit
  rw [if_pos h, Nat.mod_eq_of_lt h]
  rfl

theorem Unchecked.reqChallenge_same {c : Cfg} {cr : Crypto} {s : ReqChallenge} {rsp : Bytes} (h8 : c.numSlots ≤ 8) (hne : ¬ (c.numSlots = 8 ∧ NamesSlotEight rsp)) (r : Requester) :
    Unchecked.reqChallengeHandle c cr s rsp r = Requester.challengeHandle c cr s rsp r := by
  unfold Unchecked.reqChallengeHandle Requester.challengeHandle
  refine lift_same fun _ hx => lift_same fun ds _ => lift_same fun ss _ => lift_same fun body hb => lift_same fun m hm => ?_
  obtain ⟨h3, hr⟩ := expect_ok_inv hx
  obtain ⟨_, rfl⟩ := sliceFrom_inv hb
  obtain ⟨hs, b, hb0, hbm⟩ := c47_challenge_auth_slots_partial c ds ss _ m hm
  obtain ⟨bs, tail, e1, b', olen, e2, _, _, _, _, _, _, _, hsig, _⟩ := (ChallengeAuth.inverts c ds ss).parse hm
  have hss : ss ≤ rsp.length := by
    have h1 : (rsp.drop 2).length = (bs ++ tail).length := congrArg List.length e1
    rw [e2] at h1
    simp only [List.length_drop, List.length_append, hsig] at h1
    omega
  have hlt : m.slot.toNat < 8 := by
    by_contra hc
    refine hne ⟨by omega, hr, b, ?_, by omega⟩
    rw [List.getElem?_drop] at hb0; exact hb0
  rw [Unchecked.checkSlot_same hlt]
  refine lift_same fun _ _ => lift_same fun cb _ => lift_same fun d _ => ?_
  rw [Unchecked.sub_eq hss, subChecked_eq hss]

section requester
variable {c : Cfg} {cr : Crypto}

/-- **C87**, the requester, the part that holds: handling a response has the same result and effect in both builds, except for a CHALLENGE_AUTH for slot number 8 in a build with 8 slots.
Missing is that case (`c87_slot_eight_differs`). -/
theorem c87_requester_partial (h8 : c.numSlots ≤ 8) (r : Requester) (rsp : Bytes) (hne : ¬ (c.numSlots = 8 ∧ NamesSlotEight rsp)) :
    Unchecked.receive c cr rsp r = Requester.handleMsg c cr rsp r := by
  unfold Unchecked.receive Requester.handleMsg
  rcases hs : r.state with _ | st
  · rfl
  · have h : Unchecked.reqHandle c cr st rsp { r with state := none } = Requester.handle c cr st rsp { r with state := none } := by
      cases st with
      | challenge s =>
        simp only [Unchecked.reqHandle, Requester.handle]
        have e := Unchecked.reqChallenge_same (cr := cr) (s := s) h8 hne { r with state := none }
        rcases hm : Requester.challengeHandle c cr s rsp { r with state := none } with ⟨a | er | k, s'⟩
        · rw [M.run_bind_ok hm, M.run_bind_ok (e.trans hm)]
        · rw [M.run_bind_err hm, M.run_bind_err (e.trans hm)]
        · rw [M.run_bind_panic hm, M.run_bind_panic (e.trans hm)]
      | _ => rfl
    simp only [h]
    rcases hd : Requester.handle c cr st rsp { r with state := none } with ⟨_ | _ | _, _⟩ <;> rfl

end requester

/-- The requester of the build with 8 slots, after a CERTIFICATE response for slot 8 and its CHALLENGE. -/
def slot8Requester : Requester := reqAfter demoCfg8 demoCrypto (Requester.new demoCfg8 [1, 2, 3]) slot8Calls

/-- The signed part of a CHALLENGE_AUTH for slot number 8 whose mask has slot 0's bit only. -/
def slot8Signed : Bytes := [0x11, 0x03, 8, 1] ++ ((demoReplies[5]?.getD []).take 78).drop 4

/-- The whole message, properly signed. -/
def slot8Auth : Bytes := slot8Signed ++ demoSign (demoHash (slot8Requester.transcript.get ++ slot8Signed))

/-- **C87** is false for the requester as well: a CHALLENGE_AUTH for slot 8 whose mask names only slot 0 aborts the build with the checks; the build without them takes slot 0's bit for slot 8's
and completes the authentication. -/
theorem c87_slot_eight_differs : (∃ es, ReqRun demoCfg8 demoCrypto [1, 2, 3] es slot8Requester ∧ failed es = false) ∧ NamesSlotEight slot8Auth ∧ slot8Auth[3]? = some 1 ∧
    (Requester.handleMsg demoCfg8 demoCrypto slot8Auth slot8Requester).1 = .panic .overflow ∧
    (Unchecked.receive demoCfg8 demoCrypto slot8Auth slot8Requester).1 = .ok true :=
  ⟨⟨_, ReqRun.of demoCfg8 demoCrypto [1, 2, 3] slot8Calls, by decide +kernel⟩, ⟨by decide +kernel, 8, by decide +kernel, by decide⟩, by decide +kernel, by decide +kernel, by decide +kernel⟩

/-- The requester theorem covers the honest session. -/
example : demoReplies.all (fun rsp => decide (rsp.take 2 ≠ [0x11, 0x03] ∨ (rsp[2]?.getD 0).toNat % 16 ≠ 8)) = true ∧ demoReplies.length = 6 := by decide +kernel

end Spdm

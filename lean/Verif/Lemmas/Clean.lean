import Verif.Spec.Lossy
import Verif.Lemmas.Exact
import Verif.Props.Reply
import Verif.Props.Readme
import Verif.Props.Tamper
import Verif.Props.ReqAborts
/-! Messages of two endpoints on a network that does not alter any: none has bytes behind its end. -/
namespace Spdm
open Spec

/-! ### Messages that end where they should -/

/-- The message has no bytes behind its end where hash 1 and signature algorithm `sw` are selected, and selects these if it selects any. -/
structure Gen (n sw : Nat) (m : Bytes) : Prop where
  exact : wireLength n ⟨0, 0, 1, sw, []⟩ m = some (recorded ⟨0, 0, 1, sw, []⟩ m).length
  sel : code m = some 0x63 → leVal (field m 12 4) = sw ∧ leVal (field m 16 4) = 1

theorem Gen.at {n sw : Nat} {m : Bytes} (h : Gen n sw m) {l : Log} (hl : code m = some 0x01 ∨ code m = some 0x03 → l.hash = 1 ∧ l.asym = sw) :
    wireLength n l m = some (recorded l m).length := by
  have e := h.exact
  unfold wireLength recorded at e ⊢
  split <;> rename_i hk <;> simp only [hk] at e ⊢
  all_goals first
    | exact e
    | (obtain ⟨h1, h2⟩ := hl (by simp [hk]); simp only [h1, h2]; exact e)

theorem mem_since {ms : List Bytes} {m x : Bytes} (hx : x ∈ sinceVersion ms) (hm : code m ≠ some 0x84) : x ∈ sinceVersion (ms ++ [m]) := by
  rw [sinceVersion_snoc, if_neg hm]
  exact List.mem_append_left _ hx

theorem last_since (ms : List Bytes) (m : Bytes) : m ∈ sinceVersion (ms ++ [m]) := by
  rw [sinceVersion_snoc]
  split <;> simp

/-- What is selected once ALGORITHMS has been seen. -/
theorem selected {n sw : Nat} {ms : List Bytes} (hg : ∀ m ∈ ms, Gen n sw m) (h : ∃ m ∈ sinceVersion ms, code m = some 0x63) :
    (conversation ms).hash = 1 ∧ (conversation ms).asym = sw := by
  induction ms using List.reverseRecOn with
  | nil => obtain ⟨m, hm, _⟩ := h; simp [sinceVersion] at hm
  | append_singleton ms m ih =>
    rw [conversation_snoc]
    obtain ⟨x, hx, hk⟩ := h
    by_cases h63 : code m = some 0x63
    · simp only [Log.add, h63]
      obtain ⟨a, b⟩ := (hg m (by simp)).sel h63
      exact ⟨b, a⟩
    · have h84 : code m ≠ some 0x84 := by
        intro hc
        rw [sinceVersion_snoc, if_pos hc] at hx
        simp only [List.mem_singleton] at hx
        rw [hx] at hk
        exact h63 hk
      have hx' : x ∈ sinceVersion ms := by
        rw [sinceVersion_snoc, if_neg h84, List.mem_append] at hx
        rcases hx with hx | hx
        · exact hx
        · simp only [List.mem_singleton] at hx
          rw [hx] at hk
          exact absurd hk h63
      have := ih (fun m hm => hg m (by simp [hm])) ⟨x, hx', hk⟩
      unfold Log.add
      split
      all_goals first
        | (rename_i hq; exact absurd hq h84)
        | (rename_i hq; exact absurd hq h63)
        | exact this

theorem exactFrom_snoc {n : Nat} {l : Log} {ms : List Bytes} {m : Bytes} (h : ExactFrom n l ms)
    (hm : wireLength n (ms.foldl Log.add l) m = some (recorded (ms.foldl Log.add l) m).length) : ExactFrom n l (ms ++ [m]) := by
  intro pre x post e
  rcases List.eq_nil_or_concat post with rfl | ⟨post', y, rfl⟩
  · obtain ⟨rfl, e2⟩ := List.append_inj' e rfl
    simp only [List.cons.injEq, and_true] at e2
    rw [← e2]
    exact hm
  · have : ms ++ [m] = (pre ++ x :: post') ++ [y] := by rw [e]; simp
    obtain ⟨rfl, _⟩ := List.append_inj' this rfl
    exact h pre x post' rfl

theorem noTrailing_snoc {n sw : Nat} {ms : List Bytes} {m : Bytes} (h : NoTrailing n (sinceVersion ms)) (hm : Gen n sw m)
    (hl : code m = some 0x01 ∨ code m = some 0x03 → (conversation ms).hash = 1 ∧ (conversation ms).asym = sw) : NoTrailing n (sinceVersion (ms ++ [m])) := by
  rw [sinceVersion_snoc]
  split
  · rename_i hk
    intro pre x post e
    rcases pre with _ | ⟨y, ys⟩
    · simp only [List.nil_append, List.cons.injEq] at e
      rw [← e.1]
      exact hm.at (fun h => absurd h (by rw [hk]; decide))
    · simp at e
  · refine exactFrom_snoc (l := Log.empty) h ?_
    have : (sinceVersion ms).foldl Log.add Log.empty = conversation ms := conversation_since ms
    rw [this]
    exact hm.at hl

theorem noTrailing_nil (n : Nat) : NoTrailing n (sinceVersion []) := by
  intro pre m post e
  simp [sinceVersion] at e

/-- Codes survive recording. -/
theorem codes_records {n : Nat} {l : Log} {ms : List Bytes} (h : ExactFrom n l ms) : codes (records l ms) = codes ms := by
  induction ms generalizing l with
  | nil => rfl
  | cons m ms ih =>
    have ih := ih h.tail
    simp only [codes, records, List.map_cons, List.cons.injEq] at ih ⊢
    obtain ⟨s, hs⟩ := recorded_prefix l m
    have := (wireLength_prefix (x := []) hs h.head).2
    exact ⟨(code_prefix hs this).symm, ih⟩

theorem noTrailing_codes {n : Nat} {ms ms' : List Bytes} (h : NoTrailing n (sinceVersion ms)) (h' : NoTrailing n (sinceVersion ms'))
    (ht : (conversation ms).text = (conversation ms').text) : codes (sinceVersion ms) = codes (sinceVersion ms') := by
  obtain ⟨a, _⟩ := noTrailing_unique h h' ht
  rw [← codes_records (l := Log.empty) h, ← codes_records (l := Log.empty) h', a]

/-! ### Requests -/

/-- A request that a requester with a nonce of `n` bytes writes. -/
def Sent (c : Cfg) (n : Nat) (req : Bytes) : Prop := ∃ env st tr tr' st', env.nonce.length = n ∧ ReqSend c env st tr req tr' st'

theorem Sent.gen {c : Cfg} {n : Nat} {req : Bytes} (h : Sent c n req) (sw : Nat) : Gen n sw req ∧ code req ∈ requestCodes.map some := by
  obtain ⟨env, st, tr, tr', st', hn, h⟩ := h
  cases h with
  | version => exact ⟨⟨by rfl, fun h => absurd h (by decide)⟩, by decide⟩
  | capabilities hm => exact ⟨⟨by simp [wireLength, recorded, code, Wire.header, Wire.getCapabilities, zeros, Spec.le], by simp [code, Wire.header]⟩, by simp [code, Wire.header, requestCodes]⟩
  | algorithms hm =>
    obtain ⟨h1, h2, _, _⟩ := offer_wf hm
    refine ⟨⟨?_, by simp [code, Wire.header]⟩, by simp [code, Wire.header, requestCodes]⟩
    simp [wireLength, recorded, code, Wire.header, Wire.negotiateAlgorithms, zeros, Spec.le, h1, h2, field, leVal, Requester.offeredRequests, Wire.alg]
  | digests => exact ⟨⟨by rfl, fun h => absurd h (by decide)⟩, by decide⟩
  | certificate => exact ⟨⟨by simp [wireLength, recorded, code, Wire.header, Wire.getCertificate, zeros, Spec.le], by simp [code, Wire.header]⟩, by simp [code, Wire.header, requestCodes]⟩
  | challenge => exact ⟨⟨by simp [wireLength, recorded, code, Wire.header, Wire.challenge, hn]; omega, by simp [code, Wire.header]⟩, by simp [code, Wire.header, requestCodes]⟩

/-! ### Replies -/

theorem le_inj4 {a b : Nat} (ha : a < 2 ^ 32) (hb : b < 2 ^ 32) (h : Spec.le 4 a = Spec.le 4 b) : a = b := by
  have := congrArg leVal h
  rwa [leVal_four _ ha, leVal_four _ hb] at this

/-- The offer a responder sees is the offer that was written. -/
theorem offer_seen {c' : Cfg} {x : Ctx} {m m0 : NegotiateAlgorithms} {bs tail : Bytes} (hm : Denotes c' x bs (.negotiateAlgorithms m))
    (h : ([0x11, 0xE3] ++ bs ++ tail : Bytes) = Wire.header .negotiateAlgorithms ++ Wire.negotiateAlgorithms m0) :
    m.baseAsymAlgo = m0.baseAsymAlgo ∧ m.baseHashAlgo = m0.baseHashAlgo ∧ m.numAlgorithmRequests = m0.numAlgorithmRequests := by
  obtain ⟨_, len, ea, eh, extAsym, extHash, algs, _, _, _, _, rfl⟩ := hm
  simp only [Wire.header, Wire.negotiateAlgorithms, List.append_assoc, List.cons_append, List.nil_append, List.cons.injEq, true_and, zeros,
    List.replicate_succ, List.replicate_zero] at h
  obtain ⟨h1, h2⟩ := h
  have h3 := (List.append_inj h2 (by simp [Spec.le])).2
  simp only [List.cons.injEq, true_and] at h3
  obtain ⟨e1, h4⟩ := List.append_inj h3.2 (by simp [Spec.le])
  obtain ⟨e2, _⟩ := List.append_inj h4 (by simp [Spec.le])
  exact ⟨UInt32.toNat_inj.mp (le_inj4 (UInt32.toNat_lt _) (UInt32.toNat_lt _) e1), UInt32.toNat_inj.mp (le_inj4 (UInt32.toNat_lt _) (UInt32.toNat_lt _) e2), h1⟩

theorem lowest_hash (c : Cfg) {h : Nat} (hl : Lowest (Crypto.supportedHashes c).toNat h) : h = 1 := by
  refine lowest_val_unique hl ⟨0, ?_, rfl⟩
  unfold Crypto.supportedHashes
  split
  · exact ⟨by decide, fun i hi => absurd hi (by omega)⟩
  · exact ⟨by decide, fun i hi => absurd hi (by omega)⟩

theorem filled_count (slots : List (Option FilledSlot)) (k : Nat) (h : slots.length ≤ k) :
    ((List.range k).filter fun i => (slots[i]?.getD none).isSome).length = slots.countP Option.isSome := by
  induction slots generalizing k with
  | nil => simp
  | cons o slots ih =>
    obtain ⟨k, rfl⟩ : ∃ j, k = j + 1 := ⟨k - 1, by simp at h; omega⟩
    simp only [List.length_cons, Nat.add_le_add_iff_right] at h
    rw [List.range_succ_eq_map, List.filter_cons, List.countP_cons, ← ih k h]
    have e : ((List.range k).map Nat.succ).filter (fun i => ((o :: slots)[i]?.getD none).isSome) =
        ((List.range k).filter fun i => (slots[i]?.getD none).isSome).map Nat.succ := by
      rw [List.filter_map]
      congr 1
    rw [e]
    cases o <;> simp

theorem mask_count {slots : List (Option FilledSlot)} {mask : UInt8} (h : MaskOf slots mask) (h8 : slots.length ≤ 8) :
    ((List.range 8).filter fun i => mask.toNat.testBit i).length = slots.countP Option.isSome := by
  rw [← filled_count slots 8 h8]
  congr 1
  apply List.filter_congr
  intro i hi
  have := h i (by simpa using hi)
  rw [Bool.eq_iff_iff, this]
  rcases slots[i]? with _ | _ | s <;> simp

theorem digestsOf_length {hash : Bytes → Bytes} {k : Nat} (hh : ∀ m, (hash m).length = k) (slots : List (Option FilledSlot)) :
    (digestsOf hash slots).length = slots.countP Option.isSome * k := by
  induction slots with
  | nil => simp [digestsOf]
  | cons o slots ih =>
    unfold digestsOf at ih ⊢
    rw [List.flatMap_cons, List.length_append, ih, List.countP_cons]
    cases o <;> simp [hh, Nat.add_mul]; omega

theorem auth_gen {n sw : Nat} {l : Log} {i mask : UInt8} {chainHash nonce sig : Bytes} (hh : l.hash = 1) (hc : chainHash.length = 32) (hn : nonce.length = n)
    (hs : sig.length = sizeFor signatureSizes sw) : Gen n sw (authPart l i mask chainHash nonce ++ sig) := by
  have hcode : code (authPart l i mask chainHash nonce ++ sig) = some 0x03 := by simp [authPart, code]
  refine ⟨?_, by rw [hcode]; simp⟩
  have hz : sizeFor digestSizes 1 = 32 := by decide
  have hf : field (authPart l i mask chainHash nonce ++ sig) (4 + 2 * 32 + n) 2 = [4, 0] := by
    have : authPart l i mask chainHash nonce ++ sig = ([0x11, 0x03, if l.both 8 then 0 else i, mask] ++ chainHash ++ nonce ++ zeros 32) ++ [4, 0] ++ ([0, 0, 0, 0] ++ sig) := by
      simp [authPart, hh, hz]
    rw [this]
    exact field_at (by simp [zeros, hc, hn]; omega) rfl
  simp only [wireLength, recorded, hcode, hz, hf]
  simp [authPart, leVal, hh, hz, hc, hn, hs, zeros]
  omega

/-- Replies to requests that were written end where they should. -/
theorem reply_gen {c c' : Cfg} {cr' : Crypto} {env : Env} {slots : List (Option FilledSlot)} {prev : Option UInt8} {l : Log} {req out : Bytes} {n sw : Nat}
    (hl8 : slots.length ≤ 8) (hh : ∀ m, (cr'.hash 1 m).length = 32) (hn : env.nonce.length = n)
    (hsw : ∀ m a, Requester.configToNegotiateAlgorithms c = .ok m → Lowest m.baseAsymAlgo.toNat a → a = sw)
    (hreq : Sent c n req) (h : Reply c' cr' env slots prev l req out)
    (hl : prev = some 0xE3 ∨ prev = some 0x81 ∨ prev = some 0x82 ∨ prev = some 0x83 → l.hash = 1 ∧ l.asym = sw) :
    Gen n sw out ∧ ∃ k ∈ requestCodes, code req = some k ∧ code out = some (k &&& 0x7F) := by
  cases h with
  | version => exact ⟨⟨by rfl, fun h => absurd h (by decide)⟩, 0x84, by decide, by simp [code], by decide⟩
  | capabilities hm hw =>
    exact ⟨⟨by simp [wireLength, recorded, code, Spec.le], by simp [code]⟩, 0xE1, by decide, by simp [code], by simp [code]; rfl⟩
  | @algorithms _ m a bs tail hm ha =>
    refine ⟨?_, 0xE3, by decide, by simp [code], by simp [code]; rfl⟩
    obtain ⟨env', st, tr, tr', st', _, hreq⟩ := hreq
    generalize hq : ([0x11, 0xE3] ++ bs ++ tail : Bytes) = req at hreq
    cases hreq with
    | @algorithms _ _ _ _ m0 hm0 =>
      obtain ⟨e1, e2, e3⟩ := offer_seen hm hq
      obtain ⟨_, h4, _, h5⟩ := offer_wf hm0
      have ea := ha.asym
      rw [e1] at ea
      have eh := ha.hash
      rw [e2, h5] at eh
      have n4 : a.numAlgorithmResponses = 4 := by rw [ha.num, e3, h4]
      have w := algorithms_words a []
      rw [List.append_nil] at w
      change Gen n sw (Wire.header .algorithms ++ Wire.algorithms a)
      refine ⟨?_, fun _ => ⟨w.1.trans (hsw _ _ hm0 ea), w.2.trans (lowest_hash c eh)⟩⟩
      have h4 := ha.len
      obtain ⟨a1, a2, a3, a4, a5, a6⟩ := a
      dsimp only at n4 h4
      subst n4
      obtain ⟨x1, x2, x3, x4, rfl⟩ : ∃ x1 x2 x3 x4, a6 = [x1, x2, x3, x4] := by
        rcases a6 with _ | ⟨x1, _ | ⟨x2, _ | ⟨x3, _ | ⟨x4, _ | ⟨x5, t⟩⟩⟩⟩⟩ <;> simp at h4
        exact ⟨x1, x2, x3, x4, rfl⟩
      simp [wireLength, recorded, code, Wire.header, Wire.algorithms, zeros, field, leVal, Wire.alg, le_length]
    | _ => simp [Wire.header] at hq
  | @digests prev mask _ tail hp ht hmask hfit =>
    refine ⟨⟨?_, by simp [code]⟩, 0x81, by decide, by simp [code], by simp [code]; rfl⟩
    obtain ⟨h1, _⟩ := hl (by rcases hp with rfl | rfl <;> simp)
    have hz : sizeFor digestSizes 1 = 32 := by decide
    rw [h1]
    have hk : code ([0x11, 0x01, 0, mask] ++ digestsOf (cr'.hash (UInt32.ofNat 1)) slots) = some 0x01 := by simp [code]
    simp only [wireLength, recorded, hk, hz]
    have hd := digestsOf_length (hash := cr'.hash (UInt32.ofNat 1)) (k := 32) hh slots
    have hmk := mask_count hmask hl8
    have hf : leVal (field ([0x11, 0x01, 0, mask] ++ digestsOf (cr'.hash (UInt32.ofNat 1)) slots) 3 1) = mask.toNat := by simp [field, leVal]
    rw [hf, hmk]
    change _ = some (List.length ([0x11, 0x01, 0, mask] ++ digestsOf (cr'.hash (UInt32.ofNat 1)) slots))
    rw [List.length_append, hd]
    rfl
  | @certificate prev i _ offset length slot tail hp hs hfit =>
    refine ⟨⟨?_, by simp [code]⟩, 0x82, by decide, by simp [code], by simp [code]; rfl⟩
    have hf : leVal (field ([0x11, 0x02, i, 0] ++ Spec.le 2 (chainBytes slot).length ++ [0, 0] ++ chainBytes slot) 4 2) = (chainBytes slot).length := by
      rw [List.append_assoc, field_at (i := 4) (n := 2) rfl (le_length _ _)]
      exact leVal_two _ (by have := hfit.2; omega)
    simp only [wireLength, recorded]
    rw [show code ([0x11, 0x02, i, 0] ++ Spec.le 2 (chainBytes slot).length ++ [0, 0] ++ chainBytes slot) = some 0x02 by simp [code], hf]
    simp [le_length]
    omega
  | @challenge prev i mask _ t nonce tail sig slot hp hn' hs hfit hmask hds hss hd hd2 hsig hsl =>
    obtain ⟨h1, h2⟩ := hl (by rcases hp with rfl | rfl <;> simp)
    refine ⟨auth_gen h1 (by rw [h1]; exact hh _) hn (by rw [hsl, h2]), 0x83, by decide, by simp [code], by simp [authPart, code]; rfl⟩

/-! ### The two histories -/

theorem rspMsgs_mem {es : List RspEvent} {m : Bytes} (h : m ∈ rspMsgs es) : ∃ env req buf out, .call env req buf (.ok ⟨out, none⟩) ∈ es ∧ (m = req ∨ m = out) := by
  induction es using List.reverseRecOn with
  | nil => simp [rspMsgs, exchanges] at h
  | append_singleton es e ih =>
    have lift : m ∈ rspMsgs es → ∃ env req buf out, RspEvent.call env req buf (.ok ⟨out, none⟩) ∈ es ++ [e] ∧ (m = req ∨ m = out) := by
      intro h
      obtain ⟨env, req, buf, out, h1, h2⟩ := ih h
      exact ⟨env, req, buf, out, by simp [h1], h2⟩
    rcases e with ⟨env, req, buf, ⟨out, _ | er⟩ | er | k⟩ | _
    · rw [rspMsgs_ok, List.mem_append] at h
      rcases h with h | h
      · exact lift h
      · exact ⟨env, req, buf, out, by simp, by simpa using h⟩
    · exact lift (by simpa [rspMsgs, exchanges_snoc, addExchange] using h)
    · exact lift (by simpa [rspMsgs, exchanges_snoc, addExchange] using h)
    · exact lift (by simpa [rspMsgs, exchanges_snoc, addExchange] using h)
    · simp [rspMsgs, exchanges_snoc, addExchange] at h

/-- The codes of requests and their answers. -/
def pairs (ks : List UInt8) : List (Option UInt8) := ks.flatMap fun k => [some k, some (k &&& 0x7F)]

/-- The invariant of a responder that is only asked what a requester wrote. -/
structure RspClean (n sw : Nat) (es : List RspEvent) : Prop where
  gen : ∀ env req buf out, .call env req buf (.ok ⟨out, none⟩) ∈ es → Gen n sw out
  seen : lastReq es = some 0xE3 ∨ lastReq es = some 0x81 ∨ lastReq es = some 0x82 ∨ lastReq es = some 0x83 → ∃ m ∈ sinceVersion (rspMsgs es), code m = some 0x63
  clean : NoTrailing n (sinceVersion (rspMsgs es))
  pairs : ∃ ks, (∀ k ∈ ks, k ∈ requestCodes) ∧ codes (sinceVersion (rspMsgs es)) = pairs ks

/-- A request that some requester writes whose preferred signature algorithm is `sw`. -/
def Asked (n sw : Nat) (req : Bytes) : Prop :=
  ∃ c, (∀ m a, Requester.configToNegotiateAlgorithms c = .ok m → Lowest m.baseAsymAlgo.toNat a → a = sw) ∧ Sent c n req

theorem Asked.gen {n sw : Nat} {req : Bytes} (h : Asked n sw req) : Gen n sw req ∧ code req ∈ requestCodes.map some := by
  obtain ⟨c, _, h⟩ := h
  exact h.gen sw

theorem RspClean.selected {n sw : Nat} {es : List RspEvent} (h : RspClean n sw es) (hs : ∀ env req buf res, .call env req buf res ∈ es → Asked n sw req)
    (hl : lastReq es = some 0xE3 ∨ lastReq es = some 0x81 ∨ lastReq es = some 0x82 ∨ lastReq es = some 0x83) :
    (conversation (rspMsgs es)).hash = 1 ∧ (conversation (rspMsgs es)).asym = sw := by
  refine Spdm.selected (n := n) ?_ (h.seen hl)
  intro m hm
  obtain ⟨env, req, buf, out, h1, rfl | rfl⟩ := rspMsgs_mem hm
  · exact (hs _ _ _ _ h1).gen.1
  · exact h.gen _ _ _ _ h1

theorem RspClean.of_same {n sw : Nat} {es : List RspEvent} {e : RspEvent} (h : RspClean n sw es) (he : exchanges (es ++ [e]) = exchanges es)
    (hn : ∀ env req buf out, e ≠ .call env req buf (.ok ⟨out, none⟩)) : RspClean n sw (es ++ [e]) := by
  have h1 : lastReq (es ++ [e]) = lastReq es := by simp only [lastReq, he]
  have h2 : rspMsgs (es ++ [e]) = rspMsgs es := by simp only [rspMsgs, he]
  refine ⟨?_, by rw [h1, h2]; exact h.seen, by rw [h2]; exact h.clean, by rw [h2]; exact h.pairs⟩
  intro env req buf out hm
  simp only [List.mem_append, List.mem_singleton] at hm
  rcases hm with hm | hm
  · exact h.gen _ _ _ _ hm
  · exact absurd hm.symm (hn _ _ _ _)

theorem resp_ne : ∀ k ∈ requestCodes, some (k &&& 0x7F) ≠ some 0x84 := by
  simp only [requestCodes]
  decide

theorem since_snoc_pair (ms : List Bytes) {a b : Bytes} (hb : code b ≠ some 0x84) :
    sinceVersion (ms ++ [a, b]) = if code a = some 0x84 then [a, b] else sinceVersion ms ++ [a, b] := by
  rw [show ms ++ [a, b] = (ms ++ [a]) ++ [b] by simp, sinceVersion_snoc, if_neg hb, sinceVersion_snoc]
  split <;> simp

theorem pairs_snoc {ms : List Bytes} {a b : Bytes} {ks : List UInt8} {k : UInt8} (hks : ∀ k ∈ ks, k ∈ requestCodes) (h : codes (sinceVersion ms) = Spdm.pairs ks)
    (hk : k ∈ requestCodes) (ha : code a = some k) (hb : code b = some (k &&& 0x7F)) :
    ∃ ks, (∀ k ∈ ks, k ∈ requestCodes) ∧ codes (sinceVersion (ms ++ [a, b])) = Spdm.pairs ks := by
  have hb84 : code b ≠ some 0x84 := by
    rw [hb]
    exact resp_ne k hk
  rw [since_snoc_pair ms hb84]
  split
  · exact ⟨[k], by simpa using hk, by simp [codes, Spdm.pairs, ha, hb]⟩
  · refine ⟨ks ++ [k], ?_, ?_⟩
    · intro x hx
      simp only [List.mem_append, List.mem_singleton] at hx
      rcases hx with hx | rfl
      · exact hks x hx
      · exact hk
    · simp only [codes, List.map_append] at h ⊢
      rw [h]
      simp [Spdm.pairs, ha, hb]

variable {c c' : Cfg} {cr cr' : Crypto} {root : Bytes} {slots : List (Option FilledSlot)} {es : List ReqEvent} {es' : List RspEvent} {r : Requester} {r' : Responder}

/-- An exchange added to a conversation without trailing bytes. -/
theorem noTrailing_exchange {n sw : Nat} {ms : List Bytes} {a b : Bytes} (h : NoTrailing n (sinceVersion ms)) (ha : Gen n sw a) (hb : Gen n sw b)
    (hka : code a ∈ requestCodes.map some) (hl : code b = some 0x01 ∨ code b = some 0x03 → code a ≠ some 0x84 ∧ (conversation ms).hash = 1 ∧ (conversation ms).asym = sw) :
    NoTrailing n (sinceVersion (ms ++ [a, b])) := by
  have hna : ¬ (code a = some 0x01 ∨ code a = some 0x03) := by
    generalize code a = x at hka
    revert x
    simp only [requestCodes]
    decide
  have h1 := noTrailing_snoc h ha (fun h => absurd h hna)
  rw [show ms ++ [a, b] = (ms ++ [a]) ++ [b] by simp]
  refine noTrailing_snoc h1 hb ?_
  intro hx
  obtain ⟨h84, h2, h3⟩ := hl hx
  rw [conversation_snoc]
  have h63 : code a ≠ some 0x63 := by
    generalize code a = x at hka
    revert x
    simp only [requestCodes]
    decide
  unfold Log.add
  split
  all_goals first
    | (rename_i hq; exact absurd hq h84)
    | (rename_i hq; exact absurd hq h63)
    | exact ⟨h2, h3⟩

theorem rsp_clean {n sw : Nat} (h0 : 0 < c'.numSlots) (h8 : c'.numSlots ≤ 8) (hl : slots.length = c'.numSlots) (hn : ∀ a ∈ c'.capabilities, ∃ k, (a, k) ∈ capabilityBits)
    (hh : ∀ m, (cr'.hash 1 m).length = 32) (run : RspRun c' cr' slots es' r')
    (hs : ∀ env req buf res, .call env req buf res ∈ es' → Asked n sw req ∧ env.nonce.length = n) : RspClean n sw es' := by
  induction run with
  | new => exact ⟨by simp, by simp [lastReq, exchanges], noTrailing_nil n, [], by simp, rfl⟩
  | @reset es r run ih =>
    have ih := ih (fun env req buf res hm => hs _ _ _ _ (List.mem_append_left _ hm))
    have e : exchanges (es ++ [.reset]) = [] := by simp [exchanges_snoc, addExchange]
    refine ⟨?_, by simp [lastReq, e], by simp only [rspMsgs, e]; exact noTrailing_nil n, [], by simp, by simp only [rspMsgs, e]; rfl⟩
    intro env req buf out hm
    simp only [List.mem_append, List.mem_singleton, reduceCtorEq, or_false] at hm
    exact ih.gen _ _ _ _ hm
  | @call es r env req buf run ih =>
    have hs' := fun env req buf res hm => hs env req buf res (List.mem_append_left _ hm)
    have ih := ih hs'
    obtain ⟨hreq, hnonce⟩ := hs env req buf _ (List.mem_append_right _ (List.mem_singleton_self _))
    rcases hp : (Responder.handleMsg c' cr' env req buf r).1 with ⟨out, _ | er⟩ | er | k
    · have ha := run_alive hl h8 run hp
      obtain ⟨hrep, _, _⟩ := (c80_answered_iff h0 h8 hl hn run ha env req buf out).mp hp
      have hsel := ih.selected (fun env req buf res hm => (hs' env req buf res hm).1)
      obtain ⟨c0, hsw, hsent⟩ := hreq
      obtain ⟨hgen, k, hk, hkr, hko⟩ := reply_gen (by omega) hh hnonce hsw hsent hrep hsel
      obtain ⟨hgr, hcr⟩ := hsent.gen sw
      obtain ⟨ks, hks, hps⟩ := ih.pairs
      refine ⟨?_, ?_, ?_, ?_⟩
      · intro env1 req1 buf1 out1 hm
        simp only [List.mem_append, List.mem_singleton, RspEvent.call.injEq, Res.ok.injEq, Responder.Output.mk.injEq, and_true] at hm
        rcases hm with hm | ⟨_, _, _, rfl⟩
        · exact ih.gen _ _ _ _ hm
        · exact hgen
      · rw [lastReq_ok, rspMsgs_ok]
        intro hx
        generalize hpv : lastReq es = prev at hrep
        have keep : prev = some 0xE3 ∨ prev = some 0x81 ∨ prev = some 0x82 ∨ prev = some 0x83 → ∃ m ∈ sinceVersion (rspMsgs es ++ [req, out]), code m = some 0x63 := by
          intro hp
          obtain ⟨m, hm, hkm⟩ := ih.seen (by rw [hpv]; exact hp)
          refine ⟨m, ?_, hkm⟩
          have hr84 : code req ≠ some 0x84 := by
            rcases hx with hx | hx | hx | hx <;> rw [hx] <;> decide
          have hb84 : code out ≠ some 0x84 := by
            rw [hko]
            exact resp_ne k hk
          rw [since_snoc_pair _ hb84, if_neg hr84]
          exact List.mem_append_left _ hm
        cases hrep with
        | version => simp [code] at hx
        | capabilities => simp [code] at hx
        | @algorithms _ m a bs tail =>
          refine ⟨_, ?_, show code ([0x11, 0x63] ++ Wire.algorithms a) = some 0x63 by simp [code]⟩
          rw [show ∀ x y : Bytes, rspMsgs es ++ [x, y] = (rspMsgs es ++ [x]) ++ [y] by simp]
          exact last_since _ _
        | digests hpp => exact keep (by rcases hpp with rfl | rfl <;> simp)
        | certificate hpp => exact keep (by rcases hpp with rfl | rfl <;> simp)
        | challenge hpp => exact keep (by rcases hpp with rfl | rfl <;> simp)
      · rw [rspMsgs_ok]
        refine noTrailing_exchange ih.clean hgr hgen hcr ?_
        intro hx
        refine ⟨?_, hsel ?_⟩
        · intro h84
          rw [hkr, Option.some.injEq] at h84
          subst h84
          rw [hko] at hx
          exact absurd hx (by decide)
        · generalize lastReq es = prev at hrep
          cases hrep with
          | version => simp [code] at hx
          | capabilities => simp [code] at hx
          | algorithms => simp [code] at hx
          | digests hpp => rcases hpp with rfl | rfl <;> simp
          | certificate hpp => rcases hpp with rfl | rfl <;> simp
          | challenge hpp => rcases hpp with rfl | rfl <;> simp
      · rw [rspMsgs_ok]
        exact pairs_snoc hks hps hk hkr hko
    · exact ih.of_same (by simp [exchanges_snoc, addExchange]) (by simp)
    · exact ih.of_same (by simp [exchanges_snoc, addExchange]) (by simp)
    · exact ih.of_same (by simp [exchanges_snoc, addExchange]) (by simp)

end Spdm

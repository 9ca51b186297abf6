import Verif.Lemmas.Interop
import Verif.Props.Handshake
import Verif.Props.Reply
/-!
# Endpoints of different builds (C97)
-/
namespace Spdm
open Spec

variable {c c' : Cfg} {cr cr' : Crypto} {root : Bytes} {slots : List (Option FilledSlot)} {slot : FilledSlot} {x : Round} {q : Responder}

/-! ### Stages -/

/-- The room exchange `k` needs. -/
def FitsAt (c c' : Cfg) (n d s k : Nat) (x : Round) : Prop :=
  (∀ need, (requestNeeds n)[k]? = some need → need ≤ x.reqBuf.length) ∧ (∀ need, (responseNeeds n d s)[k]? = some need → need ≤ x.rspBuf.length) ∧
    transcriptNeed n d s (k + 1) ≤ c.transcriptSize ∧ transcriptNeed n d s (k + 1) ≤ c'.transcriptSize

theorem need_values (n d s : Nat) : transcriptNeed n d s 1 = 14 ∧ transcriptNeed n d s 2 = 38 ∧ transcriptNeed n d s 3 = 138 ∧ transcriptNeed n d s 4 = 146 + d ∧
    transcriptNeed n d s 5 = 162 + d + s ∧ transcriptNeed n d s 6 = 240 + d + s + 2 * n := by
  simp [transcriptNeed, requestNeeds, responseNeeds]
  omega

/-- Exchanges that each succeed exactly if there is room. -/
theorem stages {flags : Nat → Bool} {S : Nat → Requester × Responder → Prop} {n d s K : Nat} {ok : Round → Prop}
    (h : ∀ k, k < K → ∀ x, ok x → ∀ e, S k e → (FitsAt c c' n d s k x → ∃ e', exchange c c' cr cr' x e = some (flags k, e') ∧ S (k + 1) e') ∧
      ∀ o, exchange c c' cr cr' x e = some o → FitsAt c c' n d s k x) (rounds : List Round) :
    ∀ k, k + rounds.length ≤ K → (∀ x ∈ rounds, ok x) → ∀ e, S k e →
      ((∀ (j : Nat) x, rounds[j]? = some x → FitsAt c c' n d s (k + j) x) → ∃ e', talk c c' cr cr' rounds e = some ((List.range' k rounds.length).map flags, e')) ∧
      ∀ o, talk c c' cr cr' rounds e = some o → ∀ (j : Nat) x, rounds[j]? = some x → FitsAt c c' n d s (k + j) x := by
  induction rounds with
  | nil =>
    intro k _ _ e _
    exact ⟨fun _ => ⟨e, rfl⟩, fun _ _ j x hx => by simp at hx⟩
  | cons x xs ih =>
    intro k hk hok e he
    simp only [List.length_cons] at hk
    obtain ⟨h1, h2⟩ := h k (by omega) x (hok x (by simp)) e he
    constructor
    · intro hf
      obtain ⟨e', a1, a2⟩ := h1 (by simpa using hf 0 x (by simp))
      obtain ⟨e2, a3⟩ := (ih (k + 1) (by omega) (fun y hy => hok y (by simp [hy])) e' a2).1 (by
        intro j y hy
        have := hf (j + 1) y (by simpa using hy)
        rwa [show k + (j + 1) = k + 1 + j by omega] at this)
      refine ⟨e2, ?_⟩
      simp only [talk, a1, a3, List.length_cons, List.range'_succ, List.map_cons]
    · intro o ho
      simp only [talk] at ho
      rcases hx : exchange c c' cr cr' x e with _ | ⟨b, e1⟩ <;> simp only [hx, reduceCtorEq] at ho
      have hf := h2 _ hx
      obtain ⟨e', a1, a2⟩ := h1 hf
      rw [hx] at a1
      simp only [Option.some.injEq, Prod.mk.injEq] at a1
      obtain ⟨_, rfl⟩ := a1
      rcases ht : talk c c' cr cr' xs e1 with _ | ⟨bs, e2⟩ <;> simp only [ht, reduceCtorEq] at ho
      have hrest := (ih (k + 1) (by omega) (fun y hy => hok y (by simp [hy])) e1 a2).2 _ ht
      intro j y hy
      cases j with
      | zero => simp only [List.getElem?_cons_zero, Option.some.injEq] at hy; subst hy; exact hf
      | succ j =>
        have := hrest j y (by simpa using hy)
        rwa [show k + 1 + j = k + (j + 1) by omega] at this

theorem enough_iff {n d s : Nat} {rounds : List Round} (h3 : 0 < rounds.length) (h6 : rounds.length ≤ 6) :
    EnoughRoom c c' n d s rounds ↔ ∀ (j : Nat) x, rounds[j]? = some x → FitsAt c c' n d s (0 + j) x := by
  have mono : ∀ k, k < rounds.length → transcriptNeed n d s (k + 1) ≤ transcriptNeed n d s rounds.length := by
    obtain ⟨v1, v2, v3, v4, v5, v6⟩ := need_values n d s
    generalize rounds.length = L at *
    intro k hk
    have hL : L = 1 ∨ L = 2 ∨ L = 3 ∨ L = 4 ∨ L = 5 ∨ L = 6 := by omega
    have hK : k = 0 ∨ k = 1 ∨ k = 2 ∨ k = 3 ∨ k = 4 ∨ k = 5 := by omega
    rcases hL with rfl | rfl | rfl | rfl | rfl | rfl <;> rcases hK with rfl | rfl | rfl | rfl | rfl | rfl <;> simp only [Nat.zero_add, Nat.reduceAdd] at * <;> omega
  constructor
  · intro h j x hx
    have hj := (List.getElem?_eq_some_iff.mp hx).1
    rw [Nat.zero_add]
    exact ⟨fun need hn => h.requests j x need hx hn, fun need hn => h.responses j x need hx hn, Nat.le_trans (mono j hj) h.transcript, Nat.le_trans (mono j hj) h.transcript'⟩
  · intro h
    have hlast := h (rounds.length - 1) (rounds[rounds.length - 1]'(by omega)) (List.getElem?_eq_getElem _)
    rw [Nat.zero_add] at hlast
    have e : rounds.length - 1 + 1 = rounds.length := by omega
    unfold FitsAt at hlast
    rw [e] at hlast
    refine ⟨fun k x need hx hn => ?_, fun k x need hx hn => ?_, hlast.2.2.1, hlast.2.2.2⟩
    · exact (h k x hx).1 need (by rw [Nat.zero_add]; exact hn)
    · exact (h k x hx).2.1 need (by rw [Nat.zero_add]; exact hn)

theorem code_eq {t t' : MsgType} {a b d : Bytes} (h : Wire.header t ++ a = Wire.header t' ++ b ++ d) : (Wire.header t)[1]? = (Wire.header t')[1]? := by
  rw [List.append_assoc] at h
  rw [← code_header t a, h, code_header]

theorem take_code_eq {t t' : MsgType} {a : Bytes} (h : (Wire.header t ++ a).take 2 = Wire.header t') : (Wire.header t)[1]? = (Wire.header t')[1]? := by
  rw [← code_header t a, code_of_take h]

theorem common_iff {names names' : List String} {a : String} : a ∈ common names names' ↔ a ∈ names ∧ a ∈ names' := by simp [common]

/-! ### The exchanges -/

/-- What each exchange is run with. -/
def NoncesOk (n : Nat) (x : Round) : Prop := x.reqEnv.nonce.length = n ∧ x.rspEnv.nonce.length = n

/-- The endpoints before exchange `k`; `caps` are the agreed capabilities. -/
def Stage (c c' : Cfg) (cr : Crypto) (root : Bytes) (slots : List (Option FilledSlot)) (slot : FilledSlot) (q : Responder) (caps : Caps) : Nat → Requester × Responder → Prop
  | 0, e => e.2 = q ∧ e.1.state = some .version ∧ e.1.transcript.WF ∧ e.1.transcript.buf.length = c.transcriptSize ∧ e.1.rootCert = root
  | 1, e => PairEnds c c' root slots (.capabilities ⟨1, 1, 0, 0⟩ none none) .capabilities 14 e
  | 2, e => PairEnds c c' root slots (.algorithms ⟨1, 1, 0, 0⟩ caps none) (.algorithms caps) 38 e
  | 3, e => PairEnds c c' root slots (if Requester.bothHave caps ReqFlags.certCap RspFlags.certCap then .idAuth ⟨1, 1, 0, 0⟩ caps honestAnswer none else .newSession)
      (.idAuth ⟨caps, honestAnswer⟩) 138 e
  | 4, e => ∃ d, PairEnds c c' root slots (.idAuth ⟨1, 1, 0, 0⟩ caps honestAnswer (some d)) (.idAuth ⟨caps, honestAnswer⟩) (146 + (digestsOf (cr.hash 1) slots).length) e
  | 5, e => PairEnds c c' root slots (if Requester.bothHave caps ReqFlags.chalCap RspFlags.chalCap then .challenge ⟨⟨1, 1, 0, 0⟩, caps, honestAnswer, 0,
            Wire.chain slot.certChain ++ zeros (c.maxCertChainSize - (Wire.chain slot.certChain).length), UInt16.ofNat (Wire.chain slot.certChain).length, none⟩ else .newSession)
          (.challenge ⟨caps, honestAnswer⟩) (162 + (digestsOf (cr.hash 1) slots).length + (Wire.chain slot.certChain).length) e
  | _, _ => True

/-- The completion flags. -/
def stageFlag (caps : Caps) : Nat → Bool
  | 2 => ! Requester.bothHave caps ReqFlags.certCap RspFlags.certCap
  | 4 => ! Requester.bothHave caps ReqFlags.chalCap RspFlags.chalCap
  | 5 => true
  | _ => false

section
variable {n : Nat} {fq fr : UInt32} {es : List RspEvent}

theorem stage0 (hl : slots.length = c'.numSlots) (h8' : c'.numSlots ≤ 8) (run : RspRun c' cr' slots es q) (ha : alive es = true) {d s : Nat} {caps : Caps}
    {e : Requester × Responder} (he : Stage c c' cr root slots slot q caps 0 e) :
    (FitsAt c c' n d s 0 x → ∃ e', exchange c c' cr cr' x e = some (stageFlag caps 0, e') ∧ Stage c c' cr root slots slot q caps 1 e') ∧
      ∀ o, exchange c c' cr cr' x e = some o → FitsAt c c' n d s 0 x := by
  obtain ⟨st', hlive⟩ := run_live hl h8' run ha
  obtain ⟨e1, e2⟩ := e
  obtain ⟨rfl, hver, hwf, hnew, hroot⟩ := he
  dsimp only at hver hwf hnew hroot hlive
  have lv : (Wire.header .getVersion ++ Wire.getVersion).length = 4 := by decide
  have lv' : (Wire.header .version ++ Wire.version ⟨2, supportedVersions⟩).length = 10 := by decide
  obtain ⟨v1, _⟩ := need_values n d s
  constructor
  · rintro ⟨f1, f2, f3, f4⟩
    have f1 := f1 4 rfl; have f2 := f2 10 rfl
    rw [v1] at f3 f4
    exact pair_exchange_run hroot hnew
      (send_version hver (by omega) (by show 4 ≤ e1.transcript.buf.length; rw [hnew]; omega))
      (reply_version hl h8' hlive.toRspKept hlive.state hlive.mat.live (by omega) (by omega))
      (fun r1 hw hcp hrt hs hT => by have := accept_version (c := c) (cr := cr) hw hs (by rw [hT, lv, hcp]; omega); rw [hT] at this; exact this) (by simp only [List.length_append] at *; omega)
  · rintro ⟨b, e'⟩ ho
    obtain ⟨req, rsp, T1, T2, T3, st1, st2, st3, sg, g1, g2, g3, g4, hsend, hstep, hrecv⟩ := pair_exchange_inv (st := .version) hl h8' hwf
      hnew hver hlive.toRspKept hlive.state ho
    cases hsend
    generalize hreq0 : Wire.header .getVersion ++ Wire.getVersion = req at hstep
    have hT : rsp.length = 10 ∧ T2.length = 14 := by
      cases hstep with
      | getVersion => rw [List.length_append (as := req), lv', ← hreq0, lv]; exact ⟨rfl, rfl⟩
      | getCapabilities hreq => rw [← hreq0] at hreq; exact absurd (code_eq hreq) (by decide)
      | negotiate hreq => rw [← hreq0] at hreq; exact absurd (take_code_eq hreq) (by decide)
      | getDigests _ hreq => rw [← hreq0] at hreq; exact absurd (take_code_eq hreq) (by decide)
      | getCertificate hreq => rw [← hreq0] at hreq; exact absurd (code_eq hreq) (by decide)
      | challenge hreq => rw [← hreq0] at hreq; exact absurd (code_eq hreq) (by decide)
    have h3 : T3.length = 14 := by
      cases hrecv
      rw [List.length_append, lv, hT.1]
    refine ⟨?_, ?_, by show transcriptNeed n d s 1 ≤ _; omega, by show transcriptNeed n d s 1 ≤ _; omega⟩
    · intro need hn; cases hn; omega
    · intro need hn; cases hn; omega

theorem stage1 (hl : slots.length = c'.numSlots) (h8' : c'.numSlots ≤ 8)
    (hfq : Requester.configToGetCapabilities c = .ok ⟨12, fq⟩) (hfr : Responder.configToCapabilities c' = .ok ⟨12, fr⟩) (hbq : OnlyBits reqFlagBit fq.toNat) (hbr : OnlyBits rspFlagBit fr.toNat)
    {d s : Nat} {e : Requester × Responder} (he : Stage c c' cr root slots slot q ⟨12, fq, 12, fr⟩ 1 e) :
    (FitsAt c c' n d s 1 x → ∃ e', exchange c c' cr cr' x e = some (stageFlag ⟨12, fq, 12, fr⟩ 1, e') ∧ Stage c c' cr root slots slot q ⟨12, fq, 12, fr⟩ 2 e') ∧
      ∀ o, exchange c c' cr cr' x e = some o → FitsAt c c' n d s 1 x := by
  change PairEnds _ _ _ _ _ _ _ _ at he
  have lc : ∀ m, (Wire.header .getCapabilities ++ Wire.getCapabilities m).length = 12 := by intro m; simp [Wire.getCapabilities, zeros, le_length, header_length]
  have lc' : ∀ m, (Wire.header .capabilities ++ Wire.capabilities m).length = 12 := by intro m; simp [Wire.capabilities, zeros, le_length, header_length]
  have hlen := he.len; have hcp := he.cap
  have hlen' : e.2.transcript.get.length = 14 := by rw [← he.same]; exact hlen
  obtain ⟨_, v2, _⟩ := need_values n d s
  constructor
  · rintro ⟨f1, f2, f3, f4⟩
    have f1 := f1 12 rfl; have f2 := f2 12 rfl
    rw [v2] at f3 f4
    refine pair_exchange_run he.root he.cap
      (send_capabilities hfq he.wf he.state (by omega) (by omega))
      (reply_capabilities hl h8' he.kept he.state' (m := ⟨12, fq⟩) hbq hfr (by omega) (by omega))
      (fun r1 hw hcp hrt hs hT => ?_) (by rw [List.length_append, List.length_append, hlen', lc, lc'])
    have := accept_capabilities (c := c) (cr := cr) (m := ⟨12, fr⟩) hbr hw hs (by rw [hT, List.length_append, hlen, lc, hcp]; omega)
    rw [hT, he.same] at this
    exact this
  · rintro ⟨b, e'⟩ ho
    obtain ⟨req, rsp, T1, T2, T3, st1, st2, st3, sg, g1, g2, g3, g4, hsend, hstep, hrecv⟩ := pair_exchange_inv hl h8' he.wf he.cap he.state he.kept he.state' ho
    cases hsend with
    | @capabilities _ _ _ _ m hm =>
    generalize hreq0 : Wire.header .getCapabilities ++ Wire.getCapabilities m = req at hstep
    have hT : rsp.length = 12 ∧ T2.length = 38 := by
      cases hstep with
      | getVersion _ hreq => rw [← hreq0] at hreq; exact absurd (code_eq hreq) (by decide)
      | getCapabilities => rw [List.length_append (bs := Wire.header _ ++ _), List.length_append (bs := req), lc', ← hreq0, lc, hlen']; exact ⟨rfl, rfl⟩
    have h3 : T3.length = 38 := by
      cases hrecv
      rw [List.length_append, List.length_append (bs := Wire.header _ ++ _), lc, hT.1, hlen]
    rw [lc] at g1
    refine ⟨?_, ?_, by show transcriptNeed n d s 2 ≤ _; omega, by show transcriptNeed n d s 2 ≤ _; omega⟩
    · intro need hn; cases hn; omega
    · intro need hn; cases hn; omega

/-- The offer of a build with a signing algorithm, with or without a provider: without one, SHA-256 is the only hash. -/
def configuredOffer (crypto : Bool) : NegotiateAlgorithms :=
  ⟨1, 16, if crypto then 7 else 1, 4, [⟨.dhe, 0x12⟩, ⟨.aead, 6⟩, ⟨.reqBaseAsym, 0x90⟩, ⟨.keySchedule, 1⟩]⟩

theorem configured_choice (crypto : Bool) : Responder.chooseAlgorithms (configuredOffer crypto) = .ok honestAnswer := by cases crypto <;> decide +kernel
theorem configured_valid (crypto : Bool) : Requester.ensureValidAlgorithmsSelected (some (configuredOffer crypto)) honestAnswer = .ok () := by cases crypto <;> decide +kernel

theorem configuredOffer_wf (crypto : Bool) : NegotiateWF (configuredOffer crypto) where
  len := rfl
  num := by show 4 ≤ 4; decide
  unused := by
    intro i a h hi
    have := (List.getElem?_eq_some_iff.mp h).1
    simp [configuredOffer] at this hi
    omega
  bits := by cases crypto <;> decide
  spec := by cases crypto <;> decide
  asym := by cases crypto <;> decide
  hash := by cases crypto <;> decide

theorem configuredOffer_nonempty (crypto : Bool) : NonEmptyOffer (configuredOffer crypto) where
  asym := by cases crypto <;> decide
  hash := by cases crypto <;> decide
  algs := by
    intro i a h _
    have : ∀ a ∈ (configuredOffer crypto).algorithmRequests, a.supported.toNat ≠ 0 := by cases crypto <;> decide
    exact this a (List.mem_of_getElem? h)

theorem stage2 (hl : slots.length = c'.numSlots) (h8' : c'.numSlots ≤ 8) {crypto : Bool} (hoffer : Requester.configToNegotiateAlgorithms c = .ok (configuredOffer crypto)) {caps : Caps}
    {d s : Nat} {e : Requester × Responder} (he : Stage c c' cr root slots slot q caps 2 e) :
    (FitsAt c c' n d s 2 x → ∃ e', exchange c c' cr cr' x e = some (stageFlag caps 2, e') ∧ Stage c c' cr root slots slot q caps 3 e') ∧
      ∀ o, exchange c c' cr cr' x e = some o → FitsAt c c' n d s 2 x := by
  change PairEnds _ _ _ _ _ _ _ _ at he
  have la : (Wire.negotiateAlgorithms (configuredOffer crypto)).length = 46 := by cases crypto <;> decide +kernel
  have la' : (Wire.algorithms honestAnswer).length = 50 := by decide +kernel
  have hlen := he.len; have hcp := he.cap
  have hlen' : e.2.transcript.get.length = 38 := by rw [← he.same]; exact hlen
  obtain ⟨_, _, v3, _⟩ := need_values n d s
  constructor
  · rintro ⟨f1, f2, f3, f4⟩
    have f1 := f1 48 rfl; have f2 := f2 52 rfl
    rw [v3] at f3 f4
    refine pair_exchange_run he.root he.cap
      (send_algorithms hoffer la he.wf he.state (by omega) (by omega))
      (reply_algorithms hl h8' he.kept he.state' (configuredOffer_wf crypto) (configuredOffer_nonempty crypto) rfl (configured_choice crypto) la (by omega) (by omega))
      (fun r1 hw hcp hrt hs hT => ?_) (by simp only [List.length_append, hlen', header_length, la, la'])
    have := accept_algorithms (c := c) (cr := cr) honestAnswer_wf (configured_valid crypto) la' hw hs (by rw [hT, List.length_append, hlen, hcp, List.length_append, header_length, la]; omega)
    rw [hT, he.same] at this
    exact this
  · rintro ⟨b, e'⟩ ho
    obtain ⟨req, rsp, T1, T2, T3, st1, st2, st3, sg, g1, g2, g3, g4, hsend, hstep, hrecv⟩ := pair_exchange_inv hl h8' he.wf he.cap he.state he.kept he.state' ho
    cases hsend with
    | @algorithms _ _ _ _ m hm =>
    rw [hoffer] at hm
    cases hm
    generalize hreq0 : Wire.header .negotiateAlgorithms ++ Wire.negotiateAlgorithms (configuredOffer crypto) = req at hstep
    have hT : rsp.length = 52 ∧ T2.length = 138 := by
      cases hstep with
      | getVersion _ hreq => rw [← hreq0] at hreq; exact absurd (code_eq hreq) (by decide)
      | @negotiate _ _ _ m a hreq hp hm ha =>
        have : m = configuredOffer crypto := by
          rw [← hreq0, List.drop_left' (header_length _)] at hp
          have := (NegotiateAlgorithms.reads (configuredOffer_wf crypto)).parse_nil
          rw [show NegotiateAlgorithms.parseBody (Wire.negotiateAlgorithms (configuredOffer crypto)) = _ from this] at hp
          cases hp; rfl
        subst this
        have : a = honestAnswer := answers_unique ha (chooseAlgorithms_inv (configuredOffer_wf crypto) (configured_choice crypto))
        subst this
        simp [List.length_append, header_length, la', ← hreq0, la, hlen']
    have h3 : T3.length = 138 := by
      cases hrecv
      rw [List.length_append, List.length_append, List.length_append, header_length, la, hT.1, hlen]
    rw [List.length_append, header_length, la] at g1
    refine ⟨?_, ?_, by show transcriptNeed n d s 3 ≤ _; omega, by show transcriptNeed n d s 3 ≤ _; omega⟩
    · intro need hn; cases hn; omega
    · intro need hn; cases hn; omega

theorem same_hash (hon : HonestPair c c' cr cr' root slots slot) : cr'.hash 1 = cr.hash 1 := funext hon.hash'

theorem stage3 (hon : HonestPair c c' cr cr' root slots slot) (hp' : c'.provider = true) (h8 : c.numSlots ≤ 8) (h8' : c'.numSlots ≤ 8) {caps : Caps}
    (hcert : Requester.bothHave caps ReqFlags.certCap RspFlags.certCap = true) {s : Nat} {e : Requester × Responder} (he : Stage c c' cr root slots slot q caps 3 e) :
    (FitsAt c c' n (digestsOf (cr.hash 1) slots).length s 3 x → ∃ e', exchange c c' cr cr' x e = some (stageFlag caps 3, e') ∧ Stage c c' cr root slots slot q caps 4 e') ∧
      ∀ o, exchange c c' cr cr' x e = some o → FitsAt c c' n (digestsOf (cr.hash 1) slots).length s 3 x := by
  change PairEnds _ _ _ _ _ _ _ _ at he
  rw [if_pos hcert] at he
  have ld : (Wire.header .getDigests ++ Wire.getDigests).length = 4 := by decide
  have hdb : (digestBytes cr' 1 (chainsOf slots)).length = (digestsOf (cr.hash 1) slots).length := by rw [digestBytes_slots, same_hash hon]
  have hlen := he.len; have hcp := he.cap
  have hlen' : e.2.transcript.get.length = 138 := by rw [← he.same]; exact hlen
  obtain ⟨_, _, _, v4, _⟩ := need_values n (digestsOf (cr.hash 1) slots).length s
  constructor
  · rintro ⟨f1, f2, f3, f4⟩
    have f1 := f1 4 rfl; have f2 := f2 _ rfl
    rw [v4] at f3 f4
    obtain ⟨d, hd1, hd2, hrep⟩ := reply_digests (c := c') (cr := cr') (env := x.rspEnv) (buf := x.rspBuf) hp' hon.number h8' he.kept he.state' rfl hon.digest'
      (fun m => by rw [hon.hash' m]; exact hon.hash m) hon.fits (by omega) (by omega)
    obtain ⟨d', hd'⟩ := Digests.parse_other (c := c) h8 hd1
    obtain ⟨e', p1, p2⟩ := pair_exchange_run (n := 146 + (digestsOf (cr.hash 1) slots).length) (b := false) (st1 := .idAuth ⟨1, 1, 0, 0⟩ caps honestAnswer (some d')) he.root he.cap
      (send_digests he.wf he.state (by omega) (by omega)) hrep
      (fun r1 hw hcp hrt hs hT => by
        have := accept_digests_any (c := c) (cr := cr) (digestSize_sha256 hon.digest) (by rw [hd2]; omega) hd' hw hs (by rw [hT, List.length_append, hlen, hcp, ld, hd2]; omega)
        rw [hT, he.same] at this
        exact this) (by rw [List.length_append, List.length_append, hlen', ld, List.length_append, header_length, hd2]; omega)
    exact ⟨e', p1, d', p2⟩
  · rintro ⟨b, e'⟩ ho
    obtain ⟨req, rsp, T1, T2, T3, st1, st2, st3, sg, g1, g2, g3, g4, hsend, hstep, hrecv⟩ := pair_exchange_inv hon.number h8' he.wf he.cap he.state he.kept he.state' ho
    cases hsend
    generalize hreq0 : Wire.header .getDigests ++ Wire.getDigests = req at hstep
    have hT : rsp.length = 4 + (digestsOf (cr.hash 1) slots).length ∧ T2.length = 146 + (digestsOf (cr.hash 1) slots).length := by
      cases hstep with
      | getVersion _ hreq => rw [← hreq0] at hreq; exact absurd (code_eq hreq) (by decide)
      | @getDigests _ _ _ d h3 hreq hd =>
        have hw : (Wire.digests d).length = 2 + (digestsOf (cr.hash 1) slots).length := by
          rw [digests_layout hd, List.length_append, show (⟨caps, honestAnswer⟩ : Negotiated).algorithms.baseHashAlgoSelected = 1 from rfl, hdb]; rfl
        have ld' : req.length = 4 := by rw [← hreq0]; exact ld
        simp only [List.length_append, header_length, hw, ld', hlen']
        omega
      | getCertificate hreq => rw [← hreq0] at hreq; exact absurd (code_eq hreq) (by decide)
    have h3 : T3.length = 146 + (digestsOf (cr.hash 1) slots).length := by
      cases hrecv
      rw [List.length_append, List.length_append (bs := Wire.header _ ++ _), ld, hT.1, hlen]
      omega
    refine ⟨?_, ?_, by show transcriptNeed _ _ _ 4 ≤ _; omega, by show transcriptNeed _ _ _ 4 ≤ _; omega⟩
    · intro need hn; cases hn; omega
    · intro need hn; cases hn; omega

theorem stage4 (hon : HonestPair c c' cr cr' root slots slot) (h0 : 0 < c.numSlots) (h8' : c'.numSlots ≤ 8) {caps : Caps}
    {e : Requester × Responder} (he : Stage c c' cr root slots slot q caps 4 e) :
    (FitsAt c c' n (digestsOf (cr.hash 1) slots).length (Wire.chain slot.certChain).length 4 x →
        ∃ e', exchange c c' cr cr' x e = some (stageFlag caps 4, e') ∧ Stage c c' cr root slots slot q caps 5 e') ∧
      ∀ o, exchange c c' cr cr' x e = some o → FitsAt c c' n (digestsOf (cr.hash 1) slots).length (Wire.chain slot.certChain).length 4 x := by
  obtain ⟨d, he⟩ := he
  have hfit0 := hon.fits slot (List.mem_of_getElem? hon.filled)
  have hp16 : (UInt16.ofNat (Wire.chain slot.certChain).length).toNat = (Wire.chain slot.certChain).length := ofNat_toNat16 (by have := hfit0.2; omega)
  have lcert : (Wire.certificate ⟨0, UInt16.ofNat (Wire.chain slot.certChain).length, 0, Wire.chain slot.certChain⟩).length = 6 + (Wire.chain slot.certChain).length := by
    simp only [Wire.certificate, hp16, List.length_append, le_length, zeros, List.length_replicate, List.length_take, List.length_cons, List.length_nil]
    omega
  have lgc : (Wire.header .getCertificate ++ Wire.getCertificate ⟨0, 0, UInt16.ofNat c.maxCertChainSize⟩).length = 8 := by simp [Wire.getCertificate, zeros, le_length, header_length]
  have hpad : (Wire.chain slot.certChain ++ zeros (c.maxCertChainSize - (Wire.chain slot.certChain).length)).length = c.maxCertChainSize := by
    have := hon.received
    simp only [List.length_append, zeros, List.length_replicate]
    omega
  have hcw : CertificateWF c ⟨0, UInt16.ofNat (Wire.chain slot.certChain).length, 0, Wire.chain slot.certChain ++ zeros (c.maxCertChainSize - (Wire.chain slot.certChain).length)⟩ :=
    ⟨hpad, by simp only [hp16]; exact hon.received, by simp only [hp16]; exact List.drop_left' rfl⟩
  have hceq : Wire.certificate ⟨0, UInt16.ofNat (Wire.chain slot.certChain).length, 0, Wire.chain slot.certChain⟩ =
      Wire.certificate ⟨0, UInt16.ofNat (Wire.chain slot.certChain).length, 0, Wire.chain slot.certChain ++ zeros (c.maxCertChainSize - (Wire.chain slot.certChain).length)⟩ := by
    simp only [Wire.certificate, hp16]
    rw [List.take_left' rfl, List.take_of_length_le (by simp)]
  have hlen := he.len; have hcp := he.cap
  have hlen' : e.2.transcript.get.length = 146 + (digestsOf (cr.hash 1) slots).length := by rw [← he.same]; exact hlen
  obtain ⟨_, _, _, _, v5, _⟩ := need_values n (digestsOf (cr.hash 1) slots).length (Wire.chain slot.certChain).length
  constructor
  · rintro ⟨f1, f2, f3, f4⟩
    have f1 := f1 8 rfl; have f2 := f2 _ rfl
    rw [v5] at f3 f4
    refine pair_exchange_run he.root he.cap (send_certificate h0 he.wf he.state (by omega) (by omega))
      (reply_certificate hon.number h8' he.kept he.state' hon.filled hfit0 (by omega) (by omega))
      (fun r1 hw hcp hrt hs hT => ?_) (by rw [List.length_append, List.length_append, hlen', lgc, List.length_append, header_length, lcert]; omega)
    have := accept_certificate (c := c) (cr := cr) hcw hw hs (by rw [hT, List.length_append, hlen, hcp, lgc, ← hceq, lcert]; omega)
    rw [hT, he.same, ← hceq] at this
    exact this
  · rintro ⟨b, e'⟩ ho
    obtain ⟨req, rsp, T1, T2, T3, st1, st2, st3, sg, g1, g2, g3, g4, hsend, hstep, hrecv⟩ := pair_exchange_inv hon.number h8' he.wf he.cap he.state he.kept he.state' ho
    cases hsend
    generalize hreq0 : Wire.header .getCertificate ++ Wire.getCertificate ⟨0, 0, UInt16.ofNat c.maxCertChainSize⟩ = req at hstep
    have ld' : req.length = 8 := by rw [← hreq0]; exact lgc
    have hT : rsp.length = 8 + (Wire.chain slot.certChain).length ∧ T2.length = 162 + (digestsOf (cr.hash 1) slots).length + (Wire.chain slot.certChain).length := by
      cases hstep with
      | getVersion _ hreq => rw [← hreq0] at hreq; exact absurd (code_eq hreq) (by decide)
      | getDigests _ hreq => rw [← hreq0] at hreq; exact absurd (take_code_eq hreq) (by decide)
      | @getCertificate _ _ _ tail chain m hreq hs hc =>
        have hm : m.slot = 0 := by
          rw [← hreq0, List.append_assoc] at hreq
          have := (List.append_inj hreq rfl).2
          simp [Wire.getCertificate] at this
          exact this.1.symm
        have hc0 : (chainsOf slots)[0]? = some (some slot.certChain) := by simp [chainsOf, hon.filled]
        rw [hm] at hc
        have : chain = Wire.chain slot.certChain := by
          rcases hc with ⟨h, _⟩ | ⟨ch, h, h', _⟩
          · rw [show (0 : UInt8).toNat = 0 from rfl, hc0] at h; cases h
          · rw [show (0 : UInt8).toNat = 0 from rfl, hc0] at h; cases h; exact h'
        subst this
        rw [hm]
        simp only [List.length_append, header_length, lcert, ld', hlen']
        omega
    have h3 : T3.length = 162 + (digestsOf (cr.hash 1) slots).length + (Wire.chain slot.certChain).length := by
      cases hrecv
      rw [List.length_append, List.length_append (bs := Wire.header _ ++ _), lgc, hT.1, hlen]
      omega
    rw [lgc] at g1
    refine ⟨?_, ?_, by show transcriptNeed _ _ _ 5 ≤ _; omega, by show transcriptNeed _ _ _ 5 ≤ _; omega⟩
    · intro need hn; cases hn; omega
    · intro need hn; cases hn; omega

theorem stage5 (hon : HonestPair c c' cr cr' root slots slot) (hp : c.provider = true) (hp' : c'.provider = true) (h8 : 0 < c.numSlots ∧ c.numSlots ≤ 8) (h8' : c'.numSlots ≤ 8)
    (hmax : c.maxSignatureSize = 64) (hmax' : c'.maxSignatureSize = 64) (hn : c.nonceSize = n) (hn' : c'.nonceSize = n) {caps : Caps}
    (hchal : Requester.bothHave caps ReqFlags.chalCap RspFlags.chalCap = true) (hx : NoncesOk n x)
    {e : Requester × Responder} (he : Stage c c' cr root slots slot q caps 5 e) :
    (FitsAt c c' n (digestsOf (cr.hash 1) slots).length (Wire.chain slot.certChain).length 5 x →
        ∃ e', exchange c c' cr cr' x e = some (stageFlag caps 5, e') ∧ Stage c c' cr root slots slot q caps 6 e') ∧
      ∀ o, exchange c c' cr cr' x e = some o → FitsAt c c' n (digestsOf (cr.hash 1) slots).length (Wire.chain slot.certChain).length 5 x := by
  change PairEnds _ _ _ _ _ _ _ _ at he
  rw [if_pos hchal] at he
  obtain ⟨hx1, hx2⟩ := hx
  have hfit0 := hon.fits slot (List.mem_of_getElem? hon.filled)
  have hp16 : (UInt16.ofNat (Wire.chain slot.certChain).length).toNat = (Wire.chain slot.certChain).length := ofNat_toNat16 (by have := hfit0.2; omega)
  have hpad : (Wire.chain slot.certChain ++ zeros (c.maxCertChainSize - (Wire.chain slot.certChain).length)).length = c.maxCertChainSize := by
    have := hon.received
    simp only [List.length_append, zeros, List.length_replicate]
    omega
  have hlen := he.len; have hcp := he.cap
  have hlen' : e.2.transcript.get.length = 162 + (digestsOf (cr.hash 1) slots).length + (Wire.chain slot.certChain).length := by rw [← he.same]; exact hlen
  have lch : (Wire.header .challenge ++ Wire.challenge ⟨0, .none, x.reqEnv.nonce⟩).length = 4 + n := by simp [Wire.challenge, hx1, header_length]; omega
  obtain ⟨_, _, _, _, _, v6⟩ := need_values n (digestsOf (cr.hash 1) slots).length (Wire.chain slot.certChain).length
  constructor
  · rintro ⟨f1, f2, f3, f4⟩
    have f1 := f1 _ rfl; have f2 := f2 _ rfl
    rw [v6] at f3 f4
    obtain ⟨mask, mu, sig, m1, m2, m3⟩ := reply_challenge (c := c') (cr := cr') (env := x.rspEnv) (buf := x.rspBuf) hp' hon.number h8' he.kept he.state' hon.filled (nonce := x.reqEnv.nonce)
      (hx1.trans hn'.symm) (hx2.trans hn'.symm) rfl rfl hon.digest' hmax' (fun m => by rw [hon.hash' m]; exact hon.hash m) hfit0
      (fun msg => by obtain ⟨sig, g1, g2, _⟩ := hon.sign x.rspEnv.seed msg; exact ⟨sig, g1, g2⟩) (by omega) (by omega)
    rw [same_hash hon] at m2 m3
    obtain ⟨sig', g1, g2, g3, g4, g5⟩ := hon.sign x.rspEnv.seed (cr.hash 1 (e.2.transcript.get ++ (Wire.header .challenge ++ Wire.challenge ⟨0, .none, x.reqEnv.nonce⟩) ++
        authMsg 0 mask mu (cr.hash 1 (Wire.chain slot.certChain)) x.rspEnv.nonce 32))
    rw [m2] at g1
    simp only [Option.some.injEq] at g1
    subst g1
    obtain ⟨e', p1, _⟩ := pair_exchange_run (b := true) (st1 := .newSession) he.root he.cap
      (send_challenge (hx1.trans hn.symm) he.wf he.state (by omega) (by omega)) m3
      (fun r1 hw hcp hrt hs hT => by
        have := accept_challenge (c := c) (cr := cr) (ch := slot.certChain) (mask := mask) (mu := mu) (n := x.rspEnv.nonce) (sig := sig) (r := r1) hp h8 hon.digest hmax
          (hx2.trans hn.symm) rfl rfl rfl
          (by simp only [hp16, hpad]; exact hon.received) (by simp only [hp16]; exact List.take_left' rfl) hon.chain m1 hon.hash hon.leaf (by rw [hrt]; exact hon.anchor) (by rw [hrt]; exact hon.trust)
          g2 g3 g4 (by rw [hT, he.same]; exact g5) hw hs (by rw [hT, List.length_append, hlen, hcp, lch]; omega)
        rw [hT, he.same] at this
        exact this) rfl
    exact ⟨e', p1, trivial⟩
  · rintro ⟨b, e'⟩ ho
    obtain ⟨req, rsp, T1, T2, T3, st1, st2, st3, sg, g1, g2, g3, g4, hsend, hstep, hrecv⟩ := pair_exchange_inv hon.number h8' he.wf he.cap he.state he.kept he.state' ho
    cases hsend
    generalize hreq0 : Wire.header .challenge ++ Wire.challenge ⟨0, .none, x.reqEnv.nonce⟩ = req at hstep
    have ld' : req.length = 4 + n := by rw [← hreq0]; exact lch
    have hT : rsp.length = 138 + n ∧ T2.length = 240 + (digestsOf (cr.hash 1) slots).length + (Wire.chain slot.certChain).length + 2 * n := by
      cases hstep with
      | getVersion _ hreq => rw [← hreq0] at hreq; exact absurd (code_eq hreq) (by decide)
      | @challenge _ _ _ tail sig auth m sl mask ds ss hreq hnl hds hss hs hlt hch hmask ring hauth hsig hsl =>
        have e1 : ds = 32 := by
          have := digestSize_sha256 (c := c') hon.digest'
          rw [show (⟨caps, honestAnswer⟩ : Negotiated).algorithms.baseHashAlgoSelected = 1 from rfl, this] at hds
          cases hds; rfl
        have e2 : ss = 64 := by
          have := sigSize_p256 (c := c') (by omega)
          rw [show (⟨caps, honestAnswer⟩ : Negotiated).algorithms.baseAsymAlgoSelected = 16 from rfl, this] at hss
          cases hss; rfl
        have la : auth.length = 74 + n := by
          rw [hauth, show (⟨caps, honestAnswer⟩ : Negotiated).algorithms.baseHashAlgoSelected = 1 from rfl, e1]
          simp only [authMsg, List.length_append, header_length, List.length_cons, List.length_nil, hon.hash', hon.hash, hx2, zeros, List.length_replicate, le_length]
          omega
        simp only [List.length_append, la, hsl, e2, ld', hlen']
        omega
    have h3 : T3.length = 240 + (digestsOf (cr.hash 1) slots).length + (Wire.chain slot.certChain).length + 2 * n := by
      cases hrecv with
      | @challenge _ _ _ m ch ds ss h3 hh hds hss =>
        have e2 : ss = 64 := by
          have := sigSize_p256 (c := c) (by omega)
          rw [show honestAnswer.baseAsymAlgoSelected = 16 from rfl, this] at hss
          cases hss; rfl
        rw [List.length_append, List.length_append (bs := Wire.header _ ++ _), lch, List.length_take, hT.1, hlen, e2]
        omega
    rw [lch] at g1
    refine ⟨?_, ?_, by show transcriptNeed _ _ _ 6 ≤ _; omega, by show transcriptNeed _ _ _ 6 ≤ _; omega⟩
    · intro need hn; cases hn; omega
    · intro need hn; cases hn; omega

end

/-! ### C97 -/

section
variable {i i' : SpdmConfig} {n : Nat} {es : List RspEvent}

/-- From any requester that is about to ask for the version. -/
theorem interop_from {r : Requester} (hver : r.state = some .version) (hwf : r.transcript.WF) (hcp : r.transcript.buf.length = c.transcriptSize) (hroot : r.rootCert = root)
    (hv : ValidConfig true i) (hb : Built true i n c) (hv' : ValidConfig true i') (hb' : Built true i' n c') (hsig : i.asymmetricSigning ≠ [])
    (hon : HonestPair c c' cr cr' root slots slot) (run : RspRun c' cr' slots es q) (ha : alive es = true) (rounds : List Round)
    (hn : rounds.length = exchangesNeeded (common i.capabilities i'.capabilities)) (hx : ∀ x ∈ rounds, x.reqEnv.nonce.length = n ∧ x.rspEnv.nonce.length = n) :
    (EnoughRoom c c' n (digestsOf (cr.hash 1) slots).length (Wire.chain slot.certChain).length rounds →
      ∃ ends, talk c c' cr cr' rounds (r, q) = some (List.replicate (rounds.length - 1) false ++ [true], ends)) ∧
    ∀ o, talk c c' cr cr' rounds (r, q) = some o →
      EnoughRoom c c' n (digestsOf (cr.hash 1) slots).length (Wire.chain slot.certChain).length rounds := by
  have h8 : 0 < c.numSlots ∧ c.numSlots ≤ 8 := by rw [hb.numSlots]; exact hv.slots
  have h8' : c'.numSlots ≤ 8 := by rw [hb'.numSlots]; exact hv'.slots.2
  obtain ⟨⟨fq, hfq, bq⟩, _⟩ := c54_capabilities true i n c hv hb
  obtain ⟨_, fr, hfr, br⟩ := c54_capabilities true i' n c' hv' hb'
  obtain ⟨asym, hoffer, basym⟩ := c54_algorithms true i n c hv hb
  have hasym : asym = 16 := by
    rw [← UInt32.toNat_inj]
    apply Nat.eq_of_testBit_eq
    intro k
    rw [show (16 : UInt32).toNat = 2 ^ 4 from rfl, Nat.testBit_two_pow, Bool.eq_iff_iff, basym k]
    simp only [decide_eq_true_eq]
    constructor
    · rintro ⟨rfl, _⟩; rfl
    · rintro rfl; exact ⟨rfl, hsig⟩
  subst hasym
  change Requester.configToNegotiateAlgorithms c = .ok honestOffer at hoffer
  have hlim : ∀ (names : List String) k, (∃ a ∈ names, (a, k) ∈ capabilityBits) → reqFlagBit k ∧ rspFlagBit k := by
    rintro names k ⟨a, _, hk⟩
    simp only [capabilityBits, List.mem_cons, Prod.mk.injEq, List.not_mem_nil, or_false] at hk
    unfold reqFlagBit rspFlagBit
    omega
  have hbq : OnlyBits reqFlagBit fq.toNat := fun k hk => (hlim _ k ((bq k).mp hk)).1
  have hbr : OnlyBits rspFlagBit fr.toNat := fun k hk => (hlim _ k ((br k).mp hk)).2
  have hcap : ∀ (name : String) (k : Nat), (name, k) ∈ capabilityBits → (∀ a, (a, k) ∈ capabilityBits → a = name) →
      (fq.toNat.testBit k && fr.toNat.testBit k) = decide (name ∈ common i.capabilities i'.capabilities) := by
    intro name k hk huniq
    have : ∀ (names : List String) (w : UInt32), (w.toNat.testBit k = true ↔ ∃ a ∈ names, (a, k) ∈ capabilityBits) → w.toNat.testBit k = decide (name ∈ names) := by
      intro names w hw
      rw [Bool.eq_iff_iff, hw, decide_eq_true_eq]
      constructor
      · rintro ⟨a, ha, hak⟩; rw [← huniq a hak]; exact ha
      · intro h; exact ⟨name, h, hk⟩
    rw [this _ fq (bq k), this _ fr (br k), Bool.eq_iff_iff]
    simp [common_iff]
  have hcert := hcap "CERT_CAP" 1 (by simp [capabilityBits]) (by intro a h; simp [capabilityBits] at h; exact h)
  have hchal := hcap "CHAL_CAP" 2 (by simp [capabilityBits]) (by intro a h; simp [capabilityBits] at h; exact h)
  rw [← bothHave_cert ⟨12, fq, 12, fr⟩] at hcert
  rw [← bothHave_chal ⟨12, fq, 12, fr⟩] at hchal
  generalize hcaps : (⟨12, fq, 12, fr⟩ : Caps) = caps at *
  have hK : exchangesNeeded (common i.capabilities i'.capabilities) =
      if Requester.bothHave caps ReqFlags.certCap RspFlags.certCap then (if Requester.bothHave caps ReqFlags.chalCap RspFlags.chalCap then 6 else 5) else 3 := by
    unfold exchangesNeeded
    rw [hcert, hchal]
    simp only [decide_eq_true_eq]
  rw [hK] at hn
  have hst := stages (c := c) (c' := c') (cr := cr) (cr' := cr') (flags := stageFlag caps) (S := Stage c c' cr root slots slot q caps) (n := n) (d := (digestsOf (cr.hash 1) slots).length)
    (s := (Wire.chain slot.certChain).length) (K := rounds.length) (ok := NoncesOk n) (by
      intro k hk x hx e he
      match k, hk, he with
      | 0, _, he => exact stage0 hon.number h8' run ha he
      | 1, _, he => subst hcaps; exact stage1 hon.number h8' hfq hfr hbq hbr he
      | 2, _, he => exact stage2 hon.number h8' (crypto := true) hoffer he
      | 3, hk, he =>
        refine stage3 hon hb'.provider h8.2 h8' ?_ he
        cases hc : Requester.bothHave caps ReqFlags.certCap RspFlags.certCap with
        | true => rfl
        | false => rw [hc] at hn; simp at hn; omega
      | 4, hk, he => exact stage4 hon h8.1 h8' he
      | 5, hk, he =>
        refine stage5 hon hb.provider hb'.provider h8 h8' hb.maxSignatureSize hb'.maxSignatureSize hb.nonceSize hb'.nonceSize ?_ hx he
        cases hc : Requester.bothHave caps ReqFlags.certCap RspFlags.certCap with
        | true =>
          cases hc2 : Requester.bothHave caps ReqFlags.chalCap RspFlags.chalCap with
          | true => rfl
          | false => rw [hc, hc2] at hn; simp at hn; omega
        | false => rw [hc] at hn; simp at hn; omega
      | k + 6, hk, _ => split at hn <;> (try split at hn) <;> omega) rounds 0 (by omega) hx (r, q) ⟨rfl, hver, hwf, hcp, hroot⟩
  have h6 : 0 < rounds.length ∧ rounds.length ≤ 6 := by split at hn <;> (try split at hn) <;> omega
  obtain ⟨a1, a2⟩ := hst
  refine ⟨fun hr => ?_, fun o ho => (enough_iff h6.1 h6.2).mpr (a2 o ho)⟩
  obtain ⟨e', he'⟩ := a1 ((enough_iff h6.1 h6.2).mp hr)
  refine ⟨e', ?_⟩
  rw [he']
  congr 2
  cases hc : Requester.bothHave caps ReqFlags.certCap RspFlags.certCap with
  | false => rw [hc] at hn; simp only [Bool.false_eq_true, if_false] at hn; rw [hn]; simp [List.range', stageFlag, hc, List.replicate]
  | true =>
    cases hc2 : Requester.bothHave caps ReqFlags.chalCap RspFlags.chalCap with
    | true => rw [hc, hc2] at hn; simp only [if_true] at hn; rw [hn]; simp [List.range', stageFlag, hc, hc2, List.replicate]
    | false => rw [hc, hc2] at hn; simp only [if_true, Bool.false_eq_true, if_false] at hn; rw [hn]; simp [List.range', stageFlag, hc, hc2, List.replicate]

theorem interop (hv : ValidConfig true i) (hb : Built true i n c) (hv' : ValidConfig true i') (hb' : Built true i' n c') (hsig : i.asymmetricSigning ≠ [])
    (hon : HonestPair c c' cr cr' root slots slot) (run : RspRun c' cr' slots es q) (ha : alive es = true) (rounds : List Round)
    (hn : rounds.length = exchangesNeeded (common i.capabilities i'.capabilities)) (hx : ∀ x ∈ rounds, x.reqEnv.nonce.length = n ∧ x.rspEnv.nonce.length = n) :
    (EnoughRoom c c' n (digestsOf (cr.hash 1) slots).length (Wire.chain slot.certChain).length rounds →
      ∃ ends, talk c c' cr cr' rounds (Requester.new c root, q) = some (List.replicate (rounds.length - 1) false ++ [true], ends)) ∧
    ∀ o, talk c c' cr cr' rounds (Requester.new c root, q) = some o →
      EnoughRoom c c' n (digestsOf (cr.hash 1) slots).length (Wire.chain slot.certChain).length rounds :=
  interop_from rfl (by simp [Requester.new, Transcript.new, Transcript.WF]) (by simp [Requester.new, Transcript.new]) rfl hv hb hv' hb' hsig hon run ha rounds hn hx

/-- **C97.** A requester and a responder built from two valid configurations with the ring provider (their sizes, slots and capabilities may differ; the requester has a signing
algorithm), both honest, the responder new or after any conversation without a failure: if every buffer holds the message written into it and both transcripts hold the
conversation, they complete in exactly the exchanges that the capabilities they have in common call for, and every call succeeds. -/
theorem c97_builds_interoperate (hv : ValidConfig true i) (hb : Built true i n c) (hv' : ValidConfig true i') (hb' : Built true i' n c') (hsig : i.asymmetricSigning ≠ [])
    (hon : HonestPair c c' cr cr' root slots slot) (run : RspRun c' cr' slots es q) (ha : alive es = true) (rounds : List Round)
    (hn : rounds.length = exchangesNeeded (common i.capabilities i'.capabilities)) (hx : ∀ x ∈ rounds, x.reqEnv.nonce.length = n ∧ x.rspEnv.nonce.length = n)
    (hroom : EnoughRoom c c' n (digestsOf (cr.hash 1) slots).length (Wire.chain slot.certChain).length rounds) :
    ∃ ends, talk c c' cr cr' rounds (Requester.new c root, q) = some (List.replicate (rounds.length - 1) false ++ [true], ends) :=
  (interop hv hb hv' hb' hsig hon run ha rounds hn hx).1 hroom

/-- **C97.** The sizes are exact: one byte less in any buffer or transcript, and some call of the handshake fails. -/
theorem c97_room_needed (hv : ValidConfig true i) (hb : Built true i n c) (hv' : ValidConfig true i') (hb' : Built true i' n c') (hsig : i.asymmetricSigning ≠ [])
    (hon : HonestPair c c' cr cr' root slots slot) (run : RspRun c' cr' slots es q) (ha : alive es = true) (rounds : List Round)
    (hn : rounds.length = exchangesNeeded (common i.capabilities i'.capabilities)) (hx : ∀ x ∈ rounds, x.reqEnv.nonce.length = n ∧ x.rspEnv.nonce.length = n)
    {flags : List Bool} {ends : Requester × Responder} (h : talk c c' cr cr' rounds (Requester.new c root, q) = some (flags, ends)) :
    EnoughRoom c c' n (digestsOf (cr.hash 1) slots).length (Wire.chain slot.certChain).length rounds :=
  (interop hv hb hv' hb' hsig hon run ha rounds hn hx).2 _ h

/-! ### The hypotheses are met -/

/-- Another build: one slot, a larger chain buffer and transcript, more capabilities, shorter digests, no signing algorithm. -/
def otherConfig : SpdmConfig :=
  { numSlots := 1, certBufSize := 100, maxDepth := 1, transcriptBufSize := 600
    capabilities := ["CERT_CAP", "MAC_CAP", "CHAL_CAP"]
    maxDigestSize := 48, asymmetricSigning := [], maxBlocks := 1, maxSize := 3
    maxElements := 1, maxElementDataSize := 5 }

def otherCfg : Cfg :=
  { honestCfg with
    numSlots := 1, maxCertChainSize := 100, maxCertChainDepth := 1, transcriptSize := 600, maxDigestSize := 48
    maxOpaqueElementDataSize := 5, maxOpaqueElements := 1, maxMeasurementBlocks := 1, maxMeasurementSize := 3
    capabilities := ["CERT_CAP", "MAC_CAP", "CHAL_CAP"], asymSigning := [] }

theorem otherConfig_valid : ValidConfig true otherConfig :=
  ⟨by decide, by decide, by decide, by decide, by
    intro a ha
    simp only [otherConfig, List.mem_cons, List.not_mem_nil, or_false] at ha
    rcases ha with rfl | rfl | rfl
    · exact ⟨1, by simp [capabilityBits]⟩
    · exact ⟨7, by simp [capabilityBits]⟩
    · exact ⟨2, by simp [capabilityBits]⟩, by decide⟩

theorem otherConfig_built : Built true otherConfig 4 otherCfg := ⟨rfl, rfl, rfl, rfl, rfl, rfl, rfl, rfl, rfl, rfl, rfl, rfl, rfl, rfl⟩

theorem honest_pair_demo : HonestPair honestCfg otherCfg honestCrypto honestCrypto [1, 2, 3] [some honestSlot] honestSlot where
  number := rfl
  filled := rfl
  fits := by
    intro s hs
    simp only [List.mem_cons, Option.some.injEq, List.not_mem_nil, or_false] at hs
    subst hs
    decide +kernel
  received := by decide +kernel
  chain := honest_demo.chain
  digest := by decide
  digest' := by decide
  hash := demoHash_length
  hash' := fun _ => rfl
  leaf := by decide
  anchor := by decide
  trust := by decide
  sign := honest_demo.sign

/-- The smallest buffers: the digests take 32 bytes, the chain 43. -/
def tightRounds : List Round :=
  [⟨demoReqEnv, demoEnv, zeros 4, zeros 10⟩, ⟨demoReqEnv, demoEnv, zeros 12, zeros 12⟩, ⟨demoReqEnv, demoEnv, zeros 48, zeros 52⟩,
    ⟨demoReqEnv, demoEnv, zeros 4, zeros 36⟩, ⟨demoReqEnv, demoEnv, zeros 8, zeros (8 + (Wire.chain honestSlot.certChain).length)⟩, ⟨demoReqEnv, demoEnv, zeros 8, zeros 142⟩]

theorem tight_room : EnoughRoom honestCfg otherCfg 4 (digestsOf (honestCrypto.hash 1) [some honestSlot]).length (Wire.chain honestSlot.certChain).length tightRounds where
  requests := by
    intro k x need hx hn
    match k with
    | 0 | 1 | 2 | 3 | 4 | 5 => cases hx; cases hn; decide +kernel
    | k + 6 => cases hn
  responses := by
    intro k x need hx hn
    match k with
    | 0 | 1 | 2 | 3 | 4 | 5 => cases hx; cases hn; decide +kernel
    | k + 6 => cases hn
  transcript := by decide +kernel
  transcript' := by decide +kernel

/-- Two builds complete in six exchanges with buffers that are just large enough. -/
example : ∃ ends, talk honestCfg otherCfg honestCrypto honestCrypto tightRounds (Requester.new honestCfg [1, 2, 3], Responder.new otherCfg [some honestSlot]) =
    some ([false, false, false, false, false, true], ends) :=
  c97_builds_interoperate honestConfig_valid honestConfig_built otherConfig_valid otherConfig_built (by decide) honest_pair_demo .new rfl tightRounds (by decide +kernel) (by decide +kernel) tight_room

/-- With 31 bytes for the DIGESTS instead of 36 they do not. -/
example : talk honestCfg otherCfg honestCrypto honestCrypto (tightRounds.set 3 ⟨demoReqEnv, demoEnv, zeros 4, zeros 31⟩)
    (Requester.new honestCfg [1, 2, 3], Responder.new otherCfg [some honestSlot]) = none := by
  rcases h : talk honestCfg otherCfg honestCrypto honestCrypto (tightRounds.set 3 ⟨demoReqEnv, demoEnv, zeros 4, zeros 31⟩)
    (Requester.new honestCfg [1, 2, 3], Responder.new otherCfg [some honestSlot]) with _ | ⟨fl, e⟩
  · rfl
  · have := (c97_room_needed honestConfig_valid honestConfig_built otherConfig_valid otherConfig_built (by decide) honest_pair_demo .new rfl _ (by decide +kernel) (by decide +kernel) h).responses 3 _ _ rfl rfl
    exact absurd this (by decide +kernel)

end
end Spdm

import Verif.Lemmas.Blows
import Verif.Spec.Panics
import Verif.Props.Aborts
import Verif.Props.Reply
/-!
# Exactly which requests abort a responder: C82

`hl`, `h0` and `h8` as in Props/Responder.lean.
-/
namespace Spdm
open Spec

section
variable {c : Cfg} {cr : Crypto} {env : Env} {slots : List (Option FilledSlot)} {es : List RspEvent} {r : Responder}

theorem digestible_iff {l : Log} {caps : Caps} {a : Algorithms} (hw : Words l caps a) (data : Bytes) :
    Digestible c cr l.hash data ↔ c.provider = true ∧ RingHash a.baseHashAlgoSelected ∧ (cr.hash a.baseHashAlgoSelected data).length ≤ c.maxDigestSize := by
  unfold Digestible RingHash
  rw [words_hash hw, hw.hash]

theorem hashOk_iff {l : Log} {caps : Caps} {a : Algorithms} (hw : Words l caps a) (ch : CertificateChain) :
    Digestible c cr l.hash (Wire.chain ch) ↔ HashOk c cr a.baseHashAlgoSelected ch := digestible_iff hw _

theorem digestUsable_iff {l : Log} {caps : Caps} {a : Algorithms} (hw : Words l caps a) : DigestUsable c l.hash ↔ ∃ ds, BaseHashAlgo.getDigestSize c a.baseHashAlgoSelected = .ok ds := by
  unfold DigestUsable
  rw [hw.hash]
  constructor
  · rintro ⟨i, n, h1, h2, h3⟩; exact ⟨n, getDigestSize_ok.mpr ⟨i, h1, h2, h3⟩⟩
  · rintro ⟨n, h⟩; obtain ⟨i, h1, h2, h3⟩ := getDigestSize_ok.mp h; exact ⟨i, n, h1, h2, h3⟩

theorem signatureUsable_iff {l : Log} {caps : Caps} {a : Algorithms} (hw : Words l caps a) :
    SignatureUsable c l.asym ↔ ∃ ss, BaseAsymAlgo.getSignatureSize c a.baseAsymAlgoSelected = .ok ss := by
  unfold SignatureUsable
  rw [hw.asym]
  constructor
  · rintro ⟨i, n, h1, h2, h3⟩; exact ⟨n, getSignatureSize_ok.mpr ⟨i, h1, h2, h3⟩⟩
  · rintro ⟨n, h⟩; obtain ⟨i, h1, h2, h3⟩ := getSignatureSize_ok.mp h; exact ⟨i, n, h1, h2, h3⟩

theorem short_blows {st : RspState} {p : Option UInt8} {l : Log} (hm : RMatch p l st) {req : Bytes} (hs : req.length < 3) (h : HState) : Blows (Responder.dispatch c cr env slots st req) h := by
  have hp : MsgType.getVersion.parseHeader req = .panic .assertion := by
    unfold MsgType.parseHeader
    rw [if_pos (by omega)]
  have hv : ∀ h, Responder.versionHandle req h = (.panic .assertion, h) := by
    intro h; unfold Responder.versionHandle; rw [hp]; rfl
  have hr : ∀ rest h, Responder.resetOnGetVersion req rest h = (.panic .assertion, h) := by
    intro rest h; unfold Responder.resetOnGetVersion; rw [hp]; rfl
  unfold Blows
  cases hm <;> simp only [Responder.dispatch, Responder.capabilitiesHandle, Responder.algorithmsHandle, Responder.idAuthHandle, Responder.challengeHandle, hv, hr, Res.isPanic]

theorem split_header {req : Bytes} {a b : UInt8} (h : req.take 2 = [a, b]) (h3 : 3 ≤ req.length) : req = [a, b] ++ req.drop 2 ∧ req.drop 2 ≠ [] := by
  refine ⟨?_, fun h => ?_⟩
  · conv => lhs; rw [← List.take_append_drop 2 req, h]
  · have := congrArg List.length h; simp at this; omega

theorem dispatch_blows (h0 : 0 < c.numSlots) (h8 : c.numSlots ≤ 8) (hl : slots.length = c.numSlots) {p : Option UInt8} {l : Log} {st : RspState} {req : Bytes} (hm : RMatch p l st)
    {h : HState} (hw : h.tr.WF) (ht : h.tr.get = l.text) (hcap : h.tr.buf.length = c.transcriptSize) :
    Blows (Responder.dispatch c cr env slots st req) h ↔ RequestAborts c cr env slots h.rsp.length p l req := by
  by_cases h3 : 3 ≤ req.length
  swap
  · exact ⟨fun _ => .short (by omega), fun _ => short_blows hm (by omega) h⟩
  cases hm with
  | version =>
    constructor
    · intro hb; exact absurd hb (calm_not_blows (versionHandle_calm h3 h))
    · intro hb
      generalize hq : (none : Option UInt8) = p at hb
      cases hb <;> first | omega | simp at hq
  | capabilities =>
    constructor
    · intro hb; exact absurd hb (calm_not_blows (capabilitiesHandle_calm h3 hw))
    · intro hb
      generalize hq : (some 0x84 : Option UInt8) = p at hb
      cases hb with
      | short hs => omega
      | emptyOffer => simp at hq
      | digests hp => simp only [Option.some.injEq] at hq; subst hq; simp at hp
      | sizes hp => simp only [Option.some.injEq] at hq; subst hq; simp at hp
      | chain hp => simp only [Option.some.injEq] at hq; subst hq; simp at hp
      | sign hp => simp only [Option.some.injEq] at hq; subst hq; simp at hp
  | @algorithms _ caps hq hp =>
    constructor
    · intro hb
      obtain ⟨g1, m, g2, g3, g4⟩ := algorithms_blows_inv h3 hw hb
      have h1 : AnyMsg.parse c ⟨0, 0, false⟩ .negotiateAlgorithms (req.drop 2) = .ok (.negotiateAlgorithms m) := by
        simp only [AnyMsg.parse, g2]; rfl
      obtain ⟨_, bs, rest, h2, h4⟩ := (c78_accepts_iff c _ h0 h8 _ _ _).mp h1
      have hq : req = [0x11, 0xE3] ++ bs ++ rest := by
        rw [List.append_assoc, ← h2]; exact (split_header g1 h3).1
      rw [ht, hcap] at g4
      rw [hq] at g4 ⊢
      exact .emptyOffer h4 g3 g4
    · intro hb
      generalize hq : (some 0xE1 : Option UInt8) = p at hb
      cases hb with
      | short hs => omega
      | @emptyOffer _ m bs tail hd he hroom =>
        have h1 := (c78_accepts_iff c ⟨0, 0, false⟩ h0 h8 .negotiateAlgorithms (bs ++ tail) (.negotiateAlgorithms m)).mpr ⟨rfl, bs, tail, rfl, hd⟩
        have hparse : NegotiateAlgorithms.parseBody (bs ++ tail) = .ok m := by
          simp only [AnyMsg.parse] at h1
          obtain ⟨x, h2, h3⟩ := res_map_ok_inv h1
          cases h3
          exact h2
        exact algorithms_blows h3 (by simp [Wire.header]) (by simpa using hparse) he hw (by rw [ht, hcap]; exact hroom)
      | digests hp => simp only [Option.some.injEq] at hq; subst hq; simp at hp
      | sizes hp => simp only [Option.some.injEq] at hq; subst hq; simp at hp
      | chain hp => simp only [Option.some.injEq] at hq; subst hq; simp at hp
      | sign hp => simp only [Option.some.injEq] at hq; subst hq; simp at hp
  | @idAuth _ k n hk hwd =>
    simp only [Responder.dispatch]
    rw [show (slots.map fun s => s.map (·.certChain)) = chainsOf slots from rfl, idAuth_blows hl h8 h3 hw]
    constructor
    · rintro ⟨g1, k, s, g2, g3, g4, g5⟩
      obtain ⟨q1, q2⟩ := split_header g1 h3
      rw [q1]
      refine .digests hk q2 g2 (fun j s' hj hs' => ?_) g4 (fun hd => g5 ((hashOk_iff hwd _).mp hd))
      obtain ⟨p1, p2⟩ := g3 j s' hj hs'
      exact ⟨p1, (hashOk_iff hwd _).mpr p2⟩
    · intro hb
      generalize hq : (some k : Option UInt8) = p at hb
      cases hb with
      | short hs => omega
      | emptyOffer => simp only [Option.some.injEq] at hq; subst hq; simp at hk
      | digests hp htl hs hbef hfit hd =>
        refine ⟨by simp [Wire.header], _, _, hs, fun j s' hj hs' => ?_, hfit, fun h => hd ((hashOk_iff hwd _).mpr h)⟩
        obtain ⟨p1, p2⟩ := hbef j s' hj hs'
        exact ⟨p1, (hashOk_iff hwd _).mp p2⟩
      | sizes hp => simp only [Option.some.injEq] at hq; subst hq; rcases hk with rfl | rfl <;> simp at hp
      | chain hp => simp only [Option.some.injEq] at hq; subst hq; rcases hk with rfl | rfl <;> simp at hp
      | sign hp => simp only [Option.some.injEq] at hq; subst hq; rcases hk with rfl | rfl <;> simp at hp
  | @challenge _ k n hk hwd =>
    simp only [Responder.dispatch]
    have hreqb : ∀ (i : UInt8) (t : MeasurementHashType) (nonce tail : Bytes), challengeBytes i t nonce tail = Wire.header .challenge ++ (Wire.challenge ⟨i, t, nonce⟩ ++ tail) := by
      intro i t nonce tail; simp [challengeBytes, Wire.header, Wire.challenge]
    have hpart : ∀ {ds : Nat} {i mask : UInt8} {s : FilledSlot}, BaseHashAlgo.getDigestSize c n.algorithms.baseHashAlgoSelected = .ok ds →
        authMsg i mask (Responder.useMutualAuth n.caps) (cr.hash n.algorithms.baseHashAlgoSelected (Wire.chain s.certChain)) env.nonce ds = unsignedReply cr env l i mask s := by
      intro ds i mask s hds
      rw [authMsg_part hwd hds, unsignedReply, words_hash hwd]
    constructor
    · intro hb
      obtain ⟨g1, g2⟩ := challenge_blows_inv hl h8 h3 hw hb
      obtain ⟨q1, q2⟩ := split_header g1 h3
      rcases g2 with g | g | ⟨ds, ss, m, slot, hds, hss, hm, hs, hbl⟩
      · rw [q1]; exact .sizes hk q2 (.inl fun h => g ((digestUsable_iff hwd).mp h))
      · rw [q1]; exact .sizes hk q2 (.inr fun h => g ((signatureUsable_iff hwd).mp h))
      · obtain ⟨bs, tail, h1, h2, h4⟩ := (Challenge.inverts c).parse hm
        have hq : req = challengeBytes m.slot m.measurementHashType m.nonce tail := by
          rw [hreqb, q1, h1, h2]; rfl
        have hsz : sizeFor signatureSizes l.asym = ss := by rw [hwd.asym]; exact getSignatureSize_sizeFor hss
        rcases hbl with ⟨hf, hd⟩ | ⟨mask, txt, hmask, hf, hd, htxt, hbuf, htr, hbad⟩
        · rw [hq]; exact .chain hk h4 hs hf fun h => hd ((hashOk_iff hwd _).mp h)
        · rw [hpart hds, hq, ht] at htxt
          rw [hpart hds] at hbuf
          rw [hq]
          subst htxt
          refine .sign hk h4 hs hf (mask := mask) (fun i _ => hmask i) ((hashOk_iff hwd _).mpr hd) (by rw [hsz]; exact hbuf) (by rw [← hcap]; exact htr) ?_
          refine hbad.imp (fun hx hy => hx ((digestible_iff hwd _).mp hy).2.2) ?_
          rintro ⟨sig, s1, s2⟩
          exact ⟨sig, by rw [words_hash hwd]; exact s1, by rw [hsz]; exact s2⟩
    · intro hb
      generalize hq : (some k : Option UInt8) = p at hb
      have hby : ∀ {i : UInt8} {t : MeasurementHashType} {nonce tail : Bytes} {s : FilledSlot}, req = challengeBytes i t nonce tail → nonce.length = c.nonceSize →
          slots[i.toNat]? = some (some s) → (∀ ds ss, BaseHashAlgo.getDigestSize c n.algorithms.baseHashAlgoSelected = .ok ds →
            BaseAsymAlgo.getSignatureSize c n.algorithms.baseAsymAlgoSelected = .ok ss → AuthBlows c cr env slots n ds ss ⟨i, t, nonce⟩ s req h) →
          Blows (Responder.challengeHandle c cr env n slots req) h := by
        intro i t nonce tail s hreq hn hs hbl
        have htk : req.take 2 = Wire.header .challenge := by rw [hreq, hreqb]; exact List.take_left' (header_length _)
        by_cases g1 : ∃ ds, BaseHashAlgo.getDigestSize c n.algorithms.baseHashAlgoSelected = .ok ds
        swap
        · exact challenge_blows_sizes h3 htk (.inl g1) h
        by_cases g2 : ∃ ss, BaseAsymAlgo.getSignatureSize c n.algorithms.baseAsymAlgoSelected = .ok ss
        swap
        · exact challenge_blows_sizes h3 htk (.inr g2) h
        obtain ⟨ds, hds⟩ := g1
        obtain ⟨ss, hss⟩ := g2
        have hp : Challenge.parseBody c (req.drop 2) = .ok ⟨i, t, nonce⟩ := by
          rw [hreq, hreqb, List.drop_left' (header_length _)]
          exact (Challenge.reads (m := ⟨i, t, nonce⟩) hn).parse tail
        exact challenge_blows hl h8 h3 htk hw hds hss hp hs (hbl ds ss hds hss)
      obtain ⟨req', hrq⟩ : ∃ req', req = req' := ⟨_, rfl⟩
      rw [hrq] at hb
      cases hb with
      | short hs => rw [hrq] at h3; omega
      | emptyOffer => simp only [Option.some.injEq] at hq; subst hq; simp at hk
      | digests hp => simp only [Option.some.injEq] at hq; subst hq; rcases hk with rfl | rfl <;> simp at hp
      | sizes hp htl hx =>
        exact challenge_blows_sizes h3 (by rw [hrq]; simp [Wire.header]) (hx.imp (fun g g' => g ((digestUsable_iff hwd).mpr g')) (fun g g' => g ((signatureUsable_iff hwd).mpr g'))) h
      | chain hp hn hs hf hd => exact hby hrq hn hs fun ds ss _ _ => .chain hf fun hx => hd ((hashOk_iff hwd _).mpr hx)
      | @sign prev i mask _ t nonce tail s hp hn hs hf hmask hd hbuf htr hbad =>
        refine hby hrq hn hs fun ds ss hds hss => ?_
        have hsz : sizeFor signatureSizes l.asym = ss := by rw [hwd.asym]; exact getSignatureSize_sizeFor hss
        obtain ⟨mask', hm1, hm2⟩ := createSlotMask_run hl h8
        have : mask' = mask := maskOf_unique (fun i _ => hm2 i) hmask
        subst this
        have htxt : l.text ++ challengeBytes i t nonce tail ++ unsignedReply cr env l i mask' s = h.tr.get ++ req ++
            authMsg i mask' (Responder.useMutualAuth n.caps) (cr.hash n.algorithms.baseHashAlgoSelected (Wire.chain s.certChain)) env.nonce ds := by
          rw [hpart hds, ht, hrq]
        refine .sign mask' _ hm2 hf ((hashOk_iff hwd _).mp hd) htxt (by rw [hpart hds, ← hsz]; exact hbuf) (by rw [hcap]; exact htr) ?_
        have hdd := (hashOk_iff hwd _).mp hd
        refine hbad.imp (fun hx hy => hx ((digestible_iff hwd _).mpr ⟨hdd.1, hdd.2.1, hy⟩)) ?_
        rintro ⟨sig, s1, s2⟩
        exact ⟨sig, by rw [← words_hash hwd]; exact s1, by rw [← hsz]; exact s2⟩

/-- **C82**: a responder that has not failed aborts on a request exactly if the request is one of the `RequestAborts` relation. -/
theorem c82_aborts_iff (h0 : 0 < c.numSlots) (h8 : c.numSlots ≤ 8) (hl : slots.length = c.numSlots) (run : RspRun c cr slots es r) (ha : alive es = true) (env : Env) (req buf : Bytes) :
    (∃ k, (Responder.handleMsg c cr env req buf r).1 = .panic k) ↔ RequestAborts c cr env slots buf.length (lastReq es) (conversation (rspMsgs es)) req := by
  obtain ⟨st, hlive⟩ := run_live hl h8 run ha
  rw [← dispatch_blows h0 h8 hl hlive.mat (h := ⟨buf, r.transcript, r.signed⟩) hlive.wf hlive.text hlive.cap]
  constructor
  · rintro ⟨k, hk⟩
    by_contra hb
    have hc : Calm (Responder.dispatch c cr env slots st req) ⟨buf, r.transcript, r.signed⟩ := by
      unfold Blows at hb; unfold Calm; simpa using hb
    obtain ⟨out, e, he⟩ := call_calm hl h8 hlive.toRspKept hlive.state hc
    rw [he] at hk
    simp at hk
  · intro hb
    obtain ⟨k, h', hk⟩ := hb.inv
    exact ⟨k, call_aborts hlive.toRspKept hlive.state hk⟩

/-- **C82**, together with C80: the outcome of every call. A request is answered if `Reply` says so and there is room, aborts the responder if `RequestAborts` says so, and
otherwise the reply is an ERROR message for some error, and the responder has failed. -/
theorem c82_outcome (h0 : 0 < c.numSlots) (h8 : c.numSlots ≤ 8) (hl : slots.length = c.numSlots) (hn : ∀ a ∈ c.capabilities, ∃ k, (a, k) ∈ capabilityBits)
    (run : RspRun c cr slots es r) (ha : alive es = true) (env : Env) (req buf : Bytes)
    (hr : ¬ ∃ out, Reply c cr env slots (lastReq es) (conversation (rspMsgs es)) req out ∧ out.length ≤ buf.length ∧
      (((conversation (rspMsgs es)).add req).add out).text.length ≤ c.transcriptSize)
    (hab : ¬ RequestAborts c cr env slots buf.length (lastReq es) (conversation (rspMsgs es)) req) :
    ∃ e, (Responder.handleMsg c cr env req buf r).1 = .ok ⟨errorReply buf (errorBytes e), some e⟩ ∧ (Responder.handleMsg c cr env req buf r).2.state = some .error := by
  obtain ⟨g1, g2⟩ := c34_errors_uniform hl h8 run env req buf
  rcases hx : (Responder.handleMsg c cr env req buf r).1 with ⟨out, _ | e⟩ | e | k
  · exact absurd ⟨out, (c80_answered_iff h0 h8 hl hn run ha env req buf out).mp hx⟩ hr
  · obtain ⟨h1, h2⟩ := g2 out e hx
    exact ⟨e, by rw [h1], h2⟩
  · exact absurd hx (g1 e)
  · exact absurd ((c82_aborts_iff h0 h8 hl run ha env req buf).mp ⟨k, hx⟩) hab

end

/-- C82 at work: two bytes abort. -/
example (buf : Bytes) : ∃ k, (Responder.handleMsg demoCfg demoCrypto demoEnv [0x11, 0x83] buf (demoResponder 5)).1 = .panic k :=
  (c82_aborts_iff (by decide) (by decide) rfl (demo_run 5) (by decide +kernel) _ _ _).mpr (.short (by decide))

/-- A slot whose signer returns one byte too few: the CHALLENGE of the demo session is of the `sign` kind. -/
def clippedSlots : List (Option FilledSlot) := [some ⟨0x10, 1, demoSessionChain, fun _ m => some ((demoSign m).drop 1)⟩, none]
def clippedEvents : List RspEvent := behaviour demoCfg demoCrypto (Responder.new demoCfg clippedSlots) (demoCalls 5)

example (buf : Bytes) (hb : 142 ≤ buf.length) :
    ∃ k, (Responder.handleMsg demoCfg demoCrypto demoEnv demoChallenge buf (after demoCfg demoCrypto (Responder.new demoCfg clippedSlots) (demoCalls 5))).1 = .panic k := by
  refine (c82_aborts_iff (slots := clippedSlots) (es := clippedEvents) (by decide) (by decide) rfl (RspRun.of _ _ _ _) (by decide +kernel) _ _ _).mpr ?_
  have h1 : lastReq clippedEvents = some 0x82 := by decide +kernel
  have hl : (unsignedReply demoCrypto demoEnv (conversation (rspMsgs clippedEvents)) 0 1 ⟨0x10, 1, demoSessionChain, fun _ m => some ((demoSign m).drop 1)⟩).length +
      sizeFor signatureSizes (conversation (rspMsgs clippedEvents)).asym = 142 := by decide +kernel
  rw [h1, show demoChallenge = challengeBytes 0 .none [5, 6, 7, 8] [] by decide +kernel]
  refine .sign (mask := 1) (s := ⟨0x10, 1, demoSessionChain, fun _ m => some ((demoSign m).drop 1)⟩) (.inl rfl) rfl rfl (by unfold ChainFits; decide +kernel) ?_ ?_ (by rw [hl]; exact hb) ?_ (.inr ?_)
  · intro i hi
    have : i = 0 ∨ i = 1 ∨ 2 ≤ i := by omega
    rcases this with rfl | rfl | h
    · simp [clippedSlots]
    · simp [clippedSlots]; decide
    · have h2 : Nat.testBit 1 i = false := Nat.testBit_lt_two_pow (by
        calc 1 < 2 ^ 1 := by decide
          _ ≤ 2 ^ i := Nat.pow_le_pow_right (by decide) (by omega))
      have h3 : clippedSlots[i]? = none := List.getElem?_eq_none (by simpa [clippedSlots] using h)
      simp [h2, h3]
  · exact ⟨rfl, by decide +kernel, by decide +kernel⟩
  · decide +kernel
  · refine ⟨_, rfl, ?_⟩
    decide +kernel

/-- A CHALLENGE right after GET_VERSION is neither answered nor aborts; it is refused. -/
example : ∃ e, (Responder.handleMsg demoCfg demoCrypto demoEnv demoChallenge (zeros 200) (demoResponder 1)).1 = .ok ⟨errorReply (zeros 200) (errorBytes e), some e⟩ ∧
    (Responder.handleMsg demoCfg demoCrypto demoEnv demoChallenge (zeros 200) (demoResponder 1)).2.state = some .error := by
  have hx : ∃ o e, (Responder.handleMsg demoCfg demoCrypto demoEnv demoChallenge (zeros 200) (demoResponder 1)).1 = .ok ⟨o, some e⟩ := ⟨[0x12, 0x7F, 4, 0], .unexpectedMsg 0xE1 0x11, by decide +kernel⟩
  obtain ⟨o, e, hx⟩ := hx
  refine c82_outcome (by decide) (by decide) rfl demo_named (demo_run 1) (by decide +kernel) demoEnv demoChallenge (zeros 200) ?_ ?_
  · rintro ⟨out, h⟩
    have := (c80_answered_iff (by decide) (by decide) rfl demo_named (demo_run 1) (by decide +kernel) demoEnv demoChallenge (zeros 200) out).mpr h
    rw [hx] at this
    simp at this
  · intro h
    obtain ⟨k, hk⟩ := (c82_aborts_iff (by decide) (by decide) rfl (demo_run 1) (by decide +kernel) demoEnv demoChallenge (zeros 200)).mpr h
    rw [hx] at hk
    simp at hk

end Spdm

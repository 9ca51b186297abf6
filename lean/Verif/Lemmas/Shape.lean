import Verif.Lemmas.ReqCalls
import Verif.Lemmas.RspCalls
import Verif.Lemmas.Accepts
import Verif.Spec.Protected
/-! Where the messages of the negotiation stand in the transcripts of the two sides. -/
namespace Spdm
open Spec

theorem add_keeps {l : Log} {m : Bytes} {k : UInt8} (hc : code m = some k) (hk : k ∉ ([0x84, 0xE1, 0x61, 0x63] : List UInt8)) :
    ∃ x, l.add m = { l with text := l.text ++ x } := by
  by_cases h3 : k = 0x03
  · subst h3
    exact ⟨m.take (m.length - sizeFor signatureSizes l.asym), by simp only [Log.add, hc]⟩
  · exact ⟨m, add_plain hc (by simp only [List.mem_cons, List.not_mem_nil, or_false, not_or] at hk ⊢; exact ⟨hk.1, hk.2.1, hk.2.2.1, hk.2.2.2, h3⟩)⟩

/-! ### The requester -/

/-- GET_VERSION (or nothing), and a VERSION response with anything behind it. -/
def OpeningPart (P V : Bytes) : Prop :=
  (P = [] ∨ P = Wire.header .getVersion ++ Wire.getVersion) ∧ ∃ m tail, VersionWF m ∧
    V = Wire.header .version ++ (zeros 3 ++ [m.numEntries] ++ (m.entries.take m.numEntries.toNat).flatMap Wire.versionEntry) ++ tail

/-- GET_CAPABILITIES, once or several times. -/
def AskedFirst (c : Cfg) (l : Log) (G : Bytes) : Prop :=
  ∃ m x, Requester.configToGetCapabilities c = .ok m ∧ G = Wire.header .getCapabilities ++ Wire.getCapabilities m ++ x ∧ l.reqCaps = leVal (field G 8 4)

/-- A CAPABILITIES response with anything behind it. -/
def ToldFirst (l : Log) (C : Bytes) : Prop := 12 ≤ C.length ∧ l.rspCaps = leVal (field C 8 4)

/-- NEGOTIATE_ALGORITHMS, once or several times. -/
def OfferedFirst (c : Cfg) (msgs : List Bytes) (N : Bytes) : Prop :=
  ∃ m na, Requester.configToNegotiateAlgorithms c = .ok m ∧ na = Wire.header .negotiateAlgorithms ++ Wire.negotiateAlgorithms m ∧ na ∈ msgs ∧
    (N = na ∨ ∃ x, N = na ++ na ++ x)

/-- An ALGORITHMS response with anything behind it. -/
def ChosenFirst (l : Log) (A : Bytes) : Prop :=
  A.take 2 = Wire.header .algorithms ∧ 20 ≤ A.length ∧ l.asym = leVal (field A 12 4) ∧ l.hash = leVal (field A 16 4)

/-- The transcript after the negotiation. -/
def ReqDone (c : Cfg) (msgs : List Bytes) (l : Log) : Prop :=
  ∃ P V G C N A R, l.text = P ++ (V ++ (G ++ (C ++ (N ++ (A ++ R))))) ∧ OpeningPart P V ∧ AskedFirst c l G ∧ ToldFirst l C ∧ OfferedFirst c msgs N ∧ ChosenFirst l A

/-- There is no room for `k` more bytes in the transcript. -/
def Tight (c : Cfg) (l : Log) (k : Nat) : Prop := c.transcriptSize < l.text.length + k

/-- The transcript in every state.  (A NEGOTIATE_ALGORITHMS that found no room in the transcript is remembered as sent; but then there is no room for a CHALLENGE either.) -/
def ReqShape (c : Cfg) (msgs : List Bytes) (l : Log) : ReqState → Prop
  | .version => l.text = [] ∨ l.text = Wire.header .getVersion ++ Wire.getVersion
  | .capabilities _ _ cap => ∃ P V G, l.text = P ++ (V ++ G) ∧ OpeningPart P V ∧ (cap = none ∧ G = [] ∨ AskedFirst c l G)
  | .algorithms _ _ o => (∃ P V G C N, l.text = P ++ (V ++ (G ++ (C ++ N))) ∧ OpeningPart P V ∧ AskedFirst c l G ∧ ToldFirst l C ∧ (o = none ∧ N = [] ∨ OfferedFirst c msgs N)) ∨ Tight c l 48
  | .idAuth _ _ _ none => ReqDone c msgs l ∨ Tight c l 12
  | .idAuth _ _ _ (some _) => ReqDone c msgs l ∨ Tight c l 8
  | .challenge _ => ReqDone c msgs l ∨ Tight c l 0
  | .newSession => True
  | .error => True

theorem ReqDone.more {c : Cfg} {msgs : List Bytes} {l : Log} {m x : Bytes} (h : ReqDone c msgs l) : ReqDone c (msgs ++ [m]) { l with text := l.text ++ x } := by
  obtain ⟨P, V, G, C, N, A, R, ht, hpv, hg, hc, ⟨o, na, h1, h2, h3, h4⟩, ha⟩ := h
  exact ⟨P, V, G, C, N, A, R ++ x, by simp [ht], hpv, hg, hc, ⟨o, na, h1, h2, by simp [h3], h4⟩, ha⟩

theorem Tight.more {c : Cfg} {l : Log} {k n : Nat} {x : Bytes} (h : Tight c l k) (hn : k ≤ n + x.length) : Tight c { l with text := l.text ++ x } n := by
  unfold Tight at h ⊢
  simp only [List.length_append]
  omega

theorem send_shape {c : Cfg} {env : Env} {msgs : List Bytes} {l : Log} {st st' : ReqState} {out tr' : Bytes} (hm : ReqShape c msgs l st)
    (hs : ReqSend c env st l.text out tr' st') : ReqShape c (msgs ++ [out]) (l.add out) st' := by
  cases hs with
  | version =>
    have hc : code (Wire.header .getVersion ++ Wire.getVersion) = some 0x84 := code_header _ _
    right
    simp only [Log.add, hc]
  | @capabilities e ct cap _ m hm' =>
    have hc : code (Wire.header .getCapabilities ++ Wire.getCapabilities m) = some 0xE1 := code_header _ _
    have hw := getCapabilities_word (m := m) []
    rw [List.append_nil] at hw
    have hadd : l.add (Wire.header .getCapabilities ++ Wire.getCapabilities m) = { l with reqCaps := m.flags.toNat, text := l.text ++ (Wire.header .getCapabilities ++ Wire.getCapabilities m) } := by
      simp only [Log.add, hc, hw]
    rw [hadd]
    obtain ⟨P, V, G, ht, hpv, hg⟩ := hm
    refine ⟨P, V, G ++ (Wire.header .getCapabilities ++ Wire.getCapabilities m), by simp [ht], hpv, .inr ?_⟩
    rcases hg with ⟨_, rfl⟩ | ⟨m2, x, g1, rfl, g3⟩
    · exact ⟨m, [], hm', by simp, by simpa using hw.symm⟩
    · rw [hm'] at g1
      cases g1
      exact ⟨m, x ++ (Wire.header .getCapabilities ++ Wire.getCapabilities m), hm', by simp, by simpa using (getCapabilities_word (m := m) (x ++ (Wire.header .getCapabilities ++ Wire.getCapabilities m))).symm⟩
  | @algorithms e caps o _ m hm' =>
    have hc : code (Wire.header .negotiateAlgorithms ++ Wire.negotiateAlgorithms m) = some 0xE3 := code_header _ _
    rw [add_plain hc (by decide)]
    rcases hm with ⟨P, V, G, C, N, ht, hpv, hg, hcc, hn⟩ | hm
    rotate_left
    · exact .inr (hm.more (by omega))
    refine .inl ⟨P, V, G, C, N ++ (Wire.header .negotiateAlgorithms ++ Wire.negotiateAlgorithms m), by simp [ht], hpv, hg, hcc, .inr ?_⟩
    rcases hn with ⟨_, rfl⟩ | ⟨m2, na, g1, rfl, g3, g4⟩
    · exact ⟨m, _, hm', rfl, by simp, .inl (by simp)⟩
    · rw [hm'] at g1
      cases g1
      refine ⟨m, _, hm', rfl, by simp, .inr ?_⟩
      rcases g4 with rfl | ⟨x, rfl⟩
      · exact ⟨[], by simp⟩
      · exact ⟨x ++ (Wire.header .negotiateAlgorithms ++ Wire.negotiateAlgorithms m), by simp⟩
  | digests =>
    obtain ⟨x, hx⟩ := add_keeps (l := l) (m := Wire.header .getDigests ++ Wire.getDigests) (k := 0x81) (code_header _ _) (by decide)
    rw [hx]
    exact hm.imp ReqDone.more (Tight.more · (by omega))
  | certificate h0' =>
    obtain ⟨x, hx⟩ := add_keeps (l := l) (m := Wire.header .getCertificate ++ Wire.getCertificate ⟨0, 0, UInt16.ofNat c.maxCertChainSize⟩) (k := 0x82) (code_header _ _) (by decide)
    rw [hx]
    exact hm.imp ReqDone.more (Tight.more · (by omega))
  | @challenge s _ =>
    obtain ⟨x, hx⟩ := add_keeps (l := l) (m := Wire.header .challenge ++ Wire.challenge ⟨s.certSlot, .none, env.nonce⟩) (k := 0x83) (code_header _ _) (by decide)
    rw [hx]
    exact hm.imp ReqDone.more (Tight.more · (by omega))

theorem recv_shape {c : Cfg} {cr : Crypto} {root : Bytes} {msgs : List Bytes} {l : Log} {st st' : ReqState} {rsp tr' : Bytes} (hm : ReqShape c msgs l st)
    (hs : ReqRecv c cr root st l.text rsp tr' st') : ReqShape c (msgs ++ [rsp]) (l.add rsp) st' := by
  cases hs with
  | @version _ _ v e h3 hh hp hv he =>
    have hc : code rsp = some 0x04 := code_of_take hh
    rw [add_plain hc (by decide)]
    obtain ⟨bs, tail, hb, hwf, hbs⟩ := parse_split Version.inverts' hh hp
    refine ⟨l.text, rsp, [], by simp, ⟨hm, v, tail, hwf, ?_⟩, .inl ⟨rfl, rfl⟩⟩
    rw [hb, hbs]
  | @capabilities _ _ tail v ct cap m hr hm' =>
    have hc : code rsp = some 0x61 := by rw [hr, List.append_assoc]; exact code_header _ _
    have hadd : l.add rsp = { l with rspCaps := leVal (field rsp 8 4), text := l.text ++ rsp } := by simp only [Log.add, hc]
    rw [hadd]
    obtain ⟨P, V, G, ht, hpv, hg⟩ := hm
    rcases hg with ⟨hg, _⟩ | hg
    · simp at hg
    · refine .inl ⟨P, V, G, rsp, [], by simp [ht], hpv, hg, ⟨?_, rfl⟩, .inl ⟨rfl, rfl⟩⟩
      rw [hr]
      simp [header_length, Wire.capabilities, zeros, le_length]
      omega
  | @algorithms _ _ v caps m a h3 hh hp ha hl hv =>
    have hc : code rsp = some 0x63 := code_of_take hh
    obtain ⟨len, tail, hl⟩ := hl
    have hadd : l.add rsp = { l with asym := leVal (field rsp 12 4), hash := leVal (field rsp 16 4), text := l.text ++ rsp } := by
      simp only [Log.add, hc]
    have h36 : 36 ≤ rsp.length := by
      have := congrArg List.length hl
      simp [zeros, le_length] at this
      omega
    rw [hadd]
    have hd : ReqDone c (msgs ++ [rsp]) { l with asym := leVal (field rsp 12 4), hash := leVal (field rsp 16 4), text := l.text ++ rsp } ∨
        Tight c { l with asym := leVal (field rsp 12 4), hash := leVal (field rsp 16 4), text := l.text ++ rsp } 12 := by
      rcases hm with ⟨P, V, G, C, N, ht, hpv, hg, hcc, hn⟩ | hm
      · rcases hn with ⟨hn, _⟩ | ⟨o, na, g1, g2, g3, g4⟩
        · simp at hn
        · exact .inl ⟨P, V, G, C, N, rsp, [], by simp [ht], hpv, hg, hcc, ⟨o, na, g1, g2, by simp [g3], g4⟩, hh, by omega, rfl, rfl⟩
      · right
        unfold Tight at hm ⊢
        simp only [List.length_append]
        omega
    split
    · exact hd
    · trivial
  | @digests _ _ v caps a d size h3 hh hsz hp =>
    rw [add_plain (code_of_take hh) (by decide)]
    obtain ⟨bs, tail, hb, cs, hbs⟩ := parse_split (Digests.inverts c size) hh hp
    exact hm.imp ReqDone.more (Tight.more · (by rw [hb, hbs]; simp [header_length, zeros]; omega))
  | @certificate _ _ tail v caps a d m hr hm' =>
    rw [add_plain (k := 0x02) (by rw [hr, List.append_assoc]; exact code_header _ _) (by decide)]
    split
    · exact hm.imp ReqDone.more (Tight.more · (by rw [hr]; simp [header_length, zeros, Wire.certificate, le_length]; omega))
    · trivial
  | @challenge _ _ s m chain ds ss h3 hh hds hss hp hslot hmask hsz hring hhash hlen hch hver => trivial

/-- A `next_request` in the third state that fails and changes the state: the transcript has no room. -/
theorem algorithms_idle {c : Cfg} {env : Env} {v : VersionEntry} {caps : Caps} {o : Option NegotiateAlgorithms} {buf : Bytes} {r : Requester}
    (hs : r.state = some (.algorithms v caps o)) (hw : r.transcript.WF) (hx : (Requester.nextRequest c env buf r).1.isOk = false) :
    (Requester.nextRequest c env buf r).2.state = r.state ∨ r.transcript.buf.length < r.transcript.get.length + 48 := by
  rcases hn : Requester.nextRequest c env buf r with ⟨x, r'⟩
  rw [hn] at hx
  have e := hn
  simp only [Requester.nextRequest, hs, Requester.writeReq] at e
  rcases hm : Requester.configToNegotiateAlgorithms c with m | er | k
  · rw [M.run_bind_ok (a := m) (s' := r) (by rw [M.run_lift, hm])] at e
    rcases hp : Requester.writeTo .negotiateAlgorithms m.writeBody buf with out | er | k
    · rw [M.run_bind_ok (a := out) (s' := r) (by rw [M.run_lift, hp])] at e
      have hwf := offer_wf hm
      have hout := writeTo_inv (NegotiateAlgorithms.writes (m := m) (by rw [hwf.1]; rfl) (by rw [hwf.2.1]; decide)) hp
      have hlen : out.length = 48 := by
        rw [hout.1]
        simp [Wire.negotiateAlgorithms, hwf.1, hwf.2.1, header_length, zeros, le_length, Requester.offeredRequests, Wire.alg]
      rw [M.run_bind_ok (m := Requester.setState _) (a := ()) (s' := { r with state := some (.algorithms v caps (some m)) }) rfl] at e
      right
      by_contra hroom
      obtain ⟨t, h1, _⟩ := Requester.extend_run (r := { r with state := some (.algorithms v caps (some m)) }) (bs := out) hw (by rw [hlen]; simpa using hroom)
      rw [M.run_bind_ok h1] at e
      simp only [pure, M.pure, Prod.mk.injEq] at e
      rw [← e.1] at hx
      simp [Res.isOk] at hx
    · rw [M.run_bind_err (s' := r) (by rw [M.run_lift, hp])] at e
      simp only [Prod.mk.injEq] at e
      exact .inl (by rw [← e.2])
    · rw [M.run_bind_panic (s' := r) (by rw [M.run_lift, hp])] at e
      simp only [Prod.mk.injEq] at e
      exact .inl (by rw [← e.2])
  · rw [M.run_bind_err (s' := r) (by rw [M.run_lift, hm])] at e
    simp only [Prod.mk.injEq] at e
    exact .inl (by rw [← e.2])
  · rw [M.run_bind_panic (s' := r) (by rw [M.run_lift, hm])] at e
    simp only [Prod.mk.injEq] at e
    exact .inl (by rw [← e.2])

/-- Every history. -/
theorem reqRun_shape {c : Cfg} {cr : Crypto} {root : Bytes} {es : List ReqEvent} {r : Requester} (h : ReqRun c cr root es r)
    (hf : failed es = false) {st : ReqState} (hs : r.state = some st) : ReqShape c (reqMsgs es) (conversation (reqMsgs es)) st := by
  induction h generalizing st with
  | new =>
    simp only [Requester.new, Option.some.injEq] at hs
    subst hs
    exact .inl rfl
  | @next es r env buf run ih =>
    have hf0 : failed es = false := by simp [failed] at hf ⊢; exact hf
    obtain ⟨st0, hl0⟩ : ∃ st0, ReqLive c root es r st0 := by
      rcases reqRun_inv run with ⟨_, h⟩ | ⟨h, _⟩
      · exact h
      · rw [hf0] at h; simp at h
    have h0 := ih hf0 hl0.state
    by_cases hok : (Requester.nextRequest c env buf r).1.isOk = true
    · rcases hp : (Requester.nextRequest c env buf r).1 with out | e | k
      · obtain ⟨_, st2, st1, hl2, _, hsend, _, _, hl1⟩ := req_next run hp
        rw [hl1.state] at hs
        cases hs
        have := hl2.state
        rw [hl0.state] at this
        cases this
        rw [reqMsgs_snoc, show ((ReqEvent.next env buf (.ok out)).msg).toList = [out] from rfl, conversation_snoc]
        exact send_shape h0 hsend
      · rw [hp] at hok; simp [Res.isOk] at hok
      · rw [hp] at hok; simp [Res.isOk] at hok
    · have hok' : (Requester.nextRequest c env buf r).1.isOk = false := by simpa using hok
      have hmsg : reqMsgs (es ++ [.next env buf (Requester.nextRequest c env buf r).1]) = reqMsgs es := by
        rw [reqMsgs_snoc]
        rcases hp : (Requester.nextRequest c env buf r).1 with a | e | k
        · rw [hp] at hok; simp [Res.isOk] at hok
        · simp [ReqEvent.msg]
        · simp [ReqEvent.msg]
      rw [hmsg]
      obtain ⟨_, ⟨out, st', hx, _⟩ | ⟨_, st', hs', hidle, _⟩⟩ := next_refines hl0.state hl0.wf (r' := (Requester.nextRequest c env buf r).2) (x := (Requester.nextRequest c env buf r).1) rfl
      · rw [hx] at hok; simp [Res.isOk] at hok
      · rw [hs] at hs'
        cases hs'
        cases hidle with
        | same => exact h0
        | @algorithms v caps o m hm =>
          rcases algorithms_idle hl0.state hl0.wf hok' with hsame | hfull
          · rw [hs, hl0.state] at hsame
            simp only [Option.some.injEq, ReqState.algorithms.injEq, true_and] at hsame
            rw [hsame]
            exact h0
          · right
            unfold Tight
            rw [← hl0.cap, ← hl0.text]
            exact hfull
        | challenge => exact h0
  | @recv es r rsp run ih =>
    rcases hp : (Requester.handleMsg c cr rsp r).1 with b | e | k
    · obtain ⟨hf0, st0, st1, hl0, _, hrecv, hl1⟩ := req_recv run hp
      have h0 := ih hf0 hl0.state
      rw [hl1.state] at hs
      cases hs
      rw [reqMsgs_snoc, show ((ReqEvent.recv rsp (.ok b)).msg).toList = [rsp] from rfl, conversation_snoc]
      exact recv_shape h0 hrecv
    · rw [hp] at hf; simp [failed] at hf
    · rw [hp] at hf; simp [failed] at hf

/-! ### The responder -/

/-- No neighbours 0x11, 0xE3: the first two bytes of NEGOTIATE_ALGORITHMS. -/
def Apart (a b : UInt8) : Prop := ¬ (a = 0x11 ∧ b = 0xE3)

/-- The transcript after the negotiation. -/
def RspDone (l : Log) : Prop :=
  ∃ P G C N A R, l.text = P ++ (([0x10, 0x04, 0, 0, 0, 2, 0, 0x10, 0, 0x11] : Bytes) ++ (G ++ (C ++ (N ++ (A ++ R))))) ∧ P = Wire.header .getVersion ++ Wire.getVersion ∧
    G.length = 12 ∧ l.reqCaps = leVal (field G 8 4) ∧ C.length = 12 ∧ l.rspCaps = leVal (field C 8 4) ∧ N.length = 32 + 4 * leVal (field N 2 1) ∧ leVal (field N 2 1) ≤ 4 ∧
    (N.drop 1 ++ [0x11]).IsChain Apart ∧ ChosenFirst l A

/-- The transcript in every state. -/
def RspShape (l : Log) : RspState → Prop
  | .capabilities => ∃ P, l.text = P ++ ([0x10, 0x04, 0, 0, 0, 2, 0, 0x10, 0, 0x11] : Bytes) ∧ P = Wire.header .getVersion ++ Wire.getVersion
  | .algorithms _ => ∃ P G C, l.text = P ++ (([0x10, 0x04, 0, 0, 0, 2, 0, 0x10, 0, 0x11] : Bytes) ++ (G ++ C)) ∧ P = Wire.header .getVersion ++ Wire.getVersion ∧
      G.length = 12 ∧ l.reqCaps = leVal (field G 8 4) ∧ C.length = 12 ∧ l.rspCaps = leVal (field C 8 4)
  | .idAuth _ => RspDone l
  | .challenge _ => RspDone l
  | _ => True

theorem RspDone.more {l : Log} {x : Bytes} (h : RspDone l) : RspDone { l with text := l.text ++ x } := by
  obtain ⟨P, G, C, N, A, R, ht, h⟩ := h
  exact ⟨P, G, C, N, A, R ++ x, by simp [ht], h⟩

theorem structures_length {as : List AlgorithmRequest} {bs : Bytes} (h : AlgStructures as bs) : 4 * as.length ≤ bs.length := by
  induction as generalizing bs with
  | nil => simp
  | cons a as ih =>
    obtain ⟨b1, b2, rfl, ⟨count, ext, rfl, _⟩, h2⟩ := h
    have := ih h2
    simp [le_length]
    omega

theorem le_two_bytes (n : Nat) : Spec.le 2 n = [UInt8.ofNat n, UInt8.ofNat (n / 256)] := by simp [Spec.le, List.range_succ]

theorem le_four_bytes (n : Nat) : Spec.le 4 n = [UInt8.ofNat n, UInt8.ofNat (n / 256), UInt8.ofNat (n / 65536), UInt8.ofNat (n / 16777216)] := by simp [Spec.le, List.range_succ]

theorem ofNat_ne {n : Nat} {b : UInt8} (h : n < b.toNat) : UInt8.ofNat n ≠ b := by
  intro e
  have := congrArg UInt8.toNat e
  have hb := b.toNat_lt
  simp at this
  omega

theorem structures_apart {as : List AlgorithmRequest} {bs : Bytes} (h : AlgStructures as bs) (hb : ∀ a ∈ as, a.supported.toNat < 2 ^ algBits a.kind)
    (hl : bs.length = 4 * as.length) (p : UInt8) : (p :: (bs ++ [0x11])).IsChain Apart := by
  induction as generalizing bs p with
  | nil =>
    simp only [AlgStructures] at h
    subst h
    simp [Apart]
  | cons a as ih =>
    obtain ⟨b1, b2, rfl, ⟨count, ext, rfl, hcount, hext⟩, h2⟩ := h
    have h3 := structures_length h2
    simp [le_length] at hl
    have he : ext = [] := List.length_eq_zero_iff.mp (by omega)
    subst he
    have hbit := hb a (by simp)
    have hi : a.supported.toNat / 256 < 0xE3 := by
      have : a.supported.toNat < 2 ^ 9 := Nat.lt_of_lt_of_le hbit (Nat.pow_le_pow_right (by decide) (by cases a.kind <;> decide))
      omega
    have ih' := ih h2 (fun a ha => hb a (by simp [ha])) (by simp at hl; omega) (UInt8.ofNat (a.supported.toNat / 256))
    rw [le_two_bytes]
    simp only [List.append_nil, List.cons_append, List.nil_append]
    have hc : count ≠ 0x11 := by rintro rfl; simp at hcount
    refine .cons_cons ?_ (.cons_cons ?_ (.cons_cons ?_ (.cons_cons ?_ ih')))
    · rintro ⟨_, h⟩; revert h; cases a.kind <;> decide
    · rintro ⟨h, _⟩; revert h; cases a.kind <;> decide
    · rintro ⟨h, _⟩; exact hc h
    · rintro ⟨_, h⟩; exact ofNat_ne (by simpa using hi) h

/-- A NEGOTIATE_ALGORITHMS of exact length. -/
theorem negotiate_apart (c : Cfg) {req : Bytes} {m : NegotiateAlgorithms} (hreq : req.take 2 = Wire.header .negotiateAlgorithms)
    (hp : NegotiateAlgorithms.parseBody (req.drop 2) = .ok m) (hl : req.length = 32 + 4 * leVal (field req 2 1)) :
    leVal (field req 2 1) ≤ 4 ∧ (req.drop 1 ++ [0x11]).IsChain Apart := by
  obtain ⟨bs, tail, hb, hwf, len, ea, eh, xa, xh, algs, h1, h2, h3, h4, h5⟩ := parse_split (NegotiateAlgorithms.inverts' c ⟨1, 1, false⟩) hreq hp
  have hn : field req 2 1 = [m.numAlgorithmRequests] := by
    rw [hb, h5]; rfl
  have hn' : leVal (field req 2 1) = m.numAlgorithmRequests.toNat := by rw [hn]; simp [leVal]
  refine ⟨by rw [hn']; exact hwf.num, ?_⟩
  have h6 := structures_length h4
  have hlen : (m.algorithmRequests.take m.numAlgorithmRequests.toNat).length = m.numAlgorithmRequests.toNat := by
    rw [List.length_take, hwf.len]; have := hwf.num; omega
  rw [hn'] at hl
  have hz : ea.toNat = 0 ∧ eh.toNat = 0 ∧ tail = [] ∧ algs.length = 4 * m.numAlgorithmRequests.toNat := by
    rw [hb, h5] at hl
    simp [header_length, zeros, le_length] at hl
    rw [hlen] at h6
    refine ⟨by omega, by omega, List.length_eq_zero_iff.mp (by omega), by omega⟩
  obtain ⟨z1, z2, rfl, z4⟩ := hz
  have e1 : ea = 0 := UInt8.toNat_inj.mp z1
  have e2 : eh = 0 := UInt8.toNat_inj.mp z2
  subst e1 e2
  have e3 : xa = [] := List.length_eq_zero_iff.mp (by simpa using h2)
  have e4 : xh = [] := List.length_eq_zero_iff.mp (by simpa using h3)
  subst e3 e4
  have hs := structures_apart h4 (fun a ha => hwf.bits a (List.mem_of_mem_take ha)) (by rw [z4, hlen]) 0
  have n0 : m.numAlgorithmRequests ≠ 0xE3 := by intro h; have := hwf.num; rw [h] at this; simp at this
  have n1 : m.measurementSpec ≠ 0xE3 := by intro h; have := hwf.spec; rw [h] at this; simp at this
  have n2 : UInt8.ofNat len ≠ 0xE3 := ofNat_ne (by simp; omega)
  have n3 : UInt8.ofNat (len / 256) ≠ 0xE3 := ofNat_ne (by simp; omega)
  have ha := hwf.asym
  have hh := hwf.hash
  have n4 : UInt8.ofNat (m.baseAsymAlgo.toNat / 256) ≠ 0xE3 := ofNat_ne (by simp; omega)
  have n5 : UInt8.ofNat (m.baseAsymAlgo.toNat / 65536) ≠ 0xE3 := ofNat_ne (by simp; omega)
  have n6 : UInt8.ofNat (m.baseAsymAlgo.toNat / 16777216) ≠ 0xE3 := ofNat_ne (by simp; omega)
  have n7 : UInt8.ofNat (m.baseHashAlgo.toNat) ≠ 0xE3 := ofNat_ne (by simp; omega)
  have n8 : UInt8.ofNat (m.baseHashAlgo.toNat / 256) ≠ 0xE3 := ofNat_ne (by simp; omega)
  have n9 : UInt8.ofNat (m.baseHashAlgo.toNat / 65536) ≠ 0xE3 := ofNat_ne (by simp; omega)
  have n10 : UInt8.ofNat (m.baseHashAlgo.toNat / 16777216) ≠ 0xE3 := ofNat_ne (by simp; omega)
  rw [hb, h5, le_two_bytes, le_four_bytes, le_four_bytes]
  simp only [Wire.header, zeros, List.replicate, List.append_nil, List.cons_append, List.nil_append, List.drop_succ_cons, List.drop_zero]
  simp only [List.isChain_cons_cons] at hs ⊢
  simp only [Apart, n0, n1, n2, n3, n4, n5, n6, n7, n8, n9, n10, and_false, not_false_eq_true, true_and, show ¬ ((0 : UInt8) = 0x11) by decide, show ¬ ((0xE3 : UInt8) = 0x11) by decide,
    show ¬ ((0 : UInt8) = 0xE3) by decide, false_and]
  exact hs

theorem step_shape {c : Cfg} {cr : Crypto} {env : Env} {slots : List (Option FilledSlot)} {l : Log} {st st' : RspState}
    {req out tr' : Bytes} {sg : List (Nat × Bytes)} (hm : RspShape l st) (hs : Step c cr env slots st l.text req out tr' sg st') (he : ExactRequest req) :
    RspShape ((l.add req).add out) st' := by
  cases hs with
  | @getVersion _ _ _ tail live hreq =>
    have hc : code req = some 0x84 := by rw [hreq, List.append_assoc]; exact code_header _ _
    have hadd : l.add req = { Log.empty with text := req } := by simp only [Log.add, hc]
    have hc2 : code (Wire.header .version ++ Wire.version ⟨2, supportedVersions⟩) = some 0x04 := code_header _ _
    rw [hadd, add_plain hc2 (by decide)]
    have ht : tail = [] := by
      have := he.1 hc
      rw [hreq] at this
      simp [header_length, Wire.getVersion, zeros] at this
      exact List.length_eq_zero_iff.mp (by omega)
    subst ht
    exact ⟨req, congrArg (req ++ ·) (show Wire.header .version ++ Wire.version ⟨2, supportedVersions⟩ = [0x10, 0x04, 0, 0, 0, 2, 0, 0x10, 0, 0x11] by decide), by rw [hreq]; simp⟩
  | @getCapabilities _ _ tail m r hreq hm' hr =>
    have hc : code req = some 0xE1 := by rw [hreq, List.append_assoc]; exact code_header _ _
    have hadd : l.add req = { l with reqCaps := leVal (field req 8 4), text := l.text ++ req } := by simp only [Log.add, hc]
    have hc2 : code (Wire.header .capabilities ++ Wire.capabilities r) = some 0x61 := code_header _ _
    rw [hadd]
    have hl2 : (Wire.header .capabilities ++ Wire.capabilities r).length = 12 := by simp [header_length, Wire.capabilities, zeros, le_length]
    generalize Wire.header .capabilities ++ Wire.capabilities r = o at *
    have hadd2 : ∀ l : Log, l.add o = { l with rspCaps := leVal (field o 8 4), text := l.text ++ o } := by
      intro l; simp only [Log.add, hc2]
    rw [hadd2]
    obtain ⟨P, ht, hP⟩ := hm
    exact ⟨P, req, o, by simp [ht], hP, he.2.1 hc, rfl, hl2, rfl⟩
  | @negotiate caps _ _ m a hreq hp hm' ha =>
    have hc : code req = some 0xE3 := code_of_take hreq
    have hc2 : code (Wire.header .algorithms ++ Wire.algorithms a) = some 0x63 := code_header _ _
    rw [add_plain hc (by decide)]
    have hl2 : 20 ≤ (Wire.header .algorithms ++ Wire.algorithms a).length := by simp [header_length, Wire.algorithms, zeros, le_length]; omega
    have ht2 : (Wire.header .algorithms ++ Wire.algorithms a).take 2 = Wire.header .algorithms := List.take_left' (header_length _)
    generalize Wire.header .algorithms ++ Wire.algorithms a = o at *
    have hadd2 : ∀ l : Log, l.add o = { l with asym := leVal (field o 12 4), hash := leVal (field o 16 4), text := l.text ++ o } := by
      intro l; simp only [Log.add, hc2]
    rw [hadd2]
    obtain ⟨P, G, C, ht, hP, hg, hq, hcc, hr⟩ := hm
    have hx := negotiate_apart c hreq hp (he.2.2 hc)
    exact ⟨P, G, C, req, o, [], by simp [ht], hP, hg, hq, hcc, hr, he.2.2 hc, hx.1, hx.2, ht2, hl2, rfl, rfl⟩
  | @getDigests n _ _ d h3 hreq hd =>
    obtain ⟨x, hx⟩ := add_keeps (l := l) (m := req) (k := 0x81) (code_of_take hreq) (by decide)
    rw [hx]
    obtain ⟨y, hy⟩ := add_keeps (l := { l with text := l.text ++ x }) (m := Wire.header .digests ++ Wire.digests d) (k := 0x01) (code_header _ _) (by decide)
    rw [hy]
    exact (RspDone.more hm).more
  | @getCertificate n _ _ tail chain m hreq hs hcc =>
    obtain ⟨x, hx⟩ := add_keeps (l := l) (m := req) (k := 0x82) (by rw [hreq, List.append_assoc]; exact code_header _ _) (by decide)
    rw [hx]
    obtain ⟨y, hy⟩ := add_keeps (l := { l with text := l.text ++ x }) (m := Wire.header .certificate ++ Wire.certificate ⟨m.slot, UInt16.ofNat chain.length, 0, chain⟩) (k := 0x02) (code_header _ _) (by decide)
    rw [hy]
    exact (RspDone.more hm).more
  | @challenge n _ _ tail sig auth m slot mask ds ss hreq hn hds hss hs hlt hch hmask ring hauth hsig hsl =>
    obtain ⟨x, hx⟩ := add_keeps (l := l) (m := req) (k := 0x83) (by rw [hreq, List.append_assoc]; exact code_header _ _) (by decide)
    rw [hx]
    obtain ⟨y, hy⟩ := add_keeps (l := { l with text := l.text ++ x }) (m := auth ++ sig) (k := 0x03) (by rw [hauth, authMsg, List.append_assoc]; exact code_header _ _) (by decide)
    rw [hy]
    exact (RspDone.more hm).more

/-- Every history in which no request of the negotiation has bytes behind its end. -/
theorem rspRun_shape {c : Cfg} {cr : Crypto} {slots : List (Option FilledSlot)} (hl : slots.length = c.numSlots) (h8 : c.numSlots ≤ 8)
    {es : List RspEvent} {r : Responder} (h : RspRun c cr slots es r) (he : ∀ env req buf res, RspEvent.call env req buf res ∈ es → ExactRequest req)
    (ha : alive es = true) {st : RspState} (hs : r.state = some st) : RspShape (conversation (rspMsgs es)) st := by
  induction h generalizing st with
  | new =>
    simp only [Responder.new, Option.some.injEq] at hs
    subst hs
    trivial
  | @call es r env req buf run ih =>
    rcases rspRun_inv hl h8 run with ⟨ha0, st0, hlive⟩ | ⟨ha0, hk, hst⟩
    · have ho := call_outcome (cr := cr) (env := env) (req := req) (buf := buf) hl h8 hlive.toRspKept hlive.state
      have hx := he env req buf _ (List.mem_append_right _ (List.mem_singleton.mpr rfl))
      revert ho ha hs
      generalize (Responder.handleMsg c cr env req buf r).1 = x
      generalize (Responder.handleMsg c cr env req buf r).2 = r'
      intro ha hs ho
      cases ho with
      | ok hk hs' step hsg h3 hlen =>
        rw [hlive.text] at step
        rw [hs'] at hs
        cases hs
        rw [rspMsgs_ok, conversation_snoc2]
        exact step_shape (ih (fun env req buf res hm => he env req buf res (List.mem_append_left _ hm)) ha0 hlive.state) step hx
      | err hk hs' he' => rw [alive_snoc] at ha; simp [addAlive] at ha
      | panic hk hs' he' => rw [alive_snoc] at ha; simp [addAlive] at ha
    · obtain ⟨k, hp⟩ := dead_call (c := c) (cr := cr) (env := env) (req := req) (buf := buf) hst
      rw [hp, alive_snoc] at ha
      simp [addAlive] at ha
  | @reset es r _ ih =>
    simp only [Responder.reset, Option.some.injEq] at hs
    subst hs
    trivial

/-! ### Both -/

theorem take_field {A R A' R' : Bytes} {i n : Nat} (h : A ++ R = A' ++ R') (hl : i + n ≤ A.length) (hl' : i + n ≤ A'.length) : field A i n = field A' i n := by
  have e : ∀ {X Y : Bytes}, i + n ≤ X.length → field (X ++ Y) i n = field X i n := by
    intro X Y hx
    unfold field
    rw [List.drop_append_of_le_length (by omega), List.take_append_of_le_length (by simp; omega)]
  rw [← e (Y := R) hl, h, e hl']

theorem isChain_right {α : Type} {R : α → α → Prop} {xs ys : List α} (h : (xs ++ ys).IsChain R) : ys.IsChain R := by
  induction xs with
  | nil => exact h
  | cons x xs ih =>
    apply ih
    rw [List.cons_append] at h
    generalize xs ++ ys = l at h
    cases h with
    | singleton => exact .nil
    | cons_cons _ h => exact h

theorem chain_pair {N rest pre post : Bytes} (h : (N.drop 1 ++ [0x11]).IsChain Apart) (hN : 1 ≤ N.length) {A : Bytes} (hA : A.take 2 = Wire.header .algorithms)
    (e : N ++ (A ++ rest) = pre ++ ([0x11, 0xE3] ++ post)) (h1 : 1 ≤ pre.length) (h2 : pre.length < N.length) : False := by
  obtain ⟨A', rfl⟩ : ∃ A', A = [0x11, 0x63] ++ A' := ⟨A.drop 2, by rw [← List.take_append_drop 2 A, hA]; rfl⟩
  obtain ⟨n, N, rfl⟩ := List.exists_cons_of_length_pos hN
  obtain ⟨p, pre, rfl⟩ := List.exists_cons_of_length_pos h1
  simp only [List.cons_append, List.cons.injEq, List.drop_succ_cons, List.drop_zero, List.nil_append, List.length_cons, Nat.add_lt_add_iff_right] at e h h2
  obtain ⟨-, e⟩ := e
  obtain ⟨m, M, hM⟩ := List.exists_cons_of_length_pos (l := N.drop pre.length) (by simp; omega)
  have hsplit : N = pre ++ (m :: M) := by
    have : N.take pre.length = pre := by
      have := congrArg (List.take pre.length) e
      rwa [List.take_append_of_le_length (by omega), List.take_left] at this
    rw [← this, ← hM]
    simp
  rw [hsplit, List.append_assoc] at e
  have e2 := List.append_cancel_left e
  simp only [List.cons_append, List.cons.injEq] at e2
  obtain ⟨rfl, e2⟩ := e2
  rw [hsplit, List.append_assoc] at h
  have hc := isChain_right h
  cases M with
  | nil =>
    simp only [List.nil_append, List.cons.injEq] at e2
    exact absurd e2.1 (by decide)
  | cons m2 M =>
    simp only [List.cons_append, List.cons.injEq] at e2
    obtain ⟨rfl, _⟩ := e2
    simp only [List.cons_append, List.isChain_cons_cons] at hc
    exact hc.1 ⟨rfl, rfl⟩

/-- Two transcripts with the same beginning. -/
theorem parts_agree {c : Cfg} {msgs : List Bytes} {l l' : Log} {x y : Bytes} (h : ReqDone c msgs l) (h' : RspDone l') (e : l.text ++ x = l'.text ++ y)
    (honce : ∀ m ∈ msgs, code m = some 0xE3 → ¬ OccursFrom 70 m (l.text ++ x)) : Agree l l' := by
  obtain ⟨P, V, G, C, N, A, R, ht, ⟨hP, v, vt, hv, hV⟩, ⟨gm, gx, hgm, hG, hreq⟩, ⟨hC, hrsp⟩, ⟨m, na, hm, hna, hmem, hN⟩, hA2, hA20, hasym, hhash⟩ := h
  obtain ⟨P', G', C', N', A', R', ht', hP', hG', hreq', hC', hrsp', hN', hn4, hchain, hA2', hA20', hasym', hhash'⟩ := h'
  have hcna : code na = some 0xE3 := by rw [hna]; exact code_header _ _
  have honce' := honce na hmem hcna
  have hwf := offer_wf hm
  have hnal : na.length = 48 := by
    rw [hna]
    simp [Wire.negotiateAlgorithms, hwf.1, hwf.2.1, header_length, zeros, le_length, Requester.offeredRequests, Wire.alg]
  rw [ht] at honce' e
  rw [ht'] at e
  -- GET_VERSION
  have hPP : P = P' := by
    rcases hP with rfl | rfl
    · exfalso
      rw [hV, hP'] at e
      have := congrArg (fun t : Bytes => t[1]?) e
      simp [Wire.header] at this
    · exact hP'.symm
  subst hPP
  have hP4 : P.length = 4 := by rw [hP']; rfl
  simp only [List.append_assoc] at e
  have e1 := List.append_cancel_left e
  -- VERSION
  have hv2 : v.numEntries = 2 := by
    have := congrArg (fun t : Bytes => t[5]?) e1
    rw [hV] at this
    simpa [Wire.header, zeros] using this
  have hV10 : 10 ≤ V.length := by
    rw [hV, hv2]
    have := hv.len
    obtain ⟨e0, e1, hh⟩ : ∃ a b, v.entries = [a, b] := by
      match hq : v.entries, this with
      | [a, b], _ => exact ⟨a, b, rfl⟩
    rw [hh]
    simp [Wire.header, zeros, Wire.versionEntry]
  have hG12 : 12 ≤ G.length := by
    rw [hG]; simp [header_length, Wire.getCapabilities, zeros, le_length]; omega
  obtain ⟨N2, hN2⟩ : ∃ N2, N = na ++ N2 := by
    rcases hN with h | ⟨z, h⟩
    · exact ⟨[], by rw [h]; simp⟩
    · exact ⟨na ++ z, by rw [h]; simp⟩
  -- where the offer stands
  have hlt : 4 + V.length + G.length + C.length < 70 := by
    by_contra hge
    refine honce' ⟨P ++ V ++ G ++ C, N2 ++ (A ++ R) ++ x, ?_, ?_⟩
    · rw [hN2]; simp
    · simp [hP4]; omega
  have hN32 : 32 ≤ N'.length := by omega
  by_cases hp : V.length + G.length + C.length = 34
  · obtain ⟨rfl, e2⟩ := List.append_inj e1 (by simp; omega)
    obtain ⟨rfl, e3⟩ := List.append_inj e2 (by omega)
    obtain ⟨rfl, e4⟩ := List.append_inj e3 (by omega)
    -- NEGOTIATE_ALGORITHMS
    have hna2 : field na 2 1 = [4] := by
      rw [hna]
      have := hwf.2.1
      simp [field, Wire.header, Wire.negotiateAlgorithms, this]
    have hnum : field N' 2 1 = field na 2 1 := by
      rw [hN2] at e4
      simp only [List.append_assoc] at e4
      exact take_field e4.symm (by omega) (by omega)
    have hN48 : N'.length = 48 := by rw [hN', hnum, hna2]; rfl
    have hNN : N = na := by
      rcases hN with h | ⟨z, h⟩
      · exact h
      · exfalso
        refine honce' ⟨P ++ ([16, 4, 0, 0, 0, 2, 0, 16, 0, 17] : Bytes) ++ G ++ C ++ na, z ++ (A ++ R) ++ x, ?_, ?_⟩
        · rw [h]; simp
        · simp [hP4, hnal]; omega
    rw [hNN] at e4
    obtain ⟨-, e5⟩ := List.append_inj e4 (by omega)
    refine ⟨hreq.trans hreq'.symm, hrsp.trans hrsp'.symm, ?_, ?_⟩
    · rw [hhash, hhash', take_field e5 (by omega) (by omega)]
    · rw [hasym, hasym', take_field e5 (by omega) (by omega)]
  · exfalso
    -- the offer would stand inside the one the responder heard, or behind
    obtain ⟨nt, hnt⟩ : ∃ nt, na = [0x11, 0xE3] ++ nt := ⟨na.drop 2, by rw [hna]; rfl⟩
    have hgap : 34 < V.length + G.length + C.length := by omega
    generalize hW : V ++ (G ++ C) = W at *
    have hWl : W.length = V.length + G.length + C.length := by rw [← hW]; simp; omega
    generalize hW' : ([16, 4, 0, 0, 0, 2, 0, 16, 0, 17] : Bytes) ++ (G' ++ C') = W' at *
    have hWl' : W'.length = 34 := by rw [← hW']; simp; omega
    have e6 : W ++ (N ++ (A ++ (R ++ x))) = W' ++ (N' ++ (A' ++ (R' ++ y))) := by
      rw [← hW, ← hW']; simpa using e1
    obtain ⟨W2, rfl⟩ : ∃ W2, W = W' ++ W2 := by
      refine ⟨W.drop 34, ?_⟩
      have := congrArg (List.take 34) e6
      rw [List.take_append_of_le_length (by omega), List.take_left' hWl'] at this
      rw [← this, List.take_append_drop]
    rw [List.append_assoc] at e6
    have e7 := List.append_cancel_left e6
    rw [hN2, hnt] at e7
    refine chain_pair hchain (by omega) hA2' (rest := R' ++ y) (pre := W2) (post := nt ++ (N2 ++ (A ++ (R ++ x)))) ?_ ?_ ?_
    · rw [← e7]; simp
    · simp at hWl; omega
    · simp at hWl; omega

end Spdm

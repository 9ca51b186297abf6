import Verif.Lemmas.Session
/-! The invariant of requester histories. -/
namespace Spdm
open Spec

/-- `m` is a VERSION response whose greatest common version is `e`. -/
def VersionOf (m : Bytes) (e : VersionEntry) : Prop :=
  m.take 2 = Wire.header .version ∧ ∃ v, Version.parseBody (m.drop 2) = .ok v ∧ VersionWF v ∧ HighestCommon v e

/-- `m` is an ALGORITHMS response selecting `a` from the offer of the configuration. -/
def AlgOf (c : Cfg) (m : Bytes) (a : Algorithms) : Prop :=
  m.take 2 = Wire.header .algorithms ∧ Algorithms.parseBody (m.drop 2) = .ok a ∧ AlgorithmsWF a ∧
    ∃ o, Requester.configToNegotiateAlgorithms c = .ok o ∧ Requester.ensureValidAlgorithmsSelected (some o) a = .ok ()

/-- The capability and algorithm words of the state are those of the conversation. -/
structure Words (l : Log) (caps : Caps) (a : Algorithms) : Prop where
  req : l.reqCaps = caps.requesterCap.toNat
  rsp : l.rspCaps = caps.responderCap.toNat
  hash : l.hash = a.baseHashAlgoSelected.toNat
  asym : l.asym = a.baseAsymAlgoSelected.toNat

/-- State of a requester that accepted the responses `acc` in the conversation `l`. -/
inductive StMatch (c : Cfg) : List Bytes → Log → ReqState → Prop
  | version {l : Log} (h : l.text = [] ∨ 4 ≤ c.transcriptSize) : StMatch c [] l .version
  | capabilities {l : Log} {m0 : Bytes} {e : VersionEntry} {ct : Option UInt8} {cap : Option UInt32} (h0 : VersionOf m0 e)
      (hc : ∀ f, cap = some f → l.reqCaps = f.toNat) : StMatch c [m0] l (.capabilities e ct cap)
  | algorithms {l : Log} {m0 m1 : Bytes} {e : VersionEntry} {caps : Caps} {o : Option NegotiateAlgorithms} (h0 : VersionOf m0 e)
      (h1 : code m1 = some 0x61) (hq : l.reqCaps = caps.requesterCap.toNat) (hp : l.rspCaps = caps.responderCap.toNat)
      (ho : ∀ m, o = some m → Requester.configToNegotiateAlgorithms c = .ok m) : StMatch c [m0, m1] l (.algorithms e caps o)
  | digests {l : Log} {m0 m1 m2 : Bytes} {e : VersionEntry} {caps : Caps} {a : Algorithms} (h0 : VersionOf m0 e)
      (h1 : code m1 = some 0x61) (h2 : AlgOf c m2 a) (hw : Words l caps a) (hb : l.both 1 = true) : StMatch c [m0, m1, m2] l (.idAuth e caps a none)
  | certificate {l : Log} {m0 m1 m2 m3 : Bytes} {e : VersionEntry} {caps : Caps} {a : Algorithms} {d : Digests} (h0 : VersionOf m0 e)
      (h1 : code m1 = some 0x61) (h2 : AlgOf c m2 a) (hw : Words l caps a) (hb : l.both 1 = true) (h3 : code m3 = some 0x01) :
      StMatch c [m0, m1, m2, m3] l (.idAuth e caps a (some d))
  | challenge {l : Log} {m0 m1 m2 m3 m4 tail : Bytes} {s : ReqChallenge} {cert : Certificate} (h0 : VersionOf m0 s.version)
      (h1 : code m1 = some 0x61) (h2 : AlgOf c m2 s.algorithms) (hw : Words l s.caps s.algorithms) (hb : l.both 1 = true) (hb2 : l.both 2 = true)
      (h3 : code m3 = some 0x01) (h4 : m4 = Wire.header .certificate ++ Wire.certificate cert ++ tail) (hcw : CertificateWF c cert)
      (hs : s.certSlot = cert.slot) (hc : s.certChain = cert.certChain) (hz : s.certChainSize = cert.portionLength) :
      StMatch c [m0, m1, m2, m3, m4] l (.challenge s)
  | done {l : Log} {acc : List Bytes} (h : acc.map code = (path l).map some) (h0 : ∃ m e, acc[0]? = some m ∧ VersionOf m e)
      (h2 : ∃ m a, acc[2]? = some m ∧ AlgOf c m a) : StMatch c acc l .newSession

/-- The invariant. -/
structure ReqLive (c : Cfg) (root : Bytes) (es : List ReqEvent) (r : Requester) (st : ReqState) : Prop where
  state : r.state = some st
  wf : r.transcript.WF
  cap : r.transcript.buf.length = c.transcriptSize
  root : r.rootCert = root
  text : r.transcript.get = (conversation (reqMsgs es)).text
  mat : StMatch c (accepted es) (conversation (reqMsgs es)) st

theorem reqMsgs_snoc (es : List ReqEvent) (e : ReqEvent) : reqMsgs (es ++ [e]) = reqMsgs es ++ (e.msg).toList := by
  simp only [reqMsgs, List.filterMap_append, List.filterMap_cons, List.filterMap_nil]
  cases e.msg <;> rfl

theorem VersionOf.code {m : Bytes} {e : VersionEntry} (h : VersionOf m e) : Spec.code m = some 0x04 := code_of_take h.1
theorem AlgOf.code {c : Cfg} {m : Bytes} {a : Algorithms} (h : AlgOf c m a) : Spec.code m = some 0x63 := code_of_take h.1

/-- Sending. -/
theorem send_match {c : Cfg} {env : Env} {acc : List Bytes} {l : Log} {st st' : ReqState} {out tr' : Bytes} (hm : StMatch c acc l st)
    (hs : ReqSend c env st l.text out tr' st') (hcap : tr'.length ≤ c.transcriptSize) :
    tr' = (l.add out).text ∧ StMatch c acc (l.add out) st' ∧ requestCodes[acc.length]? = code out ∧ acc.length < (path l).length := by
  cases hs with
  | version =>
    have hc : code (Wire.header .getVersion ++ Wire.getVersion) = some 0x84 := code_header _ _
    have hadd : l.add (Wire.header .getVersion ++ Wire.getVersion) = { Log.empty with text := Wire.header .getVersion ++ Wire.getVersion } := by
      simp only [Log.add, hc]
    cases hm with
    | version h =>
      rw [hadd]
      refine ⟨rfl, .version (.inr ?_), by rw [hc]; rfl, by simp [path]⟩
      simpa [header_length, Wire.getVersion, zeros] using hcap
  | @capabilities e ct cap _ m hm' =>
    have hc : code (Wire.header .getCapabilities ++ Wire.getCapabilities m) = some 0xE1 := code_header _ _
    have hw := getCapabilities_word (m := m) []
    rw [List.append_nil] at hw
    have hadd : l.add (Wire.header .getCapabilities ++ Wire.getCapabilities m) = { l with reqCaps := m.flags.toNat, text := l.text ++ (Wire.header .getCapabilities ++ Wire.getCapabilities m) } := by
      simp only [Log.add, hc, hw]
    cases hm with
    | capabilities h0 hcc =>
      rw [hadd]
      refine ⟨rfl, .capabilities h0 ?_, by rw [hc]; rfl, by simp [path]⟩
      intro f hf
      simp only [Option.some.injEq] at hf
      rw [hf]
  | @algorithms e caps o _ m hm' =>
    have hc : code (Wire.header .negotiateAlgorithms ++ Wire.negotiateAlgorithms m) = some 0xE3 := code_header _ _
    have hadd : l.add (Wire.header .negotiateAlgorithms ++ Wire.negotiateAlgorithms m) = { l with text := l.text ++ (Wire.header .negotiateAlgorithms ++ Wire.negotiateAlgorithms m) } := add_plain hc (by decide)
    cases hm with
    | algorithms h0 h1 hq hp ho =>
      rw [hadd]
      refine ⟨rfl, .algorithms h0 h1 hq hp ?_, by rw [hc]; rfl, by simp [path]⟩
      intro m2 h2
      simp only [Option.some.injEq] at h2
      rw [← h2]; exact hm'
  | digests =>
    have hc : code (Wire.header .getDigests ++ Wire.getDigests) = some 0x81 := code_header _ _
    have hadd : l.add (Wire.header .getDigests ++ Wire.getDigests) = { l with text := l.text ++ (Wire.header .getDigests ++ Wire.getDigests) } := add_plain hc (by decide)
    cases hm with
    | digests h0 h1 h2 hw hb =>
      rw [hadd]
      exact ⟨rfl, .digests h0 h1 h2 ⟨hw.req, hw.rsp, hw.hash, hw.asym⟩ hb, by rw [hc]; rfl, by simp [path, hb]⟩
  | certificate h0' =>
    have hc : code (Wire.header .getCertificate ++ Wire.getCertificate ⟨0, 0, UInt16.ofNat c.maxCertChainSize⟩) = some 0x82 := code_header _ _
    have hadd : l.add (Wire.header .getCertificate ++ Wire.getCertificate ⟨0, 0, UInt16.ofNat c.maxCertChainSize⟩) =
        { l with text := l.text ++ (Wire.header .getCertificate ++ Wire.getCertificate ⟨0, 0, UInt16.ofNat c.maxCertChainSize⟩) } := add_plain hc (by decide)
    cases hm with
    | certificate h0 h1 h2 hw hb h3 =>
      rw [hadd]
      exact ⟨rfl, .certificate h0 h1 h2 ⟨hw.req, hw.rsp, hw.hash, hw.asym⟩ hb h3, by rw [hc]; rfl, by simp [path, hb]⟩
  | @challenge s _ =>
    have hc : code (Wire.header .challenge ++ Wire.challenge ⟨s.certSlot, .none, env.nonce⟩) = some 0x83 := code_header _ _
    have hadd : l.add (Wire.header .challenge ++ Wire.challenge ⟨s.certSlot, .none, env.nonce⟩) =
        { l with text := l.text ++ (Wire.header .challenge ++ Wire.challenge ⟨s.certSlot, .none, env.nonce⟩) } := add_plain hc (by decide)
    cases hm with
    | challenge h0 h1 h2 hw hb hb2 h3 h4 hcw hs hcc hz =>
      rw [hadd]
      exact ⟨rfl, .challenge (s := { s with nonce := some env.nonce }) h0 h1 h2 ⟨hw.req, hw.rsp, hw.hash, hw.asym⟩ hb hb2 h3 h4 hcw hs hcc hz, by rw [hc]; rfl, by simp [path, hb, hb2]⟩

/-- Failing to send. -/
theorem idle_match {c : Cfg} {env : Env} {acc : List Bytes} {l : Log} {st st' : ReqState} (hm : StMatch c acc l st) (hs : Idle c env st st') :
    StMatch c acc l st' := by
  cases hs with
  | same => exact hm
  | algorithms hm' =>
    cases hm with
    | algorithms h0 h1 hq hp ho =>
      refine .algorithms h0 h1 hq hp ?_
      intro m2 h2
      simp only [Option.some.injEq] at h2
      rw [← h2]; exact hm'
  | challenge =>
    cases hm with
    | challenge h0 h1 h2 hw hb hb2 h3 h4 hcw hs hcc hz => exact .challenge h0 h1 h2 ⟨hw.req, hw.rsp, hw.hash, hw.asym⟩ hb hb2 h3 h4 hcw hs hcc hz

/-- Receiving. -/
theorem recv_match {c : Cfg} {cr : Crypto} {root : Bytes} {acc : List Bytes} {l : Log} {st st' : ReqState} {rsp tr' : Bytes} (hm : StMatch c acc l st)
    (hs : ReqRecv c cr root st l.text rsp tr' st') :
    tr' = (l.add rsp).text ∧ StMatch c (acc ++ [rsp]) (l.add rsp) st' := by
  cases hs with
  | @version _ _ v e h3 hh hp hv he =>
    have hc : code rsp = some 0x04 := code_of_take hh
    have hadd : l.add rsp = { l with text := l.text ++ rsp } := add_plain hc (by decide)
    cases hm with
    | version h =>
      rw [hadd]
      exact ⟨rfl, .capabilities ⟨hh, v, hp, hv, he⟩ (by intro f hf; simp at hf)⟩
  | @capabilities _ _ tail v ct cap m hr hm' =>
    have hc : code rsp = some 0x61 := by rw [hr, List.append_assoc]; exact code_header _ _
    have hadd : l.add rsp = { l with rspCaps := m.flags.toNat, text := l.text ++ rsp } := by
      simp only [Log.add, hc]
      rw [hr, capabilities_word]
    cases hm with
    | capabilities h0 hcc =>
      rw [hadd]
      exact ⟨rfl, .algorithms h0 hc (hcc _ rfl) rfl (by intro m hm; simp at hm)⟩
  | @algorithms _ _ v caps m a h3 hh hp ha hl hv =>
    have hc : code rsp = some 0x63 := code_of_take hh
    obtain ⟨len, tail, hl⟩ := hl
    obtain ⟨w1, w2⟩ := algorithms_words' hh hl
    have hadd : l.add rsp = { l with asym := a.baseAsymAlgoSelected.toNat, hash := a.baseHashAlgoSelected.toNat, text := l.text ++ rsp } := by
      simp only [Log.add, hc, w1, w2]
    cases hm with
    | algorithms h0 h1 hq hp' ho =>
      have halg : AlgOf c rsp a := ⟨hh, hp, ha, m, ho m rfl, hv⟩
      have hb : (l.add rsp).both 1 = Requester.bothHave caps ReqFlags.certCap RspFlags.certCap := by
        rw [bothHave_cert, hadd, Log.both, hq, hp']
      rw [← hb]
      refine ⟨by rw [hadd], ?_⟩
      split
      · rename_i h
        refine .digests h0 h1 halg ?_ h
        rw [hadd]
        exact ⟨hq, hp', rfl, rfl⟩
      · rename_i h
        refine .done ?_ ⟨_, _, rfl, h0⟩ ⟨_, _, rfl, halg⟩
        simp only [path, h]
        simp [h0.code, h1, hc]
  | @digests _ _ v caps a d size h3 hh hsz hp =>
    have hc : code rsp = some 0x01 := code_of_take hh
    have hadd : l.add rsp = { l with text := l.text ++ rsp } := add_plain hc (by decide)
    cases hm with
    | digests h0 h1 h2 hw hb =>
      rw [hadd]
      exact ⟨rfl, .certificate h0 h1 h2 ⟨hw.req, hw.rsp, hw.hash, hw.asym⟩ hb hc⟩
  | @certificate _ _ tail v caps a d m hr hm' =>
    have hc : code rsp = some 0x02 := by rw [hr, List.append_assoc]; exact code_header _ _
    have hadd : l.add rsp = { l with text := l.text ++ rsp } := add_plain hc (by decide)
    cases hm with
    | certificate h0 h1 h2 hw hb h3 =>
      have hb1 : (l.add rsp).both 1 = true := by rw [hadd]; exact hb
      have hb2 : (l.add rsp).both 2 = Requester.bothHave caps ReqFlags.chalCap RspFlags.chalCap := by
        rw [bothHave_chal, hadd, Log.both, hw.req, hw.rsp]
      rw [← hb2]
      refine ⟨by rw [hadd], ?_⟩
      split
      · rename_i h
        refine .challenge h0 h1 h2 ?_ hb1 h h3 hr hm' rfl rfl rfl
        rw [hadd]
        exact ⟨hw.req, hw.rsp, hw.hash, hw.asym⟩
      · rename_i h
        refine .done ?_ ⟨_, _, rfl, h0⟩ ⟨_, _, rfl, h2⟩
        simp only [path, hb1, h]
        simp [h0.code, h1, h2.code, h3, hc]
  | @challenge _ _ s m chain ds ss h3 hh hds hss hp hslot hmask hsz hring hhash hlen hch hver =>
    have hc : code rsp = some 0x03 := code_of_take hh
    cases hm with
    | challenge h0 h1 h2 hw hb hb2 h3' h4 hcw hs hcc hz =>
      have hss' : sizeFor signatureSizes l.asym = ss := by rw [hw.asym]; exact getSignatureSize_sizeFor hss
      have hadd : l.add rsp = { l with text := l.text ++ rsp.take (rsp.length - ss) } := by simp only [Log.add, hc, hss']
      rename_i m0 m1 m2 m3 m4 tail cert
      have hc4 : code m4 = some 0x02 := by rw [h4, List.append_assoc]; exact code_header _ _
      rw [hadd]
      refine ⟨rfl, .done ?_ ⟨_, _, rfl, h0⟩ ⟨_, _, rfl, h2⟩⟩
      have e1 : Log.both { l with text := l.text ++ rsp.take (rsp.length - ss) } 1 = true := hb
      have e2 : Log.both { l with text := l.text ++ rsp.take (rsp.length - ss) } 2 = true := hb2
      simp only [path, e1, e2]
      simp [h0.code, h1, h2.code, h3', hc, hc4]

/-- Every history keeps the invariant. -/
theorem reqRun_inv {c : Cfg} {cr : Crypto} {root : Bytes} {es : List ReqEvent} {r : Requester} (h : ReqRun c cr root es r) :
    (failed es = false ∧ ∃ st, ReqLive c root es r st) ∨ (failed es = true ∧ (r.state = some .error ∨ r.state = none)) := by
  induction h with
  | new =>
    refine .inl ⟨rfl, .version, rfl, Transcript.new_wf c, by simp [Requester.new, Transcript.new], rfl, ?_, .version (.inl rfl)⟩
    simp [Requester.new, reqMsgs, conversation, Log.empty]
  | @next es r env buf _ ih =>
    rcases ih with ⟨hf, st, hl⟩ | ⟨hf, hst⟩
    · left
      rcases hp : Requester.nextRequest c env buf r with ⟨x, r'⟩
      obtain ⟨hk, hx⟩ := next_refines hl.state hl.wf hp
      have hacc : accepted (es ++ [.next env buf x]) = accepted es := by simp [accepted]
      refine ⟨by simp [failed] at hf ⊢; exact hf, ?_⟩
      rcases hx with ⟨out, st', rfl, hlen, hs', hsend⟩ | ⟨hx, st', hs', hidle, ht⟩
      · rw [hl.text] at hsend
        have hcap : r'.transcript.get.length ≤ c.transcriptSize := by
          rw [Transcript.get_length hk.wf, ← hl.cap, ← hk.cap]; exact hk.wf
        obtain ⟨t1, t2, _⟩ := send_match hl.mat hsend hcap
        refine ⟨st', hs', hk.wf, hk.cap.trans hl.cap, hk.root.trans hl.root, ?_, ?_⟩
        · rw [reqMsgs_snoc, show ((ReqEvent.next env buf (.ok out)).msg).toList = [out] from rfl, conversation_snoc]; exact t1
        · rw [reqMsgs_snoc, show ((ReqEvent.next env buf (.ok out)).msg).toList = [out] from rfl, conversation_snoc, hacc]; exact t2
      · have hmsg : reqMsgs (es ++ [.next env buf x]) = reqMsgs es := by
          rw [reqMsgs_snoc]
          cases x with
          | ok a => simp [Res.isOk] at hx
          | err e => simp [ReqEvent.msg]
          | panic k => simp [ReqEvent.msg]
        refine ⟨st', hs', hk.wf, hk.cap.trans hl.cap, hk.root.trans hl.root, ?_, ?_⟩
        · rw [hmsg]
          rcases ht with ht | ⟨rfl, ht, hcap⟩
          · exact ht.trans hl.text
          · rw [ht]
            have := hl.mat
            generalize accepted es = acc at this
            cases this with
            | version h =>
              rcases h with h | h
              · exact h.symm
              · rw [hl.cap] at hcap; omega
        · rw [hmsg, hacc]; exact idle_match hl.mat hidle
    · right
      refine ⟨by simp [failed] at hf ⊢; exact hf, ?_⟩
      rcases hst with hst | hst
      · left; simp [Requester.nextRequest, hst, Requester.writeReq]
      · right; simp [Requester.nextRequest, hst]
  | @recv es r rsp _ ih =>
    rcases ih with ⟨hf, st, hl⟩ | ⟨hf, hst⟩
    · rcases hp : Requester.handleMsg c cr rsp r with ⟨x, r'⟩
      rcases recv_refines hl.state hl.wf hp with ⟨st', rfl, hs', hk, hrecv⟩ | ⟨hx, hd⟩
      · left
        refine ⟨by simp [failed] at hf ⊢; exact hf, ?_⟩
        rw [hl.text, hl.root] at hrecv
        obtain ⟨t1, t2⟩ := recv_match hl.mat hrecv
        refine ⟨st', hs', hk.wf, hk.cap.trans hl.cap, hk.root.trans hl.root, ?_, ?_⟩
        · rw [reqMsgs_snoc, show ((ReqEvent.recv rsp (.ok _)).msg).toList = [rsp] from rfl, conversation_snoc]; exact t1
        · rw [reqMsgs_snoc, show ((ReqEvent.recv rsp (.ok _)).msg).toList = [rsp] from rfl, conversation_snoc]
          rw [show accepted (es ++ [.recv rsp (.ok (decide (st' = .newSession)))]) = accepted es ++ [rsp] by simp [accepted]]
          exact t2
      · right
        refine ⟨?_, hd⟩
        cases x with
        | ok a => simp [Res.isOk] at hx
        | err e => simp [failed]
        | panic k => simp [failed]
    · right
      rcases hst with hst | hst
      · simp [Requester.handleMsg, hst, Requester.handle, failed]
      · simp [Requester.handleMsg, hst, failed]

end Spdm

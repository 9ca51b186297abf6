import Verif.Lemmas.Step
import Verif.Lemmas.Sim
import Verif.Lemmas.ReqAlgs
import Verif.Lemmas.Inv3
import Verif.Lemmas.Inv4
import Verif.Lemmas.ChainInv
/-! The requester's calls as relations between states and bytes on the wire, and the proof that the model's code refines them. -/
namespace Spdm
open Spec

/-- The call kept the requester's fixed parts. -/
structure RKept (r r' : Requester) : Prop where
  wf : r'.transcript.WF
  cap : r'.transcript.buf.length = r.transcript.buf.length
  root : r'.rootCert = r.rootCert

theorem RKept.refl {r : Requester} (hw : r.transcript.WF) : RKept r r := ⟨hw, rfl, rfl⟩

theorem Requester.extend_inv {r r' : Requester} {bs : Bytes} {u : Unit} (hw : r.transcript.WF) (e : Requester.extend bs r = (.ok u, r')) :
    RKept r r' ∧ r'.transcript.get = r.transcript.get ++ bs ∧ r'.state = r.state := by
  unfold Requester.extend at e
  have hx : (Transcript.extend bs r.transcript) = (.ok u, (Transcript.extend bs r.transcript).2) := by
    have := congrArg Prod.fst e
    exact Prod.ext this rfl
  obtain ⟨h1, h2, h3, h4⟩ := Transcript.extend_ok_inv hw hx
  simp only [Prod.mk.injEq] at e
  obtain ⟨-, rfl⟩ := e
  exact ⟨⟨h2, h3, rfl⟩, h1, rfl⟩

theorem Requester.extend_run {r : Requester} {bs : Bytes} (hw : r.transcript.WF) (hr : r.transcript.get.length + bs.length ≤ r.transcript.buf.length) :
    ∃ t, Requester.extend bs r = (.ok (), { r with transcript := t }) ∧ t.get = r.transcript.get ++ bs ∧ t.WF ∧ t.buf.length = r.transcript.buf.length := by
  obtain ⟨t, h1, h2, h3, h4⟩ := Transcript.extend_room hw hr
  exact ⟨t, by simp only [Requester.extend, h1], h2, h3, h4⟩

/-- `extend` that does not succeed changes nothing. -/
theorem Requester.extend_fail {r r' : Requester} {bs : Bytes} {x : Res Unit} (hw : r.transcript.WF) (e : Requester.extend bs r = (x, r')) (hx : x.isOk = false) :
    r' = r ∧ r.transcript.buf.length < r.transcript.get.length + bs.length := by
  unfold Requester.extend at e
  by_cases hr : r.transcript.get.length + bs.length ≤ r.transcript.buf.length
  · obtain ⟨t, h1, _⟩ := Transcript.extend_room hw hr
    rw [h1] at e
    simp only [Prod.mk.injEq] at e
    rw [← e.1] at hx
    simp [Res.isOk] at hx
  · rw [Transcript.extend_full hw (by omega)] at e
    simp only [Prod.mk.injEq] at e
    exact ⟨e.2.symm, by omega⟩

theorem writeTo_inv {t : MsgType} {body : W Nat} {layout buf out : Bytes} (hw : Writes body id layout) (e : Requester.writeTo t body buf = .ok out) :
    out = Wire.header t ++ layout ∧ out.length ≤ buf.length := by
  unfold Requester.writeTo at e
  rcases hp : t.write body buf with ⟨res, b⟩
  rw [hp] at e
  obtain ⟨n, rfl, e2⟩ := res_bind_ok e
  obtain ⟨h1, h2, h3⟩ := write_ok_inv hw hp
  obtain ⟨_, rfl⟩ := sliceTo_inv e2
  rw [h3, h1, msg_take]
  refine ⟨rfl, ?_⟩
  simp [header_length]; omega

theorem writeTo_run {t : MsgType} {body : W Nat} {layout buf : Bytes} (hw : Writes body id layout) (hr : 2 + layout.length ≤ buf.length) :
    Requester.writeTo t body buf = .ok (Wire.header t ++ layout) := by
  unfold Requester.writeTo
  rw [write_fits hw hr]
  simp only [Res.ok_bind]
  rw [sliceTo_ok (by simp [header_length]), msg_take]

/-! ### Requests -/

/-- A request written. -/
inductive ReqSend (c : Cfg) (env : Env) : ReqState → Bytes → Bytes → Bytes → ReqState → Prop
  | version {tr : Bytes} : ReqSend c env .version tr (Wire.header .getVersion ++ Wire.getVersion) (Wire.header .getVersion ++ Wire.getVersion) .version
  | capabilities {v : VersionEntry} {ct : Option UInt8} {cap : Option UInt32} {tr : Bytes} {m : GetCapabilities}
      (hm : Requester.configToGetCapabilities c = .ok m) :
      ReqSend c env (.capabilities v ct cap) tr (Wire.header .getCapabilities ++ Wire.getCapabilities m)
        (tr ++ (Wire.header .getCapabilities ++ Wire.getCapabilities m)) (.capabilities v (some m.ctExponent) (some m.flags))
  | algorithms {v : VersionEntry} {caps : Caps} {o : Option NegotiateAlgorithms} {tr : Bytes} {m : NegotiateAlgorithms}
      (hm : Requester.configToNegotiateAlgorithms c = .ok m) :
      ReqSend c env (.algorithms v caps o) tr (Wire.header .negotiateAlgorithms ++ Wire.negotiateAlgorithms m)
        (tr ++ (Wire.header .negotiateAlgorithms ++ Wire.negotiateAlgorithms m)) (.algorithms v caps (some m))
  | digests {v : VersionEntry} {caps : Caps} {a : Algorithms} {tr : Bytes} :
      ReqSend c env (.idAuth v caps a none) tr (Wire.header .getDigests ++ Wire.getDigests) (tr ++ (Wire.header .getDigests ++ Wire.getDigests)) (.idAuth v caps a none)
  | certificate {v : VersionEntry} {caps : Caps} {a : Algorithms} {d : Digests} {tr : Bytes} (h0 : 0 < c.numSlots) :
      ReqSend c env (.idAuth v caps a (some d)) tr (Wire.header .getCertificate ++ Wire.getCertificate ⟨0, 0, UInt16.ofNat c.maxCertChainSize⟩)
        (tr ++ (Wire.header .getCertificate ++ Wire.getCertificate ⟨0, 0, UInt16.ofNat c.maxCertChainSize⟩)) (.idAuth v caps a (some d))
  | challenge {s : ReqChallenge} {tr : Bytes} :
      ReqSend c env (.challenge s) tr (Wire.header .challenge ++ Wire.challenge ⟨s.certSlot, .none, env.nonce⟩)
        (tr ++ (Wire.header .challenge ++ Wire.challenge ⟨s.certSlot, .none, env.nonce⟩)) (.challenge { s with nonce := some env.nonce })

/-- What a `next_request` that does not succeed may still have changed. -/
inductive Idle (c : Cfg) (env : Env) : ReqState → ReqState → Prop
  | same {st : ReqState} : Idle c env st st
  | algorithms {v : VersionEntry} {caps : Caps} {o : Option NegotiateAlgorithms} {m : NegotiateAlgorithms} (hm : Requester.configToNegotiateAlgorithms c = .ok m) :
      Idle c env (.algorithms v caps o) (.algorithms v caps (some m))
  | challenge {s : ReqChallenge} : Idle c env (.challenge s) (.challenge { s with nonce := some env.nonce })

theorem offer_wf {c : Cfg} {m : NegotiateAlgorithms} (hm : Requester.configToNegotiateAlgorithms c = .ok m) :
    m.algorithmRequests = Requester.offeredRequests ∧ m.numAlgorithmRequests = 4 ∧ m.measurementSpec = measurementSpecDmtf ∧ m.baseHashAlgo = Crypto.supportedHashes c := by
  unfold Requester.configToNegotiateAlgorithms at hm
  obtain ⟨a, _, h⟩ := res_bind_ok hm
  simp only [Res.pure_eq, Res.ok.injEq] at h
  subst h
  exact ⟨rfl, rfl, rfl, rfl⟩

/-- Successful and unsuccessful `write_req`. -/
theorem writeReq_refines {c : Cfg} {env : Env} {st : ReqState} {buf : Bytes} {r r' : Requester} {x : Res Bytes} (hs : r.state = some st) (hw : r.transcript.WF)
    (e : Requester.writeReq c env st buf r = (x, r')) :
    RKept r r' ∧ ((∃ out st', x = .ok out ∧ out.length ≤ buf.length ∧ r'.state = some st' ∧ ReqSend c env st r.transcript.get out r'.transcript.get st') ∨
      (x.isOk = false ∧ ∃ st', r'.state = some st' ∧ Idle c env st st' ∧ (r'.transcript.get = r.transcript.get ∨ st = .version ∧ r'.transcript.get = [] ∧ r.transcript.buf.length < 4))) := by
  -- writing the message, then logging it
  have key : ∀ {t : MsgType} {body : W Nat} {layout : Bytes}, Writes body id layout → ∀ {f : Bytes → M Requester Bytes} {r0 : Requester},
      r0.transcript.WF → ∀ {y : Res Bytes} {r1 : Requester},
      (M.lift (Requester.writeTo t body buf) >>= f) r0 = (y, r1) →
      (y.isOk = false ∧ r1 = r0) ∨ ((Wire.header t ++ layout).length ≤ buf.length ∧ f (Wire.header t ++ layout) r0 = (y, r1)) := by
    intro t body layout hwr f r0 _ y r1 e
    rcases hp : Requester.writeTo t body buf with out | er | k
    · obtain ⟨rfl, hl⟩ := writeTo_inv hwr hp
      rw [M.run_bind_ok (s' := r0) (by rw [M.run_lift, hp])] at e
      exact .inr ⟨hl, e⟩
    · rw [M.run_bind_err (s' := r0) (by rw [M.run_lift, hp])] at e
      simp only [Prod.mk.injEq] at e
      exact .inl ⟨by rw [← e.1]; rfl, e.2.symm⟩
    · rw [M.run_bind_panic (s' := r0) (by rw [M.run_lift, hp])] at e
      simp only [Prod.mk.injEq] at e
      exact .inl ⟨by rw [← e.1]; rfl, e.2.symm⟩
  have log : ∀ {bs : Bytes} {g : Unit → M Requester Bytes} {r0 : Requester}, r0.transcript.WF → ∀ {y : Res Bytes} {r1 : Requester},
      (Requester.extend bs >>= g) r0 = (y, r1) →
      (y.isOk = false ∧ r1 = r0 ∧ r0.transcript.buf.length < r0.transcript.get.length + bs.length) ∨ ∃ r2, g () r2 = (y, r1) ∧ RKept r0 r2 ∧ r2.transcript.get = r0.transcript.get ++ bs ∧ r2.state = r0.state := by
    intro bs g r0 hw0 y r1 e
    rcases hp : Requester.extend bs r0 with ⟨u | er | k, r2⟩
    · rw [M.run_bind_ok hp] at e
      obtain ⟨k1, k2, k3⟩ := Requester.extend_inv hw0 hp
      exact .inr ⟨r2, e, k1, k2, k3⟩
    · rw [M.run_bind_err hp] at e
      simp only [Prod.mk.injEq] at e
      exact .inl ⟨by rw [← e.1]; rfl, by rw [← e.2]; exact (Requester.extend_fail hw0 hp rfl).1, (Requester.extend_fail hw0 hp rfl).2⟩
    · rw [M.run_bind_panic hp] at e
      simp only [Prod.mk.injEq] at e
      exact .inl ⟨by rw [← e.1]; rfl, by rw [← e.2]; exact (Requester.extend_fail hw0 hp rfl).1, (Requester.extend_fail hw0 hp rfl).2⟩
  have idle : ∀ {y : Res Bytes}, y.isOk = false → RKept r r ∧ ((∃ out st', y = .ok out ∧ out.length ≤ buf.length ∧ r.state = some st' ∧ ReqSend c env st r.transcript.get out r.transcript.get st') ∨
      (y.isOk = false ∧ ∃ st', r.state = some st' ∧ Idle c env st st' ∧ (r.transcript.get = r.transcript.get ∨ st = .version ∧ r.transcript.get = [] ∧ r.transcript.buf.length < 4))) :=
    fun hy => ⟨.refl hw, .inr ⟨hy, st, hs, .same, .inl rfl⟩⟩
  cases st with
  | version =>
    simp only [Requester.writeReq] at e
    rcases key GetVersion.writes hw e with ⟨hx, rfl⟩ | ⟨hl, e⟩
    · exact idle hx
    · rw [M.run_bind_ok (m := Requester.clear) (a := ()) (s' := { r with transcript := r.transcript.clear }) rfl] at e
      rcases log (Transcript.clear_wf _) e with ⟨hx, rfl, hcap⟩ | ⟨r2, e, k1, k2, k3⟩
      · exact ⟨⟨Transcript.clear_wf _, rfl, rfl⟩, .inr ⟨hx, _, hs, .same, .inr ⟨rfl, by simp, by simpa [header_length, Wire.getVersion, zeros] using hcap⟩⟩⟩
      · simp only [M.run_pure, Prod.mk.injEq] at e
        obtain ⟨rfl, rfl⟩ := e
        refine ⟨⟨k1.wf, by rw [k1.cap]; rfl, k1.root⟩, .inl ⟨_, _, rfl, hl, k3.trans hs, ?_⟩⟩
        rw [k2]
        simp only [Transcript.clear_get, List.nil_append]
        exact .version
  | capabilities v ct cap =>
    simp only [Requester.writeReq] at e
    rcases hm : Requester.configToGetCapabilities c with m | er | k
    · rw [M.run_bind_ok (s' := r) (by rw [M.run_lift, hm])] at e
      rcases key (GetCapabilities.writes m) hw e with ⟨hx, rfl⟩ | ⟨hl, e⟩
      · exact idle hx
      · rcases log hw e with ⟨hx, rfl, hcap⟩ | ⟨r2, e, k1, k2, k3⟩
        · exact idle hx
        · rw [M.run_bind_ok (m := Requester.setState _) (a := ()) (s' := { r2 with state := some (.capabilities v (some m.ctExponent) (some m.flags)) }) rfl] at e
          simp only [M.run_pure, Prod.mk.injEq] at e
          obtain ⟨rfl, rfl⟩ := e
          refine ⟨⟨k1.wf, k1.cap, k1.root⟩, .inl ⟨_, _, rfl, hl, rfl, ?_⟩⟩
          simp only [k2]
          exact .capabilities hm
    · rw [M.run_bind_err (s' := r) (by rw [M.run_lift, hm])] at e
      simp only [Prod.mk.injEq] at e
      obtain ⟨rfl, rfl⟩ := e
      exact idle rfl
    · rw [M.run_bind_panic (s' := r) (by rw [M.run_lift, hm])] at e
      simp only [Prod.mk.injEq] at e
      obtain ⟨rfl, rfl⟩ := e
      exact idle rfl
  | algorithms v caps o =>
    simp only [Requester.writeReq] at e
    rcases hm : Requester.configToNegotiateAlgorithms c with m | er | k
    · rw [M.run_bind_ok (s' := r) (by rw [M.run_lift, hm])] at e
      obtain ⟨o1, o2, _⟩ := offer_wf hm
      rcases key (NegotiateAlgorithms.writes (m := m) (by rw [o1]; rfl) (by rw [o2]; decide)) hw e with ⟨hx, rfl⟩ | ⟨hl, e⟩
      · exact idle hx
      · rw [M.run_bind_ok (m := Requester.setState _) (a := ()) (s' := { r with state := some (.algorithms v caps (some m)) }) rfl] at e
        rcases log (by exact hw) e with ⟨hx, rfl, hcap⟩ | ⟨r2, e, k1, k2, k3⟩
        · exact ⟨⟨hw, rfl, rfl⟩, .inr ⟨hx, _, rfl, .algorithms hm, .inl rfl⟩⟩
        · simp only [M.run_pure, Prod.mk.injEq] at e
          obtain ⟨rfl, rfl⟩ := e
          refine ⟨⟨k1.wf, k1.cap, k1.root⟩, .inl ⟨_, _, rfl, hl, k3, ?_⟩⟩
          simp only [k2]
          exact .algorithms hm
    · rw [M.run_bind_err (s' := r) (by rw [M.run_lift, hm])] at e
      simp only [Prod.mk.injEq] at e
      obtain ⟨rfl, rfl⟩ := e
      exact idle rfl
    · rw [M.run_bind_panic (s' := r) (by rw [M.run_lift, hm])] at e
      simp only [Prod.mk.injEq] at e
      obtain ⟨rfl, rfl⟩ := e
      exact idle rfl
  | idAuth v caps a o =>
    cases o with
    | none =>
      simp only [Requester.writeReq] at e
      rcases key GetDigests.writes hw e with ⟨hx, rfl⟩ | ⟨hl, e⟩
      · exact idle hx
      · rcases log hw e with ⟨hx, rfl, hcap⟩ | ⟨r2, e, k1, k2, k3⟩
        · exact idle hx
        · simp only [M.run_pure, Prod.mk.injEq] at e
          obtain ⟨rfl, rfl⟩ := e
          refine ⟨k1, .inl ⟨_, _, rfl, hl, k3.trans hs, ?_⟩⟩
          rw [k2]
          exact .digests
    | some d =>
      simp only [Requester.writeReq] at e
      by_cases h0 : 0 < c.numSlots
      · rw [if_neg (not_not.mpr h0)] at e
        rcases key (GetCertificate.writes _) hw e with ⟨hx, rfl⟩ | ⟨hl, e⟩
        · exact idle hx
        · rcases log hw e with ⟨hx, rfl, hcap⟩ | ⟨r2, e, k1, k2, k3⟩
          · exact idle hx
          · simp only [M.run_pure, Prod.mk.injEq] at e
            obtain ⟨rfl, rfl⟩ := e
            refine ⟨k1, .inl ⟨_, _, rfl, hl, k3.trans hs, ?_⟩⟩
            rw [k2]
            exact .certificate h0
      · rw [if_pos h0] at e
        simp only [M.run_die, Prod.mk.injEq] at e
        obtain ⟨rfl, rfl⟩ := e
        exact idle rfl
  | challenge s =>
    simp only [Requester.writeReq] at e
    rw [M.run_bind_ok (m := Requester.setState _) (a := ()) (s' := { r with state := some (.challenge { s with nonce := some env.nonce }) }) rfl] at e
    rcases key (Challenge.writes _) (by exact hw) e with ⟨hx, rfl⟩ | ⟨hl, e⟩
    · exact ⟨⟨hw, rfl, rfl⟩, .inr ⟨hx, _, rfl, .challenge, .inl rfl⟩⟩
    · rcases log (by exact hw) e with ⟨hx, rfl, hcap⟩ | ⟨r2, e, k1, k2, k3⟩
      · exact ⟨⟨hw, rfl, rfl⟩, .inr ⟨hx, _, rfl, .challenge, .inl rfl⟩⟩
      · simp only [M.run_pure, Prod.mk.injEq] at e
        obtain ⟨rfl, rfl⟩ := e
        refine ⟨⟨k1.wf, k1.cap, k1.root⟩, .inl ⟨_, _, rfl, hl, k3, ?_⟩⟩
        simp only [k2]
        exact .challenge
  | error =>
    simp only [Requester.writeReq, M.run_die, Prod.mk.injEq] at e
    obtain ⟨rfl, rfl⟩ := e
    exact idle rfl
  | newSession =>
    simp only [Requester.writeReq, M.run_die, Prod.mk.injEq] at e
    obtain ⟨rfl, rfl⟩ := e
    exact idle rfl

/-- `next_request` on a live requester. -/
theorem next_refines {c : Cfg} {env : Env} {st : ReqState} {buf : Bytes} {r r' : Requester} {x : Res Bytes} (hs : r.state = some st) (hw : r.transcript.WF)
    (e : Requester.nextRequest c env buf r = (x, r')) :
    RKept r r' ∧ ((∃ out st', x = .ok out ∧ out.length ≤ buf.length ∧ r'.state = some st' ∧ ReqSend c env st r.transcript.get out r'.transcript.get st') ∨
      (x.isOk = false ∧ ∃ st', r'.state = some st' ∧ Idle c env st st' ∧ (r'.transcript.get = r.transcript.get ∨ st = .version ∧ r'.transcript.get = [] ∧ r.transcript.buf.length < 4))) := by
  by_cases hn : st = .newSession
  · subst hn
    simp only [Requester.nextRequest, hs, Prod.mk.injEq] at e
    obtain ⟨rfl, rfl⟩ := e
    exact ⟨.refl hw, .inr ⟨rfl, _, hs, .same, .inl rfl⟩⟩
  · apply writeReq_refines hs hw
    rw [← e]
    cases st <;> simp_all [Requester.nextRequest]

/-! ### Responses -/

/-- What the verifier was asked and answered. -/
structure Verified (c : Cfg) (cr : Crypto) (asym : UInt32) (root : Bytes) (chain : CertificateChain) (m2 sig : Bytes) : Prop where
  /-- ECDSA P-256 or P-384 -/
  algo : asym.toNat = 16 ∨ asym.toNat = 128
  leaf : cr.certOk chain.leafCert = true
  anchor : cr.anchorOk root = true
  trust : cr.chainOk chain.leafCert asym root chain.intermediateCerts Requester.unixTime = true
  der : ∃ out n, Pki.binToDer sig (List.replicate (Pki.maxEncodedSize c) 0) = .ok (out, n) ∧ n ≤ out.length ∧ cr.sigOk chain.leafCert asym m2 (out.take n) = true

/-- A response accepted. -/
inductive ReqRecv (c : Cfg) (cr : Crypto) (root : Bytes) : ReqState → Bytes → Bytes → Bytes → ReqState → Prop
  | version {tr rsp : Bytes} {v : Version} {e : VersionEntry} (h3 : 3 ≤ rsp.length) (hh : rsp.take 2 = Wire.header .version)
      (hp : Version.parseBody (rsp.drop 2) = .ok v) (hv : VersionWF v) (he : HighestCommon v e) :
      ReqRecv c cr root .version tr rsp (tr ++ rsp) (.capabilities e none none)
  | capabilities {tr rsp tail : Bytes} {v : VersionEntry} {ct : UInt8} {cap : UInt32} {m : Capabilities}
      (hr : rsp = Wire.header .capabilities ++ Wire.capabilities m ++ tail) (hm : OnlyBits rspFlagBit m.flags.toNat) :
      ReqRecv c cr root (.capabilities v (some ct) (some cap)) tr rsp (tr ++ rsp) (.algorithms v ⟨ct, cap, m.ctExponent, m.flags⟩ none)
  | algorithms {tr rsp : Bytes} {v : VersionEntry} {caps : Caps} {m : NegotiateAlgorithms} {a : Algorithms} (h3 : 3 ≤ rsp.length)
      (hh : rsp.take 2 = Wire.header .algorithms) (hp : Algorithms.parseBody (rsp.drop 2) = .ok a) (ha : AlgorithmsWF a)
      (hl : ∃ len tail, rsp.drop 2 = [a.numAlgorithmResponses] ++ zeros 1 ++ Spec.le 2 len ++ [a.measurementSpecSelected] ++ zeros 1 ++
        Spec.le 4 a.measurementHashAlgoSelected.toNat ++ Spec.le 4 a.baseAsymAlgoSelected.toNat ++ Spec.le 4 a.baseHashAlgoSelected.toNat ++ zeros 16 ++ tail)
      (hv : Requester.ensureValidAlgorithmsSelected (some m) a = .ok ()) :
      ReqRecv c cr root (.algorithms v caps (some m)) tr rsp (tr ++ rsp)
        (if Requester.bothHave caps ReqFlags.certCap RspFlags.certCap then .idAuth v caps a none else .newSession)
  | digests {tr rsp : Bytes} {v : VersionEntry} {caps : Caps} {a : Algorithms} {d : Digests} {size : Nat} (h3 : 3 ≤ rsp.length)
      (hh : rsp.take 2 = Wire.header .digests) (hs : BaseHashAlgo.getDigestSize c a.baseHashAlgoSelected = .ok size)
      (hp : Digests.parseBody c size (rsp.drop 2) = .ok d) :
      ReqRecv c cr root (.idAuth v caps a none) tr rsp (tr ++ rsp) (.idAuth v caps a (some d))
  | certificate {tr rsp tail : Bytes} {v : VersionEntry} {caps : Caps} {a : Algorithms} {d : Digests} {m : Certificate}
      (hr : rsp = Wire.header .certificate ++ Wire.certificate m ++ tail) (hm : CertificateWF c m) :
      ReqRecv c cr root (.idAuth v caps a (some d)) tr rsp (tr ++ rsp)
        (if Requester.bothHave caps ReqFlags.chalCap RspFlags.chalCap then .challenge ⟨v, caps, a, m.slot, m.certChain, m.portionLength, none⟩ else .newSession)
  | challenge {tr rsp : Bytes} {s : ReqChallenge} {m : ChallengeAuth} {chain : CertificateChain} {ds ss : Nat} (h3 : 3 ≤ rsp.length)
      (hh : rsp.take 2 = Wire.header .challengeAuth) (hds : BaseHashAlgo.getDigestSize c s.algorithms.baseHashAlgoSelected = .ok ds)
      (hss : BaseAsymAlgo.getSignatureSize c s.algorithms.baseAsymAlgoSelected = .ok ss)
      (hp : ChallengeAuth.parseBody c (rsp.drop 2) ds ss = .ok m) (hslot : m.slot = s.certSlot)
      (hmask : m.slot ≠ 0x0F → m.slot.toNat < 8 ∧ m.slotMask.toNat.testBit m.slot.toNat = true) (hsz : s.certChainSize.toNat ≤ s.certChain.length)
      (hring : RingHash s.algorithms.baseHashAlgoSelected)
      (hhash : m.certChainHash = cr.hash s.algorithms.baseHashAlgoSelected (s.certChain.take s.certChainSize.toNat)) (hlen : ss ≤ rsp.length)
      (hch : CertificateChain.parse c (s.certChain.take s.certChainSize.toNat) ds = .ok chain)
      (hver : Verified c cr s.algorithms.baseAsymAlgoSelected root chain
        (cr.hash s.algorithms.baseHashAlgoSelected (tr ++ rsp.take (rsp.length - ss))) m.signature)
      (prov : c.provider = true) (hml : (cr.hash s.algorithms.baseHashAlgoSelected (tr ++ rsp.take (rsp.length - ss))).length ≤ c.maxDigestSize) :
      ReqRecv c cr root (.challenge s) tr rsp (tr ++ rsp.take (rsp.length - ss)) .newSession


theorem spdmToWebpki_inv {a b : UInt32} (h : Crypto.spdmToWebpki a = .ok b) : b = a ∧ (a.toNat = 16 ∨ a.toNat = 128) := by
  unfold Crypto.spdmToWebpki at h
  split at h
  · rename_i ha
    simp only [Res.ok.injEq] at h
    subst ha
    exact ⟨h.symm, .inl rfl⟩
  · split at h
    · rename_i ha
      simp only [Res.ok.injEq] at h
      subst ha
      exact ⟨h.symm, .inr rfl⟩
    · simp at h

theorem verify_inv {c : Cfg} {cr : Crypto} {s : ReqChallenge} {ds : Nat} {m2 sig root : Bytes}
    (h : Requester.verifyCertChainAndSignature c cr s ds m2 sig root = .ok ()) :
    ∃ chain, CertificateChain.parse c (s.certChain.take s.certChainSize.toNat) ds = .ok chain ∧
      Verified c cr s.algorithms.baseAsymAlgoSelected root chain m2 sig := by
  unfold Requester.verifyCertChainAndSignature at h
  obtain ⟨cb, e1, h⟩ := res_bind_ok h
  obtain ⟨_, rfl⟩ := sliceTo_inv e1
  obtain ⟨chain, e2, h⟩ := res_bind_ok h
  obtain ⟨leaf, e3, h⟩ := res_bind_ok h
  obtain ⟨_, e4, h⟩ := res_bind_ok h
  obtain ⟨ok, e5, h⟩ := res_bind_ok h
  have hok : ok = true := by
    cases ok with
    | true => rfl
    | false => simp at h
  subst hok
  unfold Crypto.newEndEntityCert at e3
  split at e3
  · rename_i hc
    simp only [Res.ok.injEq] at e3
    subst e3
    unfold Crypto.verifyChainOfTrust at e4
    split at e4
    · simp at e4
    rename_i hpr
    replace hc : cr.certOk chain.leafCert = true := by rcases hc with hc | hc; exact absurd hc hpr; exact hc
    split at e4
    · rename_i hr
      obtain ⟨al, e6, e4⟩ := res_bind_ok e4
      obtain ⟨rfl, hal⟩ := spdmToWebpki_inv e6
      split at e4
      · rename_i ht
        unfold Crypto.verifySignature at e5
        rw [if_neg hpr] at e5
        obtain ⟨al', e7, e5⟩ := res_bind_ok e5
        obtain ⟨rfl, _⟩ := spdmToWebpki_inv e7
        obtain ⟨⟨out, n⟩, e8, e5⟩ := res_bind_ok e5
        obtain ⟨der, e9, e5⟩ := res_bind_ok e5
        obtain ⟨hn, rfl⟩ := sliceTo_inv e9
        simp only [Res.pure_eq, Res.ok.injEq] at e5
        exact ⟨chain, e2, hal, hc, hr, ht, out, n, e8, hn, e5⟩
      · simp at e4
    · simp at e4
  · simp at e3

theorem slotMask_bit {mask slot : UInt8} (h8 : slot.toNat < 8) (h : mask &&& UInt8.ofNat (2 ^ slot.toNat) ≠ 0) : mask.toNat.testBit slot.toNat = true := by
  rw [← and_pow_ne]
  intro hz
  apply h
  have hp : 2 ^ slot.toNat < 2 ^ 8 := Nat.pow_lt_pow_right (by omega) h8
  rw [← UInt8.toNat_inj, UInt8.toNat_and, UInt8.toNat_ofNat_of_lt' (by simpa [UInt8.size] using hp), hz]
  rfl

theorem checkSlot_inv {slot : UInt8} {m : ChallengeAuth} (h : Requester.checkSlot slot m = .ok ()) :
    m.slot = slot ∧ (m.slot ≠ 0x0F → m.slot.toNat < 8 ∧ m.slotMask.toNat.testBit m.slot.toNat = true) := by
  unfold Requester.checkSlot at h
  split at h
  · simp at h
  · rename_i h1
    refine ⟨not_not.mp h1, ?_⟩
    intro hn
    rw [if_pos hn] at h
    obtain ⟨bit, e1, h⟩ := res_bind_ok h
    unfold Requester.slotBit at e1
    split at e1
    · rename_i h8
      simp only [Res.ok.injEq] at e1
      subst e1
      split at h
      · simp at h
      · rename_i hb
        exact ⟨h8, slotMask_bit h8 hb⟩
    · simp at e1

theorem subChecked_inv {a b n : Nat} (h : Responder.subChecked a b = .ok n) : b ≤ a ∧ n = a - b := by
  unfold Responder.subChecked at h
  split at h
  · simp only [Res.ok.injEq] at h; exact ⟨by assumption, h.symm⟩
  · simp at h

theorem M.lift_bind_inv {σ α β : Type} {x : Res α} {f : α → M σ β} {s s' : σ} {b : β} (h : (M.lift x >>= f) s = (.ok b, s')) :
    ∃ a, x = .ok a ∧ f a s = (.ok b, s') := by
  obtain ⟨a, s1, h1, h2⟩ := M.bind_ok_inv h
  obtain ⟨h3, rfl⟩ := M.lift_ok_inv h1
  exact ⟨a, h3, h2⟩

/-- An accepted response. -/
theorem handle_recv {c : Cfg} {cr : Crypto} {st st' : ReqState} {rsp : Bytes} {r r' : Requester} (hw : r.transcript.WF)
    (e : Requester.handle c cr st rsp r = (.ok st', r')) :
    RKept r r' ∧ ReqRecv c cr r.rootCert st r.transcript.get rsp r'.transcript.get st' := by
  cases st with
  | version =>
    simp only [Requester.handle] at e
    obtain ⟨_, e1, e⟩ := M.lift_bind_inv e
    obtain ⟨h3, hh⟩ := expect_ok_inv e1
    obtain ⟨body, e2, e⟩ := M.lift_bind_inv e
    obtain ⟨_, rfl⟩ := sliceFrom_inv e2
    obtain ⟨v, e3, e⟩ := M.lift_bind_inv e
    obtain ⟨o, e4, e⟩ := M.lift_bind_inv e
    have hv := Version.parse_wf e3
    obtain ⟨o', f1, f2, _⟩ := findMax_run v (by have := hv.len; have := hv.num; omega)
    rw [e4] at f1
    simp only [Res.ok.injEq] at f1
    subst f1
    cases o with
    | none => simp at e
    | some en =>
      obtain ⟨_, s5, e5, e⟩ := M.bind_ok_inv e
      obtain ⟨k1, k2, k3⟩ := Requester.extend_inv (by exact hw) e5
      simp only [M.run_pure, Prod.mk.injEq, Res.ok.injEq] at e
      obtain ⟨rfl, rfl⟩ := e
      rw [k2]
      exact ⟨k1, .version h3 hh e3 hv (f2 en rfl)⟩
  | capabilities v ct cap =>
    simp only [Requester.handle] at e
    obtain ⟨_, e1, e⟩ := M.lift_bind_inv e
    obtain ⟨h3, hh⟩ := expect_ok_inv e1
    obtain ⟨body, e2, e⟩ := M.lift_bind_inv e
    obtain ⟨_, rfl⟩ := sliceFrom_inv e2
    obtain ⟨m, e3, e⟩ := M.lift_bind_inv e
    obtain ⟨bs, tail, hr, rfl, hm⟩ := parse_split Capabilities.inverts hh e3
    obtain ⟨_, s5, e5, e⟩ := M.bind_ok_inv e
    obtain ⟨k1, k2, k3⟩ := Requester.extend_inv (by exact hw) e5
    obtain ⟨ct', e6, e⟩ := M.lift_bind_inv e
    obtain ⟨cap', e7, e⟩ := M.lift_bind_inv e
    simp only [M.run_pure, Prod.mk.injEq, Res.ok.injEq] at e
    obtain ⟨rfl, rfl⟩ := e
    cases ct with
    | none => simp [Requester.unwrap] at e6
    | some ct =>
      cases cap with
      | none => simp [Requester.unwrap] at e7
      | some cap =>
        simp only [Requester.unwrap, Res.ok.injEq] at e6 e7
        subst e6 e7
        rw [k2]
        exact ⟨k1, .capabilities hr hm⟩
  | algorithms v caps o =>
    simp only [Requester.handle] at e
    obtain ⟨_, e1, e⟩ := M.lift_bind_inv e
    obtain ⟨h3, hh⟩ := expect_ok_inv e1
    obtain ⟨body, e2, e⟩ := M.lift_bind_inv e
    obtain ⟨_, rfl⟩ := sliceFrom_inv e2
    obtain ⟨a, e3, e⟩ := M.lift_bind_inv e
    obtain ⟨bs, tail, hr, ha, len, cs, hbs⟩ := Algorithms.inverts.parse e3
    obtain ⟨_, e4, e⟩ := M.lift_bind_inv e
    obtain ⟨_, s5, e5, e⟩ := M.bind_ok_inv e
    obtain ⟨k1, k2, k3⟩ := Requester.extend_inv (by exact hw) e5
    simp only [M.run_pure, Prod.mk.injEq, Res.ok.injEq] at e
    obtain ⟨rfl, rfl⟩ := e
    cases o with
    | none => simp [Requester.ensureValidAlgorithmsSelected] at e4
    | some m =>
      rw [k2]
      exact ⟨k1, .algorithms h3 hh e3 ha ⟨len, cs ++ tail, by rw [show rsp.drop 2 = bs ++ tail from hr, hbs]; simp⟩ e4⟩
  | idAuth v caps a o =>
    cases o with
    | none =>
      simp only [Requester.handle] at e
      obtain ⟨_, e1, e⟩ := M.lift_bind_inv e
      obtain ⟨h3, hh⟩ := expect_ok_inv e1
      obtain ⟨size, e0, e⟩ := M.lift_bind_inv e
      obtain ⟨body, e2, e⟩ := M.lift_bind_inv e
      obtain ⟨_, rfl⟩ := sliceFrom_inv e2
      obtain ⟨d, e3, e⟩ := M.lift_bind_inv e
      obtain ⟨_, s5, e5, e⟩ := M.bind_ok_inv e
      obtain ⟨k1, k2, k3⟩ := Requester.extend_inv (by exact hw) e5
      simp only [M.run_pure, Prod.mk.injEq, Res.ok.injEq] at e
      obtain ⟨rfl, rfl⟩ := e
      rw [k2]
      exact ⟨k1, .digests h3 hh e0 e3⟩
    | some d =>
      simp only [Requester.handle] at e
      obtain ⟨_, e1, e⟩ := M.lift_bind_inv e
      obtain ⟨h3, hh⟩ := expect_ok_inv e1
      obtain ⟨body, e2, e⟩ := M.lift_bind_inv e
      obtain ⟨_, rfl⟩ := sliceFrom_inv e2
      obtain ⟨m, e3, e⟩ := M.lift_bind_inv e
      obtain ⟨bs, tail, hr, rfl, hm⟩ := parse_split (Certificate.inverts c) hh e3
      obtain ⟨_, s5, e5, e⟩ := M.bind_ok_inv e
      obtain ⟨k1, k2, k3⟩ := Requester.extend_inv (by exact hw) e5
      simp only [M.run_pure, Prod.mk.injEq, Res.ok.injEq] at e
      obtain ⟨rfl, rfl⟩ := e
      rw [k2]
      exact ⟨k1, .certificate hr hm⟩
  | challenge s =>
    simp only [Requester.handle] at e
    obtain ⟨_, sx, e', ex⟩ := M.bind_ok_inv e
    clear e
    have e := e'
    clear e'
    simp only [M.run_pure, Prod.mk.injEq, Res.ok.injEq] at ex
    obtain ⟨rfl, rfl⟩ := ex
    unfold Requester.challengeHandle at e
    obtain ⟨_, e1, e⟩ := M.lift_bind_inv e
    obtain ⟨h3, hh⟩ := expect_ok_inv e1
    obtain ⟨ds, e2, e⟩ := M.lift_bind_inv e
    obtain ⟨ss, e2b, e⟩ := M.lift_bind_inv e
    obtain ⟨body, e2c, e⟩ := M.lift_bind_inv e
    obtain ⟨_, rfl⟩ := sliceFrom_inv e2c
    obtain ⟨m, e3, e⟩ := M.lift_bind_inv e
    obtain ⟨_, e4, e⟩ := M.lift_bind_inv e
    obtain ⟨hslot, hmask⟩ := checkSlot_inv e4
    obtain ⟨cb, e5, e⟩ := M.lift_bind_inv e
    obtain ⟨hsz, rfl⟩ := sliceTo_inv e5
    obtain ⟨dg, e6, e⟩ := M.lift_bind_inv e
    obtain ⟨hring, rfl, _⟩ := digest_inv e6
    split at e
    · simp at e
    · rename_i hne
      obtain ⟨st, e7, e⟩ := M.lift_bind_inv e
      obtain ⟨hlen, rfl⟩ := subChecked_inv e7
      obtain ⟨m2, e8, e⟩ := M.lift_bind_inv e
      obtain ⟨_, rfl⟩ := sliceTo_inv e8
      obtain ⟨_, s9, e9, e⟩ := M.bind_ok_inv e
      obtain ⟨k1, k2, k3⟩ := Requester.extend_inv (by exact hw) e9
      obtain ⟨rr, s10, e10, e⟩ := M.bind_ok_inv e
      simp only [M.run_get, Prod.mk.injEq, Res.ok.injEq] at e10
      obtain ⟨rfl, rfl⟩ := e10
      obtain ⟨mh, e11, e⟩ := M.lift_bind_inv e
      obtain ⟨_, rfl, hml, prov⟩ := digest_inv e11
      obtain ⟨e12, rfl⟩ := M.lift_ok_inv e
      obtain ⟨chain, hch, hver⟩ := verify_inv e12
      rw [k2, k1.root] at hver
      rw [k2] at hml
      rw [k2]
      exact ⟨k1, .challenge h3 hh e2 e2b e3 hslot hmask hsz hring (not_not.mp hne) hlen hch hver prov hml⟩
  | error => simp [Requester.handle] at e
  | newSession => simp [Requester.handle] at e

/-- The code does not touch the requester's state. -/
def KeepsState {α : Type} (m : M Requester α) : Prop := ∀ r, (m r).2.state = r.state

theorem KeepsState.bind {α β : Type} {m : M Requester α} {f : α → M Requester β} (hm : KeepsState m) (hf : ∀ a, KeepsState (f a)) : KeepsState (m >>= f) := by
  intro r
  have h := hm r
  rw [M.run_bind]
  rcases hp : m r with ⟨a | er | k, r1⟩ <;> rw [hp] at h <;> simp only at h ⊢
  · rw [hf a r1, h]
  · exact h
  · exact h

theorem KeepsState.lift {α : Type} (x : Res α) : KeepsState (M.lift x) := fun _ => rfl
theorem KeepsState.pure {α : Type} (x : α) : KeepsState (Pure.pure x) := fun _ => rfl
theorem KeepsState.fail {α : Type} (x : Err) : KeepsState (M.fail x : M Requester α) := fun _ => rfl
theorem KeepsState.die {α : Type} (x : PanicKind) : KeepsState (M.die x : M Requester α) := fun _ => rfl
theorem KeepsState.get : KeepsState M.get := fun _ => rfl
theorem KeepsState.extend (bs : Bytes) : KeepsState (Requester.extend bs) := fun _ => rfl
theorem KeepsState.ite {α : Type} {c : Prop} [Decidable c] {x y : M Requester α} (hx : KeepsState x) (hy : KeepsState y) : KeepsState (if c then x else y) := by
  split <;> assumption

theorem handle_keepsState (c : Cfg) (cr : Crypto) (st : ReqState) (rsp : Bytes) : KeepsState (Requester.handle c cr st rsp) := by
  unfold Requester.handle
  split
  · refine .bind (.lift _) fun _ => .bind (.lift _) fun _ => .bind (.lift _) fun _ => .bind (.lift _) fun o => ?_
    cases o with
    | none => exact .fail _
    | some e => exact .bind (.extend _) fun _ => .pure _
  · exact .bind (.lift _) fun _ => .bind (.lift _) fun _ => .bind (.lift _) fun _ => .bind (.extend _) fun _ => .bind (.lift _) fun _ =>
      .bind (.lift _) fun _ => .pure _
  · exact .bind (.lift _) fun _ => .bind (.lift _) fun _ => .bind (.lift _) fun _ => .bind (.lift _) fun _ => .bind (.extend _) fun _ => .pure _
  · exact .bind (.lift _) fun _ => .bind (.lift _) fun _ => .bind (.lift _) fun _ => .bind (.lift _) fun _ => .bind (.extend _) fun _ => .pure _
  · exact .bind (.lift _) fun _ => .bind (.lift _) fun _ => .bind (.lift _) fun _ => .bind (.extend _) fun _ => .pure _
  · refine .bind ?_ fun _ => .pure _
    unfold Requester.challengeHandle
    exact .bind (.lift _) fun _ => .bind (.lift _) fun _ => .bind (.lift _) fun _ => .bind (.lift _) fun _ => .bind (.lift _) fun _ =>
      .bind (.lift _) fun _ => .bind (.lift _) fun _ => .bind (.lift _) fun _ => .ite (.fail _) <| .bind (.lift _) fun _ => .bind (.lift _) fun _ =>
      .bind (.extend _) fun _ => .bind .get fun _ => .bind (.lift _) fun _ => .lift _
  · exact .die _
  · exact .die _

/-- `handle_msg` on a live requester: accepted, or dead afterwards. -/
theorem recv_refines {c : Cfg} {cr : Crypto} {st : ReqState} {rsp : Bytes} {r r' : Requester} {x : Res Bool} (hs : r.state = some st) (hw : r.transcript.WF)
    (e : Requester.handleMsg c cr rsp r = (x, r')) :
    (∃ st', x = .ok (decide (st' = .newSession)) ∧ r'.state = some st' ∧ RKept r r' ∧ ReqRecv c cr r.rootCert st r.transcript.get rsp r'.transcript.get st') ∨
      (x.isOk = false ∧ (r'.state = some .error ∨ r'.state = none)) := by
  unfold Requester.handleMsg at e
  rw [hs] at e
  simp only at e
  rcases hp : Requester.handle c cr st rsp { r with state := none } with ⟨st' | er | k, r1⟩ <;> rw [hp] at e <;> simp only [Prod.mk.injEq] at e <;>
    obtain ⟨rfl, rfl⟩ := e
  · obtain ⟨k1, k2⟩ := handle_recv (by exact hw) hp
    exact .inl ⟨st', rfl, rfl, ⟨k1.wf, k1.cap, k1.root⟩, k2⟩
  · exact .inr ⟨rfl, .inl rfl⟩
  · refine .inr ⟨rfl, .inr ?_⟩
    have := handle_keepsState c cr st rsp { r with state := none }
    rw [hp] at this
    exact this

end Spdm

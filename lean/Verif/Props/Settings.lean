import Verif.Spec.Replay
import Verif.Spec.Config
import Verif.Spec.Settings
import Verif.Requester
import Verif.Responder
import Verif.Props.Config
import Verif.Props.Handshake
/-! C119: which settings matter. -/
namespace Spdm
open Spec

/-- A build without names and measurement limits. -/
def bare (c : Cfg) : Cfg := { c with capabilities := [], asymSigning := [], maxMeasurementBlocks := 0, maxMeasurementSize := 0 }

variable (c : Cfg) (cr : Crypto)

/-! ### Parsers and writers -/

theorem bare_digest : Crypto.digest (bare c) cr = Crypto.digest c cr := rfl
theorem bare_digestSize : BaseHashAlgo.getDigestSize (bare c) = BaseHashAlgo.getDigestSize c := rfl
theorem bare_sigSize : BaseAsymAlgo.getSignatureSize (bare c) = BaseAsymAlgo.getSignatureSize c := rfl

theorem bare_writeLoop (ds : List (Option Bytes)) (n : Nat) (b : UInt8) (k : Nat) : Digests.writeLoop (bare c) ds n b k = Digests.writeLoop c ds n b k := by
  induction n generalizing b k with
  | zero => rfl
  | succ n ih => simp only [Digests.writeLoop, ih]; rfl

theorem bare_digestsWrite (m : Digests) : Digests.writeBody (bare c) m = Digests.writeBody c m := by
  simp only [Digests.writeBody, bare_writeLoop]

theorem bare_readLoop (size n : Nat) (b : UInt8) (ds : List (Option Bytes)) : Digests.readLoop (bare c) size n b ds = Digests.readLoop c size n b ds := by
  induction n generalizing b ds with
  | zero => rfl
  | succ n ih => simp only [Digests.readLoop, ih]; rfl

theorem bare_digestsParse (size : Nat) (buf : Bytes) : Digests.parseBody (bare c) size buf = Digests.parseBody c size buf := by
  simp only [Digests.parseBody, Digests.read, bare_readLoop]; rfl

theorem bare_hashLoop (algo : UInt32) (chains : List (Option CertificateChain)) (n i : Nat) (buf : Bytes) (ds : List (Option Bytes)) :
    Responder.hashLoop (bare c) cr algo chains n i buf ds = Responder.hashLoop c cr algo chains n i buf ds := by
  induction n generalizing i buf ds with
  | zero => rfl
  | succ n ih => simp only [Responder.hashLoop, ih, bare_digest]

theorem bare_hashCertChains (algo : UInt32) (chains : List (Option CertificateChain)) :
    Responder.hashCertChains (bare c) cr algo chains = Responder.hashCertChains c cr algo chains := by
  simp only [Responder.hashCertChains, bare_hashLoop]; rfl

theorem bare_getDigests (n : Negotiated) (chains : List (Option CertificateChain)) (req : Bytes) :
    Responder.handleGetDigests (bare c) cr n chains req = Responder.handleGetDigests c cr n chains req := by
  simp only [Responder.handleGetDigests, bare_hashCertChains, bare_digestsWrite]; rfl

theorem bare_getCertificate (n : Negotiated) (chains : List (Option CertificateChain)) (req : Bytes) :
    Responder.handleGetCertificate (bare c) n chains req = Responder.handleGetCertificate c n chains req := rfl

theorem bare_idAuth (n : Negotiated) (chains : List (Option CertificateChain)) (req : Bytes) :
    Responder.idAuthHandle (bare c) cr n chains req = Responder.idAuthHandle c cr n chains req := by
  simp only [Responder.idAuthHandle, bare_getDigests, bare_getCertificate]

theorem bare_rspChallenge (env : Env) (n : Negotiated) (slots : List (Option FilledSlot)) (req : Bytes) :
    Responder.challengeHandle (bare c) cr env n slots req = Responder.challengeHandle c cr env n slots req := rfl

theorem bare_certificate (buf : Bytes) : Certificate.parseBody (bare c) buf = Certificate.parseBody c buf := rfl

theorem bare_parseLoop (buf : Bytes) (n : Nat) (l : List Bytes) : CertificateChain.parseLoop (bare c) buf n l = CertificateChain.parseLoop c buf n l := by
  induction n generalizing l with
  | zero => rfl
  | succ n ih => simp only [CertificateChain.parseLoop, ih]; rfl

theorem bare_chain (buf : Bytes) (size : Nat) : CertificateChain.parse (bare c) buf size = CertificateChain.parse c buf size := by
  simp only [CertificateChain.parse, CertificateChain.read, bare_parseLoop]

theorem bare_element : OpaqueElement.read (bare c) = OpaqueElement.read c := rfl

theorem bare_elements (n i : Nat) (l : List OpaqueElement) : OpaqueData.readElements (bare c) n i l = OpaqueData.readElements c n i l := by
  induction n generalizing i l with
  | zero => rfl
  | succ n ih => simp only [OpaqueData.readElements, ih, bare_element]

theorem bare_opaque : OpaqueData.read (bare c) = OpaqueData.read c := by
  simp only [OpaqueData.read, bare_elements]; rfl

theorem bare_challengeAuth (buf : Bytes) (a b : Nat) : ChallengeAuth.parseBody (bare c) buf a b = ChallengeAuth.parseBody c buf a b := by
  simp only [ChallengeAuth.parseBody, ChallengeAuth.read, bare_opaque]; rfl

theorem bare_verifySignature (leaf : Bytes) (algo : UInt32) (msg sig : Bytes) : Crypto.verifySignature (bare c) cr leaf algo msg sig = Crypto.verifySignature c cr leaf algo msg sig := rfl

theorem bare_verify (s : ReqChallenge) (k : Nat) (h sig root : Bytes) :
    Requester.verifyCertChainAndSignature (bare c) cr s k h sig root = Requester.verifyCertChainAndSignature c cr s k h sig root := by
  simp only [Requester.verifyCertChainAndSignature, bare_chain, bare_verifySignature]; rfl

theorem bare_reqChallenge (s : ReqChallenge) (buf : Bytes) : Requester.challengeHandle (bare c) cr s buf = Requester.challengeHandle c cr s buf := by
  simp only [Requester.challengeHandle, bare_verify, bare_challengeAuth, bare_digest, bare_digestSize, bare_sigSize]

theorem bare_handle (st : ReqState) (buf : Bytes) : Requester.handle (bare c) cr st buf = Requester.handle c cr st buf := by
  cases st <;> simp only [Requester.handle]
  case idAuth v caps a d => cases d <;> simp only [bare_digestSize, bare_digestsParse, bare_certificate]
  case challenge s => simp only [bare_reqChallenge]

theorem bare_recv (buf : Bytes) (r : Requester) : Requester.handleMsg (bare c) cr buf r = Requester.handleMsg c cr buf r := by
  simp only [Requester.handleMsg, bare_handle]

/-! ### The endpoints -/

variable {c c' : Cfg} {cr : Crypto}

theorem same_recv (hb : bare c' = bare c) (buf : Bytes) (r : Requester) : Requester.handleMsg c' cr buf r = Requester.handleMsg c cr buf r := by
  rw [← bare_recv, hb, bare_recv]

theorem same_next (hb : bare c' = bare c) (h1 : Requester.configToGetCapabilities c' = Requester.configToGetCapabilities c)
    (h2 : Requester.configToNegotiateAlgorithms c' = Requester.configToNegotiateAlgorithms c) (env : Env) (buf : Bytes) (r : Requester) :
    Requester.nextRequest c' env buf r = Requester.nextRequest c env buf r := by
  have hn : c'.numSlots = c.numSlots := (congrArg Cfg.numSlots hb : (bare c').numSlots = (bare c).numSlots)
  have hm : c'.maxCertChainSize = c.maxCertChainSize := (congrArg Cfg.maxCertChainSize hb : (bare c').maxCertChainSize = (bare c).maxCertChainSize)
  have hw : ∀ st, Requester.writeReq c' env st buf = Requester.writeReq c env st buf := by
    intro st
    cases st <;> simp only [Requester.writeReq]
    case capabilities => rw [h1]
    case algorithms => rw [h2]
    case idAuth v caps a d => cases d <;> simp only [hn, hm]
  simp only [Requester.nextRequest, hw]

theorem same_call (hb : bare c' = bare c) (h1 : Responder.configToCapabilities c' = Responder.configToCapabilities c) (env : Env) (req buf : Bytes) (r : Responder) :
    Responder.handleMsg c' cr env req buf r = Responder.handleMsg c cr env req buf r := by
  have hd : ∀ slots st, Responder.dispatch c' cr env slots st req = Responder.dispatch c cr env slots st req := by
    intro slots st
    cases st <;> simp only [Responder.dispatch]
    case capabilities => simp only [Responder.capabilitiesHandle, h1]
    case idAuth n => rw [← bare_idAuth, hb, bare_idAuth]
    case challenge n => rw [← bare_rspChallenge, hb, bare_rspChallenge]
  simp only [Responder.handleMsg, Responder.handle, hd]

theorem same_behaviour (hb : bare c' = bare c) (h1 : Responder.configToCapabilities c' = Responder.configToCapabilities c) (r : Responder) (calls : List RspCall) :
    behaviour c' cr r calls = behaviour c cr r calls := by
  induction calls generalizing r with
  | nil => rfl
  | cons x xs ih =>
    have hx : x.run c' cr r = x.run c cr r := by
      cases x with
      | call env req buf => simp only [RspCall.run, same_call hb h1]
      | reset => rfl
    simp only [behaviour, hx, ih]

theorem same_reqBehaviour (hb : bare c' = bare c) (h1 : Requester.configToGetCapabilities c' = Requester.configToGetCapabilities c)
    (h2 : Requester.configToNegotiateAlgorithms c' = Requester.configToNegotiateAlgorithms c) (r : Requester) (calls : List ReqCall) :
    reqBehaviour c' cr r calls = reqBehaviour c cr r calls := by
  induction calls generalizing r with
  | nil => rfl
  | cons x xs ih =>
    have hx : x.run c' cr r = x.run c cr r := by
      cases x with
      | next env buf => simp only [ReqCall.run, same_next hb h1 h2]
      | recv buf => simp only [ReqCall.run, same_recv hb]
    simp only [reqBehaviour, hx, ih]

theorem word_ext {a b : UInt32} (h : ∀ k, a.toNat.testBit k = true ↔ b.toNat.testBit k = true) : a = b := by
  rw [← UInt32.toNat_inj]
  exact Nat.eq_of_testBit_eq fun k => Bool.eq_iff_iff.mpr (h k)

variable {i i' : SpdmConfig} {ring : Bool} {n : Nat}

/-- **C119.**  In a valid configuration neither the order nor the repetition of capability and algorithm names matters, nor do the limits on measurements: the other
configuration is valid too, and the endpoints of the two builds, given the same calls, return the same, byte for byte, error for error and abort for abort. -/
theorem c119_same_settings (hv : ValidConfig ring i) (hs : SameSettings i i') (hb : Built ring i n c) (hb' : Built ring i' n c') :
    ValidConfig ring i' ∧
    (∀ slots calls, behaviour c' cr (Responder.new c' slots) calls = behaviour c cr (Responder.new c slots) calls) ∧
    (∀ root calls, reqBehaviour c' cr (Requester.new c' root) calls = reqBehaviour c cr (Requester.new c root) calls) := by
  have hv' : ValidConfig ring i' := by
    refine ⟨by rw [hs.numSlots]; exact hv.slots, by rw [hs.certBufSize]; exact hv.chain, by rw [hs.maxDepth]; exact hv.depth,
      fun a ha => hv.signing a ((hs.asymmetricSigning a).mp ha), fun a ha => hv.names a ((hs.capabilities a).mp ha), fun hr => ?_⟩
    have h0 := hv.provider hr
    rw [List.eq_nil_iff_forall_not_mem]
    intro a ha
    have := (hs.capabilities a).mp ha
    rw [h0] at this
    simp at this
  have hbare : bare c' = bare c := by
    cases c; cases c'
    have e1 := hb.numSlots; have e2 := hb.maxCertChainSize; have e3 := hb.maxCertChainDepth; have e4 := hb.transcriptSize; have e5 := hb.maxDigestSize
    have e6 := hb.maxSignatureSize; have e7 := hb.maxOpaqueElementDataSize; have e8 := hb.maxOpaqueElements; have e9 := hb.nonceSize; have e10 := hb.provider
    have f1 := hb'.numSlots; have f2 := hb'.maxCertChainSize; have f3 := hb'.maxCertChainDepth; have f4 := hb'.transcriptSize; have f5 := hb'.maxDigestSize
    have f6 := hb'.maxSignatureSize; have f7 := hb'.maxOpaqueElementDataSize; have f8 := hb'.maxOpaqueElements; have f9 := hb'.nonceSize; have f10 := hb'.provider
    rw [hs.numSlots] at f1; rw [hs.certBufSize] at f2; rw [hs.maxDepth] at f3; rw [hs.transcriptBufSize] at f4; rw [hs.maxDigestSize] at f5
    rw [hs.maxElementDataSize] at f7; rw [hs.maxElements] at f8
    simp only at e1 e2 e3 e4 e5 e6 e7 e8 e9 e10 f1 f2 f3 f4 f5 f6 f7 f8 f9 f10
    simp only [bare, e1, e2, e3, e4, e5, e6, e7, e8, e9, e10, f1, f2, f3, f4, f5, f6, f7, f8, f9, f10]
  have ht : c'.transcriptSize = c.transcriptSize := (congrArg Cfg.transcriptSize hbare : (bare c').transcriptSize = (bare c).transcriptSize)
  obtain ⟨⟨q, q1, q2⟩, p, p1, p2⟩ := c54_capabilities ring i n c hv hb
  obtain ⟨⟨q', q1', q2'⟩, p', p1', p2'⟩ := c54_capabilities ring i' n c' hv' hb'
  obtain ⟨a, a1, a2⟩ := c54_algorithms ring i n c hv hb
  obtain ⟨a', a1', a2'⟩ := c54_algorithms ring i' n c' hv' hb'
  have eq : q' = q := word_ext fun k => by rw [q2', q2]; simp only [hs.capabilities]
  have ep : p' = p := word_ext fun k => by rw [p2', p2]; simp only [hs.capabilities]
  have ea : a' = a := word_ext fun k => by
    rw [a2', a2]
    have : i'.asymmetricSigning = [] ↔ i.asymmetricSigning = [] := by
      simp only [List.eq_nil_iff_forall_not_mem, hs.asymmetricSigning]
    rw [ne_eq, ne_eq, this]
  refine ⟨hv', fun slots calls => ?_, fun root calls => ?_⟩
  · rw [same_behaviour hbare (by rw [p1', p1, ep])]
    simp only [Responder.new, Transcript.new, ht]
  · rw [same_reqBehaviour hbare (by rw [q1', q1, eq]) (by rw [a1', a1, ea])]
    simp only [Requester.new, Transcript.new, ht]

/-- Another way to write `honestConfig`. -/
def wordyConfig : SpdmConfig :=
  { honestConfig with
    capabilities := honestConfig.capabilities.reverse ++ honestConfig.capabilities, asymmetricSigning := honestConfig.asymmetricSigning ++ honestConfig.asymmetricSigning
    maxBlocks := 99, maxSize := 7 }

example : SameSettings honestConfig wordyConfig ∧ wordyConfig ≠ honestConfig :=
  ⟨⟨rfl, rfl, rfl, rfl, rfl, rfl, rfl, by simp [wordyConfig], by simp [wordyConfig]⟩, by decide⟩

example : ValidConfig true honestConfig ∧ Built true honestConfig 4 honestCfg ∧
    Built true wordyConfig 4 { honestCfg with capabilities := wordyConfig.capabilities, asymSigning := wordyConfig.asymmetricSigning, maxMeasurementBlocks := 99, maxMeasurementSize := 7 } :=
  ⟨honestConfig_valid, honestConfig_built, ⟨rfl, rfl, rfl, rfl, rfl, rfl, rfl, rfl, rfl, rfl, rfl, rfl, rfl, rfl⟩⟩

end Spdm

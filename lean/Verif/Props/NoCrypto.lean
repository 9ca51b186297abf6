import Verif.Props.ReqAborts
import Verif.Props.Requester
/-!
# The build without a crypto provider: C60

src/crypto/no_crypto_defaults.rs says that "mechanisms higher up the stack are used to ensure that these default implementations are never actually
called".
-/
namespace Spdm
open Spec

variable {c : Cfg} {cr : Crypto} {root : Bytes} {es : List ReqEvent} {r : Requester}

/-- The requester capability word of a conversation is what the configuration says, or 0 while nothing was sent. -/
theorem reqCaps_configured (run : ReqRun c cr root es r) :
    (conversation (reqMsgs es)).reqCaps = 0 ∨ ∃ m, Requester.configToGetCapabilities c = .ok m ∧ (conversation (reqMsgs es)).reqCaps = m.flags.toNat := by
  induction run with
  | new => left; rfl
  | @next es r env buf hr ih =>
    rw [reqMsgs_append]
    rcases hx : (Requester.nextRequest c env buf r).1 with out | e | k
    · have h1 : reqMsgs [.next env buf (.ok out)] = [out] := rfl
      rw [h1, conversation_snoc]
      obtain ⟨_, st, st', _, _, hs, _⟩ := req_next hr hx
      generalize (Requester.nextRequest c env buf r).2.transcript.get = tr' at hs
      cases hs with
      | version =>
        left
        have hc : code (Wire.header .getVersion ++ Wire.getVersion) = some 0x84 := code_header _ _
        simp only [Log.add, hc]
        rfl
      | @capabilities v ct cap _ m hm =>
        have hc : code (Wire.header .getCapabilities ++ Wire.getCapabilities m) = some 0xE1 := code_header _ _
        have hw := getCapabilities_word (m := m) []
        rw [List.append_nil] at hw
        right
        exact ⟨m, hm, by simp only [Log.add, hc, hw]⟩
      | algorithms => rw [add_plain (code_header _ _) (by decide)]; exact ih
      | digests => rw [add_plain (code_header _ _) (by decide)]; exact ih
      | certificate => rw [add_plain (code_header _ _) (by decide)]; exact ih
      | challenge => rw [add_plain (code_header _ _) (by decide)]; exact ih
    · rw [show reqMsgs [.next env buf (.err e)] = [] from rfl, List.append_nil]; exact ih
    · rw [show reqMsgs [.next env buf (.panic k)] = [] from rfl, List.append_nil]; exact ih
  | @recv es r rsp hr ih =>
    rw [reqMsgs_append]
    rcases hx : (Requester.handleMsg c cr rsp r).1 with b | e | k
    · have h1 : reqMsgs [.recv rsp (.ok b)] = [rsp] := rfl
      rw [h1, conversation_snoc]
      obtain ⟨_, st, st', _, _, hs, _⟩ := req_recv hr hx
      obtain ⟨k, hk, hk2⟩ := hs.code
      have : ((conversation (reqMsgs es)).add rsp).reqCaps = (conversation (reqMsgs es)).reqCaps := by
        simp only [Log.add, hk]
        simp only [List.mem_cons, List.not_mem_nil, or_false] at hk2
        rcases hk2 with rfl | rfl | rfl | rfl | rfl | rfl <;> rfl
      rw [this]; exact ih
    · rw [show reqMsgs [.recv rsp (.err e)] = [] from rfl, List.append_nil]; exact ih
    · rw [show reqMsgs [.recv rsp (.panic k)] = [] from rfl, List.append_nil]; exact ih

/-- Without a crypto provider a requester advertises nothing, so no identity phase is ever entered. -/
theorem noCrypto_both {i : SpdmConfig} {nonceSize : Nat} (hv : ValidConfig false i) (hb : Built false i nonceSize c) (run : ReqRun c cr root es r) (k : Nat) :
    (conversation (reqMsgs es)).both k = false := by
  have h0 : (conversation (reqMsgs es)).reqCaps = 0 := by
    rcases reqCaps_configured run with h | ⟨m, h1, h2⟩
    · exact h
    · obtain ⟨⟨flags, g1, g2⟩, _⟩ := c54_capabilities false i nonceSize c hv hb
      rw [g1, Res.ok.injEq] at h1
      subst h1
      rw [h2]
      apply Nat.eq_of_testBit_eq
      intro j
      have := g2 j
      rw [hv.provider rfl] at this
      simpa using this
  simp [Log.both, h0]

/-- **C60**, requester: in a build without a crypto provider the handshake consists of VERSION, CAPABILITIES and ALGORITHMS; the third of them
completes it, and only their requests are ever sent. -/
theorem c60_requester_phases {i : SpdmConfig} {nonceSize : Nat} (hv : ValidConfig false i) (hb : Built false i nonceSize c) (run : ReqRun c cr root es r) :
    (∀ env buf out, (Requester.nextRequest c env buf r).1 = .ok out → code out ∈ [some 0x84, some 0xE1, some 0xE3]) ∧
    (∀ rsp b, (Requester.handleMsg c cr rsp r).1 = .ok b → (b = true ↔ code rsp = some 0x63) ∧
      (accepted es ++ [rsp]).map code = ([some 0x04, some 0x61, some 0x63] : List (Option UInt8)).take ((accepted es).length + 1)) := by
  have hpath : path (conversation (reqMsgs es)) = [0x04, 0x61, 0x63] := by simp [path, noCrypto_both hv hb run]
  constructor
  · intro env buf out hok
    obtain ⟨h1, h2⟩ := c45_requests run env buf out hok
    rw [hpath] at h2
    simp only [List.length_cons, List.length_nil, Nat.zero_add, Nat.reduceAdd] at h2
    rw [h1]
    generalize (accepted es).length = n at h2
    rcases n with _ | _ | _ | n
    · simp [requestCodes]
    · simp [requestCodes]
    · simp [requestCodes]
    · omega
  · intro rsp b hok
    have run' := run.recv rsp
    rw [hok] at run'
    obtain ⟨hf, st, st', hl, hb', hrecv, hl'⟩ := req_recv run hok
    have hn := noCrypto_both hv hb run' 1
    have hm := hl'.mat
    have hacc : accepted (es ++ [.recv rsp (.ok b)]) = accepted es ++ [rsp] := by simp [accepted]
    rw [hacc] at hm
    generalize accepted es = acc at hm ⊢
    generalize conversation (reqMsgs (es ++ [.recv rsp (.ok b)])) = l at hm hn
    generalize hA : acc ++ [rsp] = A at hm
    have hlen : acc.length + 1 = A.length := by rw [← hA]; simp
    rw [hlen, hb']
    have hlast : A.getLast? = some rsp := by rw [← hA]; simp
    cases hm with
    | version => simp at hlen
    | capabilities h0 =>
      simp only [List.getLast?_singleton, Option.some.injEq] at hlast
      subst hlast
      simp [h0.code]
    | algorithms h0 h1 =>
      simp only [List.getLast?_cons_cons, List.getLast?_singleton, Option.some.injEq] at hlast
      subst hlast
      simp [h0.code, h1]
    | digests _ _ _ _ hb1 => rw [hn] at hb1; simp at hb1
    | certificate _ _ _ _ hb1 => rw [hn] at hb1; simp at hb1
    | challenge _ _ _ _ hb1 => rw [hn] at hb1; simp at hb1
    | done h =>
      have hp : path l = [0x04, 0x61, 0x63] := by simp [path, hn]
      rw [hp] at h
      have hl3 : A.length = 3 := by simpa using congrArg List.length h
      have : code rsp = some 0x63 := by
        have h2 : (A.map code).getLast? = some (code rsp) := by rw [List.getLast?_map, hlast]; rfl
        rw [h] at h2
        simpa using h2.symm
      rw [hl3, h, this]
      simp

/-- **C60**, requester: no stub is ever called.  Whatever happened, `handle_msg` does the same as it would with any crypto provider plugged in instead
of the stubs (which abort when called). -/
theorem c60_requester_stubs_unused {i : SpdmConfig} {nonceSize : Nat} (hv : ValidConfig false i) (hb : Built false i nonceSize c) (run : ReqRun c cr root es r)
    (cr' : Crypto) (rsp : Bytes) : Requester.handleMsg c cr rsp r = Requester.handleMsg { c with provider := true } cr' rsp r := by
  unfold Requester.handleMsg
  have hst : r.state = none ∨ ∃ st, r.state = some st ∧ ∀ q, Requester.handle c cr st rsp q = Requester.handle { c with provider := true } cr' st rsp q := by
    rcases reqRun_inv run with ⟨hf, st, hl⟩ | ⟨_, h | h⟩
    · right
      refine ⟨st, hl.state, fun q => ?_⟩
      have hn := noCrypto_both hv hb run 1
      have hm := hl.mat
      generalize accepted es = acc at hm
      generalize conversation (reqMsgs es) = l at hm hn
      cases hm with
      | version => rfl
      | capabilities => rfl
      | algorithms => rfl
      | digests _ _ _ _ hb1 => rw [hn] at hb1; simp at hb1
      | certificate _ _ _ _ hb1 => rw [hn] at hb1; simp at hb1
      | challenge _ _ _ _ hb1 => rw [hn] at hb1; simp at hb1
      | done => rfl
    · exact .inr ⟨_, h, fun _ => rfl⟩
    · exact .inl h
  rcases hst with h | ⟨st, h, heq⟩
  · rw [h]
  · rw [h]; simp only [heq]

/-! ### Responder -/

variable {slots : List (Option FilledSlot)}

theorem hashLoop_empty {α : Cfg} {β : Crypto} (a : UInt32) (chains : List (Option CertificateChain)) (h : ∀ x ∈ chains, x = none) (n i : Nat) (buf : Bytes) (ds : List (Option Bytes)) :
    Responder.hashLoop c cr a chains n i buf ds = Responder.hashLoop α β a chains n i buf ds := by
  induction n generalizing i with
  | zero => rfl
  | succ n ih =>
    simp only [Responder.hashLoop]
    rcases hx : index chains i with x | e | k
    · simp only [Res.ok_bind]
      have hx0 : x = none := by
        unfold index at hx
        split at hx
        · rename_i y hy
          simp only [Res.ok.injEq] at hx
          subst hx
          exact h _ (List.mem_of_getElem? hy)
        · simp at hx
      subst hx0
      exact ih (i + 1)
    · rfl
    · rfl

theorem dispatch_empty (hs : ∀ s ∈ slots, s = none) (b : Bool) (cr' : Crypto) (env : Env) (st : RspState) (req : Bytes) :
    Responder.dispatch c cr env slots st req = Responder.dispatch { c with provider := b } cr' env slots st req := by
  cases st with
  | version => rfl
  | capabilities => rfl
  | algorithms => rfl
  | error => rfl
  | idAuth n =>
    simp only [Responder.dispatch, Responder.idAuthHandle, Responder.handleGetDigests, Responder.hashCertChains]
    have hc : ∀ x ∈ slots.map (fun s => s.map (·.certChain)), x = none := by
      intro x hx
      obtain ⟨s, h1, h2⟩ := List.mem_map.mp hx
      rw [hs s h1] at h2
      exact h2.symm
    rw [hashLoop_empty (c := c) (cr := cr) (α := { c with provider := b }) (β := cr') _ _ hc]
    rfl
  | challenge n =>
    have hslot : ∀ k, Responder.slotAt slots k = .err .invalidSlot := by
      intro k
      unfold Responder.slotAt
      split
      · rename_i s h
        have := hs _ (List.mem_of_getElem? h)
        simp at this
      · rfl
    simp only [Responder.dispatch, Responder.challengeHandle]
    congr 1
    funext h
    simp only [M.run_bind, M.run_lift, hslot]
    rfl

/-- **C60**, responder: with no filled slot the responder's behaviour over any list of calls is the same with the stubs as with any crypto provider, so no
stub is called. -/
theorem c60_responder_stubs_unused_partial (hs : ∀ s ∈ slots, s = none) (b : Bool) (cr' : Crypto) (calls : List RspCall) :
    behaviour c cr (Responder.new c slots) calls = behaviour { c with provider := b } cr' (Responder.new c slots) calls := by
  have key : ∀ (r : Responder), r.slots = slots → ∀ env req buf,
      Responder.handleMsg c cr env req buf r = Responder.handleMsg { c with provider := b } cr' env req buf r ∧ (Responder.handleMsg c cr env req buf r).2.slots = slots := by
    intro r hr env req buf
    constructor
    · unfold Responder.handleMsg Responder.handle
      rw [hr]
      simp only [dispatch_empty (c := c) (cr := cr) hs b cr' env]
    · unfold Responder.handleMsg
      repeat' split
      all_goals exact hr
  have : ∀ (calls : List RspCall) (r : Responder), r.slots = slots → behaviour c cr r calls = behaviour { c with provider := b } cr' r calls := by
    intro calls
    induction calls with
    | nil => intros; rfl
    | cons x xs ih =>
      intro r hr
      cases x with
      | call env req buf =>
        obtain ⟨h1, h2⟩ := key r hr env req buf
        simp only [behaviour, RspCall.run]
        rw [← h1, ih _ h2]
      | reset => simp only [behaviour, RspCall.run]; rw [ih _ (show r.reset.slots = slots from hr)]
  exact this calls _ rfl

/-- **C60** is false of the responder in general: in a build without a crypto provider, a responder with a filled slot calls the hash stub, and aborts,
on the first GET_DIGESTS after the algorithms were negotiated - although it advertised no capability. -/
theorem c60_responder_stub_called {es : List RspEvent} {r : Responder} (hp : c.provider = false) (hl : slots.length = c.numSlots) (h8 : c.numSlots ≤ 8)
    (run : RspRun c cr slots es r) (ha : alive es = true) (hlast : lastReq es = some 0xE3 ∨ lastReq es = some 0x81) (hf : AnyFilled slots)
    (hfit : ∀ s, some s ∈ slots → (Wire.chain s.certChain).length ≤ c.maxCertChainSize ∧ (Wire.chain s.certChain).length ≤ 65535)
    (env : Env) (req buf : Bytes) (h3 : 3 ≤ req.length) (hr : req.take 2 = [0x11, 0x81]) :
    ∃ k, (Responder.handleMsg c cr env req buf r).1 = .panic k :=
  c58_unusable_hash_aborts hl h8 run ha hlast (.inl hp) hf hfit env req buf h3 hr

/-! ### A concrete build -/

/-- A configuration without capabilities, as a build without the crypto feature needs. -/
def noCryptoToml : SpdmConfig :=
  { numSlots := 2, certBufSize := 64, maxDepth := 2, transcriptBufSize := 512, capabilities := [], maxDigestSize := 64
    asymmetricSigning := ["ECDSA_ECC_NIST_P256"], maxBlocks := 8, maxSize := 1024, maxElements := 2, maxElementDataSize := 16 }

def noCryptoCfg : Cfg :=
  { numSlots := 2, maxCertChainSize := 64, maxCertChainDepth := 2, transcriptSize := 512, maxDigestSize := 64, maxSignatureSize := 64
    maxOpaqueElementDataSize := 16, maxOpaqueElements := 2, maxMeasurementBlocks := 8, maxMeasurementSize := 1024, nonceSize := 4
    capabilities := [], asymSigning := ["ECDSA_ECC_NIST_P256"], provider := false }

/-- It meets the hypotheses of the theorems above. -/
example : ValidConfig false noCryptoToml ∧ Built false noCryptoToml 4 noCryptoCfg ∧
    ∃ consts, SpdmConfig.genConfig false noCryptoToml = .ok consts ∧ SpdmConfig.toCfg false consts 4 = some noCryptoCfg :=
  ⟨⟨by decide, by decide, by decide, by simp [noCryptoToml], by simp [noCryptoToml], fun _ => rfl⟩, by constructor <;> rfl, _, rfl, rfl⟩

/-- What both sides do in that build: three exchanges complete the requester; a further GET_DIGESTS aborts the responder if it has a filled slot and is
answered (with no digest) if it has none. -/
example :
    let reqs : List Bytes := [[0x10, 0x84, 0, 0], [0x11, 0xE1, 0, 0, 0, 12, 0, 0, 0, 0, 0, 0],
      [0x11, 0xE3, 4, 0, 48, 0, 1, 0] ++ [0x10, 0, 0, 0, 1, 0, 0, 0] ++ zeros 16 ++ [2, 0x20, 0x12, 0, 3, 0x20, 6, 0, 4, 0x20, 0x90, 0, 5, 0x20, 1, 0]]
    let calls : List RspCall := (reqs ++ [[0x11, 0x81, 0, 0]]).map fun q => .call ⟨[], 0⟩ q (zeros 100)
    let replies (slots : List (Option FilledSlot)) := (behaviour noCryptoCfg demoCrypto (Responder.new noCryptoCfg slots) calls).map fun e => match e with
      | .call _ _ _ (.ok o) => some o.out
      | _ => none
    (replies demoSlots)[3]? = some none ∧ (replies [none, none])[3]? = some (some [0x11, 0x01, 0, 0]) ∧
    (reqBehaviour noCryptoCfg demoCrypto (Requester.new noCryptoCfg [1, 2, 3])
        ([0, 1, 2].flatMap fun n => [ReqCall.next demoReqEnv (zeros 100), .recv (((replies [none, none])[n]?.getD none).getD [])])).map
      (fun e => match e with | .next _ _ (.ok out) => (out, false) | .recv _ (.ok b) => ([], b) | _ => ([9], false)) =
      [(reqs[0], false), ([], false), (reqs[1], false), ([], false), (reqs[2], false), ([], true)] := by
  decide +kernel

end Spdm

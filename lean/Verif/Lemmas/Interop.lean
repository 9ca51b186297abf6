import Verif.Lemmas.Handshake
import Verif.Lemmas.ReqStep
import Verif.Lemmas.RspInv
import Verif.Spec.Interop
/-!
# Lemmas for two builds talking to each other
-/
namespace Spdm
open Spec

variable {c c' : Cfg} {cr cr' : Crypto} {root : Bytes} {slots : List (Option FilledSlot)} {slot : FilledSlot} {x : Round}

/-- A requester with another number of slots reads the digests it has room for. -/
theorem Digests.readLoop_some (c : Cfg) (hc : c.numSlots ≤ 8) (size : Nat) (get : Nat → Bytes) (fuel : Nat) (bits : UInt8) (ds : List (Option Bytes))
    (hl : ds.length = c.numSlots) (h : ∀ k ∈ setBits bits, (get k).length = size) :
    ∃ bs tail ds', (setBits bits).flatMap get = bs ++ tail ∧ Reads (Digests.readLoop c size fuel bits ds) bs ds' := by
  induction fuel generalizing bits ds with
  | zero => exact ⟨[], _, ds, rfl, Reads.pure _⟩
  | succ fuel ih =>
    have hs := setBits_step bits
    cases hb : setBits bits with
    | nil =>
      rw [hb] at hs
      simp only at hs
      refine ⟨[], [], ds, rfl, ?_⟩
      simp only [Digests.readLoop, hs]
      rw [if_neg (by omega)]
      exact Reads.pure _
    | cons k t =>
      rw [hb] at hs
      obtain ⟨h1, h2, h3⟩ := hs
      have h5 := h k (by rw [hb]; simp)
      by_cases h4 : k < c.numSlots
      · obtain ⟨bs, tail, ds', e, hr⟩ := ih (bits ^^^ UInt8.ofNat (2 ^ k)) (ds.set k (some (get k))) (by simp [hl]) (by rw [h3]; intro j hj; exact h j (by rw [hb]; simp [hj]))
        rw [h3] at e
        refine ⟨get k ++ bs, tail, ds', by simp [e], ?_⟩
        simp only [Digests.readLoop, h1]
        rw [if_pos h4]
        refine (Reads.getSlice _ h5 (Nat.le_refl _)).bind (Reads.lift_bind (setIndex_ok (by omega)) ?_)
        rw [if_pos h2]
        exact hr
      · refine ⟨[], _, ds, rfl, ?_⟩
        simp only [Digests.readLoop, h1]
        rw [if_neg h4]
        exact Reads.pure _

/-- DIGESTS of a responder with any number of slots. -/
theorem Digests.parse_other {size : Nat} {d : Digests} (hc : c.numSlots ≤ 8) (hd : DigestsWF c' size d) : ∃ d', Digests.parseBody c size (Wire.digests d) = .ok d' := by
  obtain ⟨bs, tail, ds', e, hr⟩ := Digests.readLoop_some c hc size (fun k => ((d.digests[k]?).getD none).getD []) 9 d.slotMask (List.replicate c.numSlots none) (by simp) (by
    intro k hk
    obtain ⟨_, _, d, hd, hs⟩ := Digests.mem_setBits hd hk
    simp [hd, hs])
  have e2 : Wire.digests d = (Spec.zeros 1 ++ ([d.slotMask] ++ (bs ++ []))) ++ tail := by
    rw [Digests.setBits_layout hd] at e
    simp [Wire.digests, e]
  have hread : Reads (Digests.read c size) (Spec.zeros 1 ++ ([d.slotMask] ++ (bs ++ []))) ⟨d.slotMask, ds'⟩ :=
    (Reads.zeros 1).bind ((Reads.getByte _).bind (hr.bind (Reads.pure _)))
  have := hread.parse tail
  rw [← e2] at this
  exact ⟨⟨d.slotMask, ds'⟩, this⟩

theorem accept_digests_any {r : Requester} {v : VersionEntry} {caps : Caps} {a : Algorithms} {body : Bytes} {d : Digests} {size : Nat} (hz : BaseHashAlgo.getDigestSize c a.baseHashAlgoSelected = .ok size)
    (h2 : 2 ≤ body.length) (hd : Digests.parseBody c size body = .ok d) (hw : r.transcript.WF) (hs : r.state = some (.idAuth v caps a none))
    (ht : r.transcript.get.length + (2 + body.length) ≤ r.transcript.buf.length) :
    Accepts c cr r (Wire.header .digests ++ body) false (.idAuth v caps a (some d))
      (r.transcript.get ++ (Wire.header .digests ++ body)) := by
  obtain ⟨t, e, g, w, cp⟩ := Requester.extend_run (r := { r with state := none }) (bs := Wire.header .digests ++ body)
    (by exact hw) (by rw [List.length_append, header_length]; exact ht)
  refine accepts_of hs (r1 := { r with transcript := t, state := none }) (st' := .idAuth v caps a (some d)) ?_ ⟨w, cp, rfl⟩ g
  unfold Requester.handle
  simp only
  rw [lift_run (expect_ok (t := .digests) (by rw [List.length_append, header_length]; omega) (List.take_left' (header_length _))), lift_run hz, lift_run (split_body _ _),
    lift_run hd, M.run_bind_ok e]
  rfl

/-- Both endpoints in use, with the same transcript of `n` bytes. -/
structure PairEnds (c c' : Cfg) (root : Bytes) (slots : List (Option FilledSlot)) (st : ReqState) (st' : RspState) (n : Nat) (ends : Requester × Responder) : Prop where
  wf : ends.1.transcript.WF
  cap : ends.1.transcript.buf.length = c.transcriptSize
  root : ends.1.rootCert = root
  state : ends.1.state = some st
  kept : RspKept c' slots ends.2
  state' : ends.2.state = some st'
  same : ends.1.transcript.get = ends.2.transcript.get
  len : ends.1.transcript.get.length = n

theorem pair_exchange_run {ends : Requester × Responder} {st st1 : ReqState} {st2 : RspState} {req rsp T1 T2 : Bytes} {b : Bool} {n : Nat}
    (hw : ends.1.rootCert = root) (hcap : ends.1.transcript.buf.length = c.transcriptSize)
    (h1 : Sends c x.reqEnv x.reqBuf ends.1 req st T1) (h2 : Replies c' cr' x.rspEnv slots req x.rspBuf ends.2 rsp st2 T2)
    (h3 : ∀ r1, r1.transcript.WF → r1.transcript.buf.length = c.transcriptSize → r1.rootCert = root → r1.state = some st → r1.transcript.get = T1 → Accepts c cr r1 rsp b st1 T2) (hn : T2.length = n) :
    ∃ ends', exchange c c' cr cr' x ends = some (b, ends') ∧ PairEnds c c' root slots st1 st2 n ends' := by
  obtain ⟨r1, e1, k1, s1, t1⟩ := h1
  obtain ⟨q1, e2, k2, s2, t2⟩ := h2
  obtain ⟨r2, e3, k3, s3, t3⟩ := h3 r1 k1.wf (k1.cap.trans hcap) (k1.root.trans hw) s1 t1
  refine ⟨(r2, q1), by simp only [exchange, e1, e2, e3], ⟨k3.wf, k3.cap.trans (k1.cap.trans hcap), k3.root.trans (k1.root.trans hw), s3, k2, s2, by simp only [t3, t2], by simp only [t3, hn]⟩⟩

/-- What a successful exchange consisted of. -/
theorem pair_exchange_inv {ends ends' : Requester × Responder} {st : ReqState} {st' : RspState} {b : Bool} (hl : slots.length = c'.numSlots) (h8 : c'.numSlots ≤ 8)
    (hw : ends.1.transcript.WF) (hcap : ends.1.transcript.buf.length = c.transcriptSize) (hs : ends.1.state = some st) (hk : RspKept c' slots ends.2) (hs' : ends.2.state = some st')
    (h : exchange c c' cr cr' x ends = some (b, ends')) :
    ∃ req rsp T1 T2 T3 st1 st2 st3 sg, req.length ≤ x.reqBuf.length ∧ rsp.length ≤ x.rspBuf.length ∧ T2.length ≤ c'.transcriptSize ∧ T3.length ≤ c.transcriptSize ∧
      ReqSend c x.reqEnv st ends.1.transcript.get req T1 st1 ∧ Step c' cr' x.rspEnv slots st' ends.2.transcript.get req rsp T2 sg st2 ∧
      ReqRecv c cr ends.1.rootCert st1 T1 rsp T3 st3 := by
  unfold exchange at h
  rcases hp : Requester.nextRequest c x.reqEnv x.reqBuf ends.1 with ⟨req | e | k, r1⟩ <;> simp only [hp, reduceCtorEq] at h
  obtain ⟨k1, ⟨out, st1, ho, hlen, hs1, hsend⟩ | ⟨hx, _⟩⟩ := next_refines hs hw hp
  swap
  · simp [Res.isOk] at hx
  simp only [Res.ok.injEq] at ho
  subst ho
  have hc := call_outcome (cr := cr') (env := x.rspEnv) (req := req) (buf := x.rspBuf) hl h8 hk hs'
  rcases hp2 : Responder.handleMsg c' cr' x.rspEnv req x.rspBuf ends.2 with ⟨⟨rsp, er⟩ | e | k, q1⟩ <;> rw [hp2] at hc <;> simp only [hp2, reduceCtorEq] at h
  cases er with
  | some e => simp at h
  | none =>
    simp only at h
    rcases hp3 : Requester.handleMsg c cr rsp r1 with ⟨b' | e | k, r2⟩ <;> simp only [hp3, reduceCtorEq] at h
    rcases recv_refines hs1 k1.wf hp3 with ⟨st3, _, _, k3, hrecv⟩ | ⟨hx, _⟩
    swap
    · simp [Res.isOk] at hx
    rw [k1.root] at hrecv
    cases hc with
    | ok hk2 hs2 step hsg h3 hlen2 =>
      refine ⟨req, rsp, _, _, _, st1, _, st3, _, hlen, hlen2, ?_, ?_, hsend, step, hrecv⟩
      · rw [← hk2.cap, Transcript.get_length hk2.wf]; exact hk2.wf
      · rw [← hcap, ← k1.cap, ← k3.cap, Transcript.get_length k3.wf]; exact k3.wf

end Spdm

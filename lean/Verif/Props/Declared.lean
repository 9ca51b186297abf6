import Verif.Spec.Usable
import Verif.Props.Reply
import Verif.Props.Responder
import Verif.Props.Usable
/-!
# C91: the algorithms a slot declares
-/
namespace Spdm
open Spec

section
variable {c : Cfg} {cr : Crypto} {slots slots' : List (Option FilledSlot)}

namespace Declared

theorem at_same (h : SameButDeclared slots slots') (k : Nat) :
    (slots[k]?).map (Option.map fun s => (s.certChain, s.sign)) = (slots'[k]?).map (Option.map fun s => (s.certChain, s.sign)) := by
  unfold SameButDeclared at h
  rw [← List.getElem?_map, ← List.getElem?_map, h]

theorem length_same (h : SameButDeclared slots slots') : slots.length = slots'.length := by
  have := congrArg List.length h
  simpa using this

theorem chains_same (h : SameButDeclared slots slots') :
    slots.map (fun s => s.map (·.certChain)) = slots'.map (fun s => s.map (·.certChain)) := by
  have := congrArg (List.map (Option.map Prod.fst)) h
  simp only [List.map_map] at this
  have e : (Option.map Prod.fst ∘ Option.map fun (s : FilledSlot) => (s.certChain, s.sign)) = fun s => s.map (·.certChain) := by
    funext s; cases s <;> rfl
  rw [e] at this
  exact this

theorem mask_map {α β : Type} (f : α → β) (l : List (Option α)) : ∀ (n i : Nat) (bits : UInt8),
    Responder.slotMaskLoop (l.map (Option.map f)) n i bits = Responder.slotMaskLoop l n i bits
  | 0, _, _ => rfl
  | n + 1, i, bits => by
    have ih := mask_map f l n (i + 1)
    unfold Responder.slotMaskLoop
    have hi : index (l.map (Option.map f)) i = (index l i).map (Option.map f) := by
      unfold index
      rw [List.getElem?_map]
      cases l[i]? <;> rfl
    rw [hi]
    cases index l i with
    | err e => rfl
    | panic k => rfl
    | ok s =>
      cases s with
      | none => exact ih bits
      | some x =>
        simp only [Res.map, Res.ok_bind, Option.map_some, Option.isSome_some, if_true]
        split
        · exact ih _
        · rfl

theorem mask_same (h : SameButDeclared slots slots') : Responder.createSlotMask c slots = Responder.createSlotMask c slots' := by
  unfold Responder.createSlotMask
  rw [← mask_map (fun s : FilledSlot => (s.certChain, s.sign)) slots, ← mask_map (fun s : FilledSlot => (s.certChain, s.sign)) slots']
  unfold SameButDeclared at h
  rw [h]

theorem slotAt_same (h : SameButDeclared slots slots') (k : Nat) :
    (∃ s s' : FilledSlot, Responder.slotAt slots k = .ok s ∧ Responder.slotAt slots' k = .ok s' ∧ s.certChain = s'.certChain ∧ s.sign = s'.sign) ∨
    (Responder.slotAt slots k = .err .invalidSlot ∧ Responder.slotAt slots' k = .err .invalidSlot) := by
  have := at_same h k
  unfold Responder.slotAt
  rcases h1 : slots[k]? with _ | _ | s <;> rcases h2 : slots'[k]? with _ | _ | s' <;> rw [h1, h2] at this <;> simp at this
  · exact .inr ⟨rfl, rfl⟩
  · exact .inr ⟨rfl, rfl⟩
  · exact .inl ⟨s, s', rfl, rfl, this⟩

theorem dispatch_same (h : SameButDeclared slots slots') (env : Env) (st : RspState) (req : Bytes) :
    Responder.dispatch c cr env slots st req = Responder.dispatch c cr env slots' st req := by
  cases st with
  | version => rfl
  | capabilities => rfl
  | algorithms caps => rfl
  | error => rfl
  | idAuth n => simp only [Responder.dispatch, chains_same h]
  | challenge n =>
    simp only [Responder.dispatch, Responder.challengeHandle]
    congr 1
    congr 1
    funext _
    congr 1
    funext ds
    congr 1
    funext ss
    congr 1
    funext body
    congr 1
    funext msg
    rw [mask_same (c := c) h]
    funext st
    rcases slotAt_same h msg.slot.toNat with ⟨s, s', e1, e2, e3, e4⟩ | ⟨e1, e2⟩
    · rw [e1, e2, lift_run (x := Res.ok s) rfl, lift_run (x := Res.ok s') rfl]
      have : ∀ k seed m1, Responder.signWith k s seed m1 = Responder.signWith k s' seed m1 := by
        intro k seed m1
        unfold Responder.signWith
        rw [e4]
      simp only [e3, this]
    · rw [e1, e2]

theorem handleMsg_same (h : SameButDeclared slots slots') {r r' : Responder} (hs : r.slots = slots) (hs' : r'.slots = slots')
    (ht : r.transcript = r'.transcript) (hst : r.state = r'.state) (hsg : r.signed = r'.signed) (env : Env) (req buf : Bytes) :
    (Responder.handleMsg c cr env req buf r).1 = (Responder.handleMsg c cr env req buf r').1 ∧
    (Responder.handleMsg c cr env req buf r).2.slots = slots ∧ (Responder.handleMsg c cr env req buf r').2.slots = slots' ∧
    (Responder.handleMsg c cr env req buf r).2.transcript = (Responder.handleMsg c cr env req buf r').2.transcript ∧
    (Responder.handleMsg c cr env req buf r).2.state = (Responder.handleMsg c cr env req buf r').2.state ∧
    (Responder.handleMsg c cr env req buf r).2.signed = (Responder.handleMsg c cr env req buf r').2.signed := by
  unfold Responder.handleMsg
  rw [← hst]
  cases hrs : r.state with
  | none => exact ⟨rfl, hs, hs', ht, by rw [hrs, ← hst, hrs], hsg⟩
  | some st =>
    have : Responder.handle c cr env r.slots st req ⟨buf, r.transcript, r.signed⟩ = Responder.handle c cr env r'.slots st req ⟨buf, r'.transcript, r'.signed⟩ := by
      unfold Responder.handle
      rw [hs, hs', dispatch_same h, ht, hsg]
    simp only
    rw [this]
    rcases Responder.handle c cr env r'.slots st req ⟨buf, r'.transcript, r'.signed⟩ with ⟨_ | _ | _, h'⟩
    · exact ⟨rfl, hs, hs', rfl, rfl, rfl⟩
    · exact ⟨rfl, hs, hs', rfl, rfl, rfl⟩
    · exact ⟨rfl, hs, hs', rfl, rfl, rfl⟩

theorem behaviour_same (h : SameButDeclared slots slots') (calls : List RspCall) : ∀ (r r' : Responder), r.slots = slots → r'.slots = slots' →
    r.transcript = r'.transcript → r.state = r'.state → r.signed = r'.signed → behaviour c cr r calls = behaviour c cr r' calls := by
  induction calls with
  | nil => intros; rfl
  | cons x xs ih =>
    intro r r' hs hs' ht hst hsg
    cases x with
    | call env req buf =>
      obtain ⟨h1, h2, h3, h4, h5, h6⟩ := handleMsg_same (c := c) (cr := cr) h hs hs' ht hst hsg env req buf
      simp only [behaviour, RspCall.run, h1, ih _ _ h2 h3 h4 h5 h6]
    | reset =>
      simp only [behaviour, RspCall.run]
      rw [ih r.reset r'.reset hs hs' (by simp only [Responder.reset, ht]) rfl hsg]

end Declared

/-- **C91.** What the slots declare about their algorithms has no effect on anything a responder returns, whatever calls are made. -/
theorem c91_declarations_ignored (h : SameButDeclared slots slots') (calls : List RspCall) :
    behaviour c cr (Responder.new c slots) calls = behaviour c cr (Responder.new c slots') calls :=
  Declared.behaviour_same h calls _ _ rfl rfl rfl rfl rfl

/-- Slots with the same chains and signers, every filled one declared for `asym` and `hash`. -/
def redeclare (asym hash : UInt32) (slots : List (Option FilledSlot)) : List (Option FilledSlot) :=
  slots.map (Option.map fun s => { s with signingAlgorithm := asym, hashAlgorithm := hash })

/-- **C91** is false of the code: whatever the slots declare, the responder behaves as if they declared anything else. -/
theorem c91_not_enforced (asym hash : UInt32) (calls : List RspCall) :
    behaviour c cr (Responder.new c (redeclare asym hash slots)) calls = behaviour c cr (Responder.new c slots) calls := by
  apply c91_declarations_ignored
  unfold SameButDeclared redeclare
  rw [List.map_map]
  congr 1
  funext s
  cases s <;> rfl

namespace Declared

/-- The algorithms in force are the answer to an accepted offer. -/
def InForce (es : List RspEvent) (a : Algorithms) : Prop :=
  ∃ x m, x ∈ exchanges es ∧ code x.1 = some 0xE3 ∧ NegotiateAlgorithms.parseBody (x.1.drop 2) = .ok m ∧ Answers m a

theorem InForce.more {es : List RspEvent} {a : Algorithms} (h : InForce es a) (env : Env) (req buf out : Bytes) :
    InForce (es ++ [.call env req buf (.ok ⟨out, none⟩)]) a := by
  obtain ⟨x, m, h1, h2⟩ := h
  exact ⟨x, m, by rw [exchanges_snoc]; exact List.mem_append_left _ h1, h2⟩

theorem in_force (hl : slots.length = c.numSlots) (h8 : c.numSlots ≤ 8) {es : List RspEvent} {r : Responder} (run : RspRun c cr slots es r) :
    alive es = true → ∀ n, r.state = some (.idAuth n) ∨ r.state = some (.challenge n) → InForce es n.algorithms := by
  induction run with
  | new => intro _ n h; rcases h with h | h <;> simp [Responder.new] at h
  | reset run ih => intro _ n h; rcases h with h | h <;> simp [Responder.reset] at h
  | @call es r env req buf run ih =>
    intro ha n h
    rw [alive_snoc] at ha
    rcases hx : (Responder.handleMsg c cr env req buf r).1 with ⟨out, _ | e⟩ | e | k
    · rw [hx] at ha
      have ha' : alive es = true := ha
      obtain ⟨st, st', sg, hlive, hst', step, _, _⟩ := run_step hl h8 run ha' hx
      generalize (Responder.handleMsg c cr env req buf r).2.transcript.get = tr' at step
      rw [hst'] at h
      cases step with
      | getVersion _ hreq => simp at h
      | getCapabilities hreq => simp at h
      | @negotiate _ _ _ m a hreq hp hm hans =>
        have hn : n.algorithms = a := by
          rcases h with h | h <;> simp at h
          rw [← h]
        rw [hn]
        exact ⟨(req, _), m, by rw [exchanges_snoc]; exact List.mem_append_right _ (List.mem_singleton.mpr rfl), code_of_take (t := .negotiateAlgorithms) hreq, hp, hans⟩
      | @getDigests n' =>
        have hn : n' = n := by rcases h with h | h <;> simp at h; exact h
        subst hn
        exact (ih ha' n' (.inl hlive.state)).more ..
      | @getCertificate n' =>
        have hn : n' = n := by rcases h with h | h <;> simp at h; exact h
        subst hn
        exact (ih ha' n' (.inl hlive.state)).more ..
      | @challenge n' =>
        have hn : n' = n := by rcases h with h | h <;> simp at h; exact h
        subst hn
        exact (ih ha' n' (.inr hlive.state)).more ..
    · rw [hx] at ha; simp [addAlive] at ha
    · rw [hx] at ha; simp [addAlive] at ha
    · rw [hx] at ha; simp [addAlive] at ha

end Declared

/-- **C91**, what holds: if in every offer the responder accepted so far the lowest bits are the algorithms its filled slots are declared for, then an answered CHALLENGE is for
a slot that is declared for the algorithms in force. -/
theorem c91_forced_partial (hl : slots.length = c.numSlots) (h8 : c.numSlots ≤ 8) {es : List RspEvent} {r : Responder} (run : RspRun c cr slots es r) (asym hash : Nat)
    (hdecl : ∀ k s, slots[k]? = some (some s) → DeclaredFor slots k asym hash)
    (hoff : ∀ x ∈ exchanges es, code x.1 = some 0xE3 → ∃ m, NegotiateAlgorithms.parseBody (x.1.drop 2) = .ok m ∧ Lowest m.baseAsymAlgo.toNat asym ∧ Lowest m.baseHashAlgo.toNat hash)
    (env : Env) (req buf out : Bytes) (hk : code req = some 0x83) (hok : (Responder.handleMsg c cr env req buf r).1 = .ok ⟨out, none⟩) :
    ∃ k : UInt8, req[2]? = some k ∧ DeclaredFor slots k.toNat (conversation (rspMsgs es)).asym (conversation (rspMsgs es)).hash := by
  have ha := run_alive hl h8 run hok
  obtain ⟨st, st', sg, hlive, _, step, _, _⟩ := run_step hl h8 run ha hok
  generalize (Responder.handleMsg c cr env req buf r).2.transcript.get = tr' at step
  cases step with
  | getVersion _ hreq => rw [hreq, List.append_assoc, code_header] at hk; simp [Wire.header] at hk
  | getCapabilities hreq => rw [hreq, List.append_assoc, code_header] at hk; simp [Wire.header] at hk
  | getDigests _ hreq => rw [code_of_take hreq] at hk; simp [Wire.header] at hk
  | getCertificate hreq => rw [hreq, List.append_assoc, code_header] at hk; simp [Wire.header] at hk
  | negotiate hreq => rw [code_of_take hreq] at hk; simp [Wire.header] at hk
  | @challenge n _ _ tail sig auth m slot mask ds ss hreq hn hds hss hs =>
    obtain ⟨x, o, h1, h2, h3, h4⟩ := Declared.in_force hl h8 run ha n (.inr hlive.state)
    obtain ⟨o', h5, h6, h7⟩ := hoff x h1 h2
    rw [h3, Res.ok.injEq] at h5
    subst h5
    have hw : (conversation (rspMsgs es)).asym = n.algorithms.baseAsymAlgoSelected.toNat ∧ (conversation (rspMsgs es)).hash = n.algorithms.baseHashAlgoSelected.toNat := by
      have hm := hlive.mat
      generalize lastReq es = p at hm
      cases hm with
      | challenge _ hw => exact ⟨hw.asym, hw.hash⟩
    refine ⟨m.slot, by rw [hreq]; rfl, ?_⟩
    rw [hw.1, hw.2, lowest_val_unique h4.asym h6, lowest_val_unique h4.hash h7]
    exact hdecl _ _ hs

/-- **C91**, what holds between endpoints built from one configuration: all slots declared for P-256 and SHA-256, and only the requester's own offer accepted. -/
theorem c91_built_offer_partial {i : SpdmConfig} (hne : i.asymmetricSigning ≠ []) (hl : slots.length = c.numSlots) (h8 : c.numSlots ≤ 8) {es : List RspEvent} {r : Responder}
    (run : RspRun c cr slots es r) (hdecl : ∀ k s, slots[k]? = some (some s) → DeclaredFor slots k 16 1)
    (hoff : ∀ x ∈ exchanges es, code x.1 = some 0xE3 → NegotiateAlgorithms.parseBody (x.1.drop 2) = .ok (builtOffer true i))
    (env : Env) (req buf out : Bytes) (hk : code req = some 0x83) (hok : (Responder.handleMsg c cr env req buf r).1 = .ok ⟨out, none⟩) :
    ∃ k : UInt8, req[2]? = some k ∧ DeclaredFor slots k.toNat (conversation (rspMsgs es)).asym (conversation (rspMsgs es)).hash := by
  apply c91_forced_partial hl h8 run 16 1 hdecl _ env req buf out hk hok
  intro x hx hc
  refine ⟨builtOffer true i, hoff x hx hc, ⟨4, ?_, rfl⟩, 0, ?_, rfl⟩
  · simp only [builtOffer, if_neg hne]
    exact ⟨by decide, by decide⟩
  · simp only [builtOffer, if_true]
    exact ⟨by decide, by decide⟩

end

/-! ### Witnesses -/

/-- The demo slot, declared for P-384 and SHA-384. -/
def p384Slots : List (Option FilledSlot) := redeclare 0x80 2 demoSlots

/-- **C91** is false of the code, a session: the slot is declared for P-384 and SHA-384, and used with P-256 and SHA-256. -/
theorem c91_witness : (behaviour demoCfg demoCrypto (Responder.new demoCfg p384Slots) (demoCalls 6)) = demoEvents 6 ∧ alive (demoEvents 6) = true ∧
    lastReq (demoEvents 6) = some 0x83 ∧ DeclaredFor p384Slots 0 128 2 ∧
    ¬ DeclaredFor p384Slots 0 (conversation (rspMsgs (demoEvents 6))).asym (conversation (rspMsgs (demoEvents 6))).hash := by
  refine ⟨c91_not_enforced 0x80 2 (demoCalls 6), demo_alive 6 (by decide), by decide +kernel, ⟨_, rfl, rfl, rfl⟩, ?_⟩
  have h : (conversation (rspMsgs (demoEvents 6))).asym = 16 := by decide +kernel
  rintro ⟨s, h1, h2, _⟩
  rw [h] at h2
  cases h1
  simp at h2

/-- The hypotheses of the partial theorems are met by the demo session. -/
example : ∃ k : UInt8, demoChallenge[2]? = some k ∧ DeclaredFor demoSlots k.toNat (conversation (rspMsgs (demoEvents 5))).asym (conversation (rspMsgs (demoEvents 5))).hash := by
  have hx : ((Responder.handleMsg demoCfg demoCrypto demoEnv demoChallenge (zeros 200) (demoResponder 5)).1).map (·.error) = .ok none := by decide +kernel
  rcases ho : (Responder.handleMsg demoCfg demoCrypto demoEnv demoChallenge (zeros 200) (demoResponder 5)).1 with ⟨out, e⟩ | e | k
  · rw [ho] at hx
    simp only [Res.map, Res.ok.injEq] at hx
    subst hx
    refine c91_built_offer_partial (i := honestConfig) (by decide) rfl (by decide) (demo_run 5) ?_ ?_ demoEnv demoChallenge (zeros 200) out (by decide) ho
    · intro k s hs
      rcases k with _ | _ | k
      · exact ⟨_, rfl, rfl, rfl⟩
      · simp [demoSlots] at hs
      · simp [demoSlots] at hs
    · have : ∀ x ∈ exchanges (demoEvents 5), code x.1 = some 0xE3 → NegotiateAlgorithms.parseBody (x.1.drop 2) = .ok demoSessionOffer := by decide +kernel
      exact this
  · rw [ho] at hx; simp [Res.map] at hx
  · rw [ho] at hx; simp [Res.map] at hx

end Spdm

import Verif.Spec.Serving
import Verif.Props.Interop
import Verif.Props.Pair
/-! C118: one responder, many requesters. -/
namespace Spdm
open Spec

variable {c' : Cfg} {cr' : Crypto} {slots : List (Option FilledSlot)} {slot : FilledSlot} {i' : SpdmConfig} {n : Nat} {es : List RspEvent} {q : Responder}

theorem behaviour_append (c : Cfg) (cr : Crypto) (r : Responder) (a b : List RspCall) :
    behaviour c cr r (a ++ b) = behaviour c cr r a ++ behaviour c cr (after c cr r a) b := by
  induction a generalizing r with
  | nil => rfl
  | cons x xs ih => simp [behaviour, after, ih]

/-- The calls before a visit leave the responder alive. -/
theorem alive_before (v : Visit) (ha : alive es = true) : alive (es ++ behaviour c' cr' q v.calls) = true := by
  unfold Visit.calls
  cases v.before with
  | none => simpa [behaviour] using ha
  | some calls =>
    simp only
    rw [behaviour_append, ← List.append_assoc]
    simp [behaviour, RspCall.run, alive, List.foldl_append, addAlive]

/-- **C118.**  A responder serves any number of requesters, of different builds and with different roots and verifiers, one after another.  Before each of them it may have been
called with anything at all, however it failed or aborted, if it was then reset.  Every visit completes, and every call of it succeeds. -/
theorem c118_serves_everybody (hv' : ValidConfig true i') (hb' : Built true i' n c') (run : RspRun c' cr' slots es q) (ha : alive es = true) (vs : List Visit)
    (hvs : ∀ v ∈ vs, v.Fair i' c' cr' slots slot n) :
    ∃ q', visits c' cr' vs q = some (vs.map (fun v => List.replicate (v.rounds.length - 1) false ++ [true]), q') := by
  induction vs generalizing es q with
  | nil => exact ⟨q, rfl⟩
  | cons v vs ih =>
    have hf := hvs v (by simp)
    have h8' : c'.numSlots ≤ 8 := by rw [hb'.numSlots]; exact hv'.slots.2
    have run1 := run.more v.calls
    have ha1 : alive (es ++ behaviour c' cr' q v.calls) = true := alive_before v ha
    obtain ⟨⟨r2, q2⟩, ht⟩ := c97_builds_interoperate hf.valid hf.built hv' hb' hf.signing hf.honest run1 ha1 v.rounds hf.number hf.nonces hf.room
    obtain ⟨es1, es1', p1, p2, p3, p4⟩ := talk_delivered ht (.new (c := v.build) (cr := v.verifier) (root := v.root)) run1 (.start _)
    have hne : accepted ([] ++ es1) ≠ [] := by
      intro h
      have h' : accepted es1 = [] := h
      rw [h'] at p4
      have : 0 < v.rounds.length := by
        rw [hf.number]; unfold exchangesNeeded; split <;> (try split) <;> omega
      simp at p4
      omega
    have ha2 := (delivered_log hf.honest.number h8' p3 p1 p2 hne).1
    obtain ⟨q', hq'⟩ := ih p2 ha2 (fun w hw => hvs w (by simp [hw]))
    exact ⟨q', by simp only [visits, ht, hq', List.map_cons]⟩

/-- A responder that is sent nonsense, reset, and visited twice in a row. -/
def demoVisits : List Visit :=
  [⟨honestConfig, honestCfg, honestCrypto, [1, 2, 3], tightRounds, some [.call demoEnv [0x11, 0x83, 0, 0] (zeros 100), .call demoEnv [] []]⟩,
    ⟨honestConfig, honestCfg, honestCrypto, [1, 2, 3], tightRounds, none⟩]

example : ∃ q', visits otherCfg honestCrypto demoVisits (Responder.new otherCfg [some honestSlot]) =
    some ([[false, false, false, false, false, true], [false, false, false, false, false, true]], q') :=
  c118_serves_everybody (slots := [some honestSlot]) (slot := honestSlot) otherConfig_valid otherConfig_built .new rfl demoVisits (by
    intro v hv
    simp only [demoVisits, List.mem_cons, List.not_mem_nil, or_false] at hv
    rcases hv with rfl | rfl <;>
      exact ⟨honestConfig_valid, honestConfig_built, by decide, honest_pair_demo, by decide +kernel, by decide +kernel, tight_room⟩)

/-- Without the reset the same responder refuses. -/
example : alive (behaviour otherCfg honestCrypto (Responder.new otherCfg [some honestSlot]) [.call demoEnv [0x11, 0x83, 0, 0] (zeros 100)]) = false := by decide +kernel

end Spdm

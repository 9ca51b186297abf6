import Verif.Spec.Exact
import Verif.Lemmas.Session
import Mathlib.Data.List.Induction
/-! Conversations without trailing bytes are determined by their transcript. -/
namespace Spdm
open Spec

theorem field_prefix {m p s : Bytes} {i n : Nat} (h : m = p ++ s) (hl : i + n ≤ p.length) : field m i n = field p i n := by
  subst h
  unfold field
  rw [List.drop_append_of_le_length (by omega), List.take_append_of_le_length (by simp; omega)]

theorem code_prefix {m p s : Bytes} (h : m = p ++ s) (hl : 2 ≤ p.length) : code m = code p := by
  subst h
  unfold code
  rw [List.getElem?_append_left (by omega)]

/-- The announced length is a function of the recorded bytes. -/
theorem wireLength_prefix {n : Nat} {l : Log} {m p s x : Bytes} (hm : m = p ++ s) (h : wireLength n l m = some p.length) :
    wireLength n l (p ++ x) = some p.length ∧ 2 ≤ p.length := by
  have h2 : 2 ≤ p.length := by
    unfold wireLength at h
    split at h <;> simp only [Option.some.injEq, reduceCtorEq] at h <;> omega
  refine ⟨?_, h2⟩
  have hc : code (p ++ x) = code m := by rw [code_prefix rfl h2, code_prefix hm h2]
  unfold wireLength at h ⊢
  rw [hc]
  have key : ∀ i k, i + k ≤ p.length → field (p ++ x) i k = field m i k := by
    intro i k hik
    rw [field_prefix rfl hik, field_prefix hm hik]
  split at h <;> simp only [Option.some.injEq, reduceCtorEq] at h ⊢
  all_goals first
    | exact h
    | (rw [key _ _ (by omega)]; exact h)

theorem recorded_prefix (l : Log) (m : Bytes) : ∃ s, m = recorded l m ++ s := by
  unfold recorded
  split
  · exact ⟨_, (List.take_append_drop _ _).symm⟩
  · exact ⟨[], by simp⟩

/-- What is remembered of a message is a function of what is recorded of it. -/
theorem add_recorded {l : Log} {m m' : Bytes} (h : recorded l m = recorded l m') (h2 : 2 ≤ (recorded l m).length) : l.add m = l.add m' := by
  obtain ⟨s, hs⟩ := recorded_prefix l m
  obtain ⟨s', hs'⟩ := recorded_prefix l m'
  have hc : code m = code m' := by rw [code_prefix hs h2, code_prefix hs' (by rw [← h]; exact h2), h]
  unfold recorded at h
  unfold Log.add
  rw [← hc] at h ⊢
  split <;> rename_i hk <;> simp only [hk] at h
  all_goals first
    | (simp only [h])
    | (rw [← h])
    | skip
  all_goals
    split at h
    · rename_i hq; first | exact absurd hq (by decide) | exact absurd hq ‹_›
    · rw [h]

/-- `NoTrailing` from a log. -/
def ExactFrom (n : Nat) (l : Log) (ms : List Bytes) : Prop :=
  ∀ pre m post, ms = pre ++ m :: post → wireLength n (pre.foldl Log.add l) m = some (recorded (pre.foldl Log.add l) m).length

theorem ExactFrom.head {n : Nat} {l : Log} {m : Bytes} {ms : List Bytes} (h : ExactFrom n l (m :: ms)) : wireLength n l m = some (recorded l m).length :=
  h [] m ms rfl

theorem ExactFrom.tail {n : Nat} {l : Log} {m : Bytes} {ms : List Bytes} (h : ExactFrom n l (m :: ms)) : ExactFrom n (l.add m) ms := by
  intro pre x post hx
  exact h (m :: pre) x post (by rw [hx]; rfl)

theorem exact_unique {n : Nat} {ms ms' : List Bytes} {l : Log} (h : ExactFrom n l ms) (h' : ExactFrom n l ms')
    (ht : (records l ms).flatten = (records l ms').flatten) : records l ms = records l ms' ∧ ms.foldl Log.add l = ms'.foldl Log.add l := by
  induction ms generalizing l ms' with
  | nil =>
    cases ms' with
    | nil => exact ⟨rfl, rfl⟩
    | cons m' ms' =>
      obtain ⟨s', hs'⟩ := recorded_prefix l m'
      have := (wireLength_prefix (x := []) hs' h'.head).2
      have := congrArg List.length ht
      simp only [records, List.flatten_cons, List.flatten_nil, List.length_append, List.length_nil] at this
      omega
  | cons m ms ih =>
    obtain ⟨s, hs⟩ := recorded_prefix l m
    have ⟨w1, w2⟩ := wireLength_prefix (x := (records (l.add m) ms).flatten) hs h.head
    cases ms' with
    | nil =>
      have := congrArg List.length ht
      simp only [records, List.flatten_cons, List.flatten_nil, List.length_append, List.length_nil] at this
      omega
    | cons m' ms' =>
      obtain ⟨s', hs'⟩ := recorded_prefix l m'
      have ⟨w1', w2'⟩ := wireLength_prefix (x := (records (l.add m') ms').flatten) hs' h'.head
      simp only [records, List.flatten_cons] at ht
      rw [ht, w1'] at w1
      obtain ⟨e1, e2⟩ := List.append_inj ht (by simpa using w1.symm)
      have ea := add_recorded e1 w2
      rw [← ea] at e2
      obtain ⟨i1, i2⟩ := ih h.tail (by rw [ea]; exact h'.tail) e2
      exact ⟨by simp only [records, e1, ← ea, i1], by simp only [List.foldl_cons, ← ea, i2]⟩

/-! ### The last session -/

theorem sinceVersion_snoc (ms : List Bytes) (m : Bytes) : sinceVersion (ms ++ [m]) = if code m = some 0x84 then [m] else sinceVersion ms ++ [m] := by
  simp [sinceVersion, List.foldl_append]

theorem conversation_since (ms : List Bytes) : conversation (sinceVersion ms) = conversation ms := by
  induction ms using List.reverseRecOn with
  | nil => rfl
  | append_singleton ms m ih =>
    rw [sinceVersion_snoc, conversation_snoc]
    split
    · rename_i h
      simp [conversation, Log.add, h]
    · rw [conversation_snoc, ih]

theorem records_snoc (l : Log) (ms : List Bytes) (m : Bytes) : records l (ms ++ [m]) = records l ms ++ [recorded (ms.foldl Log.add l) m] := by
  induction ms generalizing l with
  | nil => rfl
  | cons x xs ih => simp [records, ih]

/-- The transcript is what is recorded since the last GET_VERSION. -/
theorem since_text (ms : List Bytes) : (conversation ms).text = (records Log.empty (sinceVersion ms)).flatten := by
  induction ms using List.reverseRecOn with
  | nil => rfl
  | append_singleton ms m ih =>
    rw [sinceVersion_snoc, conversation_snoc]
    split
    · rename_i h
      simp [records, recorded, Log.add, h, Log.empty]
    · rename_i h
      have hfold : (sinceVersion ms).foldl Log.add Log.empty = conversation ms := conversation_since ms
      rw [records_snoc, hfold, List.flatten_append, ← ih]
      simp only [List.flatten_cons, List.flatten_nil, List.append_nil]
      unfold Log.add recorded
      split
      · rename_i hk; exact absurd hk h
      all_goals
        rename_i hk
        simp only [hk]
      all_goals
        split
        · rename_i hq; first | exact absurd hq (by decide) | exact absurd hq ‹_›
        · rfl

/-- Two conversations without trailing bytes and with the same transcript are the same. -/
theorem noTrailing_unique {n : Nat} {ms ms' : List Bytes} (h : NoTrailing n (sinceVersion ms)) (h' : NoTrailing n (sinceVersion ms'))
    (ht : (conversation ms).text = (conversation ms').text) :
    records Log.empty (sinceVersion ms) = records Log.empty (sinceVersion ms') ∧ conversation ms = conversation ms' := by
  rw [since_text, since_text] at ht
  obtain ⟨a, b⟩ := exact_unique (n := n) (l := Log.empty) h h' ht
  refine ⟨a, ?_⟩
  rw [← conversation_since ms, ← conversation_since ms']
  exact b

end Spdm

import Verif.Spec.Session
import Verif.Lemmas.ReqStep
/-! Reading messages by position, conversations, sizes. -/
namespace Spdm
open Spec

theorem conversation_append (ms ms' : List Bytes) : conversation (ms ++ ms') = ms'.foldl Log.add (conversation ms) := by
  simp [conversation]

theorem conversation_snoc (ms : List Bytes) (m : Bytes) : conversation (ms ++ [m]) = (conversation ms).add m := by
  simp [conversation]

theorem conversation_snoc2 (ms : List Bytes) (m m' : Bytes) : conversation (ms ++ [m, m']) = ((conversation ms).add m).add m' := by
  simp [conversation]

theorem code_of_take {t : MsgType} {msg : Bytes} (h : msg.take 2 = Wire.header t) : code msg = (Wire.header t)[1]? := by
  rw [← h, code, List.getElem?_take]
  simp

theorem code_header (t : MsgType) (bs : Bytes) : code (Wire.header t ++ bs) = (Wire.header t)[1]? :=
  code_of_take (List.take_left' (header_length t))

/-- Messages that only extend the transcript. -/
theorem add_plain {l : Log} {m : Bytes} {k : UInt8} (hc : code m = some k) (hk : k ∉ ([0x84, 0xE1, 0x61, 0x63, 0x03] : List UInt8)) :
    l.add m = { l with text := l.text ++ m } := by
  unfold Log.add
  rw [hc]
  split <;> first | rfl | (rename_i h; simp only [Option.some.injEq] at h; subst h; exact absurd hk (by decide))

theorem leVal_four (n : Nat) (h : n < 2 ^ 32) : leVal (Spec.le 4 n) = n := by
  simp [Spec.le, leVal, List.range_succ]
  omega

theorem leVal_u32 (x : UInt32) : leVal (Spec.le 4 x.toNat) = x.toNat := leVal_four _ x.toNat_lt

theorem field_at {a b c : Bytes} {i n : Nat} (hi : a.length = i) (hn : b.length = n) : field (a ++ b ++ c) i n = b := by
  unfold field
  rw [List.append_assoc, List.drop_left' hi, List.take_left' hn]


theorem getCapabilities_word {m : GetCapabilities} (tail : Bytes) :
    leVal (field (Wire.header .getCapabilities ++ Wire.getCapabilities m ++ tail) 8 4) = m.flags.toNat := by
  have : Wire.header .getCapabilities ++ Wire.getCapabilities m ++ tail =
      (Wire.header .getCapabilities ++ zeros 3 ++ [m.ctExponent] ++ zeros 2) ++ Spec.le 4 m.flags.toNat ++ tail := by
    simp [Wire.getCapabilities]
  rw [this, field_at (by simp [header_length, zeros]) (le_length _ _), leVal_u32]

theorem capabilities_word {m : Capabilities} (tail : Bytes) :
    leVal (field (Wire.header .capabilities ++ Wire.capabilities m ++ tail) 8 4) = m.flags.toNat := by
  have : Wire.header .capabilities ++ Wire.capabilities m ++ tail =
      (Wire.header .capabilities ++ zeros 3 ++ [m.ctExponent] ++ zeros 2) ++ Spec.le 4 m.flags.toNat ++ tail := by
    simp [Wire.capabilities]
  rw [this, field_at (by simp [header_length, zeros]) (le_length _ _), leVal_u32]

theorem algorithms_words' {a : Algorithms} {len : Nat} {msg tail : Bytes} (hh : msg.take 2 = Wire.header .algorithms)
    (h : msg.drop 2 = [a.numAlgorithmResponses] ++ zeros 1 ++ Spec.le 2 len ++ [a.measurementSpecSelected] ++ zeros 1 ++
        Spec.le 4 a.measurementHashAlgoSelected.toNat ++ Spec.le 4 a.baseAsymAlgoSelected.toNat ++ Spec.le 4 a.baseHashAlgoSelected.toNat ++ zeros 16 ++ tail) :
    leVal (field msg 12 4) = a.baseAsymAlgoSelected.toNat ∧ leVal (field msg 16 4) = a.baseHashAlgoSelected.toNat := by
  rw [← List.take_append_drop 2 msg, hh, h]
  constructor
  · have : Wire.header .algorithms ++ ([a.numAlgorithmResponses] ++ zeros 1 ++ Spec.le 2 len ++ [a.measurementSpecSelected] ++ zeros 1 ++
        Spec.le 4 a.measurementHashAlgoSelected.toNat ++ Spec.le 4 a.baseAsymAlgoSelected.toNat ++ Spec.le 4 a.baseHashAlgoSelected.toNat ++ zeros 16 ++ tail) =
      (Wire.header .algorithms ++ [a.numAlgorithmResponses] ++ zeros 1 ++ Spec.le 2 len ++ [a.measurementSpecSelected] ++ zeros 1 ++
        Spec.le 4 a.measurementHashAlgoSelected.toNat) ++ Spec.le 4 a.baseAsymAlgoSelected.toNat ++ (Spec.le 4 a.baseHashAlgoSelected.toNat ++ zeros 16 ++ tail) := by simp
    rw [this, field_at (by simp [header_length, zeros, le_length]) (le_length _ _), leVal_u32]
  · have : Wire.header .algorithms ++ ([a.numAlgorithmResponses] ++ zeros 1 ++ Spec.le 2 len ++ [a.measurementSpecSelected] ++ zeros 1 ++
        Spec.le 4 a.measurementHashAlgoSelected.toNat ++ Spec.le 4 a.baseAsymAlgoSelected.toNat ++ Spec.le 4 a.baseHashAlgoSelected.toNat ++ zeros 16 ++ tail) =
      (Wire.header .algorithms ++ [a.numAlgorithmResponses] ++ zeros 1 ++ Spec.le 2 len ++ [a.measurementSpecSelected] ++ zeros 1 ++
        Spec.le 4 a.measurementHashAlgoSelected.toNat ++ Spec.le 4 a.baseAsymAlgoSelected.toNat) ++ Spec.le 4 a.baseHashAlgoSelected.toNat ++ (zeros 16 ++ tail) := by simp
    rw [this, field_at (by simp [header_length, zeros, le_length]) (le_length _ _), leVal_u32]

theorem algorithms_words (a : Algorithms) (tail : Bytes) :
    leVal (field (Wire.header .algorithms ++ Wire.algorithms a ++ tail) 12 4) = a.baseAsymAlgoSelected.toNat ∧
    leVal (field (Wire.header .algorithms ++ Wire.algorithms a ++ tail) 16 4) = a.baseHashAlgoSelected.toNat := by
  refine algorithms_words' (len := 36 + 4 * a.numAlgorithmResponses.toNat) (tail := (a.algorithmResponses.take a.numAlgorithmResponses.toNat).flatMap Wire.alg ++ tail)
    (by rw [List.append_assoc]; exact List.take_left' (header_length _)) ?_
  rw [List.append_assoc, List.drop_left' (header_length _)]
  simp [Wire.algorithms, zeros, List.replicate]

/-! ### Sizes -/

theorem sizeFor_pow (table : List Nat) (i : Nat) : sizeFor table (2 ^ i) = (table[i]?).getD 0 := by
  rw [sizeFor, Nat.log2_two_pow]

theorem u32_eq {a : UInt32} {n : Nat} (hn : n < 2 ^ 32) : a = UInt32.ofNat n ↔ a.toNat = n := by
  rw [← UInt32.toNat_inj, UInt32.toNat_ofNat_of_lt' (by simpa [UInt32.size] using hn)]

theorem getDigestSize_ok {c : Cfg} {h : UInt32} {n : Nat} : BaseHashAlgo.getDigestSize c h = .ok n ↔
    ∃ i : Nat, h.toNat = 2 ^ i ∧ digestSizes[i]? = some n ∧ n ≤ c.maxDigestSize := by
  constructor
  · intro e
    unfold BaseHashAlgo.getDigestSize BaseHashAlgo.checkedDigestSize at e
    have key : ∀ {k : Nat}, (if k ≤ c.maxDigestSize then Res.ok k else .panic .unwrapNone) = Res.ok n → k = n ∧ n ≤ c.maxDigestSize := by
      intro k h; split at h
      · simp only [Res.ok.injEq] at h; subst h; exact ⟨rfl, by assumption⟩
      · simp at h
    split at e
    · rename_i h1
      obtain ⟨rfl, hl⟩ := key e
      rcases h1 with rfl | rfl
      · exact ⟨0, rfl, rfl, hl⟩
      · exact ⟨3, rfl, rfl, hl⟩
    · split at e
      · rename_i h1
        obtain ⟨rfl, hl⟩ := key e
        rcases h1 with rfl | rfl
        · exact ⟨1, rfl, rfl, hl⟩
        · exact ⟨4, rfl, rfl, hl⟩
      · split at e
        · rename_i h1
          obtain ⟨rfl, hl⟩ := key e
          rcases h1 with rfl | rfl
          · exact ⟨2, rfl, rfl, hl⟩
          · exact ⟨5, rfl, rfl, hl⟩
        · simp at e
  · rintro ⟨i, hi, ht, hl⟩
    have hi6 : i < 6 := by
      have := (List.getElem?_eq_some_iff.mp ht).1
      simpa [digestSizes] using this
    have : h = UInt32.ofNat (2 ^ i) := (u32_eq (Nat.pow_lt_pow_right (by omega) (by omega))).mpr hi
    subst this
    have hc : i = 0 ∨ i = 1 ∨ i = 2 ∨ i = 3 ∨ i = 4 ∨ i = 5 := by omega
    rcases hc with rfl | rfl | rfl | rfl | rfl | rfl <;> simp [digestSizes] at ht <;> subst ht <;>
      simp [BaseHashAlgo.getDigestSize, BaseHashAlgo.checkedDigestSize, BaseHashAlgo.sha256, BaseHashAlgo.sha384, BaseHashAlgo.sha512,
        BaseHashAlgo.sha3_256, BaseHashAlgo.sha3_384, BaseHashAlgo.sha3_512, hl]

theorem getSignatureSize_ok {c : Cfg} {a : UInt32} {n : Nat} : BaseAsymAlgo.getSignatureSize c a = .ok n ↔
    ∃ i : Nat, a.toNat = 2 ^ i ∧ signatureSizes[i]? = some n ∧ n ≤ c.maxSignatureSize := by
  constructor
  · intro e
    unfold BaseAsymAlgo.getSignatureSize BaseAsymAlgo.checkedSignatureSize at e
    have key : ∀ {k : Nat}, (if k ≤ c.maxSignatureSize then Res.ok k else .panic .unwrapNone) = Res.ok n → k = n ∧ n ≤ c.maxSignatureSize := by
      intro k h; split at h
      · simp only [Res.ok.injEq] at h; subst h; exact ⟨rfl, by assumption⟩
      · simp at h
    split at e
    · rename_i h1
      obtain ⟨rfl, hl⟩ := key e
      rcases h1 with rfl | rfl
      · exact ⟨0, rfl, rfl, hl⟩
      · exact ⟨1, rfl, rfl, hl⟩
    · split at e
      · rename_i h1
        obtain ⟨rfl, hl⟩ := key e
        rcases h1 with rfl | rfl
        · exact ⟨2, rfl, rfl, hl⟩
        · exact ⟨3, rfl, rfl, hl⟩
      · split at e
        · rename_i h1
          obtain ⟨rfl, hl⟩ := key e
          subst h1
          exact ⟨4, rfl, rfl, hl⟩
        · split at e
          · rename_i h1
            obtain ⟨rfl, hl⟩ := key e
            rcases h1 with rfl | rfl
            · exact ⟨5, rfl, rfl, hl⟩
            · exact ⟨6, rfl, rfl, hl⟩
          · split at e
            · rename_i h1
              obtain ⟨rfl, hl⟩ := key e
              subst h1
              exact ⟨7, rfl, rfl, hl⟩
            · split at e
              · rename_i h1
                obtain ⟨rfl, hl⟩ := key e
                subst h1
                exact ⟨8, rfl, rfl, hl⟩
              · simp at e
  · rintro ⟨i, hi, ht, hl⟩
    have hi9 : i < 9 := by
      have := (List.getElem?_eq_some_iff.mp ht).1
      simpa [signatureSizes] using this
    have : a = UInt32.ofNat (2 ^ i) := (u32_eq (Nat.pow_lt_pow_right (by omega) (by omega))).mpr hi
    subst this
    have hc : i = 0 ∨ i = 1 ∨ i = 2 ∨ i = 3 ∨ i = 4 ∨ i = 5 ∨ i = 6 ∨ i = 7 ∨ i = 8 := by omega
    rcases hc with rfl | rfl | rfl | rfl | rfl | rfl | rfl | rfl | rfl <;> simp [signatureSizes] at ht <;> subst ht <;>
      simp [BaseAsymAlgo.getSignatureSize, BaseAsymAlgo.checkedSignatureSize, BaseAsymAlgo.rsassa2048, BaseAsymAlgo.rsapss2048, BaseAsymAlgo.rsassa3072,
        BaseAsymAlgo.rsapss3072, BaseAsymAlgo.ecdsaP256, BaseAsymAlgo.rsassa4096, BaseAsymAlgo.rsapss4096, BaseAsymAlgo.ecdsaP384, BaseAsymAlgo.ecdsaP521, hl]

theorem getSignatureSize_sizeFor {c : Cfg} {a : UInt32} {n : Nat} (h : BaseAsymAlgo.getSignatureSize c a = .ok n) : sizeFor signatureSizes a.toNat = n := by
  obtain ⟨i, h1, h2, _⟩ := getSignatureSize_ok.mp h
  rw [h1, sizeFor_pow, h2]; rfl

theorem getDigestSize_sizeFor {c : Cfg} {a : UInt32} {n : Nat} (h : BaseHashAlgo.getDigestSize c a = .ok n) : sizeFor digestSizes a.toNat = n := by
  obtain ⟨i, h1, h2, _⟩ := getDigestSize_ok.mp h
  rw [h1, sizeFor_pow, h2]; rfl

/-! ### Capability bits -/

theorem contains_bit {x y : UInt32} {k : Nat} (hy : y.toNat = 2 ^ k) : (x &&& y == y) = x.toNat.testBit k := by
  have h : (x &&& y = y) ↔ x.toNat.testBit k = true := by
    rw [← UInt32.toNat_inj, UInt32.toNat_and, hy]
    constructor
    · intro h
      rw [← and_pow_ne, h]
      exact Nat.pos_iff_ne_zero.mp (Nat.two_pow_pos k)
    · intro h
      apply Nat.eq_of_testBit_eq
      intro i
      rw [Nat.testBit_and, Nat.testBit_two_pow]
      by_cases hk : k = i
      · subst hk; simp [h]
      · simp [hk]
  cases hb : x.toNat.testBit k with
  | true => rw [hb] at h; simpa using h.mpr rfl
  | false =>
    rw [hb] at h
    simp only [beq_eq_false_iff_ne, ne_eq]
    simpa using h

theorem bothHave_cert (caps : Caps) : Requester.bothHave caps ReqFlags.certCap RspFlags.certCap =
    (caps.requesterCap.toNat.testBit 1 && caps.responderCap.toNat.testBit 1) := by
  unfold Requester.bothHave
  rw [contains_bit (k := 1) rfl, contains_bit (k := 1) rfl]

theorem bothHave_chal (caps : Caps) : Requester.bothHave caps ReqFlags.chalCap RspFlags.chalCap =
    (caps.requesterCap.toNat.testBit 2 && caps.responderCap.toNat.testBit 2) := by
  unfold Requester.bothHave
  rw [contains_bit (k := 2) rfl, contains_bit (k := 2) rfl]

end Spdm

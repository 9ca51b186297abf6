import Verif.BuildText
import Verif.Spec.ConfigText
import Verif.Props.Config
/-!
# C89: the generated configuration file
-/
namespace Spdm
open Spec

namespace ConfigText

/-- The comments before each constant and the text before its value. -/
def chunks : List (List Char × List Char) :=
  [("// This Source Code Form is subject to the terms of the Mozilla Public\n// License, v. 2.0. If a copy of the MPL was not distributed with this\n// file, You can obtain one at https://mozilla.org/MPL/2.0/.\n".toList,
    "pub const NUM_SLOTS: usize = ".toList),
   ("\n/// The maximum size of a certificate chain supported in the system. The\n/// absolute maximum size supported by the spec is 65536 bytes.".toList,
    "pub const MAX_CERT_CHAIN_SIZE: usize = ".toList),
   ("\n/// The maximum depth of a certificate chain\n/// We limit this only to be able to size arrays of references properly.".toList,
    "pub const MAX_CERT_CHAIN_DEPTH: usize = ".toList),
   ("\n/// This must be larger than MAX_CERT_CHAIN_SIZE".toList,
    "pub const TRANSCRIPT_SIZE: usize = ".toList),
   ("\n/// The maximum size of a hash in bytes.".toList,
    "pub const MAX_DIGEST_SIZE: usize = ".toList),
   ("\n/// The maximum size of a signature in bytes".toList,
    "pub const MAX_SIGNATURE_SIZE: usize = ".toList),
   ("\n/// The maximum size of an opaque element data from table 93 in v1.2.0 of the SPDM spec".toList,
    "pub const MAX_OPAQUE_ELEMENT_DATA_SIZE: usize = ".toList),
   ("\n/// The maximum number of opaque elements from table 92 in v1.2.0 of the SPDM spec".toList,
    "pub const MAX_OPAQUE_ELEMENTS: usize = ".toList),
   ("\n/// The maximum number of measurement blocks available".toList,
    "pub const MAX_MEASUREMENT_BLOCKS: usize = ".toList),
   ("\n/// The maximum size of an individual measurement".toList,
    "pub const MAX_MEASUREMENT_SIZE: usize = ".toList),
   ("\n// The capabilities for a given endpoint\n//\n// We don't break these up into requester and responder roles, because it is\n// expected that an endpoint will act as both requester and responder in different\n// contexts.".toList,
    "pub const CAPABILITIES: &'static [&'static str] = &".toList),
   ("\n/// All supported asymmetric signing algorithms".toList,
    "pub const ALGORITHMS_ASYMMETRIC_SIGNING: &'static [&'static str] = &".toList)]

/-- The parts of the template from the second one on, for the given chunks. -/
def tailPieces : List (List Char × List Char) → List (List Char)
  | [] => [[';', '\n']]
  | (h, p) :: r => (';' :: '\n' :: (h ++ '\n' :: p)) :: tailPieces r

def pieces : List (List Char × List Char) → List (List Char)
  | [] => []
  | (h, p) :: r => (h ++ '\n' :: p) :: tailPieces r

theorem template_split : SpdmConfig.splitBraces [] SpdmConfig.templateText = pieces chunks := by decide +kernel

def body : List (List Char × List Char) → List (List Char) → List Char
  | (h, p) :: r, a :: as => h ++ '\n' :: (p ++ a ++ (';' :: '\n' :: body r as))
  | _, _ => []

theorem tail_body : ∀ (cs : List (List Char × List Char)) (as : List (List Char)), as.length = cs.length →
    ((tailPieces cs).zip (as ++ [[]])).flatMap (fun x => x.1 ++ x.2) = ';' :: '\n' :: body cs as
  | [], [], _ => rfl
  | (h, p) :: r, a :: as, hl => by
    have := tail_body r as (by simpa using hl)
    simp only [tailPieces, List.cons_append, List.zip_cons_cons, List.flatMap_cons, this, body, List.append_assoc]

theorem pieces_body (cs : List (List Char × List Char)) (as : List (List Char)) (hl : as.length = cs.length) (h0 : cs ≠ []) :
    ((pieces cs).zip (as ++ [[]])).flatMap (fun x => x.1 ++ x.2) = body cs as := by
  cases cs with
  | nil => exact absurd rfl h0
  | cons x r =>
    obtain ⟨h, p⟩ := x
    cases as with
    | nil => simp at hl
    | cons a as =>
      have := tail_body r as (by simpa using hl)
      simp only [pieces, List.cons_append, List.zip_cons_cons, List.flatMap_cons, this, body, List.append_assoc]

theorem textLines_ne (t : List Char) : textLines t ≠ [] := by
  cases t with
  | nil => simp [textLines]
  | cons ch r => 
    unfold textLines
    split
    · simp
    · split <;> simp

theorem textLines_append (a b : List Char) : textLines (a ++ '\n' :: b) = textLines a ++ textLines b := by
  induction a with
  | nil => simp [textLines]
  | cons ch r ih =>
    simp only [List.cons_append]
    rw [textLines, textLines]
    by_cases h : ch = '\n'
    · simp [h, ih]
    · simp only [h, if_false, ih]
      cases hr : textLines r with
      | nil => exact absurd hr (textLines_ne r)
      | cons l ls => rfl

theorem textLines_line (a : List Char) (h : '\n' ∉ a) : textLines a = [a] := by
  induction a with
  | nil => rfl
  | cons ch r ih =>
    rw [textLines, ih (fun hm => h (by simp [hm]))]
    rw [if_neg (fun e => h (by simp [e]))]

/-- The code of a body whose comments are comments and whose declarations are single lines. -/
theorem body_code : ∀ (cs : List (List Char × List Char)) (as : List (List Char)), as.length = cs.length →
    (∀ x ∈ cs, codeLines x.1 = [] ∧ '\n' ∉ x.2 ∧ 'p' :: x.2.tail = x.2) → (∀ a ∈ as, '\n' ∉ a) →
    codeLines (body cs as) = (cs.zip as).map (fun x => x.1.2 ++ x.2 ++ [';'])
  | [], [], _, _, _ => rfl
  | (h, p) :: r, a :: as, hl, hc, ha => by
    have ih := body_code r as (by simpa using hl) (fun x hx => hc x (by simp [hx])) (fun x hx => ha x (by simp [hx]))
    obtain ⟨h1, h2, h3⟩ := hc (h, p) (by simp)
    have ha1 := ha a (by simp)
    simp only at h1 h2 h3
    have e : body ((h, p) :: r) (a :: as) = h ++ '\n' :: ((p ++ a ++ [';']) ++ '\n' :: body r as) := by simp [body]
    have hcode : isCode (p ++ a ++ [';']) = true := by rw [← h3]; rfl
    have hnl : '\n' ∉ p ++ a ++ [';'] := by
      simp only [List.mem_append, List.mem_singleton, not_or]
      exact ⟨⟨h2, ha1⟩, by decide⟩
    rw [e, codeLines, textLines_append, textLines_append, textLines_line _ hnl, List.filter_append, List.filter_append]
    unfold codeLines at ih h1
    rw [h1, ih]
    simp only [List.filter_cons, hcode, if_true, List.filter_nil, List.nil_append, List.singleton_append, List.zip_cons_cons, List.map_cons]

theorem chunks_ok : ∀ x ∈ chunks, codeLines x.1 = [] ∧ '\n' ∉ x.2 ∧ 'p' :: x.2.tail = x.2 := by decide +kernel

/-- The decimal digits of a number. -/
theorem decimal_numeral (n : Nat) : Numeral (SpdmConfig.decimal n) n := by
  induction n using Nat.strongRecOn with
  | _ n ih =>
    unfold SpdmConfig.decimal
    rw [Nat.toDigits_eq_if (by decide)]
    have dig : ∀ d, d < 10 → (Nat.digitChar d).toNat = 48 + d := by decide
    by_cases h : n < 10
    · rw [if_pos h]
      refine ⟨by simp, ?_, ?_⟩
      · intro ch hm
        rw [List.mem_singleton.mp hm, dig n h]; omega
      · simp [digitsValue, dig n h]
    · rw [if_neg h]
      obtain ⟨h1, h2, h3⟩ := ih (n / 10) (by omega)
      unfold SpdmConfig.decimal at h1 h2 h3
      have hd := dig (n % 10) (by omega)
      refine ⟨by simp, ?_, ?_⟩
      · intro ch hm
        rcases List.mem_append.mp hm with hm | hm
        · exact h2 ch hm
        · rw [List.mem_singleton.mp hm, hd]; omega
      · unfold digitsValue at h3 ⊢
        rw [List.foldl_append, h3]
        simp only [List.foldl_cons, List.foldl_nil, hd]
        omega

theorem numeral_line {v : List Char} {n : Nat} (h : Numeral v n) : '\n' ∉ v := by
  intro hm
  have := (h.2.1 _ hm).1
  revert this; decide

theorem escape_plain {ch : Char} (h1 : ch ≠ '"') (h2 : ch ≠ '\\') (h3 : ch ≠ '\n') (h4 : ch ≠ '\r') (h5 : ch ≠ '\t') (h6 : ch ≠ '\x00') :
    SpdmConfig.escapeDebug ch = [ch] := by simp [SpdmConfig.escapeDebug, h1, h2, h3, h4, h5, h6]

/-- The names a configuration may contain are printed as plain literals. -/
theorem debugStr_name {s : String} (h : s = "ECDSA_ECC_NIST_P256" ∨ ∃ k, (s, k) ∈ capabilityBits) :
    SpdmConfig.debugStr s = literal s ∧ Plain s := by
  have key : ∀ x ∈ ["ECDSA_ECC_NIST_P256", "CERT_CAP", "CHAL_CAP", "ENCRYPT_CAP", "MAC_CAP", "MUT_AUTH_CAP", "KEY_EX_CAP", "KEY_UPD_CAP"],
      SpdmConfig.debugStr x = literal x ∧ ∀ ch ∈ x.toList, ch ≠ '"' ∧ ch ≠ '\\' ∧ ch ≠ '\n' := by decide +kernel
  apply key
  rcases h with rfl | ⟨k, hk⟩
  · simp
  · simp only [capabilityBits, List.mem_cons, Prod.mk.injEq, List.not_mem_nil, or_false] at hk
    rcases hk with ⟨rfl, rfl⟩ | ⟨rfl, rfl⟩ | ⟨rfl, rfl⟩ | ⟨rfl, rfl⟩ | ⟨rfl, rfl⟩ | ⟨rfl, rfl⟩ | ⟨rfl, rfl⟩ <;> simp

theorem debugElems_list : ∀ (l : List String), (∀ s ∈ l, SpdmConfig.debugStr s = literal s) → SpdmConfig.debugElems l = commaList (l.map literal)
  | [], _ => rfl
  | [s], h => h s (by simp)
  | s :: s' :: ss, h => by
    have ih := debugElems_list (s' :: ss) (fun x hx => h x (by simp [hx]))
    rw [SpdmConfig.debugElems, ih, h s (by simp)]
    · simp only [List.map_cons, commaList, List.append_assoc]; rfl
    · simp

theorem names_array {l : List String} (h : ∀ s ∈ l, s = "ECDSA_ECC_NIST_P256" ∨ ∃ k, (s, k) ∈ capabilityBits) :
    ArrayOf (SpdmConfig.debugNames l) l :=
  ⟨by rw [SpdmConfig.debugNames, debugElems_list l (fun s hs => (debugStr_name (h s hs)).1)], fun s hs => (debugStr_name (h s hs)).2⟩

theorem commaList_line : ∀ (vs : List (List Char)), (∀ v ∈ vs, '\n' ∉ v) → '\n' ∉ commaList vs
  | [], _ => by simp [commaList]
  | [v], h => h v (by simp)
  | v :: v' :: vs, h => by
    have ih := commaList_line (v' :: vs) (fun x hx => h x (by simp [hx]))
    simp only [commaList, List.mem_append, not_or] at ih ⊢
    exact ⟨⟨h v (by simp), by decide⟩, ih⟩

theorem array_line {v : List Char} {l : List String} (h : ArrayOf v l) : '\n' ∉ v := by
  rw [h.1]
  have := commaList_line (l.map literal) (by
    intro x hx
    obtain ⟨s, hs, rfl⟩ := List.mem_map.mp hx
    simp only [literal, List.mem_cons, List.mem_append, List.not_mem_nil, or_false, not_or]
    exact ⟨by decide, fun hm => (h.2 s hs _ hm).2.2 rfl, by decide⟩)
  simp only [List.mem_cons, List.mem_append, List.not_mem_nil, or_false, not_or]
  exact ⟨by decide, this, by decide⟩

theorem genText_same (crypto : Bool) (i : SpdmConfig) :
    (∀ e, SpdmConfig.genText crypto i = .error e ↔ SpdmConfig.genConfig crypto i = .error e) ∧
    ((∃ t, SpdmConfig.genText crypto i = .ok t) ↔ ∃ consts, SpdmConfig.genConfig crypto i = .ok consts) := by
  unfold SpdmConfig.genText SpdmConfig.genConfig
  cases SpdmConfig.maxSignatureSize i.asymmetricSigning with
  | error e => simp [bind, Except.bind]
  | ok n =>
    cases SpdmConfig.validateCertChains i with
    | error e => simp [bind, Except.bind]
    | ok u =>
      cases SpdmConfig.validateCapabilities crypto i.capabilities with
      | error e => simp [bind, Except.bind]
      | ok u => simp [bind, Except.bind, pure, Except.pure]

end ConfigText

/-- **C89.** The build script writes a file exactly for the valid configurations. -/
theorem c89_accepts_valid (crypto : Bool) (i : SpdmConfig) : (∃ t, SpdmConfig.genText crypto i = .ok t) ↔ ValidConfig crypto i :=
  (ConfigText.genText_same crypto i).2.trans (c53_accepts_valid crypto i)

/-- **C89.** The text of a written file is, apart from comments, exactly the twelve constant declarations, with the configured values. -/
theorem c89_file (crypto : Bool) (i : SpdmConfig) (t : List Char) (h : SpdmConfig.genText crypto i = .ok t) : ConfigFile i t := by
  have hv := (c89_accepts_valid crypto i).mp ⟨t, h⟩
  have hs := (maxSignatureSize_ok i.asymmetricSigning).mpr hv.signing
  have ht : t = (((ConfigText.pieces ConfigText.chunks).zip (i.textParams 64)).flatMap (fun x => x.1 ++ x.2)) := by
    unfold SpdmConfig.genText at h
    rw [hs, ConfigText.template_split] at h
    simp only [bind, Except.bind] at h
    cases h1 : SpdmConfig.validateCertChains i with
    | error e => rw [h1] at h; cases h
    | ok u =>
      rw [h1] at h
      cases h2 : SpdmConfig.validateCapabilities crypto i.capabilities with
      | error e => rw [h2] at h; cases h
      | ok u => rw [h2] at h; exact (Except.ok.inj h).symm
  have n := ConfigText.decimal_numeral
  have hcaps := ConfigText.names_array (l := i.capabilities) (fun s hs => .inr (hv.names s hs))
  have hasym := ConfigText.names_array (l := i.asymmetricSigning) (fun s hs => .inl (hv.signing s hs))
  refine ⟨_, _, _, _, _, _, _, _, _, _, _, _, ?_, n _, n _, n _, n _, n _, n _, n _, n _, n _, n _, hcaps, hasym⟩
  let as : List (List Char) := [SpdmConfig.decimal i.numSlots, SpdmConfig.decimal i.certBufSize, SpdmConfig.decimal i.maxDepth,
    SpdmConfig.decimal i.transcriptBufSize, SpdmConfig.decimal i.maxDigestSize, SpdmConfig.decimal 64, SpdmConfig.decimal i.maxElementDataSize,
    SpdmConfig.decimal i.maxElements, SpdmConfig.decimal i.maxBlocks, SpdmConfig.decimal i.maxSize, SpdmConfig.debugNames i.capabilities,
    SpdmConfig.debugNames i.asymmetricSigning]
  have hp : i.textParams 64 = as ++ [[]] := rfl
  rw [ht, hp, ConfigText.pieces_body _ _ rfl (by decide), ConfigText.body_code _ _ rfl ConfigText.chunks_ok]
  · have hpre : ConfigText.chunks.map (·.2) =
        [("pub const " ++ "NUM_SLOTS" ++ ": " ++ "usize" ++ " = ").toList, ("pub const " ++ "MAX_CERT_CHAIN_SIZE" ++ ": " ++ "usize" ++ " = ").toList,
         ("pub const " ++ "MAX_CERT_CHAIN_DEPTH" ++ ": " ++ "usize" ++ " = ").toList, ("pub const " ++ "TRANSCRIPT_SIZE" ++ ": " ++ "usize" ++ " = ").toList,
         ("pub const " ++ "MAX_DIGEST_SIZE" ++ ": " ++ "usize" ++ " = ").toList, ("pub const " ++ "MAX_SIGNATURE_SIZE" ++ ": " ++ "usize" ++ " = ").toList,
         ("pub const " ++ "MAX_OPAQUE_ELEMENT_DATA_SIZE" ++ ": " ++ "usize" ++ " = ").toList, ("pub const " ++ "MAX_OPAQUE_ELEMENTS" ++ ": " ++ "usize" ++ " = ").toList,
         ("pub const " ++ "MAX_MEASUREMENT_BLOCKS" ++ ": " ++ "usize" ++ " = ").toList, ("pub const " ++ "MAX_MEASUREMENT_SIZE" ++ ": " ++ "usize" ++ " = ").toList,
         ("pub const " ++ "CAPABILITIES" ++ ": " ++ "&'static [&'static str]" ++ " = ").toList ++ ['&'],
         ("pub const " ++ "ALGORITHMS_ASYMMETRIC_SIGNING" ++ ": " ++ "&'static [&'static str]" ++ " = ").toList ++ ['&']] := by decide +kernel
    have hz : (ConfigText.chunks.zip as).map (fun x => x.1.2 ++ x.2 ++ [';']) = ((ConfigText.chunks.map (·.2)).zip as).map (fun x => x.1 ++ x.2 ++ [';']) := by
      rw [List.zip_map_left, List.map_map]; rfl
    rw [hz, hpre]
    simp only [as, List.zip_cons_cons, List.zip_nil_left, List.map_cons, List.map_nil, declares, List.append_assoc, List.cons_append, List.nil_append]
  · intro a ha
    simp only [as, List.mem_cons, List.not_mem_nil, or_false] at ha
    rcases ha with rfl | rfl | rfl | rfl | rfl | rfl | rfl | rfl | rfl | rfl | rfl | rfl
    all_goals first | exact ConfigText.numeral_line (n _) | exact ConfigText.array_line hcaps | exact ConfigText.array_line hasym

namespace ConfigText

theorem numeral_unique {v : List Char} {n m : Nat} (h1 : Numeral v n) (h2 : Numeral v m) : n = m := h1.2.2.symm.trans h2.2.2

/-- A text without quotes ends at the first quote. -/
theorem quote_cut : ∀ (a b r r' : List Char), '"' ∉ a → '"' ∉ b → a ++ '"' :: r = b ++ '"' :: r' → a = b ∧ r = r'
  | [], [], r, r', _, _, h => by simpa using h
  | [], y :: b, r, r', _, hb, h => by
    simp only [List.nil_append, List.cons_append, List.cons.injEq] at h
    exact absurd (by simp [← h.1]) hb
  | x :: a, [], r, r', ha, _, h => by
    simp only [List.nil_append, List.cons_append, List.cons.injEq] at h
    exact absurd (by simp [h.1]) ha
  | x :: a, y :: b, r, r', ha, hb, h => by
    simp only [List.cons_append, List.cons.injEq] at h
    obtain ⟨h1, h2⟩ := quote_cut a b r r' (fun hm => ha (by simp [hm])) (fun hm => hb (by simp [hm])) h.2
    exact ⟨by rw [h.1, h1], h2⟩

theorem plain_quote {s : String} (h : Plain s) : '"' ∉ s.toList := fun hm => (h _ hm).1 rfl

theorem commaList_cons (s : String) (ss : List String) (e : List Char) :
    commaList ((s :: ss).map literal) ++ e = '"' :: (s.toList ++ '"' :: ((if ss = [] then [] else ',' :: ' ' :: commaList (ss.map literal)) ++ e)) := by
  cases ss with
  | nil => simp [commaList, literal]
  | cons s' ss =>
    simp only [List.map_cons, commaList, literal, List.append_assoc, List.cons_append, reduceCtorEq, if_false]
    rfl

theorem array_unique_aux : ∀ (l l' : List String), (∀ s ∈ l, Plain s) → (∀ s ∈ l', Plain s) →
    commaList (l.map literal) ++ [']'] = commaList (l'.map literal) ++ [']'] → l = l'
  | [], [], _, _, _ => rfl
  | [], s :: ss, _, _, h => by
    rw [commaList_cons] at h
    simp [commaList] at h
  | s :: ss, [], _, _, h => by
    rw [commaList_cons] at h
    simp [commaList] at h
  | s :: ss, s' :: ss', hp, hp', h => by
    rw [commaList_cons, commaList_cons] at h
    simp only [List.cons.injEq, true_and] at h
    obtain ⟨h1, h2⟩ := quote_cut _ _ _ _ (plain_quote (hp s (by simp))) (plain_quote (hp' s' (by simp))) h
    have hs : s = s' := String.toList_inj.mp h1
    have hss : ss = ss' := by
      by_cases he : ss = [] <;> by_cases he' : ss' = []
      · rw [he, he']
      · simp [he, he'] at h2
      · simp [he, he'] at h2
      · simp only [he, he', if_false, List.cons_append, List.cons.injEq, true_and] at h2
        exact array_unique_aux ss ss' (fun x hx => hp x (by simp [hx])) (fun x hx => hp' x (by simp [hx])) h2
    rw [hs, hss]

theorem array_unique {v : List Char} {l l' : List String} (h1 : ArrayOf v l) (h2 : ArrayOf v l') : l = l' := by
  have := h1.1.symm.trans h2.1
  simp only [List.cons.injEq, true_and] at this
  exact array_unique_aux l l' h1.2 h2.2 this

theorem declares_inj {n t : String} {v w : List Char} (h : declares n t v = declares n t w) : v = w := by
  unfold declares at h
  exact List.append_cancel_left (List.append_cancel_right h)

end ConfigText

/-- **C89.** A file says one thing: a file that describes two configurations describes one. -/
theorem c89_one_meaning {t : List Char} {i j : SpdmConfig} (hi : ConfigFile i t) (hj : ConfigFile j t) : i = j := by
  obtain ⟨a1, a2, a3, a4, a5, a6, a7, a8, a9, a10, a11, a12, ha, p1, p2, p3, p4, p5, p6, p7, p8, p9, p10, p11, p12⟩ := hi
  obtain ⟨b1, b2, b3, b4, b5, b6, b7, b8, b9, b10, b11, b12, hb, q1, q2, q3, q4, q5, q6, q7, q8, q9, q10, q11, q12⟩ := hj
  have h := ha.symm.trans hb
  simp only [List.cons.injEq, and_true] at h
  obtain ⟨h1, h2, h3, h4, h5, h6, h7, h8, h9, h10, h11, h12⟩ := h
  have e1 := ConfigText.declares_inj h1
  have e2 := ConfigText.declares_inj h2
  have e3 := ConfigText.declares_inj h3
  have e4 := ConfigText.declares_inj h4
  have e5 := ConfigText.declares_inj h5
  have e7 := ConfigText.declares_inj h7
  have e8 := ConfigText.declares_inj h8
  have e9 := ConfigText.declares_inj h9
  have e10 := ConfigText.declares_inj h10
  have e11 := List.cons.inj (ConfigText.declares_inj h11) |>.2
  have e12 := List.cons.inj (ConfigText.declares_inj h12) |>.2
  subst e1 e2 e3 e4 e5 e7 e8 e9 e10 e11 e12
  have n := @ConfigText.numeral_unique
  have r := @ConfigText.array_unique
  cases i; cases j
  simp only [SpdmConfig.mk.injEq]
  exact ⟨n p1 q1, n p2 q2, n p3 q3, n p4 q4, r p11 q11, n p5 q5, r p12 q12, n p9 q9, n p10 q10, n p8 q8, n p7 q7⟩

/-- Both configurations shipped with the crate are accepted: spdm-config-crypto.toml with the provider, spdm-config.toml without. -/
example : (∃ t, SpdmConfig.genText true cryptoToml = .ok t ∧ declares "TRANSCRIPT_SIZE" "usize" "4096".toList ∈ codeLines t) ∧
    ∃ t, SpdmConfig.genText false { cryptoToml with capabilities := [] } = .ok t ∧
      declares "CAPABILITIES" "&'static [&'static str]" "&[]".toList ∈ codeLines t := by
  refine ⟨?_, ?_⟩
  · have hv : ValidConfig true cryptoToml := (c53_accepts_valid _ _).mp ⟨_, rfl⟩
    obtain ⟨t, ht⟩ := (c89_accepts_valid _ _).mpr hv
    refine ⟨t, ht, ?_⟩
    have : t = (match SpdmConfig.genText true cryptoToml with | .ok t => t | .error _ => []) := by rw [ht]
    rw [this]; decide +kernel
  · have hv : ValidConfig false { cryptoToml with capabilities := [] } := (c53_accepts_valid _ _).mp ⟨_, rfl⟩
    obtain ⟨t, ht⟩ := (c89_accepts_valid _ _).mpr hv
    refine ⟨t, ht, ?_⟩
    have : t = (match SpdmConfig.genText false { cryptoToml with capabilities := [] } with | .ok t => t | .error _ => []) := by rw [ht]
    rw [this]; decide +kernel

end Spdm

import Verif.Spec.Config
/-!
# What a generated configuration file must say

A file is a list of characters.  The reader of such a file (the Rust compiler) skips blank lines and comment lines; what is left must be exactly
the twelve constant declarations, each on its own line.
-/
namespace Spdm.Spec

/-- The lines of a text. -/
def textLines : List Char → List (List Char)
  | [] => [[]]
  | ch :: r =>
    if ch = '\n' then [] :: textLines r
    else match textLines r with
      | [] => [[ch]]
      | l :: ls => (ch :: l) :: ls

/-- A line that is neither empty nor a comment. -/
def isCode (l : List Char) : Bool := !(l.isEmpty || ['/', '/'].isPrefixOf l)

/-- The code of a file. -/
def codeLines (t : List Char) : List (List Char) := (textLines t).filter isCode

/-- The value of a string of decimal digits, the most significant first. -/
def digitsValue (v : List Char) : Nat := v.foldl (fun acc ch => 10 * acc + (ch.toNat - 48)) 0

/-- `v` is an unsigned decimal literal with value `n`. -/
def Numeral (v : List Char) (n : Nat) : Prop := v ≠ [] ∧ (∀ ch ∈ v, 48 ≤ ch.toNat ∧ ch.toNat ≤ 57) ∧ digitsValue v = n

/-- A string literal: the characters in quotes. -/
def literal (s : String) : List Char := '"' :: (s.toList ++ ['"'])

/-- No character needs an escape in a literal. -/
def Plain (s : String) : Prop := ∀ ch ∈ s.toList, ch ≠ '"' ∧ ch ≠ '\\' ∧ ch ≠ '\n'

/-- Texts separated by a comma and a space. -/
def commaList : List (List Char) → List Char
  | [] => []
  | [v] => v
  | v :: vs => v ++ ", ".toList ++ commaList vs

/-- `v` is an array expression of string literals for `l`. -/
def ArrayOf (v : List Char) (l : List String) : Prop := v = '[' :: (commaList (l.map literal) ++ [']']) ∧ ∀ s ∈ l, Plain s

/-- `pub const NAME: TYPE = VALUE;` -/
def declares (name type : String) (v : List Char) : List Char := ("pub const " ++ name ++ ": " ++ type ++ " = ").toList ++ v ++ [';']

/-- The file `t` declares exactly the constants of the configuration, with 64 byte signatures. -/
def ConfigFile (i : SpdmConfig) (t : List Char) : Prop :=
  ∃ slots chain depth transcript digest sig elemData elems blocks size caps asym : List Char,
    codeLines t =
      [declares "NUM_SLOTS" "usize" slots, declares "MAX_CERT_CHAIN_SIZE" "usize" chain, declares "MAX_CERT_CHAIN_DEPTH" "usize" depth,
       declares "TRANSCRIPT_SIZE" "usize" transcript, declares "MAX_DIGEST_SIZE" "usize" digest, declares "MAX_SIGNATURE_SIZE" "usize" sig,
       declares "MAX_OPAQUE_ELEMENT_DATA_SIZE" "usize" elemData, declares "MAX_OPAQUE_ELEMENTS" "usize" elems,
       declares "MAX_MEASUREMENT_BLOCKS" "usize" blocks, declares "MAX_MEASUREMENT_SIZE" "usize" size,
       declares "CAPABILITIES" "&'static [&'static str]" ('&' :: caps),
       declares "ALGORITHMS_ASYMMETRIC_SIGNING" "&'static [&'static str]" ('&' :: asym)] ∧
    Numeral slots i.numSlots ∧ Numeral chain i.certBufSize ∧ Numeral depth i.maxDepth ∧ Numeral transcript i.transcriptBufSize ∧
    Numeral digest i.maxDigestSize ∧ Numeral sig 64 ∧ Numeral elemData i.maxElementDataSize ∧ Numeral elems i.maxElements ∧
    Numeral blocks i.maxBlocks ∧ Numeral size i.maxSize ∧ ArrayOf caps i.capabilities ∧ ArrayOf asym i.asymmetricSigning

end Spdm.Spec

import Verif.BuildCfg
/-!
# The text of the generated configuration: build.rs `gen_config` on characters, and config.rs.template itself

`BuildCfg` models the generated file by its constants; here is the text the build script writes.  Reading the file and TOML stay outside.
-/
namespace Spdm

namespace SpdmConfig

/-- config.rs.template, line by line (the last line ends with a newline, hence the empty entry).  config.rs.template 1-44. -/
def templateLines : List String :=
  ["// This Source Code Form is subject to the terms of the Mozilla Public",
   "// License, v. 2.0. If a copy of the MPL was not distributed with this",
   "// file, You can obtain one at https://mozilla.org/MPL/2.0/.",
   "",
   "pub const NUM_SLOTS: usize = {};",
   "",
   "/// The maximum size of a certificate chain supported in the system. The",
   "/// absolute maximum size supported by the spec is 65536 bytes.",
   "pub const MAX_CERT_CHAIN_SIZE: usize = {};",
   "",
   "/// The maximum depth of a certificate chain",
   "/// We limit this only to be able to size arrays of references properly.",
   "pub const MAX_CERT_CHAIN_DEPTH: usize = {};",
   "",
   "/// This must be larger than MAX_CERT_CHAIN_SIZE",
   "pub const TRANSCRIPT_SIZE: usize = {};",
   "",
   "/// The maximum size of a hash in bytes.",
   "pub const MAX_DIGEST_SIZE: usize = {};",
   "",
   "/// The maximum size of a signature in bytes",
   "pub const MAX_SIGNATURE_SIZE: usize = {};",
   "",
   "/// The maximum size of an opaque element data from table 93 in v1.2.0 of the SPDM spec",
   "pub const MAX_OPAQUE_ELEMENT_DATA_SIZE: usize = {};",
   "",
   "/// The maximum number of opaque elements from table 92 in v1.2.0 of the SPDM spec",
   "pub const MAX_OPAQUE_ELEMENTS: usize = {};",
   "",
   "/// The maximum number of measurement blocks available",
   "pub const MAX_MEASUREMENT_BLOCKS: usize = {};",
   "",
   "/// The maximum size of an individual measurement",
   "pub const MAX_MEASUREMENT_SIZE: usize = {};",
   "",
   "// The capabilities for a given endpoint",
   "//",
   "// We don't break these up into requester and responder roles, because it is",
   "// expected that an endpoint will act as both requester and responder in different",
   "// contexts.",
   "pub const CAPABILITIES: &'static [&'static str] = &{};",
   "",
   "/// All supported asymmetric signing algorithms",
   "pub const ALGORITHMS_ASYMMETRIC_SIGNING: &'static [&'static str] = &{};",
   ""]

/-- The lines joined by newlines.  Plumbing for config.rs.template 1-44. -/
def joinLines : List String → List Char
  | [] => []
  | [l] => l.toList
  | l :: ls => l.toList ++ '\n' :: joinLines ls

/-- config.rs.template as read by build.rs 154. -/
def templateText : List Char := joinLines templateLines

/-- `str::split("{}")`, build.rs 177: the parts between the occurrences, from left to right; `acc` is the current part, reversed. -/
def splitBraces (acc : List Char) : List Char → List (List Char)
  | '{' :: '}' :: r => acc.reverse :: splitBraces [] r
  | ch :: r => splitBraces (ch :: acc) r
  | [] => [acc.reverse]

/-- A character inside the `{:?}` of a string: `escape_debug` as `str` uses it.  Escapes of other control and combining characters are not
modelled; names that reach this point have none (validated before, build.rs 156-159). -/
def escapeDebug (ch : Char) : List Char :=
  if ch = '"' then ['\\', '"'] else if ch = '\\' then ['\\', '\\'] else if ch = '\n' then ['\\', 'n'] else if ch = '\r' then ['\\', 'r']
  else if ch = '\t' then ['\\', 't'] else if ch = '\x00' then ['\\', '0'] else [ch]

/-- `{:?}` of a `String`.  build.rs 171-172. -/
def debugStr (s : String) : List Char := '"' :: (s.toList.flatMap escapeDebug ++ ['"'])

/-- The elements of a `{:?}` of a `Vec`, separated by comma and space.  build.rs 171-172. -/
def debugElems : List String → List Char
  | [] => []
  | [s] => debugStr s
  | s :: ss => debugStr s ++ ',' :: ' ' :: debugElems ss

/-- `format!("{:?}", v)` of a `Vec<String>`, build.rs 171-172. -/
def debugNames (l : List String) : List Char := '[' :: (debugElems l ++ [']'])

/-- `to_string()` of a `usize`.  build.rs 161-170. -/
def decimal (n : Nat) : List Char := Nat.toDigits 10 n

/-- `params`, build.rs 160-175, as the strings they are, with the last empty one. -/
def textParams (i : SpdmConfig) (maxSig : Nat) : List (List Char) :=
  [decimal i.numSlots, decimal i.certBufSize, decimal i.maxDepth, decimal i.transcriptBufSize,
   decimal i.maxDigestSize, decimal maxSig, decimal i.maxElementDataSize, decimal i.maxElements,
   decimal i.maxBlocks, decimal i.maxSize, debugNames i.capabilities, debugNames i.asymmetricSigning, []]

/-- `gen_config`, build.rs 153-181, with the template of the crate: the file written by `main` (build.rs 191-192), or the error it stops with. -/
def genText (cryptoRing : Bool) (i : SpdmConfig) : Except SpdmConfigError (List Char) := do
  let maxSig ← maxSignatureSize i.asymmetricSigning
  validateCertChains i
  validateCapabilities cryptoRing i.capabilities
  pure (((splitBraces [] templateText).zip (i.textParams maxSig)).flatMap (fun (s, arg) => s ++ arg))

end SpdmConfig
end Spdm

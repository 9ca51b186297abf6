import Verif.Basic
/-!
# Transcript: src/transcript.rs
-/
namespace Spdm

/-- `Transcript`, src/transcript.rs 14-18.  `buf` has `TRANSCRIPT_SIZE` bytes. -/
structure Transcript where
  buf : Bytes
  offset : Nat
  deriving DecidableEq, Repr

namespace Transcript

/-- `Transcript::new`, src/transcript.rs 21-23. -/
def new (c : Cfg) : Transcript := { buf := List.replicate c.transcriptSize 0, offset := 0 }

/-- `extend`, src/transcript.rs 26-35. -/
def extend (bs : Bytes) : M Transcript Unit := fun t =>
  let e := t.offset + bs.length
  if e > t.buf.length then (.err .bufferFull, t)
  else (.ok (), { buf := t.buf.take t.offset ++ bs ++ t.buf.drop e, offset := e })

/-- `clear`, src/transcript.rs 38-40. -/
def clear (t : Transcript) : Transcript := { t with offset := 0 }

/-- `get`, src/transcript.rs 43-45. -/
def get (t : Transcript) : Bytes := t.buf.take t.offset

/-- `len`, src/transcript.rs 48-50. -/
def len (t : Transcript) : Nat := t.offset

end Transcript
end Spdm

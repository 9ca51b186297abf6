import Verif.Spec.Session
/-!
# Where a message ends

Messages do not carry their own length; a receiver finds the end from the fields of the message and from what was negotiated before.
-/
namespace Spdm.Spec

/-- What of a message is recorded in the transcript: all of it, but CHALLENGE_AUTH without its signature. -/
def recorded (l : Log) (msg : Bytes) : Bytes :=
  match code msg with
  | some 0x03 => msg.take (msg.length - sizeFor signatureSizes l.asym)
  | _ => msg

/-- The length of the recorded part of a message according to its own fields (and the conversation `l` before it, and the size `n` of
nonces): the number of VERSION entries is byte 5, that of algorithm structures byte 2, the mask of digests byte 3, the length of a certificate
portion bytes 4 and 5, and the length of opaque data the two bytes behind hash, nonce and hash of CHALLENGE_AUTH. -/
def wireLength (n : Nat) (l : Log) (msg : Bytes) : Option Nat :=
  match code msg with
  | some 0x84 => some 4
  | some 0x04 => some (6 + 2 * leVal (field msg 5 1))
  | some 0xE1 => some 12
  | some 0x61 => some 12
  | some 0xE3 => some (32 + 4 * leVal (field msg 2 1))
  | some 0x63 => some (36 + 4 * leVal (field msg 2 1))
  | some 0x81 => some 4
  | some 0x01 => some (4 + ((List.range 8).filter fun i => (leVal (field msg 3 1)).testBit i).length * sizeFor digestSizes l.hash)
  | some 0x82 => some 8
  | some 0x02 => some (8 + leVal (field msg 4 2))
  | some 0x83 => some (4 + n)
  | some 0x03 => some (4 + 2 * sizeFor digestSizes l.hash + n + 2 + leVal (field msg (4 + 2 * sizeFor digestSizes l.hash + n) 2))
  | _ => none

/-- The messages of a conversation since its last GET_VERSION. -/
def sinceVersion (msgs : List Bytes) : List Bytes := msgs.foldl (fun acc m => if code m = some 0x84 then [m] else acc ++ [m]) []

/-- No message has bytes behind its end. -/
def NoTrailing (n : Nat) (msgs : List Bytes) : Prop :=
  ∀ pre m post, msgs = pre ++ m :: post → wireLength n (conversation pre) m = some (recorded (conversation pre) m).length

/-- The recorded parts of the messages of a conversation. -/
def records (l : Log) : List Bytes → List Bytes
  | [] => []
  | m :: ms => recorded l m :: records (l.add m) ms

end Spdm.Spec

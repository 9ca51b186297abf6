import Verif.Spec.Pair
import Verif.Spec.Auth
/-!
# A man in the middle who edits responses
-/
namespace Spdm.Spec

/-- One exchange as `exchange`, but the requester gets `edit rsp` instead of the response `rsp`. -/
def edited (edit : Bytes → Bytes) (c c' : Cfg) (cr cr' : Crypto) (x : Round) (ends : Requester × Responder) : Option (Bool × (Requester × Responder)) :=
  match Requester.nextRequest c x.reqEnv x.reqBuf ends.1 with
  | (.ok req, r) =>
    match Responder.handleMsg c' cr' x.rspEnv req x.rspBuf ends.2 with
    | (.ok ⟨rsp, none⟩, r') =>
      match Requester.handleMsg c cr (edit rsp) r with
      | (.ok b, r) => some (b, (r, r'))
      | _ => none
    | _ => none
  | _ => none

/-- A list of exchanges with every response edited, and the completion flags the requester returns. -/
def editedTalk (edit : Bytes → Bytes) (c c' : Cfg) (cr cr' : Crypto) : List Round → Requester × Responder → Option (List Bool × (Requester × Responder))
  | [], ends => some ([], ends)
  | x :: xs, ends =>
    match edited edit c c' cr cr' x ends with
    | none => none
    | some (b, ends) =>
      match editedTalk edit c c' cr cr' xs ends with
      | none => none
      | some (bs, ends) => some (b :: bs, ends)

/-- Clears CERT_CAP in a CAPABILITIES message (bit 1 of byte 8) and leaves every other message alone. -/
def withoutCert (msg : Bytes) : Bytes :=
  if code msg = some 0x61 then msg.take 8 ++ ((msg.drop 8).take 1).map (fun b => b &&& 0xFD) ++ msg.drop 9 else msg

/-- Three fixed responses: VERSION with 1.0 and 1.1, CAPABILITIES without any, and ALGORITHMS that selects P-256, SHA-256 and what every build offers. -/
def keylessReplies : List Bytes :=
  [[0x10, 0x04, 0, 0, 0, 2, 0, 0x10, 0, 0x11],
   [0x11, 0x61, 0, 0, 0, 12, 0, 0, 0, 0, 0, 0],
   [0x11, 0x63, 4, 0, 52, 0, 1, 0, 1, 0, 0, 0, 0x10, 0, 0, 0, 1, 0, 0, 0] ++ zeros 16 ++ [2, 0x20, 2, 0, 3, 0x20, 2, 0, 4, 0x20, 0x10, 0, 5, 0x20, 1, 0]]

end Spdm.Spec

import Verif.Spec.Exact
/-!
# Networks that lose, delay, repeat and reorder, but do not alter
-/
namespace Spdm.Spec

/-- The network between a requester (history `es`) and a responder (history `es'`) may lose messages, delay, repeat and reorder them as it
likes, but it does not make any: what the requester's `handle_msg` is called with is something the responder's `handle_msg` returned, and what the
responder's is called with is something the requester's `next_request` wrote. -/
structure Unaltered (es : List ReqEvent) (es' : List RspEvent) : Prop where
  responses : ∀ rsp res, .recv rsp res ∈ es → ∃ env req buf err, .call env req buf (.ok ⟨rsp, err⟩) ∈ es'
  requests : ∀ env req buf res, .call env req buf res ∈ es' → ∃ env' buf', .next env' buf' (.ok req) ∈ es

/-- The twelve messages of a session, once each and in order, by code: GET_VERSION 0x84, VERSION 0x04, GET_CAPABILITIES 0xE1, CAPABILITIES 0x61,
NEGOTIATE_ALGORITHMS 0xE3, ALGORITHMS 0x63, GET_DIGESTS 0x81, DIGESTS 0x01, GET_CERTIFICATE 0x82, CERTIFICATE 0x02, CHALLENGE 0x83, CHALLENGE_AUTH 0x03. -/
def cleanRun : List UInt8 := [0x84, 0x04, 0xE1, 0x61, 0xE3, 0x63, 0x81, 0x01, 0x82, 0x02, 0x83, 0x03]

/-- The codes of a list of messages. -/
def codes (ms : List Bytes) : List (Option UInt8) := ms.map code

end Spdm.Spec

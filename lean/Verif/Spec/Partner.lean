import Verif.Spec.Relay
/-!
# Which signature authenticated which requester
-/
namespace Spdm.Spec

/-- The network hands out only what was sent before; apart from that it loses, delays, repeats, reorders and misdelivers as it likes. -/
structure InTime (t : List NetEvent) : Prop where
  responses : ∀ (q i : Nat) (rsp : Bytes) (res : Res Bool), t[q]? = some (.req i (.recv rsp res)) →
    ∃ p, p < q ∧ ∃ k env req buf err, t[p]? = some (.rsp k (.call env req buf (.ok ⟨rsp, err⟩)))
  requests : ∀ (p k : Nat) (env : Env) (req buf : Bytes) (res : Res Responder.Output), t[p]? = some (.rsp k (.call env req buf res)) →
    ∃ w, w < p ∧ ∃ i env' buf', t[w]? = some (.req i (.next env' buf' (.ok req)))

/-- At time `w` requester `i` wrote a CHALLENGE, with the nonce `nonce`. -/
def Challenges (t : List NetEvent) (w i : Nat) (nonce : Bytes) : Prop :=
  ∃ env buf out, t[w]? = some (.req i (.next env buf (.ok out))) ∧ code out = some 0x83 ∧ env.nonce = nonce

/-- No nonce is drawn twice for a CHALLENGE. -/
def FreshNonces (t : List NetEvent) : Prop :=
  ∀ w w' i i' nonce, Challenges t w i nonce → Challenges t w' i' nonce → w = w'

/-- At time `q` requester `i` accepted the CHALLENGE_AUTH `rsp`. -/
def AcceptsAuth (t : List NetEvent) (q i : Nat) (rsp : Bytes) : Prop :=
  ∃ b, t[q]? = some (.req i (.recv rsp (.ok b))) ∧ code rsp = some 0x03

/-- The call at time `p` is where a responder signed what requester `i` accepts at time `q` as the CHALLENGE_AUTH `rsp`, and since their last GET_VERSION the two exchanged the
very same twelve messages of a session, each once and in order. -/
def Partner (N : Network) (t : List NetEvent) (q i : Nat) (rsp : Bytes) (p : Nat) : Prop :=
  ∃ k env req buf res auth j s, t[p]? = some (.rsp k (.call env req buf res)) ∧ alive (rspOf k (t.take p)) = true ∧ code req = some 0x83 ∧
    SignedText (N.responder k) (rspOf k (t.take p)) env req j s ((conversation (rspMsgs (rspOf k (t.take p)))).text ++ req ++ auth) ∧
    codes (sinceVersion (reqMsgs (reqOf i (t.take q)) ++ [rsp])) = cleanRun.map some ∧
    sinceVersion (reqMsgs (reqOf i (t.take q))) = sinceVersion (rspMsgs (rspOf k (t.take p)) ++ [req]) ∧ ∃ sig, rsp = auth ++ sig

/-- Something a responder signed before time `q` collides with the transcript of requester `i`, which accepts `rsp` then. -/
def CollidesBefore (N : Network) (t : List NetEvent) (q i : Nat) (rsp : Bytes) : Prop :=
  ∃ p k env req buf res j s text, p < q ∧ t[p]? = some (.rsp k (.call env req buf res)) ∧ alive (rspOf k (t.take p)) = true ∧ code req = some 0x83 ∧
    SignedText (N.responder k) (rspOf k (t.take p)) env req j s text ∧
    (conversation (reqMsgs (reqOf i (t.take q)) ++ [rsp])).text ≠ text ∧
    (N.requester i).crypto.hash 1 (conversation (reqMsgs (reqOf i (t.take q)) ++ [rsp])).text = (N.responder k).crypto.hash 1 text

end Spdm.Spec

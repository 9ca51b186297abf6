import Verif.Responder
import Verif.Requester
/-!
# The example programs of README.adoc

The two loops a user is told to write around `RequesterInit` and `Responder`.  The transport is a function: what the peer answers to the messages sent so far.
-/
namespace Spdm
namespace Readme

/-- How the requester's loop ends: by leaving it, or by one of its `?`, or a panic.  README.adoc 139-147. -/
inductive End
  | complete
  /-- `transport.send` or `transport.recv` fails -/
  | transport
  | request (e : Err)
  | response (e : Err)
  | abort (k : PanicKind)
  deriving DecidableEq

/-- The loop of README.adoc 139-147, at most `n` iterations of it: how it ends, the requests sent, and the requester; `none` if it is still running.  `peer sent` is what
`transport.recv` returns after the requests `sent`.  `buf i` is `write_buf` in iteration `i`, whatever earlier iterations left in it. -/
def requester (c : Cfg) (cr : Crypto) (peer : List Bytes → Option Bytes) (env : Nat → Env) (buf : Nat → Bytes) :
    Nat → List Bytes → Requester → Option (End × List Bytes × Requester)
  | 0, _, _ => none
  | n + 1, sent, r =>
    match Requester.nextRequest c (env sent.length) (buf sent.length) r with
    | (.ok req, r) =>
      match peer (sent ++ [req]) with
      | none => some (.transport, sent ++ [req], r)
      | some rsp =>
        match Requester.handleMsg c cr rsp r with
        | (.ok true, r) => some (.complete, sent ++ [req], r)
        | (.ok false, r) => requester c cr peer env buf n (sent ++ [req]) r
        | (.err e, r) => some (.response e, sent ++ [req], r)
        | (.panic k, r) => some (.abort k, sent ++ [req], r)
    | (.err e, r) => some (.request e, sent, r)
    | (.panic k, r) => some (.abort k, sent, r)

/-- How the responder's loop ends.  README.adoc 226-233. -/
inductive Stop
  | error (e : Err)
  | abort (k : PanicKind)
  deriving DecidableEq

/-- The loop of README.adoc 226-233 on a list of requests, `i` of them already served: the responses sent, how the loop ended, if it did, and the responder.  An element of the list is what is passed to
`handle_msg` (line 228).  `buf i` is `rsp_buf` in iteration `i`.  (`handle_msg` has no outcome `.err`: it returns the error beside the response.) -/
def responder (c : Cfg) (cr : Crypto) (env : Nat → Env) (buf : Nat → Bytes) : Nat → List Bytes → Responder → List Bytes × Option Stop × Responder
  | _, [], r => ([], none, r)
  | i, req :: reqs, r =>
    match Responder.handleMsg c cr (env i) req (buf i) r with
    | (.ok ⟨out, none⟩, r) =>
      let (outs, rest) := responder c cr env buf (i + 1) reqs r
      (out :: outs, rest)
    | (.ok ⟨out, some e⟩, r) => ([out], some (.error e), r)
    | (.err e, r) => ([], some (.error e), r)
    | (.panic k, r) => ([], some (.abort k), r)

/-- `transport.recv(&mut req_buf)` (README.adoc 227) leaves the message at the start of `req_buf`. -/
def fill (reqBuf msg : Bytes) : Bytes := msg ++ reqBuf.drop msg.length

/-- What line 228 passes to `handle_msg`: not the message received, `request`, but the whole of `req_buf`.  README.adoc 227-228. -/
def wholeBuffers : Bytes → List Bytes → List Bytes
  | _, [] => []
  | reqBuf, m :: ms => fill reqBuf m :: wholeBuffers (fill reqBuf m) ms

/-- The responder's loop as the peer of a requester: its answer to the last of the requests sent, nothing once the loop has ended.  `view` is what the loop passes to `handle_msg`
of the messages received: `id`, or `wholeBuffers reqBuf` as the README has it.  README.adoc 226-233. -/
def served (c : Cfg) (cr : Crypto) (env : Nat → Env) (buf : Nat → Bytes) (view : List Bytes → List Bytes) (q : Responder) (sent : List Bytes) : Option Bytes :=
  (responder c cr env buf 0 (view sent) q).1[sent.length - 1]?

end Readme
end Spdm

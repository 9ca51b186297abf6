# Formal model of oxidecomputer/spdm in Lean 4

This file says what is modelled, how, what is trusted, and for each property of
`properties.jsonl` how it is proved (or why only part of it, or its negation, is).

## 1. Shape of the model

* **Bytes and words**: `UInt8`, `UInt16`, `UInt32`; `usize` is `Nat` (see section 2). A Rust
  slice or array is a `List`; the fixed length of a Rust array is a hypothesis (`WF`) where it matters.
* **Results**: `Res α = ok a | err e | panic k`. A Rust `Err` is `err`; every `assert!`,
  `unwrap`, out-of-range index or slice, `copy_from_slice` of different lengths, checked shift,
  checked subtraction, `unimplemented!` and `unreachable!` that the code can reach is an explicit `panic`.
* **`&mut self`** is a state monad `M σ α = σ → Res α × σ`: the state (buffer, cursor, transcript, endpoint) is
  returned also when the outcome is an error or a panic, so what a failed or aborted call leaves behind
  is part of the model. `Writer` (`W`), `Reader` (`R`), responder handlers (`H`) and requester calls are instances.
* **Errors**: one flat `Err` type. Rust wraps e.g. a `ReadError` in one enum per message;
  wrapper names are dropped, leaf errors kept, except where the responder's choice of ERROR message depends on
  the wrapper. Verif/Errors.lean has the enums callers see and the conversion of every `?`; C106 and C107 relate the two; Verif/ParseErrors.lean has those of the remaining parsers (C108).
* **Configuration** (`build.rs`, `config.rs.template`) is a parameter `Cfg`, so theorems
  hold for every configuration; `Spec.Built` says that a `Cfg` came out of the modelled build script. The `crypto-ring` feature
  is `Cfg.provider`; without it the stubs of `no_crypto_defaults.rs` are used.
* **Crypto** (hash, signing, signature and chain verification, randomness) is a parameter
  record of uninterpreted functions; what is assumed of it is a hypothesis of the theorem that needs it. Signers take the
  entropy of the call as an argument; nonces are a parameter of each call.
* **Histories**: `Spec.RspRun` and `Spec.ReqRun` are inductive relations "this list of calls (with their
  buffers, nonces and results) happened on an endpoint created by `new`"; endpoint properties quantify over all of them.
  `Spec.Replay` relates them to folding the model's call function over a call list.

Modules (`lean/Verif/`): model: `Basic`, `Encoding`, `Transcript`, `Msgs/*` (one per file of
`src/msgs`), `Pki`, `BuildCfg`, `BuildText`, `Build` (`main` of build.rs and when cargo runs it), `Buffers`, `Unchecked`, `Provider`, `Making`, `Equal`, `Usize`, `Responder`, `Requester`, `States`, `Loops` (the example programs of README.adoc). Specification: `Spec`, `Spec/*`
(wire layouts, little endian numbers, bit streams, logs, DER integers, histories; none uses a parser, writer or state
machine step of the model to say what the right answer is). `Lemmas/*` are helper lemmas;
`Props/*` contain the property theorems, each with a non-vacuity `example` or a use in a witness; `Demo*`
contain the concrete messages and the complete concrete session used by them.

## 2. Trusted base

* Lean 4.33.0's kernel; the axioms `propext`, `Classical.choice`, `Quot.sound` and no others
  (section 6, generated by `tools/axioms.py` from `#print axioms`). No axiom is declared, nothing is compiled and trusted
  (`decide +kernel` is evaluated by the kernel).
* The hand translation. Each definition cites the file and lines it models (`tools/citations.py` checks that the files, lines and names exist). Verif/RepoTests.lean runs the tests of the repository (src and tests/protocol.rs) on the model, with the
  results their authors expect; these are tests of the translation, not claims.
* `usize` is unbounded. Verif/Usize.lean repeats the functions with arithmetic on `usize` with a checked `usize` of `bits` bits, and C100 proves that they agree
  with the model for 32 bits and more; truncating casts (`as u16`, `as u8`) are explicit.
* Arithmetic and shift overflow is a panic: the overflow-checking build profile. In a build without overflow checks the
  same sites wrap silently; that build is modelled in Verif/Unchecked.lean and compared in C87. The sites are: `1 << trailing_zeros` of an empty mask (responder/algorithms.rs),
  `1 << slot` for a slot number of 8 or more (requester/challenge.rs), the bit index of `create_slot_mask`, and `size - signature size`.
* A panic leaves the endpoint with its state taken (`None`), as unwinding would; that nothing else uses the
  endpoint afterwards is not assumed.

### Not modelled

* `ring`, `ring-compat`, `webpki`, X.509: the calls into them are the fields of `Crypto`, the signer of a slot, and (Verif/Provider.lean, which models
  `src/crypto/digest.rs` and `src/crypto/ring/{digest,signing}.rs`) an abstract streaming hash and key check.
* TOML parsing (a parameter in `Build`), and the file system beyond files as contents; cargo's rule for rerunning build scripts is stated in `Build` as documented by cargo, not derived. The build script is modelled from the parsed `SpdmConfig` to the text it writes (`BuildText`, escapes other than the usual
  ones left out, no accepted name has any) and to the list of named constants the library sees (`BuildCfg`); that the Rust compiler gives the text that meaning is `Spec/ConfigText.lean`.
* `DeviceMode`, `OperationalModeBits` and `DeviceModeBits` (src/msgs/measurements.rs 391-424): public types that no function reads, writes or makes. (Read by eye: DSP0274 has bit 4 for "invasive debug at least once since manufacturing", the code 0x20, bit 5.)
* `Debug`/`Display`/`defmt` output, memory layout, timing, and `test-utils`/`tests`.
* The sizes of fixed arrays other than those of Verif/Buffers.lean (`DigestBuf`, `SignatureBuf`, `CertificateChain`): lists bounded by the checks of the code stand for them. The `u8` count of intermediate certificates cannot overflow because the build refuses a
  MAX_CERT_CHAIN_DEPTH above 24 (C53); outside Verif/Buffers.lean the overflow of larger depths is left out.
* The compile-time typestate: states are an ordinary inductive type. `Responder` and `Requester` leave out the fields the library stores but never reads (the requester's own slots, optional fields that are
  `None` whenever the state is stored); Verif/States.lean has every field and every public method of the states, and C103 proves that the endpoints made of them behave the same.

## 3. How each property is proved

| Id | What is modelled and how it is proved |
|----|----|
| C01 | `Writer` ops on concrete buffers; induction over an arbitrary list of operations against an "append" specification |
| C02 | `put_u16/24/32` and `get_*`; arithmetic |
| C03 | `get_bits` on concrete buffers vs the LSB-first bit list; reduction to a two-byte window whose finite table is checked by the kernel |
| C04 | all `Reader` ops; invariant by induction over operation lists |
| C05 | `Transcript` with stale buffer; refinement to a bounded log by induction over histories |
| C06, C07 | `parse_header`, header constants; C07 by negation (every two-byte buffer) and `_partial` |
| C08–C22 | each message: the writer produces an explicit byte layout (compositional predicate `Writes`), the parser inverts the layout for every suffix (compositional predicate `Reads`) |
| C23 | inversion lemmas of the reader monad per message (`Inv*`) |
| C24 | compositional "no panic" predicate per parser; witnesses for the aborting parsers |
| C25 | compositional predicate "reads a prefix" on the reader monad (`Local*`) |
| C26 | corollary of round trips and header codes; witnesses where false |
| C27 | version selection as "maximum of the intersection", over every requester history |
| C28–C31 | the responder's selection and the requester's check, over every history, and both composed through the wire |
| C32–C40 | the responder's call function; invariant over every request history (`RspInv`) |
| C41–C46 | the requester's call functions; invariant over every call history (`ReqInv`) |
| C47 | negation by witness, `_partial` for what is rejected |
| C48 | both endpoints with all messages delivered; induction over rounds |
| C49 | explicit run of both endpoints for every accepted configuration, under assumptions on the crypto parameters |
| C50, C57 | requester transcript = responder transcript from hash injectivity at two points; C57: negation (bytes behind a message shift the boundary) and `_partial` for conversations without trailing bytes, by unique parsing |
| C51, C52 | `bin_to_der` vs an independent DER integer specification; negation for zero halves |
| C53, C54 | build-script validation and `FromStr` tables vs an independent list of names |
| C55, C56 | finite tables over all single-bit selections / all bytes |
| C58, C59 | "calm" predicate (no panic) composed through all handlers on every live history; the cases excluded from the `_partial` theorems are each shown to abort, for every history |
| C60 | configurations accepted by `genConfig` without a provider: induction over both endpoints' histories shows the provider functions cannot influence anything; filled slots excluded (negation proved) |
| C61 | invariant on histories: which requester states imply a call of `next_request` since the last accepted response; counterexample sessions by kernel evaluation |
| C62 | relation "differs only in what the next `next_request` overwrites", preserved and erased; all failure points of every `write_*` |
| C63 | second call analysed through the refinement `ReqSend`; negation for every request but GET_VERSION on every history |
| C64 | on every live history, from the state invariant `StMatch` |
| C65 | specification of the name from the observable history; from the invariants `ReqLive`/`RspLive`, and "dead or aborted" tracked along histories |
| C66 | relational lemmas: two writers that agree on what was written; composed through every handler |
| C67, C68 | the fixed-size arrays and counters as they are in the code (Verif/Buffers.lean), invariant over everything obtainable, refinement to the byte strings and lists the rest of the model uses |
| C69-C73 | concrete sessions with a peer that holds the leaf's key and departs from the protocol (negations); what does hold on every history; C73 also as a relation between verifiers |
| C74 | C42's freshness composed with C50; the collision named in C50, C57 and C74 is one of the two transcripts at hand, not some collision |
| C75, C77 | the refinements `ReqSend`/`Step` and C54 on every history, both directions for C75 |
| C76 | relational lemmas: a successful writer does the same in every buffer that holds the result; composed through every handler; for refusals and aborts (Props/Fits.lean, errors of Spec/Fits.lean) the table of C124 for a larger buffer differs only in requirements of room, which get easier |
| C78, C79 | a separate relation `Denotes` between bytes and messages (Spec/Accepts.lean); every parser is inverted (accepted bytes are of the shape) and run forwards (every such shape is accepted); six concrete bodies refute C79 for the types whose parsers ignore bytes |
| C80, C81 | relations `Reply` (Spec/Reply.lean) and `Acceptable` (Spec/Response.lean), stated with bytes, the conversation, slots and the crypto provider only. One direction inverts every handler (the step relations `Step` and `ReqRecv` of the invariants), the other runs every handler forwards on each case of the relation; `Reply` is shown to be functional, so the answer is the relation's |
| C82 | relation `RequestAborts` (Spec/Panics.lean); a panic is traced through every handler with inversion lemmas (`Blows`), and each case of the relation is run forwards; with C80 a trichotomy |
| C83 | relations `BodyAborts`, `ChainAborts` (Spec/ParserPanics.lean) over the wire layouts; a panic is inverted through the reader combinators (`PInv`), and each described prefix is run forwards (`Panics`); the chain loop by induction |
| C84 | relation `ResponseAborts` (Spec/ReqPanics.lean) over bytes and the conversation; the handlers are rewritten step by step to an equivalence (`Blows.lift_iff`), the parser and the chain parser through C83, the DER encoder through C51/C52; what is outstanding is an invariant of histories (`outstanding`) |
| C85 | `text` (Spec/Writing.lean) gives for each message value the bytes and the ending; a `Says` calculus (text after text) follows the writers; `Writable` is the declarative condition, `text_done` ties the two, `c85_layout` ties the text to the documented layout |
| C86 | `Awaited`, `WellFormed` (= `Denotes` of C78), `SlotMissing`, `CutShort`, `EndsInOpaque` (Spec/Refusal.lean) partition the refused requests; `FailsAt` follows the parsers from a byte boundary and says how short the buffer was, `ErrIn`/`ErrAt` follow handlers and writers |
| C87 | Verif/Unchecked.lean restates the functions that contain an overflow check, with masked shifts and wrapping subtraction; call-by-call equality except for an empty offer (responder) and slot number 8 (requester), where the two builds are shown to differ |
| C88 | `checks` (Spec/Rejection.lean) is the ordered list of conditions on the response's bytes with the complaint of each, `FirstFailed` picks the first that fails; `ErrAt` follows each handler, parsers' errors are classified by `ErrIn`; the converse uses C81, C84, the uniqueness of what bytes denote (C78) and of DER encodings (C51) |
| C89 | `genText` (BuildText.lean) is `gen_config` on characters with config.rs.template verbatim; the template is split by the kernel, the lines of the result follow by induction over the chunks; decimal numerals by strong induction; string literals are parsed back (`c89_one_meaning`) |
| C90 | offer of the built configuration (C54), agreed algorithms from it (C30) and the size and provider tables; negation for the responder (offers with RSASSA-2048) and for an unchecked MAX_DIGEST_SIZE; what holds for usable offers |
| C91 | `FilledSlot` with all four fields; simulation of two responders that differ in the declarations only (call by call, induction over histories), hence the negation; what holds when the offers force the declared algorithms, by an invariant that ties the algorithms in force to an accepted offer |
| C92 | Verif/Provider.lean: the provider's own code over an abstract streaming hash (its two laws are the hypothesis `Streaming`); induction over the pieces; equality with the `Crypto.digest` of the endpoint model |
| C93 | the four `from_str` against name tables of the standard, for every string |
| C94 | Verif/Making.lean: the constructors; outcome of each, round trips from C17 and C22; negation for a count above MAX_MEASUREMENT_BLOCKS by inversion of the reader |
| C95 | `begin_session` takes the requester in any state: negation with witnesses (fresh, failed); what holds after a completed handshake, from C41 and C42 |
| C96 | Verif/Equal.lean: the hand-written and the derived `eq`; equality reduced to contents, injectivity of the layout from the round trip of C18; transcripts by induction over the extensions, negation for cleared ones |
| C97 | Spec/Interop: `HonestPair`, `EnoughRoom`; the stages of the handshake over two configurations, each succeeding exactly if there is room (inversion of the refinement relations of both sides), then induction over the exchanges |
| C98 | Spec/Isolation: `SameOccupancy`, `AsksSame`; the handlers on both slot lists are equal (congruence, the slot named is byte 2 of the request), then induction over the calls |
| C99 | corollary of the exact request bytes of C77, with the length field read back; the negation is a concrete session of the largest configuration |
| C100 | Verif/Usize has the same functions with checked arithmetic of `bits` bits; agreement relations closed under sequencing, then induction over histories and loops |
| C101 | `_partial` from C57's unique parsing: the last message before CHALLENGE_AUTH is the CHALLENGE the requester wrote, so the signing call's request is that very CHALLENGE, and calls with different requests are different calls; negation: a concrete pair of sessions that share one signature |
| C102 | induction over the histories with the step relations (`ReqSend`, `Idle`, `ReqRecv`, `Step`) and C78 for what a message means; `Spec.ReqShown`, `Spec.RspShown` |
| C103 | `States.lean` models the state structures field by field with all public methods; simulation of the simpler machine call by call (`SimT`, `SimH`), invariant `ReqRest`/`RspRest`, then C102 |
| C104 | each method computed on an arbitrary state (`hand_write`, C78 for what a message means), induction over the list of calls; the challenge by simulation with the library's requester and C81 |
| C105 | C85 (what is written, for every value) composed with C78 (what is read, for every buffer): the written text denotes the message only if it is faithful; `Spec.Faithful` |
| C106 | the state machines again with the enums and the conversion of every `?` (Verif/Errors.lean), proved step by step to agree with the flat ones; the reasons then come from C88; `Spec.reported` |
| C107 | as C106; each handler analysed for the values it can return and with what is known about the request, combined with C86; `Spec.errorFor`, `Spec.Malformed`, `Spec.FirstWrong`, `Spec.Unable` |
| C108 | tables of requirements per message (Verif/Spec/Faults.lean), a calculus relating a run of the reader to a table (Verif/Lemmas/Faults.lean), one step per read or check; the error enums of the parsers the state machines do not call are in Verif/ParseErrors.lean, shown to agree with the flat parsers |
| C109 | two runs side by side: a relation between the two requesters (same state but for the nonce, transcripts of the same length) kept by every call, another for different roots, and for responders equality of all but the slots' keys; `c36_every_signature` for the last part |
| C110 | responder: the exact reply relation of C80 is monotone in the limits; requester: simulation between the two builds, equal states and texts, the parsers compared by C78 (opaque data re-padded), the DER encoder by C51 |
| C111 | Verif/Build.lean: `load`, `main` and cargo's rule for running a build script (per feature set; watched files and SPDM_CONFIG; forgotten before a run); invariant over histories: a recorded run cargo would reuse equals a run now. False for files named by SPDM_CONFIG (`c111_stale`, `c111_stale_wrong`); proved for watched configuration files, and for files left alone since the first build |
| C112 | Verif/Loops.lean: both loops, the peer a function of the messages sent so far; the loops are histories of `ReqRun` and `RspRun`, so the invariants of C41, C45, C35 and C97 give termination, order, the transcript bound and completion. False as the README has it (`c112_readme_pair_fails`, `c112_readme_never_authenticates`: `&req_buf` instead of `request` is passed to `handle_msg`) |
| C113 | instances of C97, whose first three stages are generalised to any certificates and to the offer of a build without a provider |
| C114 | a trace is any interleaving of histories of the endpoints; C42, C36 at the moment of acceptance and the place of the signing call in the trace |
| C115 | the handshake calculus of C97 with an editing network in between; C41, C42 and C109 for what is true |
| C116 | invariants over both histories: every message produced is of the length its fields declare (`Gen`, `Sent`), and the text of a requester that got to the end parses into requests and responses; C50 for the rest |
| C117 | from C116, since a clean run has each code once; the handshake calculus of C97 from any requester in state version for the first exchange |
| C118 | induction over the visits with C97; the history of a visit is a delivered conversation (C48), hence alive |
| C119 | every function that takes the configuration is shown equal under `bare` (names and measurement limits removed); the three messages made of names are equal by C54 |
| C120 | C116's core (every message on such a network is as long as its content says, so equal transcripts have equal messages) applied to the responder that C114 finds |
| C121 | C120 gives the signing call and equal messages; the CHALLENGE among them carries the nonce, which was drawn once, and was sent before it was handled; completion is final (C41) |
| C122 | C81 without its hypothesis that a request is outstanding; the stored fields are present exactly if the request was written or tried (C84's invariant), completion from the refinement |
| C123 | the text of a message (C85) is the text of what arrives, followed by nothing but vendor data; acceptance from C78, survival from C105 |
| C124 | Spec/Determined.lean is the table; each handler with typed errors (Errors.lean) is run symbolically against it; aborts from C82, answers from C80, the parsers' part from C108; uniqueness of the first fault makes it an equivalence |
| C125 | the handshake calculus of C97 with messages that have something behind their end: all that one side is not to hear stands where the other side does not look; the transcripts come out equal, so the rest is C97 |
| C126 | invariants of both kinds of histories (`Lemmas/Shape.lean`): in which order which messages stand in the transcripts; the requester's offer cannot stand before byte 38, where the responder's stands, not inside that one (no neighbours 0x11, 0xE3 in an accepted message of exact length), and not behind it; so it stands at byte 38 and everything is aligned. A NEGOTIATE_ALGORITHMS that found no room in the transcript leaves no room for a CHALLENGE either |
| C127 | the digest signed is that of the responder's transcript (C50), so the texts are equal; for equal lengths message boundaries are equal by counting from both ends, the last one from the end of the text; for one altered message the codes received are pinned by the codes of the answers, hence the transcripts have the same number of messages and all but one cancel |
| C128 | codes of what is written (`Lemmas/ReqCalls.lean`, `Lemmas/Noise.lean`) and of what is accepted (C32, C64) are disjoint, in every state; induction over the history for the closed loops |
| C129 | `Spec/Budget.lean`; every exchange of the `Reply` relation (C80) takes at least seven bytes; induction over the history and over the further calls; C75 for the requester |
<!-- more rows -->

## 4. What the properties say about the code: defects found

Each is a theorem (a negation of the natural property), for arbitrary inputs of the kind named.

* C07: `parse_header` documents a 2-byte minimum and asserts more than 2: a two-byte message aborts either endpoint (C58, C59).
* C18: `CHALLENGE_AUTH` with mutual authentication loses slot and flag (`&` for `|`).
* C20: vendor-defined `ERROR` opaque bytes are written, never read.
* C22: maximal measurement block sets are written but rejected; a slot without signature is lost.
* C24: `OpaqueData`, measurement blocks and chain parsing panic on peer-controlled bytes.
* C26: the above make encodings ambiguous.
* C29: an empty algorithm mask in `NEGOTIATE_ALGORITHMS` aborts the responder.
* C30/C31: the per-response check accepts responses of a kind never requested on its own (harmless as used), and duplicate kinds in an offer are rejected by their author.
* C38: `GET_CERTIFICATE` offset and length are ignored.
* C46: the requester accepts the chain of another slot than requested.
* C47: slot number `NUM_SLOTS` passes the bound check; slot 8 aborts.
* C51: the buffer reserved for DER signatures is too small for 132-byte signatures (unreachable in an accepted build, which only has P-256).
* C52: a signature half of zeros aborts the requester.
* C57: bytes behind the end of a message are ignored but hashed, so a man in the middle can move a message boundary and the endpoints disagree on the negotiated capabilities although authentication succeeds.
* C58: further responder aborts (unusable hash selected, over-long signature algorithm, signer output of another length).
* C59: further requester aborts (unsolicited CAPABILITIES/ALGORITHMS, any message after completion).
* C60: a responder built without a crypto provider but with a filled slot aborts in the provider stub on GET_DIGESTS.
* C61: unsolicited responses are accepted; authentication completes although no CHALLENGE (hence no nonce) was sent; ALGORITHMS is accepted after a failed NEGOTIATE_ALGORITHMS.
* C63: a retransmitted request is recorded twice, after which the honest responder's signature is refused.
* C64: `UnexpectedMsgCode.got` is the first byte of the message (the version), not its code.
* C69: the digests of DIGESTS are never compared with the chain received.
* C70: the root hash inside the chain is ignored.
* C71: `remainder_length` of CERTIFICATE is ignored: a truncated chain is treated as complete.
* C72: the responder serves DIGESTS, CERTIFICATE and CHALLENGE without the capabilities.
* C73: certificate validity is judged at a fixed time (`UNIX_TIME`).
* C79: VERSION with fewer than two entries, the length fields and external algorithms of NEGOTIATE_ALGORITHMS and ALGORITHMS, unused bits and the opaque length of CHALLENGE_AUTH and MEASUREMENTS, and the data byte of most ERROR codes are ignored, so several byte strings mean the same message.
* C86: truncated requests are reported as RequestTooLarge; a CHALLENGE whose response buffer ends inside the opaque data is reported as InvalidRequest although the request is fine; `UnexpectedMsgCode::got` is the version byte, not the code; ERROR messages carry version 1.2.
* C87: in a build without overflow checks a NEGOTIATE_ALGORITHMS with an empty mask is answered, selecting algorithm bit 0 that was never offered (the checking build aborts); with 8 slots, a CHALLENGE_AUTH for slot 8 is checked against slot 0's mask bit and can complete the authentication.
* C88: a CHALLENGE_AUTH with a wrong chain digest is reported before lack of room, and a chain that cannot be parsed is only noticed after the digest of its bytes has been accepted.
* C89: the script tells cargo to watch spdm-config.toml only: a change of the file named by SPDM_CONFIG does not rebuild (C111).
* C90: the responder never consults its own configuration when selecting algorithms: an offer that contains RSASSA-2048 is answered with RSASSA-2048, although no build can sign or verify with it, and the later CHALLENGE aborts.
* C90: `max_digest_size` is not validated by the build: with 16, every hash the endpoints offer is unusable and the first digest aborts.
* C91: `FilledSlot.signing_algorithm` and `hash_algorithm` are never read: changing them changes nothing a responder returns, and a slot declared for P-384/SHA-384 is used to sign under P-256/SHA-256.
* C94: `Measurements::new_with_num_measurements` takes any count, but `parse_body` refuses a count above the receiver's MAX_MEASUREMENT_BLOCKS although such a message holds no block: a responder with more measurements than the requester can hold at once cannot say so.
* C95: `RequesterInit::begin_session` can be called in any state, also before the first message and after a failed handshake; nothing in the type or the result distinguishes such a session object.
* C96: `Transcript` derives `PartialEq` over its whole array, and `clear` leaves the old bytes in place: after a reset (every GET_VERSION after the first) a transcript holding the same bytes as another need not be equal to it. Only comparisons by users and tests are affected; tests/protocol.rs compares transcripts this way.
* C99: with the largest certificate buffer the build accepts (65536), GET_CERTIFICATE asks for a length of 0, since MAX_CERT_CHAIN_SIZE is cast to u16 (requester/id_auth.rs 111).
* C100: the sum of the lengths in `CertificateChain::write` (certificates.rs 225-229) overflows for a chain whose parts add up to the size of the address space (e.g. a root hash and a leaf of isize::MAX bytes), so that it aborts or wraps before MaxSizeExceeded is returned; on a 16-bit machine `get_u24` aborts on any number above 65535.
* C101: two requesters with different nonces can both complete on a single signature of the responder: the network sends CHALLENGE(A) ‖ start of a CHALLENGE_AUTH ‖ CHALLENGE(B) to the responder; A reads CHALLENGE(B) and the true CHALLENGE_AUTH as opaque data, B reads CHALLENGE(A) and the false start as bytes behind the CERTIFICATE. All three transcripts are equal byte for byte.
* C102: after a `next_request` that failed for lack of room the nonce in the requester's state is one that was never sent; a CHALLENGE_AUTH answering the earlier CHALLENGE is still accepted, since the nonce kept is not compared with anything
* C103: the certificate slots given to a requester are stored and never used: there is no mutual authentication
* C104: `handle_certificate` keeps the chain even if it returns BufferFull because the transcript has no room: converting that state gives a challenge state for a certificate that is not in the transcript
* C104: the challenge state accepts a CHALLENGE_AUTH although no CHALLENGE was ever written: the nonce it stores is not looked at
* C105: a signed MEASUREMENTS naming the slot NUM_SLOTS, which no build has, is written and accepted (the check is > instead of >=); DIGESTS with mask bits for slots the build does not have are written and accepted
* C106: `UnexpectedMsgCode.got` is the first byte of the message, its version, not its code (requester and responder)
* C106: `ChallengeAuthError::ParseChallengeAuth` and `::Pki` are never returned: a CHALLENGE_AUTH that cannot be decoded is `RequesterError::ParseChallengeAuth`, an untrusted certificate `InvalidCert`
* C108: an ALGORITHMS response in which no algorithm is selected is reported as `MoreThanOne…Selected`
* C108: a CHALLENGE_AUTH with a slot that is too large is reported as `MaxOpaqueDataSizeExceeded`
* C111: a configuration file named by SPDM_CONFIG is not watched: after editing or even removing it, `cargo build` succeeds with the constants of its old contents (build.rs 202-205 watches only spdm-config.toml)
* C112: the responder example of README.adoc (line 228) passes the whole receive buffer to `handle_msg`: trailing bytes are accepted but recorded, so the transcripts of the two sides differ and the requester rejects the signature
* C115: Completion without authentication: clearing CERT_CAP in the CAPABILITIES response makes the requester report completion after ALGORITHMS, whatever it was configured with.
* C117: A request written twice is recorded twice by the requester, but by the responder only as often as it arrives in a state that allows it; asking again after a loss cannot lead to an accepted CHALLENGE_AUTH (C117).
* C125: Authentication does not protect the negotiation at all: since bytes behind the end of a message are ignored but hashed, a man in the middle can dictate the capabilities and algorithms of both sides independently, and the signature still verifies (the general form of C57).
* C126: Checking three lengths in front of the responder (4, 12, and 32 plus four per structure) would restore protection of the negotiation against C125, provided that the offer does not stand in the transcript a second time; without the latter a GET_DIGESTS with a surplus is enough for the attack.
* C129: C129: a peer can disable a responder without sending anything malformed, by repeating GET_DIGESTS or CHALLENGE until the transcript is full; the responder is then in its error state, where the next request aborts (C82).
<!-- more findings -->

## 5. Testing the theorems against wrong programs

`tools/mutate.py` applies one edit to a scratch copy of the model, rebuilds, and lists the theorems of `Props` that no longer
check (directly, or because a lemma they rest on fails). `seeded/LOG.jsonl` has one line per edit.

## 6. Axioms of each theorem

<!-- axioms begin -->
**no axioms** (5 theorems): `c93_constants`, `c108_first_unique`, `c108_accepted_iff`, `c108_error_iff`, `c108_abort_iff`.

**`propext`** (9 theorems): `c07_two_byte_buffer_panics`, `c56_codes_distinct`, `c92_one_go`, `c92_signer`, `c100_narrow`, `c104_conversions`, `c104_rsp_conversions`, `c105_well_formed`, `c108_same_error`.

**`Quot.sound`, `propext`** (80 theorems): `c01_writer_call`, `c15_oversized_chain_refused`, `c23_challenge_auth_bits_ignored`, `c24_opaque_count_panics`, `c24_block_count_panics`, `c29_witness`, `c30_check_alone_insufficient`, `c31_duplicate_kinds_rejected`, `c38_length_exceeded`, `c46_other_slot_accepted`, `c47_slot_count_accepted`, `c47_slot_eight_aborts`, `c51_reserved_buffer_too_small`, `c52_peer_aborts_requester`, `c53_constants`, `c56_defined_accepted`, `c57_capabilities_spliced`, `c58_wrong_signature_length_aborts`, `c60_responder_stubs_unused_partial`, `c61_completes_without_challenge`, `c61_algorithms_after_failed_request`, `c63_retransmission_breaks_authentication`, `c66_responder_stale_buffer`, `c66_requester_stale_buffer`, `c67_size`, `c67_view`, `c67_eq`, `c68_builder`, `c68_append`, `c68_count_overflows`, `c68_write`, `c68_eq`, `c68_parse`, `c69_digest_not_compared`, `c70_root_hash_unchecked`, `c71_remainder_ignored`, `c72_unadvertised_served`, `c73_expired_accepted`, `c73_fixed_time_partial`, `c79_not_reserialised`, `c85_chain`, `c86_got_is_not_the_code`, `c87_witness`, `c87_slot_eight_differs`, `c91_declarations_ignored`, `c91_not_enforced`, `c91_witness`, `c94_num`, `c94_blocks`, `c94_bit_stream`, `c95_any_time`, `c95_witness`, `c96_transcript_partial`, `c96_transcript_stale`, `c96_element_content`, `c96_stream_view`, `c96_stream`, `c100_writer`, `c100_reads`, `c100_chain_written`, `c100_chain_sum_overflows`, `c100_measurements`, `c100_opaque`, `c100_extended`, `c101_one_signature_two_sessions`, `c103_requester`, `c103_requester_slots`, `c103_responder`, `c104_rsp_capabilities`, `c106_same_handle`, `c106_same_next`, `c107_same`, `c108_same_algorithms`, `c108_same_challengeAuth`, `c108_same_measurements`, `c109_verdict`, `c110_chain_size_announced`, `c112_readme_pair_fails`, `c126_exactness_needed`, `c126_single_offer_needed`.

**`Classical.choice`, `Quot.sound`, `propext`** (323 theorems): `c01_writer_history`, `c02_integers_round_trip`, `c03_bit_stream`, `c04_reader_total`, `c05_transcript_log`, `c06_parse_header`, `c06_written_message_recognised`, `c07_no_panic_partial`, `c08_version_roundtrip`, `c08_too_many_entries`, `c08_too_many_entries_code`, `c09_capabilities_roundtrip`, `c09_undefined_flags_rejected`, `c09_accepted_flags_defined`, `c10_negotiate_algorithms_roundtrip`, `c11_algorithms_roundtrip`, `c12_parsed_algorithms_single_selection`, `c13_digests_roundtrip`, `c14_certificate_roundtrip`, `c14_oversized_portion_rejected`, `c14_certificate_bounded`, `c15_chain_roundtrip`, `c16_chain_parse_lossless`, `c17_challenge_roundtrip`, `c17_undefined_type_rejected`, `c18_challenge_auth_roundtrip_partial`, `c18_reader_inverts_layout`, `c18_mutual_auth_lost`, `c19_opaque_roundtrip`, `c20_error_roundtrip_partial`, `c20_vendor_opaque_lost`, `c21_get_measurements_roundtrip`, `c22_measurements_roundtrip_partial`, `c22_maximal_blocks_rejected`, `c22_unsigned_slot_lost`, `c23_reserved_bytes_zero`, `c23_challenge_auth_opaque`, `c23_measurements_opaque`, `c23_get_measurements_bits`, `c23_chain_reserved`, `c24_no_panic_partial`, `c24_no_panic_large_arrays_partial`, `c24_challenge_auth_panics`, `c24_chain_tag_panics`, `c25_truncation`, `c25_written_messages`, `c25_chain_truncation`, `c26_unambiguous_partial`, `c26_ambiguous_mutual_auth`, `c26_ambiguous_unsigned_slot`, `c27_highest_common`, `c27_no_common`, `c27_common_accepted`, `c28_selects_offered`, `c28_nonempty_offer_answered`, `c29_nonempty_offer_partial`, `c29_empty_offer_aborts`, `c30_selected_offered`, `c30_agreed_offered`, `c31_selection_accepted`, `c32_protocol_order`, `c32_out_of_order_refused`, `c32_accepted_allowed`, `c33_get_version_restarts`, `c33_get_version_state`, `c34_errors_uniform`, `c34_errors_final`, `c34_reset_restarts`, `c35_transcript_exact`, `c36_signature_covers_transcript`, `c36_only_challenge_signs`, `c36_every_signature`, `c37_certificate_of_slot`, `c37_unknown_slot_refused`, `c37_certificate_served`, `c38_offset_length_ignored`, `c38_whole_chain_partial`, `c39_digests_of_slots`, `c39_digests_served`, `c40_unavailable_slot_refused`, `c40_unavailable_slot_error`, `c41_completion`, `c41_history`, `c41_complete_is_final`, `c42_authenticated`, `c42_fresh`, `c43_failure_final`, `c43_never_completes`, `c44_transcript_exact`, `c45_gates`, `c45_requests`, `c46_certificate_slot_partial`, `c47_challenge_auth_slots_partial`, `c47_measurements_slots_partial`, `c48_transcripts_agree`, `c49_honest_handshake`, `c50_tampering_detected`, `c51_der_of_raw`, `c51_der_unambiguous`, `c51_der_canonical`, `c51_reserved_buffer_tight`, `c52_zero_half_aborts`, `c52_nonzero_halves_partial`, `c53_outcome`, `c53_accepts_valid`, `c54_capabilities`, `c54_algorithms`, `c55_digest_size`, `c55_signature_size`, `c56_code_written`, `c56_code_parsed`, `c56_undefined_rejected`, `c57_agreement_partial`, `c58_no_abort_partial`, `c58_short_request_aborts`, `c58_unusable_hash_aborts`, `c58_large_signature_aborts`, `c59_no_abort_partial`, `c59_built_no_abort_partial`, `c59_next_no_abort`, `c59_short_response_aborts`, `c59_unsolicited_capabilities_aborts`, `c59_unsolicited_algorithms_aborts`, `c59_completed_aborts`, `c60_requester_phases`, `c60_requester_stubs_unused`, `c60_responder_stub_called`, `c61_asked_partial`, `c62_failed_request_retry`, `c62_failed_request_invisible`, `c63_get_version_again_partial`, `c63_recorded_twice`, `c64_unexpected_refused`, `c65_requester_name`, `c65_responder_name`, `c67_bytes`, `c67_read`, `c69_honest_messages_agree_partial`, `c70_configured_root_partial`, `c71_honest_remainder_partial`, `c72_requester_asks_advertised_partial`, `c74_no_replay`, `c75_written_iff_fits`, `c76_refused_larger_buffer`, `c76_aborts_larger_buffer`, `c76_refused_smaller_buffer`, `c76_responder_larger_buffer`, `c76_requester_larger_buffer`, `c77_requests`, `c77_responses`, `c78_accepts_iff`, `c78_one_meaning`, `c79_reserialised_partial`, `c79_canonical_layout_partial`, `c80_answered_iff`, `c81_accepted_iff`, `c81_built_accepted_iff`, `c82_aborts_iff`, `c82_outcome`, `c83_chain_aborts_iff`, `c83_parser_aborts_iff`, `c84_aborts_iff`, `c84_outcome`, `c84_built_aborts_iff`, `c85_outcome`, `c85_written_iff`, `c85_writable_no_abort`, `c85_layout`, `c86_unexpected`, `c86_malformed`, `c86_slot`, `c86_resources`, `c86_unexpected_value`, `c86_sent`, `c86_sent_unexpected`, `c87_call_partial`, `c87_empty_offer_differs`, `c87_history_partial`, `c87_release_history_partial`, `c87_requester_partial`, `c88_reason`, `c88_iff`, `c88_built_iff`, `c89_accepts_valid`, `c89_file`, `c89_one_meaning`, `c90_usable`, `c90_requester`, `c90_unusable_selected`, `c90_digest_size_unchecked`, `c90_responder_partial`, `c90_built_peer_partial`, `c91_forced_partial`, `c91_built_offer_partial`, `c92_supported`, `c92_pieces`, `c92_endpoint_hash`, `c93_asym`, `c93_hash`, `c93_reqFlags`, `c93_rspFlags`, `c93_no_aliases`, `c93_same_capability`, `c94_num_travels_partial`, `c94_blocks_travel_partial`, `c94_number_refused`, `c94_challenge`, `c95_after_completion_partial`, `c96_element`, `c96_opaque`, `c96_stream_new`, `c96_stream_read`, `c97_builds_interoperate`, `c97_room_needed`, `c98_slots_isolated`, `c98_one_slot`, `c99_asks_for_buffer_partial`, `c99_asks_for_nothing`, `c100_reader`, `c100_transcript`, `c100_chain_parsed`, `c100_signature`, `c101_challenge_answered_partial`, `c101_one_signature_one_session_partial`, `c102_requester`, `c102_responder`, `c102_responder_determined`, `c103_requester_shows`, `c103_responder_shows`, `c104_ask_certificate`, `c104_certificate`, `c104_digests`, `c104_transcript`, `c104_held`, `c104_challenge`, `c104_authenticates`, `c104_restart`, `c105_survives_iff`, `c105_distinct`, `c105_chain_survives_iff`, `c106_reason`, `c106_iff`, `c106_built`, `c106_never`, `c106_next`, `c106_built_next`, `c107_sent`, `c107_reason`, `c107_kinds`, `c107_malformed`, `c107_never`, `c107_built`, `c108_getVersion`, `c108_getDigests`, `c108_version`, `c108_getCapabilities`, `c108_capabilities`, `c108_negotiateAlgorithms`, `c108_algorithms`, `c108_digests`, `c108_getCertificate`, `c108_certificate`, `c108_challenge`, `c108_chain`, `c108_challengeAuth`, `c108_getMeasurements`, `c108_measurements`, `c108_error`, `c109_requester`, `c109_trust_unseen`, `c109_responder`, `c109_nothing_signed`, `c110_responder`, `c110_requester`, `c111_watched_partial`, `c111_unedited_partial`, `c111_stale`, `c111_stale_wrong`, `c112_requester_ends`, `c112_requester_history`, `c112_vca_only`, `c112_every_request_answered`, `c112_responder_bounded`, `c112_pair_completes_partial`, `c112_readme_never_authenticates`, `c113_negotiation_only`, `c113_default_config`, `c113_crypto_config`, `c114_signer`, `c114_recent`, `c115_one_bit`, `c115_keyless_peer`, `c115_completion_partial`, `c116_one_clean_run`, `c117_asking_again_fails`, `c117_first_exchange_partial`, `c118_serves_everybody`, `c119_same_settings`, `c120_one_responder`, `c121_signed_in_time`, `c121_one_session`, `c122_accepted_iff`, `c122_built_accepted_iff`, `c123_heard_iff`, `c123_same_bytes`, `c123_confused_iff`, `c124_outcome`, `c124_sent`, `c124_mask`, `c124_dead`, `c124_built`, `c125_negotiation_unprotected`, `c126_negotiation_protected`, `c127_bit_errors_detected`, `c127_one_alteration_detected`, `c128_requests_no_responses`, `c128_responses_no_requests`, `c128_mirrored_requester`, `c128_mirrored_responder`, `c129_budget`, `c129_exhausted`, `c129_digests_exactly`, `c129_requests_exactly`.
<!-- axioms end -->

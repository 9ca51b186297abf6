import json
P=[]
def p(title, statement, quantifier, why, anchors):
    P.append(dict(id="C%02d"%(len(P)+1), title=title, statement=statement, quantifier=quantifier, why_tests_cant=why, anchors=anchors))

# ---- encoding layer
p("Writer is an exact bounded appender",
  "Serialising through the Writer appends exactly the requested bytes at the cursor: the bytes already written and the bytes beyond the new cursor are unchanged, the returned value is the new cursor, the cursor never exceeds the buffer length, and an operation fails with BufferFullError exactly when its bytes do not fit in the remaining space. No Writer operation panics.",
  "every buffer, every cursor position, every sequence of put/put_reserved/put_u16/put_u24/put_u32/extend operations and all their arguments",
  "tests try a few buffers and sizes; the claim is about all buffers, cursors and operation sequences",
  ["src/msgs/encoding.rs: Writer::put, put_reserved, put_u16, put_u24, put_u32, extend, is_full, remaining"])
p("Integers survive the wire little-endian",
  "A u16, a u24 (low three bytes of a usize) or a u32 written by the Writer is laid out least significant byte first and read back by the Reader as the same number, with exactly 2, 3 or 4 bytes consumed.",
  "every u16, every number below 2^24, every u32, every surrounding buffer content",
  "2^32 values and arbitrary surroundings cannot be enumerated",
  ["src/msgs/encoding.rs: Writer::put_u16/put_u24/put_u32, Reader::get_u16/get_u24/get_u32"])
p("Bit reads follow the least-significant-bit-first bit stream",
  "Reading n bits (1 to 7) at any bit position returns the next n bits of the stream obtained by listing every byte of the buffer least significant bit first, advances by exactly n bits, also across a byte boundary, and fails with BufferEmpty, without moving the cursor, exactly when fewer than n bits are left.",
  "every buffer, every bit position, every count from 1 to 7",
  "all buffer contents, positions and counts, including byte-crossing reads",
  ["src/msgs/encoding.rs: Reader::get_bits, get_bit"])
p("Reader never runs past its buffer and never panics",
  "Any sequence of Reader operations (get_byte, get_bits with count 1 to 255, get_u16, get_u24, get_u32, skip_reserved, skip_ignored, get_slice into a large enough destination) returns a value or an error, never panics, and leaves the cursor inside the buffer.",
  "every buffer and every sequence of operations",
  "unbounded operation histories",
  ["src/msgs/encoding.rs: Reader"])
p("Transcript is a bounded append-only log",
  "After any history of extend and clear calls the transcript holds exactly the concatenation of the successful extends since the last clear, its length never exceeds TRANSCRIPT_SIZE, an extend fails exactly when the result would not fit, and a failed extend leaves the content unchanged.",
  "every history of extend/clear calls and every transcript capacity",
  "unbounded histories; stale bytes after clear are only visible for particular histories",
  ["src/transcript.rs: Transcript::new, extend, clear, get, len"])
# ---- header
p("Header classification",
  "For every message type and every buffer of at least three bytes, parse_header says Ok(true) exactly when the second byte is the type's code and the first byte its version, Ok(false) exactly when the code differs, and ParseHeaderError exactly when the code matches but the version does not; a written message is recognised by its own type and by no other of the fifteen types.",
  "every buffer and every pair of message types",
  "all header bytes against all types",
  ["src/msgs/mod.rs: Msg::parse_header, Msg::write, Msg::write_header"])
p("Header parsing accepts every buffer that satisfies its documented precondition",
  "The documented precondition of parse_header is a buffer of at least 2 bytes; on such buffers it must return a result and not abort. (False of the code: the assertion demands more than 2 bytes, so a two-byte message from the peer aborts the endpoint.)",
  "every buffer of at least two bytes",
  "boundary only visible for one particular length; the positive part is over all buffers",
  ["src/msgs/mod.rs: Msg::parse_header", "src/responder.rs: reset_on_get_version!, expect", "src/requester.rs: expect"])
# ---- round trips
p("GET_VERSION and VERSION round trip",
  "Writing a GET_VERSION or VERSION message into a large enough buffer and parsing it back yields the same message, whatever bytes follow it; a VERSION whose fields fit in their 4-bit fields and whose unused entries are zero comes back field by field, and a VERSION announcing more entries than the fixed array holds is rejected.",
  "every VERSION message with nibble-sized fields and at most MAX_ALLOWED_VERSIONS entries, every trailing byte string",
  "all field values and all trailing contents",
  ["src/msgs/version.rs: GetVersion, Version::write_body, Version::parse_body"])
p("GET_CAPABILITIES and CAPABILITIES round trip, unknown flags rejected",
  "GET_CAPABILITIES and CAPABILITIES messages parse back to what was written; a message in which any flag bit not defined for that direction is set is rejected, and any accepted flags value contains only defined bits.",
  "all ct_exponent values, all flag combinations, all 32-bit words on the wire",
  "2^32 flag words per direction",
  ["src/msgs/capabilities.rs: GetCapabilities, Capabilities, ReqFlags, RspFlags"])
p("NEGOTIATE_ALGORITHMS round trip with a truthful length field",
  "A NEGOTIATE_ALGORITHMS message with at most four algorithm requests parses back to what was written, and the length field on the wire equals the total number of bytes written.",
  "every combination of algorithm masks and every list of at most four requests",
  "product of all masks and request lists",
  ["src/msgs/algorithms.rs: NegotiateAlgorithms, AlgorithmRequest"])
p("ALGORITHMS round trip with a truthful length field",
  "An ALGORITHMS message that selects exactly one algorithm in every field and in each of at most four responses parses back to what was written, and the length field on the wire equals the total number of bytes written.",
  "every combination of single selections and every list of at most four responses",
  "product of all selections and response lists",
  ["src/msgs/algorithms.rs: Algorithms, AlgorithmResponse"])
p("A parsed ALGORITHMS response selects exactly one algorithm per field",
  "Whenever ALGORITHMS parsing accepts a byte string, the measurement specification, measurement hash, base asymmetric and base hash selections each have exactly one defined bit set, and so does each of the (at most four) algorithm responses.",
  "every byte string from the responder",
  "all byte strings of all lengths",
  ["src/msgs/algorithms.rs: Algorithms::parse_body, ensure_only_one_bit_set"])
p("DIGESTS round trip",
  "A DIGESTS message whose slot mask names exactly the slots holding a digest of the negotiated size parses back, slot by slot, to what was written.",
  "every slot mask within the configured slots, every digest content and size, every configuration",
  "all masks, digests and configurations",
  ["src/msgs/digest.rs: Digests::write_body, parse_body"])
p("GET_CERTIFICATE and CERTIFICATE round trip",
  "GET_CERTIFICATE and CERTIFICATE messages parse back to what was written; a CERTIFICATE whose portion exceeds the configured buffer is rejected and never overflows it.",
  "all slots, offsets, lengths, all chain bytes and all configurations",
  "all lengths and contents",
  ["src/msgs/certificates.rs: GetCertificate, Certificate"])
p("Certificate chain round trip",
  "Serialising a certificate chain whose certificates are well-formed DER SEQUENCEs and parsing the result with the same digest size returns the same root hash, the same intermediate certificates in the same order and the same leaf; the two-byte length field equals the total number of bytes.",
  "every root hash, every list of at most MAX_CERT_CHAIN_DEPTH intermediates, every certificate body below 64 KiB",
  "unbounded certificate sizes and chain shapes",
  ["src/msgs/certificates.rs: CertificateChain::write, parse, read_cert_size, append_intermediate_cert"])
p("Certificate chain parsing is lossless and bounded",
  "Whenever chain parsing accepts a buffer, the buffer is exactly the 4-byte header followed by the root hash, the intermediates in order and the leaf; the header length equals the buffer length; no more than MAX_CERT_CHAIN_DEPTH intermediates are kept; every certificate returned starts with 0x30 and has the length its DER length octets announce.",
  "every buffer and every digest size",
  "all byte strings",
  ["src/msgs/certificates.rs: CertificateChain::parse, read_cert_size"])
p("CHALLENGE round trip",
  "A CHALLENGE message parses back to the slot, measurement hash type and nonce that were written; an undefined measurement hash type is rejected.",
  "every slot, type and nonce, every type byte on the wire",
  "all nonces and type bytes",
  ["src/msgs/challenge.rs: Challenge, MeasurementHashType"])
p("CHALLENGE_AUTH round trip including the mutual-authentication bit",
  "A CHALLENGE_AUTH message parses back to what was written, including the slot number and the mutual authentication request bit. (False of the code when mutual authentication is requested: the slot field is masked with the flag bit instead of combined with it, so both the slot and the flag are lost.)",
  "every slot below NUM_SLOTS, every mask, digest, nonce, opaque data and signature, flag on or off",
  "the flag and slot combination is one corner of a product space",
  ["src/msgs/challenge.rs: ChallengeAuth::write_body, parse_body"])
p("Opaque data round trip",
  "Opaque data made of well-formed elements parses back to what was written, padding included, and its announced serialised size is the number of bytes written.",
  "every list of at most MAX_OPAQUE_ELEMENTS elements, each vendor id kind and each data length up to MAX_OPAQUE_ELEMENT_DATA_SIZE",
  "all element lists and lengths",
  ["src/msgs/common.rs: OpaqueData, OpaqueElement, VendorId, VendorRegistryId"])
p("ERROR round trip",
  "An ERROR message parses back to the error code and data that were written, for every error code. (False of the code for vendor-defined errors carrying opaque data: the opaque bytes are written but never parsed back.)",
  "every error code with every datum",
  "all codes and data",
  ["src/msgs/error.rs: Error::write_body, parse_body"])
p("GET_MEASUREMENTS round trip",
  "A GET_MEASUREMENTS message parses back to the attributes, measurement index, nonce and slot that were written, for every request attribute and every measurement index.",
  "every attribute combination, index byte, nonce and slot",
  "all combinations",
  ["src/msgs/measurements.rs: GetMeasurements, RequestAttributes, MeasurementIndex"])
p("MEASUREMENTS round trip",
  "A MEASUREMENTS message parses back to the blocks, opaque data, nonce and signature that were written.",
  "every list of at most MAX_MEASUREMENT_BLOCKS blocks of at most MAX_MEASUREMENT_SIZE bytes, with and without signature",
  "unbounded products of blocks",
  ["src/msgs/measurements.rs: Measurements, MeasurementBlocks, MeasurementBlock, DmtfMeasurement"])
# ---- parse robustness
p("Reserved bytes are enforced",
  "Every message parser that accepts a byte string has found zero in every byte the message layout reserves.",
  "every byte string given to each parser",
  "all byte strings",
  ["src/msgs/*.rs: parse_body", "src/msgs/encoding.rs: Reader::skip_reserved"])
p("Parsers never panic on peer-controlled bytes",
  "No message parser panics, whatever bytes the peer sends. (False of the code for opaque data with too many or too large elements, for measurement blocks, and for certificate chains whose certificate does not start with 0x30.)",
  "every byte string given to each of the message parsers",
  "only adversarial byte strings trigger the aborts; the positive part ranges over all byte strings",
  ["src/msgs/*.rs: parse_body", "src/msgs/common.rs: OpaqueData::read, OpaqueElement::read", "src/msgs/measurements.rs: MeasurementBlocks::read", "src/msgs/certificates.rs: read_cert_size"])
p("Truncated messages are never accepted",
  "If a parser accepts a byte string having consumed n bytes of it, then it accepts every byte string with the same first n bytes, with the same result, and rejects every shorter prefix with an error rather than accepting or panicking.",
  "every byte string and every truncation point",
  "all byte strings and all prefixes",
  ["src/msgs/encoding.rs: Reader", "src/msgs/*.rs: parse_body"])
p("Encodings are unambiguous",
  "Two well-formed messages of the same type that serialise to the same bytes are equal, and messages of different types never serialise to the same bytes.",
  "every pair of messages",
  "pairs of unbounded values",
  ["src/msgs/*.rs: write_body", "src/msgs/mod.rs: write_header"])
# ---- negotiation
p("Version negotiation picks the highest common version",
  "The requester moves on with the greatest version that both it and the responder list, comparing major, minor, update, alpha in that order, and reports NoSupportedVersions exactly when there is none.",
  "every VERSION response content",
  "all responder lists",
  ["src/requester/version.rs: find_max_matching_version, handle_msg"])
p("Responder selects only offered algorithms",
  "For every parsed NEGOTIATE_ALGORITHMS request whose asymmetric, hash and algorithm masks are non-zero, the responder's ALGORITHMS response selects in each field exactly one algorithm, which the requester offered (the lowest offered bit), and answers the same algorithm types in the same order.",
  "every NEGOTIATE_ALGORITHMS request",
  "product of all masks and request lists",
  ["src/responder/algorithms.rs: choose_algorithms, handle_msg"])
p("Responder survives an empty algorithm offer",
  "A NEGOTIATE_ALGORITHMS request with an empty mask must be answered or rejected, not abort the responder. (False of the code: an empty mask shifts 1 by the word width and aborts, or unwraps None.)",
  "every NEGOTIATE_ALGORITHMS request",
  "the aborting inputs are valid encodings in a huge space",
  ["src/responder/algorithms.rs: choose_algorithms"])
p("Requester accepts only algorithms it offered",
  "If the requester accepts an ALGORITHMS response, the measurement specification is the one requested, and the selected asymmetric and hash algorithms and every algorithm response selection are among those offered in its own NEGOTIATE_ALGORITHMS.",
  "every ALGORITHMS byte string and every offer",
  "all byte strings",
  ["src/requester/algorithms.rs: handle_msg, ensure_valid_algorithms_selected, ensure_algorithm_response_is_valid"])
p("An honest responder's selection is always accepted",
  "For every well-formed offer with non-empty masks and measurement specification and algorithm types that are all different, the bytes the responder answers are parsed and accepted by the requester that made the offer, as the very selection the responder made.",
  "every offer",
  "all offers",
  ["src/responder/algorithms.rs", "src/requester/algorithms.rs", "src/msgs/algorithms.rs"])
# ---- state machines
p("Responder accepts requests only in protocol order",
  "Over any sequence of requests from a fresh responder, capabilities are only negotiated after a version exchange, algorithms after capabilities, digests and certificates after algorithms, and a challenge is answered only after a certificate request; any other request of at least three bytes is answered with an ERROR and moves the responder to the error state.",
  "every sequence of request byte strings",
  "unbounded request histories",
  ["src/responder.rs: handle, handle_msg", "src/responder/*.rs: handle_msg"])
p("GET_VERSION restarts the responder from any live state",
  "A GET_VERSION request received in any non-error state has the same response, next state and transcript as when received by a freshly created responder.",
  "every reachable state of the responder and every GET_VERSION byte string",
  "all histories before the restart",
  ["src/responder.rs: reset_on_get_version!", "src/responder/version.rs"])
p("Responder error handling is uniform and final",
  "Whenever handling a request fails, the responder reports the error, the response is either an ERROR message with the code assigned to that error or empty when the response buffer cannot hold it, and the responder is in the error state, in which it answers nothing until reset; reset returns it to the state of a fresh responder.",
  "every state, request and response buffer",
  "all failures in all states",
  ["src/responder.rs: handle, reset", "src/responder/error.rs"])
p("Responder transcript is the exact conversation",
  "After any sequence of successfully handled requests since the last GET_VERSION, the responder's transcript is exactly the concatenation of each request's bytes and each response's bytes in order (with the signature of a CHALLENGE_AUTH left out).",
  "every sequence of successful request/response exchanges",
  "unbounded histories",
  ["src/responder/*.rs: handle_msg", "src/transcript.rs"])
p("Responder signs exactly the transcript",
  "The signature in a CHALLENGE_AUTH response is the slot's signature over the hash, with the negotiated hash algorithm, of the transcript of the conversation including the CHALLENGE (with the requester's nonce) and the CHALLENGE_AUTH up to the signature; no other request makes the responder sign.",
  "every conversation ending in a challenge",
  "all conversations",
  ["src/responder/challenge.rs: handle_msg"])
p("Responder serves the certificate of the requested slot",
  "A GET_CERTIFICATE for a filled slot is answered with that slot's serialised chain and slot number, for an empty slot with an empty portion, and for a slot number beyond the configured slots with an error.",
  "every request, every slot assignment, every configuration",
  "all slot assignments and requests",
  ["src/responder/id_auth.rs: handle_get_certificate"])
p("Certificate requests honour offset and length",
  "A GET_CERTIFICATE response carries the bytes of the chain selected by the requested offset and length, and no more than length bytes. (False of the code: offset and length are ignored and the whole chain is always sent.)",
  "every offset and length",
  "all offset/length pairs",
  ["src/responder/id_auth.rs: handle_get_certificate", "src/msgs/certificates.rs: GetCertificate"])
p("DIGESTS describe exactly the filled slots",
  "In a DIGESTS response bit i of the slot mask is set exactly when slot i is filled, and the digest for slot i is the hash, with the negotiated hash algorithm, of that slot's serialised chain.",
  "every slot assignment and hash algorithm",
  "all slot assignments",
  ["src/responder/id_auth.rs: create_slot_mask, hash_cert_chains, handle_get_digests"])
p("Challenge on an unavailable slot is refused",
  "A CHALLENGE naming a slot that is empty or beyond the configured slots is refused with an error and nothing is signed.",
  "every slot number and slot assignment",
  "all slot assignments",
  ["src/responder/challenge.rs: handle_msg"])
p("Requester completes only after the full authenticated sequence",
  "Over any sequence of next_request and handle_msg calls from a fresh requester, handle_msg reports completion only after accepted VERSION, CAPABILITIES and ALGORITHMS responses in that order and, if both sides advertise certificates, accepted DIGESTS and CERTIFICATE responses and, if both sides advertise challenge too, a verified CHALLENGE_AUTH.",
  "every interleaving of API calls and every response byte string",
  "unbounded call histories",
  ["src/requester.rs: next_request, handle_msg, transitions", "src/requester/*.rs"])
p("Authentication soundness of the requester",
  "When a CHALLENGE_AUTH is accepted, the slot is the one challenged, the certificate chain hash in the message equals the hash of the received chain, the chain parses and verifies up to the configured root certificate, and the signature verifies under the leaf over the hash of the transcript, which contains the nonce generated for this challenge.",
  "every response byte string and every prior conversation",
  "all byte strings and conversations",
  ["src/requester/challenge.rs: handle_msg"])
p("A failed requester never completes",
  "Once handling a response has failed, the requester never reports completion, whatever calls follow.",
  "every failure and every later call history",
  "unbounded histories",
  ["src/requester.rs: handle_msg"])
p("Requester transcript is the exact conversation",
  "The requester's transcript is exactly the concatenation, in order, of the requests it wrote and the responses it accepted since its last GET_VERSION (with the signature of a CHALLENGE_AUTH left out).",
  "every history of successful API calls",
  "unbounded histories",
  ["src/requester/*.rs: write_msg, handle_msg", "src/transcript.rs"])
p("Capabilities gate identity phases",
  "The requester enters certificate retrieval exactly when both peers advertise CERT_CAP and the challenge exactly when both advertise CHAL_CAP after certificate retrieval; otherwise it goes straight to the new session state.",
  "all capability combinations",
  "2^34 combinations",
  ["src/requester.rs: AllStates transitions", "src/requester/algorithms.rs", "src/requester/id_auth.rs"])
p("The requester authenticates the slot it asked for",
  "The requester only accepts a CERTIFICATE response for the slot it requested. (False of the code: the response's slot is not compared with the requested one and silently replaces it.)",
  "every CERTIFICATE response",
  "depends on one field of an adversarial response",
  ["src/requester/id_auth.rs: handle_certificate"])
p("Slot numbers beyond the configured slots are rejected",
  "CHALLENGE_AUTH and MEASUREMENTS parsing rejects slot numbers that are not below NUM_SLOTS. (False of the code: slot number NUM_SLOTS itself is accepted.)",
  "every message and configuration",
  "off-by-one visible for one value only",
  ["src/msgs/challenge.rs: ChallengeAuth::parse_body", "src/msgs/measurements.rs: Measurements::parse_body"])
# ---- end to end
p("Transcripts of the two endpoints agree",
  "If every message is delivered unmodified, the requester's and the responder's transcripts are byte for byte equal after every exchange.",
  "every conversation of exchanges",
  "unbounded conversations",
  ["src/requester/*.rs", "src/responder/*.rs", "src/transcript.rs"])
p("The honest handshake completes",
  "A requester and a responder built from the same valid configuration, with a filled slot 0, correct hash, signature and chain verification and large enough buffers complete the handshake: the requester ends with completion and no call fails or panics.",
  "every valid configuration, certificate chain, nonce pair and correct crypto provider",
  "all configurations, chains, nonces",
  ["src/requester.rs", "src/responder.rs", "tests/protocol.rs"])
p("Tampering with any message is detected",
  "If the requester completes with a signature that the responder really produced, then, unless the hash collides, the transcript the requester ends with is byte for byte the transcript the responder signed.",
  "every man-in-the-middle modification of every message",
  "adversarial message histories",
  ["src/requester/challenge.rs", "src/responder/challenge.rs", "src/transcript.rs"])
# ---- DER / sizes / config
p("Raw ECDSA signatures are re-encoded as the same DER integers",
  "For every raw signature with non-zero halves the DER encoding handed to the verifier is a SEQUENCE of two minimal, positive INTEGERs equal to the big-endian values of the halves, and it fits in the buffer reserved for it.",
  "every raw signature of every supported size",
  "all signatures, including those with leading zeros or high bits",
  ["src/crypto/pki.rs: bin_to_der, integer_to_der, get_start_and_length, write_der_length, max_encoded_size"])
p("Signature re-encoding survives any signature",
  "A signature received from the peer never aborts the requester. (False of the code: a signature with an all-zero half unwraps None.)",
  "every raw signature",
  "one value in 2^256 per half",
  ["src/crypto/pki.rs: get_start_and_length"])
p("Build configuration is validated",
  "A configuration accepted by the build has between 1 and 8 slots, a chain buffer of at most 64 KiB, a chain depth of at most 24, only implemented signing algorithms and only supported capability names, and no capability at all without a crypto provider; every rejected configuration violates one of these.",
  "every configuration",
  "all configurations",
  ["build.rs: CertChainConfig::validate, max_signature_size, validate_capabilities, gen_config"])
p("Configured names always resolve at run time",
  "Every capability and signing algorithm name the build accepts is recognised at run time by requester and responder, so building the capability and algorithm messages from the configuration cannot panic, and the flags sent are exactly those configured.",
  "every accepted configuration",
  "all capability lists",
  ["src/msgs/capabilities.rs: FromStr", "src/msgs/algorithms.rs: FromStr", "src/responder/capabilities.rs", "src/requester/capabilities.rs", "src/requester/algorithms.rs"])
p("Digest and signature sizes match the negotiated algorithm",
  "For a single selected algorithm the digest and signature sizes are those of the SPDM specification, and the call panics exactly when the selection is not a single algorithm or its size exceeds the configured maximum.",
  "all algorithm masks and configured maxima",
  "all masks",
  ["src/msgs/algorithms.rs: get_signature_size, get_digest_size", "src/msgs/common.rs: DigestSize, SignatureSize"])
p("Error codes are faithfully encoded",
  "Different error codes have different wire bytes, each byte that denotes a defined code parses to that code, and every other byte is rejected.",
  "all 256 byte values and all codes",
  "whole domain",
  ["src/msgs/error.rs: ErrorCode"])
p("Completed endpoints agree on what was negotiated",
  "If the requester completes with a signature that the responder really produced, then, unless the hash collides, both endpoints saw the same messages: they agree on both capability words and on the selected algorithms. (False of the code: bytes behind the end of a message are ignored but recorded, so a man in the middle can move the boundary between a request and its response without changing the transcript; true of conversations without such bytes.)",
  "every man-in-the-middle modification of every message",
  "adversarial message histories",
  ["src/requester/capabilities.rs", "src/requester/algorithms.rs", "src/responder/capabilities.rs", "src/responder/algorithms.rs", "src/transcript.rs"])
# ---- aborts
p("A live responder answers every request without aborting",
  "Whatever a peer sends, handle_msg of a responder that has not failed returns a reply or an error reply instead of panicking. (False of the code: requests of fewer than three bytes, empty algorithm offers, a selected hash or signature algorithm the build cannot handle, and signers that return a signature of another length all abort.)",
  "every history, every request, every buffer, every crypto provider",
  "adversarial inputs in every protocol state",
  ["src/responder.rs: handle_msg", "src/responder/*.rs", "src/msgs/mod.rs: parse_header", "src/crypto/digest.rs", "src/msgs/algorithms.rs"])
p("A live requester processes every response without aborting",
  "Whatever a peer answers, handle_msg of a requester that has not failed accepts the response or reports an error instead of panicking, and next_request never panics. (False of the code for handle_msg: responses of fewer than three bytes, CAPABILITIES or ALGORITHMS that were not asked for, any message after completion, a zero signature half, a certificate that does not start with 0x30, slot 8 and oversized opaque data all abort.)",
  "every history, every response, every accepted configuration",
  "adversarial inputs in every protocol state",
  ["src/requester.rs: handle_msg, next_request", "src/requester/*.rs"])
# ---- builds without crypto, interplay of the calls
p("A build without a crypto provider never reaches a provider stub",
  "Without a crypto provider the build refuses every capability, so the requester's handshake ends after CAPABILITIES and ALGORITHMS as configured and no call of either endpoint hashes, verifies or signs. (False of the code for the responder: capabilities are not consulted before hashing a filled slot, so GET_DIGESTS aborts in the provider stub.)",
  "every accepted configuration without a provider, every history",
  "all configurations and peers",
  ["build.rs", "src/crypto/no_crypto_defaults.rs", "src/responder/id_auth.rs", "src/requester/algorithms.rs"])
p("Only responses that were asked for are accepted",
  "The requester accepts a response only if it has written the matching request since the last accepted response. (False of the code: only CAPABILITIES is protected; VERSION, DIGESTS, CERTIFICATE and CHALLENGE_AUTH are accepted unasked, ALGORITHMS after a failed next_request, and authentication can complete although no CHALLENGE was ever sent.)",
  "every history of calls of the requester",
  "all interleavings of next_request and handle_msg",
  ["src/requester.rs: next_request, handle_msg", "src/requester/*.rs"])
p("A failed next_request can be retried",
  "A call of next_request that fails, for example because the buffer is too small, changes neither the transcript nor what any later successful call does: retrying it leaves the requester as if the failed call had not happened.",
  "every history, every buffer, every kind of failure",
  "failures at every point of the handshake",
  ["src/requester.rs: next_request", "src/requester/*.rs: write_*"])
p("A request can be sent again",
  "Calling next_request again before a response was accepted gives the same request and does not disturb the session. (True of GET_VERSION only: every other request is appended to the transcript a second time, after which the honest responder's signature is refused.)",
  "every history",
  "all interleavings of next_request and handle_msg",
  ["src/requester.rs: next_request", "src/transcript.rs"])
p("Responses out of turn are refused",
  "A response of at least three bytes whose code is not that of the response awaited is refused with the unexpected-message error naming the awaited code, whatever else it contains, an ERROR message included; nothing of it is recorded and the requester is in its error state.",
  "every history, every response",
  "adversarial histories",
  ["src/requester.rs: handle_msg", "src/requester/*.rs: handle_msg", "src/requester.rs: expect"])
p("The reported state name is truthful",
  "state() of an endpoint names what its history implies: the requester's name says which response it needs next (or that authentication is complete), the responder's which request it accepted last; both say Error exactly from the first refused message on (the responder until reset), and abort only after a call that itself aborted. The responder's slots() never change.",
  "every history of calls of either endpoint",
  "all histories",
  ["src/requester.rs: state, name", "src/responder.rs: state, slots, reset", "src/requester/*.rs: name"])
p("Stale buffer contents never matter",
  "What a call of either endpoint returns, and everything later, depends on the caller's output buffer only through its length: bytes left in it by an earlier message neither leak into an outgoing message nor change a decision.",
  "every state, request, buffer length and pair of buffer contents",
  "all pairs of buffer contents",
  ["src/msgs/encoding.rs: Writer", "src/responder.rs: handle_msg", "src/requester.rs: next_request"])
p("Digest and signature buffers behave as byte strings",
  "A DigestBuf or SignatureBuf, however obtained, can be viewed without aborting, has the length it reports, at most the configured maximum; bytes are accepted exactly if they fit and are returned unchanged; reading one from a message consumes exactly its size; equality compares the contents and nothing behind them.",
  "every maximum, size, byte string and buffer reachable by the API",
  "all sizes and contents, including stale bytes behind the contents",
  ["src/msgs/common.rs: DigestSize, DigestBuf, SignatureSize, SignatureBuf"])
p("A certificate chain behaves as a bounded list of certificates",
  "A CertificateChain built by appending shows exactly the accepted intermediate certificates in order; the first MAX_CERT_CHAIN_DEPTH appends succeed and later ones are refused without effect; showing never aborts; serialising, comparing and parsing depend only on the root hash, leaf and the shown certificates, never on unused array entries.",
  "every depth up to 255, sequence of appends and byte string parsed",
  "all sequences of appends and all inputs",
  ["src/msgs/certificates.rs: CertificateChain"])
# ---- what authentication checks, sizes, configuration
p("DIGESTS, CERTIFICATE and CHALLENGE_AUTH agree",
  "A handshake completes only if the digest announced in DIGESTS for the slot is the hash of the chain in CERTIFICATE. (False of the code: the requester never compares the DIGESTS entries. An honest responder's three messages do agree.)",
  "every session, every peer", "all message contents",
  ["src/requester/id_auth.rs: handle_digests, handle_certificate", "src/requester/challenge.rs", "src/responder/id_auth.rs", "src/responder/challenge.rs"])
p("The chain's root hash is that of the configured root",
  "A handshake completes only if the root hash in the certificate chain is the hash of the requester's root certificate. (False of the code: the root hash is read and ignored; the trust decision itself is always made against the configured root.)",
  "every session, every chain", "all chains",
  ["src/requester/challenge.rs: verify_cert_chain_and_signature", "src/msgs/certificates.rs: CertificateChain"])
p("An incomplete certificate chain is not authenticated",
  "If CERTIFICATE announces that part of the chain remains to be fetched, the requester does not complete with the part it has. (False of the code: remainder_length is ignored; an honest responder always sends the whole chain and announces no remainder.)",
  "every session, every CERTIFICATE", "all message contents",
  ["src/requester/id_auth.rs: handle_certificate", "src/responder/id_auth.rs: handle_get_certificate", "src/msgs/certificates.rs"])
p("Phases need their capabilities",
  "Certificate retrieval and challenge take place only if the capabilities CERT_CAP and CHAL_CAP were advertised. (True of the requester; false of the responder, which serves them whatever it advertised.)",
  "every session, every configuration", "all configurations and histories",
  ["src/responder/id_auth.rs", "src/responder/challenge.rs", "src/requester.rs: AllStates::handle_msg"])
p("Expired certificate chains are refused",
  "A chain that is not valid at the time of the handshake is refused. (False of the code: validity is judged at the fixed time 2021-12-01 00:00:00 UTC; verifiers that agree there give identical behaviour in every history.)",
  "every verifier and history", "all validity periods",
  ["src/requester/challenge.rs: UNIX_TIME", "src/crypto/ring/pki.rs: verify_chain_of_trust"])
p("A signature from another session is not accepted",
  "If only the responder can produce signatures that verify, then a CHALLENGE_AUTH accepted after this requester's CHALLENGE carries a signature over a transcript that contains that CHALLENGE with its nonce, unless the two transcripts are a hash collision.",
  "every pair of histories, every network in between", "adversarial scheduling and replays",
  ["src/requester/challenge.rs", "src/responder/challenge.rs", "src/transcript.rs"])
p("next_request succeeds exactly if the request fits",
  "Under a configuration the build accepts, and before completion or failure, next_request writes the next request exactly if the buffer has 4, 12, 48, 4, 8 or 4 + NONCE_SIZE bytes (for the six requests in order) and the transcript has room for as many; the request is exactly that long.",
  "every accepted configuration, history, buffer size and transcript fill", "all sizes at every stage",
  ["src/requester.rs: next_request", "src/requester/*.rs", "src/transcript.rs"])
p("A larger buffer changes nothing",
  "If a request is answered, or written, with some output buffer, then with every buffer of at least the size of that message the outcome and the state afterwards are the same. A request that a responder refuses for another reason than lack of room, or that aborts it, fares the same with every larger buffer (same error, same ERROR message if there was room for it); with a smaller buffer a refused request is refused for the same reason or for lack of room.",
  "every state, request, and pair of buffers", "all pairs of buffers",
  ["src/msgs/encoding.rs: Writer", "src/responder.rs: handle_msg", "src/requester.rs: next_request"])
p("The endpoints announce exactly their configuration",
  "Under a configuration the build accepts, every GET_VERSION, GET_CAPABILITIES, NEGOTIATE_ALGORITHMS, GET_DIGESTS, GET_CERTIFICATE, VERSION and CAPABILITIES sent consists of fixed bytes determined by the configuration: the capability words have the bits of the configured names and no others, P-256 is offered exactly if signing is configured, and GET_CERTIFICATE asks for the configured chain size.",
  "every accepted configuration and history", "all configurations",
  ["src/requester/capabilities.rs", "src/requester/algorithms.rs", "src/requester/id_auth.rs", "src/responder/version.rs", "src/responder/capabilities.rs", "build.rs"])
# ---- exact acceptance
p("Exactly which bytes each parser accepts and what they mean",
  "For each of the 15 message types, the parser returns a message exactly if the buffer starts with a byte string laid out as specified for that message: which bytes are checked, which are free, and how each field is computed. No byte string means two messages.",
  "every buffer, message, message type and configuration with 1 to 8 slots", "all byte strings, in both directions",
  ["src/msgs/*.rs: parse_body", "src/msgs/encoding.rs: Reader"])
p("Re-serialising an accepted message reproduces the accepted bytes",
  "Writing a message that was parsed yields the bytes it was parsed from. (True of nine message types; false of VERSION, NEGOTIATE_ALGORITHMS, ALGORITHMS, CHALLENGE_AUTH, MEASUREMENTS and ERROR, whose parsers ignore bytes.)",
  "every buffer and message type", "all byte strings",
  ["src/msgs/*.rs: parse_body, write_body"])
p("Exactly which requests a responder answers, and with what",
  "After any history, a responder that has not failed answers a request if and only if the request is the one of the relation Reply for the last accepted request and the conversation so far, the reply fits the output buffer, and the transcript has room for request and reply; and the reply is then the unique one the relation gives: which bytes of the request matter, what is looked up in the slots, which digests and signatures are computed over which bytes.",
  "every history, slot contents, crypto provider, request, buffer and transcript size",
  "both directions over all byte strings and histories",
  ["src/responder.rs: handle_msg", "src/responder/version.rs", "src/responder/capabilities.rs", "src/responder/algorithms.rs", "src/responder/id_auth.rs", "src/responder/challenge.rs"])
p("Exactly which responses a requester accepts",
  "After any history without failure in which a request is outstanding, the requester accepts a response if and only if it is one of the relation Acceptable for the responses accepted so far, the conversation and the offered algorithms, and the transcript has room for it; and it reports completion exactly if the relation says so. For CHALLENGE_AUTH the relation requires the slot of the CERTIFICATE message, the hash of its chain, a trusted chain to the configured root and a valid signature over the hash of the conversation.",
  "every history, crypto provider, root, response and configuration the build accepts",
  "both directions over all byte strings and histories",
  ["src/requester.rs: handle_msg", "src/requester/version.rs", "src/requester/capabilities.rs", "src/requester/algorithms.rs", "src/requester/id_auth.rs", "src/requester/challenge.rs"])
p("Exactly which requests abort a responder",
  "After any history, a request makes the responder panic if and only if it is one of the relation RequestAborts: under three bytes; an algorithm offer with an empty mask; a GET_DIGESTS or CHALLENGE when a chain or the transcript cannot be hashed with the selected algorithm, the sizes do not fit the build's buffers, or a signer returns the wrong length. Every request is either answered as the relation Reply says, aborts as the relation RequestAborts says, or gets an ERROR.",
  "every history, slot contents, crypto provider, signer, request, buffer and transcript size",
  "both directions over all byte strings and histories; absence of panics is universal",
  ["src/responder.rs: handle_msg", "src/responder/algorithms.rs", "src/responder/id_auth.rs", "src/responder/challenge.rs", "src/msgs/algorithms.rs: get_digest_size, get_signature_size", "src/crypto/digest.rs"])
p("Exactly which bytes abort a parser",
  "A message parser panics on a buffer if and only if the message is CHALLENGE_AUTH or MEASUREMENTS and the buffer starts with fields that pass every check followed by opaque data with an element larger than MAX_OPAQUE_ELEMENT_DATA_SIZE or more elements than MAX_OPAQUE_ELEMENTS, or by more measurement blocks than MAX_MEASUREMENT_BLOCKS. The certificate chain parser panics if and only if the length and reserved bytes are right, at most MAX_CERT_CHAIN_DEPTH whole certificates follow the root hash, and the next byte is not the tag of a DER SEQUENCE. On every other buffer they return a value or an error.",
  "every buffer of any length, message type and configuration with at most 8 slots", "both directions over all byte strings; absence of panics is universal",
  ["src/msgs/*.rs: parse_body", "src/msgs/common.rs: OpaqueData::read, OpaqueElement::read", "src/msgs/measurements.rs: MeasurementBlocks::read", "src/msgs/certificates.rs: CertificateChain::parse, read_cert_size"])
p("Exactly which responses abort a requester",
  "After any history without failure, a response makes the requester panic if and only if it is one of the relation ResponseAborts: under three bytes; any response after the last; a well-formed CAPABILITIES or ALGORITHMS that was not asked for; DIGESTS when the selected hash does not fit the build; a CHALLENGE_AUTH whose opaque data overflow, that is for slot 8, whose chain or transcript cannot be hashed, whose certificate chain aborts the chain parser, whose signature algorithm the provider lacks, or of whose signature a half is zero -- each of the last only if all the checks before it pass. Every response to an outstanding request is accepted as the relation Acceptable says, aborts as ResponseAborts says, or is refused with an error and the requester has failed.",
  "every history, crypto provider, root, response and configuration the build accepts",
  "both directions over all byte strings and histories; absence of panics is universal",
  ["src/requester.rs: handle_msg", "src/requester/capabilities.rs", "src/requester/algorithms.rs", "src/requester/id_auth.rs", "src/requester/challenge.rs", "src/crypto/ring/pki.rs"])
p("Exactly which messages can be written, and how",
  "For every value of every message type, including careless ones, and every buffer: the writer puts the bytes of the message's text behind the two header bytes and ends as the text says (all written and nothing behind touched, a named error, or an abort), or reports a full buffer if they do not fit. It succeeds if and only if the message is Writable (counts within their arrays, masked slots filled, portion within the chain array, slot below NUM_SLOTS and opaque data at most 1024 bytes for CHALLENGE_AUTH, index in range, nonce present when a signature is requested, vendor ids of the registry's length, sizes within their fields) and fits. Certificate chains are written exactly if they fit their 16-bit length field.",
  "every message value, buffer and configuration with at most 8 slots",
  "the values and buffer sizes are unbounded; both directions",
  ["src/msgs/mod.rs: Msg::write", "src/msgs/*.rs: write_body", "src/msgs/common.rs: OpaqueData::write, OpaqueElement::write", "src/msgs/measurements.rs: MeasurementBlocks::write", "src/msgs/certificates.rs: CertificateChain::write"])
p("Which ERROR a refused request gets",
  "After any history, if a live responder refuses a request: the ERROR is UnexpectedRequest exactly if the first two bytes are not the header of a request that may come now; an awaited request that is no valid encoding gets InvalidRequest, or RequestTooLarge if it ends too early or announces more than 128 bytes of algorithms; a valid request for a slot that does not exist (GET_CERTIFICATE) or holds no chain (CHALLENGE) gets InvalidRequest; every other refusal is for lack of room and gets LargeResponse, except that CHALLENGE gets ResponseTooLarge, InvalidRequest if the response buffer ends inside the opaque data, or Unspecified if the signer declines. The error value given to the caller for an unexpected request names a code that may come now and the request's version byte.",
  "every history, slot contents, crypto provider, signer, request, buffer and transcript size; configurations whose capability names exist",
  "the request bytes, histories and buffer sizes are unbounded; which check fails first must be followed through every parser and writer",
  ["src/responder/error.rs: From<&ResponderError> for msgs::Error", "src/responder.rs: handle_msg, expect", "src/responder/*.rs: handle_msg", "src/msgs/*.rs: parse_body"])
p("The build profile does not change behaviour",
  "A responder or requester compiled without arithmetic overflow checks (cargo's release profile) gives, call for call, the results and effects of one compiled with them; where the checking build panics, the other must not go on with a meaningless value.",
  "every history, slot contents, crypto provider, request or response, buffer and transcript size; configurations of at most 8 slots",
  "unit tests run in the debug profile; that no reachable input makes a wrapped operation observable ranges over all histories and messages",
  ["Cargo.toml: profiles", "src/responder/algorithms.rs: choose_*", "src/responder/challenge.rs", "src/requester/challenge.rs: handle_msg"])
p("Which error a refused response gets",
  "After any history without a failure, a requester's handle_msg returns an error that complains of a given thing exactly if that is the complaint of the first check the response fails, in this order: the header of the response that is due; an encoding of such a message; a VERSION with a supported version; an ALGORITHMS selection from the offer; in CHALLENGE_AUTH the slot of the certificate, that slot in the mask, and the digest of the chain received; room in the transcript; and then the encoding of the chain, its path to the trust anchor, and the signature over the hash of the conversation; unless the call aborts.",
  "every history, response, crypto provider, trust anchor and transcript size; configurations with one to eight slots",
  "responses and histories are unbounded, and which check fails first must be followed through every parser",
  ["src/requester/error.rs: RequesterError", "src/requester/challenge.rs: handle_msg, ChallengeAuthError", "src/requester/*.rs: handle_msg", "src/requester.rs: handle_msg"])
p("The generated configuration file says what the configuration says",
  "The build script writes a configuration file exactly for the valid configurations; apart from comments and blank lines the file consists of exactly the twelve constant declarations, each on its own line, whose literals denote the configured numbers and names (and 64 for the signature size); and a file describes only one configuration.",
  "every configuration (numbers of any size, name lists of any length), with and without a crypto provider",
  "numbers, list lengths and their positions in the template are unbounded; a test checks one file",
  ["build.rs: gen_config, max_signature_size, validate, validate_capabilities", "config.rs.template", "src/config.rs"])
p("The agreed algorithms can be used by the build",
  "Once algorithms are agreed on, this build can use them: digest and signature sizes are known and fit its buffers, the provider computes the hash, and certificates and signatures of the algorithm can be made and verified.",
  "every valid configuration, history of either side, offer, response, slot contents and crypto provider",
  "which algorithms end up selected depends on every offer a peer may make against every configuration; tests pair the two endpoints of one configuration",
  ["src/requester/algorithms.rs", "src/responder/algorithms.rs: choose_*", "src/msgs/algorithms.rs: get_digest_size, get_signature_size", "src/crypto/ring", "src/config.rs"])
p("A slot is only used with the algorithms it declares",
  "A certificate slot declares a signature algorithm and a hash; an answered CHALLENGE for the slot is under exactly these.",
  "every history, slot contents and declarations, offer and crypto provider",
  "it has to hold for every negotiation a peer can bring about before the CHALLENGE",
  ["src/crypto/slot.rs: FilledSlot", "src/responder/challenge.rs: handle_msg", "src/responder/algorithms.rs"])
p("Hashing in pieces is hashing the whole",
  "Feeding data to a digest in any pieces and finishing gives the hash of the concatenation, the same as hashing it in one call; contexts exist exactly for the hashes the provider says it supports. A signer can be made exactly for P-256 and P-384 with a key of that algorithm.",
  "every algorithm word, data, way to cut it, MAX_DIGEST_SIZE, private key; any streaming hash implementation",
  "tests hash one word in one or two pieces; the claim is for every data and every cut",
  ["src/crypto/digest.rs: impl_digests!", "src/crypto/ring/digest.rs: ProvidedDigests", "src/crypto/ring/signing.rs: new_signer"])
p("Algorithm and capability names stand for the standard's bits",
  "Parsing a name of a signature algorithm, hash or capability gives the word with exactly the bit the standard assigns to it; every other string is an error. No two names share a value, and a capability known to both sides has the same value on both.",
  "every string",
  "that no other string is accepted ranges over all strings",
  ["src/msgs/algorithms.rs: FromStr for BaseAsymAlgo, BaseHashAlgo", "src/msgs/capabilities.rs: FromStr for ReqFlags, RspFlags"])
p("Messages made by the constructors say what they were made of and are understood",
  "A MEASUREMENTS or CHALLENGE message made with a constructor holds exactly the given values, the constructor aborts only for a slot the build does not have (or a measurement that does not fit), and a receiver of the same build reads the message back.",
  "every slot number, count, block array, nonce, opaque data, signature, measurement and configuration",
  "the range of slots, counts and block contents against every configuration is not enumerable",
  ["src/msgs/measurements.rs: Measurements::new_with_num_measurements, new_with_measurements, BitStream::new", "src/msgs/challenge.rs: Challenge::new"])
p("A session object means the handshake completed",
  "A session object can only be obtained from a requester whose handshake completed; if both sides advertise certificates and challenges, the responder was authenticated.",
  "every history of requester calls, peer behaviour and crypto provider",
  "the claim is about every history that may precede the call",
  ["src/requester.rs: begin_session, RequesterSession"])
p("Equality tests compare contents",
  "Two values of a type with spare room in a fixed array (transcripts, opaque elements and lists, raw measurements) compare as equal exactly if their contents are the same, whatever the unused room holds, and comparing never aborts. Opaque data compares as equal exactly if it travels as the same bytes.",
  "every history of calls on the two values, every content and configuration",
  "the bytes behind the contents depend on the whole history of each value",
  ["src/msgs/common.rs: OpaqueElement::eq, OpaqueData", "src/msgs/measurements.rs: BitStream::eq", "src/transcript.rs: Transcript (derived PartialEq)"])
p("Endpoints of different builds interoperate, with exactly known buffer sizes",
  "A requester and a responder built from two different valid configurations (slots, sizes and capabilities may differ) that are both honest complete the handshake in exactly the exchanges the capabilities they have in common call for, if and only if every buffer holds the message written into it (4, 12, 48, 4, 8, 4 + NONCE_SIZE bytes for the requests; 10, 12, 52, 4 + digests, 8 + chain, 138 + NONCE_SIZE for the responses) and both transcripts hold all the messages without the signature.",
  "every pair of valid configurations, every honest provisioning, every history of the responder without a failure, every buffer size and content, every nonce",
  "pairs of builds cannot be tested exhaustively, and the exact sizes are a statement about every buffer size",
  ["src/requester.rs: Requester::next_request, handle_msg", "src/responder.rs: Responder::handle_msg", "src/msgs/digest.rs: Digests::parse_body"])
p("Slots do not influence each other",
  "Take two responders whose slots are filled in the same places. As long as a peer's GET_CERTIFICATE and CHALLENGE requests name only slots that are the same in both, and it asks for digests only if those are the same, everything the two responders return is byte for byte the same, and so is what they sign and with which slot's key. A peer thus learns nothing about other slots than whether they are filled and their digests.",
  "every pair of slot provisionings with the same occupancy, every sequence of calls and resets, every request bytes, buffer and nonce",
  "it compares two executions for every provisioning of the other slots and every history; no set of test runs covers it",
  ["src/responder.rs: Responder::handle_msg", "src/responder/id_auth.rs: handle_get_digests, handle_get_certificate, create_slot_mask, hash_cert_chains", "src/responder/challenge.rs: State::handle_msg"])
p("GET_CERTIFICATE asks for as many bytes as the requester can take",
  "Every GET_CERTIFICATE a requester sends asks for offset 0 and for a length equal to the size of its certificate buffer. False of the code for the largest buffer the build accepts, 65536 bytes: the length is cut to 16 bits and asks for no bytes.",
  "every valid build configuration, every history of calls, every buffer",
  "only one buffer size is compiled into a test build; the property ranges over all configurations and histories",
  ["src/requester/id_auth.rs: State::write_get_certificate_msg", "build.rs: CertChainConfig::validate"])
p("Sizes and offsets do not overflow",
  "On a machine whose usize has at least 32 bits, no computation of an offset, a length or a size overflows, whatever bytes a peer sends and whatever buffers (of at most isize::MAX bytes, Rust's bound) the caller passes: every history of calls of Writer, Reader and Transcript, parsing a certificate chain, the sizes of measurements and opaque data, and encoding a signature give the results of unbounded arithmetic. The one sum that can overflow is that of the lengths of a chain to be written, and only if its parts have together at least as many bytes as there are addresses (they may share memory): writing then aborts, or wraps, where MaxSizeExceeded is due.",
  "every width of at least 32 bits, every buffer in memory, every history of calls, every bytes",
  "a test runs on one width with small buffers; an overflow needs sizes near the limit of the address space or unlucky claimed lengths",
  ["src/msgs/encoding.rs: Writer, Reader", "src/transcript.rs: Transcript::extend", "src/msgs/certificates.rs: CertificateChain::write, parse", "src/msgs/measurements.rs: serialized_size", "src/msgs/common.rs: serialized_size, padding", "src/crypto/pki.rs: bin_to_der"])
p("One signature completes at most one session",
  "However the network behaves, if several requesters, no two of which drew the same nonce for a CHALLENGE, complete their handshakes with what one responder signed, then the responder answered at least as many CHALLENGEs: each completed session has a signing call of its own, for the very CHALLENGE that requester wrote. False of the code: bytes behind the end of a message are ignored but recorded, and opaque data may be anything, so that a man in the middle can make one signature complete the sessions of two requesters with different nonces. It holds for conversations without bytes behind the end of a message.",
  "every number of requesters with their configurations, verifiers and roots, every history of calls of each of them and of the responder, every behaviour of the network, hash functions without a collision of the transcripts at hand",
  "it ranges over all interleavings of unboundedly many sessions and all messages an attacker can invent; the counterexample needs a message that is three messages at once",
  ["src/requester/challenge.rs: State::handle_msg, State::write_msg", "src/responder/challenge.rs: State::handle_msg", "src/msgs/challenge.rs: Challenge::parse_body, ChallengeAuth::parse_body", "src/msgs/common.rs: OpaqueData"])
p("What `state()` shows is what the messages said",
  "At every point of a session in which nothing was refused, the fields of the public state structures are those of the messages exchanged: for the requester the version is the highest one common with the accepted VERSION, the capabilities are those of the GET_CAPABILITIES produced and of the accepted CAPABILITIES, the algorithms those of the accepted ALGORITHMS, the digests those of the accepted DIGESTS, slot, chain and chain size those of the accepted CERTIFICATE, the nonce the one drawn by the last `next_request` (also if that call failed); for the responder the capabilities are those of the GET_CAPABILITIES received and of the CAPABILITIES sent, the algorithms those of the ALGORITHMS sent, a choice among those of the NEGOTIATE_ALGORITHMS received. Two responders of one configuration that exchanged the same messages since the last GET_VERSION show the same, whatever their slots and earlier histories.",
  "every configuration with 1 to 8 slots, every history of calls of each endpoint, any request, response, buffer and random bytes",
  "the fields are handed from state to state by moves and conversions over the whole session; a test compares them in one session",
  ["src/requester.rs: RequesterInit::state, AllStates", "src/requester/*.rs: State, From conversions", "src/responder.rs: Responder::state, AllStates", "src/responder/*.rs: State, From conversions"])
p("The endpoints with every stored field behave as described",
  "Other properties speak of endpoints without the fields the library stores but does not read: the requester's own certificate slots, and the optional fields of the state structures. With all of these fields the endpoints return, call by call, the same results and bytes, make the same signatures and keep the same transcript. A requester's own slots influence nothing it ever does and are never changed; in every state shown by `state()` the optional fields not yet learnt are None and those learnt are Some; and what C102 says of the fields shown holds for every one of them.",
  "every configuration, root certificate, slots, every history of calls of each endpoint with any bytes and random values (the statement about fields shown: 1 to 8 slots)",
  "independence of a stored value is a statement about pairs of endpoints over all histories; a test can only vary the slots in one session",
  ["src/requester.rs: RequesterInit, RequesterSession, AllStates", "src/requester/*.rs: State and its From conversions", "src/responder.rs: Responder, AllStates", "src/responder/*.rs: State and its From conversions"])
p("The public states driven by hand",
  "The protocol states, their methods and the transcript are public, and driving `requester::id_auth::State` by hand is the only way to authenticate a slot other than 0. For every sequence of its methods, called in any order with any bytes: the messages written have the prescribed bytes; the transcript grows by exactly the messages of the calls that succeeded, in order, and is untouched by the others; the state keeps the last readable CERTIFICATE it was given; asking for a slot the build does not have aborts, and nothing else written does; a conversion to the next state aborts exactly if something it needs is missing and otherwise carries everything over; a CHALLENGE written names the slot of the certificate; and the challenge state accepts exactly the CHALLENGE_AUTH messages for that slot, chain and transcript that C81 describes. Responder states: all but the error state treat GET_VERSION (and messages too short for a header) alike, whatever their fields, and the fields of a capabilities state never matter.",
  "every configuration with 1 to 8 slots, every state value (reachable by the library or not), transcript, list of method calls, buffers, message bytes and cryptography",
  "states made by hand are not reached by the sessions the tests run, and there are arbitrarily many orders of calls",
  ["src/requester/id_auth.rs: State::write_get_digests, handle_digests, write_get_certificate, handle_certificate", "src/requester/challenge.rs: State::write_msg, handle_msg, From<id_auth::State>", "src/responder/*.rs: State::handle_msg, From conversions", "src/responder.rs: reset_on_get_version"])
p("Exactly which messages survive being written and read",
  "Of all values of the fifteen message types and of certificate chains, those that come back unchanged when they are written and then read are exactly the faithful ones: fields in range, arrays of the built size with the unused part empty, counts and sizes within the limits, only defined bits, one bit where one algorithm is selected, sizes as negotiated, no mutual authentication request in CHALLENGE_AUTH, no vendor opaque data in ERROR, a slot in MEASUREMENTS only with a signature, and blocks within MAX_MEASUREMENT_SIZE times MAX_MEASUREMENT_BLOCKS with their headers. A faithful message can always be written into a large enough buffer and is then read back; nothing else ever is. Two faithful messages written as the same bytes are the same message.",
  "every configuration with 1 to 8 slots, every value of every message type (also those no constructor makes), every buffer, and every digest and signature size the receiver may know",
  "an exact boundary needs every value on both sides of it; the round-trip tests try one value of each type",
  ["src/msgs/*.rs: write_body, parse_body", "src/msgs/mod.rs: Msg::write", "src/msgs/certificates.rs: CertificateChain::write, parse"])
p("A requester's error says what was wrong",
  "The `RequesterError` a requester returns names the first check that failed. `handle_msg`, checked in this order: a wrong header gives `ParseHeader` if only the version differs and else `UnexpectedMsgCode` with the expected code and the first byte of the response; a response that is no encoding of its message gives the parse error of that message, with exactly the inner error for the first thing wrong in its body (C108); then `NoSupportedVersions` with the list received, `SelectedAlgorithmNotRequested`, `ChallengeAuth` with `IncorrectSlot`, `SlotNotInMask` or `DigestMismatch`, `BufferFull` if the transcript has no room, `ParseCertChain` with the error for the first thing wrong in the chain received, `InvalidCert`, and `ChallengeAuth(InvalidSignature)`. An error is returned exactly if some check fails and the call does not abort. `next_request` returns `InitializationComplete` exactly when the session is complete and otherwise only `BufferFull`, or `ParseCapability`/`ParseBaseAsymAlgo` for a configured name that does not exist, which no accepted build configuration contains. Six of the values of `RequesterError` are never returned by `handle_msg`.",
  "every configuration, every history of calls with any responses and buffers, every next response or buffer, every root certificate and cryptography",
  "the tests look at errors in a handful of cases; which variant is returned for which of all responses needs all of them",
  ["src/requester/error.rs: RequesterError and From impls", "src/requester.rs: handle_msg, next_request", "src/requester/*.rs", "src/msgs/*.rs: Parse*Error"])
p("A responder's error says why it refused",
  "The `ResponderError` a responder returns beside an ERROR message tells which of four exclusive reasons applies. `ParseHeader` or `UnexpectedMsgCode` exactly if the request may not come now (the former if its code may come and only the version is wrong; the latter with a code that may come and the first byte of the request). The error of the parser for its code exactly if it may come and is no valid encoding, and then with exactly the inner error for the first thing wrong in its body (C108). `InvalidSlot` exactly if it is valid and asks for a slot that does not exist (GET_CERTIFICATE) or is empty (CHALLENGE). Otherwise `BufferFull`, `WriteCertChain` only for a chain of the slot asked for (any slot for GET_DIGESTS) that is larger than 65535 bytes (`MaxSizeExceeded`) or than MAX_CERT_CHAIN_SIZE (`BufferFull`), `WriteChallengeAuth(BufferFull)`, `WriteChallengeAuth(WriteOpaqueElement(BufferFull))` only if the buffer ends inside the opaque data, or `SigningFailed` only if the slot's signer declined. The ERROR that is sent is a fixed function of the value returned. `ParseCapability`, three of the read errors and three of the `WriteChallengeAuth` errors are never returned in a build the configuration check accepts.",
  "every configuration with 1 to 8 slots, all slots, every history of calls with any requests and buffers, every next request and buffer",
  "which variant is returned for which of all requests in which state needs all of them; the tests look at few errors",
  ["src/responder/error.rs: ResponderError and From impls", "src/responder.rs: handle_msg, handle", "src/responder/*.rs", "src/responder/error.rs: From<&ResponderError> for msgs::Error"])
p("A parser's error names the first thing wrong, in wire order",
  "For each message and for certificate chains there is a list of requirements on its bytes, in the order of the wire, with the error for each: the bytes are there (`BufferEmpty`), reserved bytes are zero (`ReservedByteNotZero`), counts, sizes, flags, algorithms, slots, types, lengths are in range (the named error, with the wrappers of the structures it lies in), and a certificate starts with a SEQUENCE tag, an opaque element's data and the number of elements and blocks fit the build's arrays (abort). The parser accepts a message exactly if all requirements are met; it returns an error exactly if the first requirement that is not met is the one with this error; it aborts exactly if that one is an abort.",
  "all byte strings, every configuration (at most 8 slots for DIGESTS), every digest and signature size; GET_VERSION, VERSION, GET_CAPABILITIES, CAPABILITIES, NEGOTIATE_ALGORITHMS, ALGORITHMS, GET_DIGESTS, DIGESTS, GET_CERTIFICATE, CERTIFICATE, certificate chains, CHALLENGE, CHALLENGE_AUTH, GET_MEASUREMENTS, MEASUREMENTS, ERROR",
  "a test has one malformed message; that every malformed message gets the error of its first fault, also when it has several, needs all byte strings",
  ["src/msgs/*.rs: parse_body, read, Parse*Error and their From impls", "src/msgs/certificates.rs: CertificateChain::parse, read_cert_size", "src/msgs/common.rs: OpaqueData::read, OpaqueElement::read, VendorId::read", "src/msgs/encoding.rs: Reader"])
p("Trust, keys and random numbers matter only for the challenge",
  "Up to the verdict on CHALLENGE_AUTH, nothing a requester sends or returns depends on its root certificate, its hash functions or its verifier, and of the random numbers only the nonce field of CHALLENGE does; the verdict depends on the root certificate only through whether it is usable and for which chains it vouches. Nothing a responder sends depends on its keys, the algorithms declared for them or random numbers, except CHALLENGE_AUTH; without a CHALLENGE no key is used.",
  "every build, all histories of calls with any buffers and any responses or requests (none of them CHALLENGE_AUTH, CHALLENGE respectively), any two roots, crypto functions, key sets and sequences of random numbers of the same size",
  "a test compares two runs; independence is about all pairs of runs",
  ["src/requester.rs: RequesterInit::{next_request, handle_msg}", "src/requester/challenge.rs: State::{write_msg, handle_msg, verify_cert_chain_and_signature}", "src/responder.rs: Responder::handle_msg", "src/responder/challenge.rs: State::handle_msg"])
p("Raising a limit never breaks what worked",
  "If a responder answers every request of a history, then a build whose limits (TRANSCRIPT_SIZE, MAX_CERT_CHAIN_SIZE, certificate depth, digest and signature sizes, opaque data and measurement limits) are the same or larger and whose configuration is otherwise the same returns exactly the same replies. If every next_request and handle_msg of a requester history succeeds, such a build, with the same MAX_CERT_CHAIN_SIZE, writes the same requests and accepts the same responses. MAX_CERT_CHAIN_SIZE is the exception for requesters: it is announced in GET_CERTIFICATE.",
  "every pair of builds that differ only in limits, every slot contents, root certificate and crypto functions, all histories of calls (resets included) in which every call succeeds on the smaller build",
  "a test runs one build; the claim compares all builds on all histories",
  ["build.rs: SpdmConfig", "src/transcript.rs: Transcript::extend", "src/msgs/common.rs: OpaqueData", "src/msgs/certificates.rs: CertificateChain::parse", "src/crypto/ring/pki.rs: max_encoded_size", "src/requester.rs: RequesterInit", "src/responder.rs: Responder"])
p("A build uses the current configuration",
  "After any history of editing files, setting SPDM_CONFIG, switching features and building, where builds may fail or be killed at any point of the build script's writing, a `cargo build` that succeeds compiles in exactly the constants of the configuration file as it is at that time, and one whose script fails does so because that file is unreadable or invalid as it is at that time.",
  "every history of edits, environment and feature changes, builds and builds killed after any number of characters written; every TOML reader and path resolution",
  "staleness depends on the order of edits and builds, and on the point at which a build is killed",
  ["build.rs: main, load, gen_config", "config.rs.template", "spdm-config.toml"])
p("The example programs of the README",
  "The requester's program of the README ends after at most six iterations whatever the peer sends, having sent the requests in protocol order, each once, and is left exactly when `handle_msg` reported completion; without CERT_CAP at most three requests are sent. The responder's program answers every request it receives, with a non-empty response, also the one that ends it, unless a call panics; it cannot answer more than TRANSCRIPT_SIZE / 7 requests in a row without a GET_VERSION among them. Run against each other by honest parties with room in all buffers, the two programs complete the handshake.",
  "every peer, every list of requests, all buffers, nonces, builds and certificate slots; every alive history of the responder before",
  "the programs loop on what a remote peer sends: termination and completeness are about all its answers",
  ["README.adoc: Requester API and Responder API examples", "src/requester.rs: RequesterInit::next_request, RequesterInit::handle_msg", "src/responder.rs: Responder::handle_msg"])
p("The shipped configurations work",
  "Two builds of the default spdm-config.toml, with or without a crypto provider, complete in three exchanges whatever the certificates, roots and nonces, with 48 bytes for requests and 52 for responses. Two builds of spdm-config-crypto.toml complete the authentication in six exchanges for every chain that fits, with 48 bytes for requests and 1032 for responses: the configured transcript is large enough. More generally two valid builds without a common CERT_CAP (and with a signing algorithm) complete in three exchanges exactly if the buffers hold the six messages and the transcripts 138 bytes, provider or not on either side.",
  "all builds of the two files (and all pairs of valid configurations without a common CERT_CAP), all certificate chains, slots, roots, nonces and buffers; every alive history of the responder before",
  "the tests run one conversation over fixed certificates with the configuration of the build; sizes, slots and the build without a provider vary",
  ["spdm-config.toml", "spdm-config-crypto.toml", "build.rs: SpdmConfig", "src/requester/algorithms.rs: State::write_msg, State::handle_msg", "src/responder/algorithms.rs: handle_msg"])
p("Authentication is recent, in any network",
  "Let any number of requesters and responders, with any builds, providers, roots and slots, run in one network that may deliver anything. If a requester accepts a CHALLENGE_AUTH, then some responder that has the accepted leaf certificate in the challenged slot handled a CHALLENGE before, and what it signed there is byte for byte the transcript the requester ends with, unless those two transcripts collide. If moreover the nonce of the requester's CHALLENGE occurs in nothing a responder signed before that CHALLENGE was written, then the responder signed between the moment the CHALLENGE was written and the moment the CHALLENGE_AUTH was accepted: an old signature never authenticates.",
  "all networks of requesters and responders, all interleavings of their calls with any bytes delivered, all acceptances; signatures that verify under a vouched-for leaf were made with that leaf's key before they are accepted",
  "tests run one requester against one responder in lock step; here an attacker may interleave any number of sessions, replay and splice, and the claim is about the order of events at different parties",
  ["src/requester/challenge.rs: State::handle_msg, State::write_msg", "src/responder/challenge.rs: handle_msg", "src/transcript.rs: Transcript"])
p("Completion means that the peer was authenticated",
  "If requester and responder both have CERT_CAP and CHAL_CAP, handle_msg reports completion only after the responder proved, under the configured root, that it holds the key of its certificate. (False of the code: the capability words are not protected. A man in the middle who clears one bit of the CAPABILITIES response, or a peer without any key that sends three fixed messages, completes every requester after ALGORITHMS. True: the peer was authenticated exactly if the completing message is a CHALLENGE_AUTH, and otherwise the same history is possible with any other root and verifier.)",
  "every pair of valid configurations, responder history, slot contents, root, crypto provider, nonce, and every history that ends in completion",
  "tests let honest endpoints talk; an attack on the negotiation is a history they do not contain, and its absence or presence for every configuration and verifier is not a matter of examples",
  ["src/requester/capabilities.rs: handle_msg", "src/requester/algorithms.rs: handle_msg", "src/requester.rs: RequesterInit::handle_msg"])
p("On a network that does not alter messages, authentication means one clean run",
  "Let the network lose, delay, repeat and reorder messages between a requester and a responder, but not make any, and let nobody forge signatures. If the requester's handle_msg accepts a CHALLENGE_AUTH, then the responder signed it, up to the signature, in answer to a CHALLENGE, and since the last GET_VERSION both had exchanged the very same messages: the twelve of a session, each exactly once and in order; or the two transcripts are a collision of the hash function.",
  "every pair of configurations of at most 8 slots, slot contents, root, crypto provider, nonce length, and every pair of histories in which each delivered message is one the other endpoint produced, however often, late or out of order",
  "tests deliver every message once and in order; loss, delay, repetition and reordering give infinitely many schedules",
  ["src/requester.rs: next_request, handle_msg", "src/responder.rs: handle_msg", "src/requester/challenge.rs: handle_msg", "src/transcript.rs: extend"])
p("A lost message can be recovered by asking again",
  "If a request or a response is lost, the caller may call next_request again and send what it writes; the session then completes as it would have without the loss. (False of the code except for the first exchange: both endpoints record a request every time it is written or handled, so whoever writes two requests of the same code other than GET_VERSION accepts no CHALLENGE_AUTH any more, whatever the network does. True: before the first response is accepted, any number of lost requests and responses are recovered by asking again.)",
  "every pair of configurations, slot contents, root, crypto provider, and every schedule of losses, delays and repetitions",
  "tests lose nothing; a retry is a history they do not contain, and that no schedule completes after one is a statement about all of them",
  ["src/requester.rs: next_request", "src/requester/id_auth.rs: write_get_digests, write_get_certificate", "src/requester/challenge.rs: write_msg", "src/requester/version.rs: State::write_get_version", "src/transcript.rs: extend, clear"])
p("A responder serves any number of requesters",
  "A responder built from a valid configuration serves any number of honest requesters, of different builds and with different roots and verifiers, one after another: every visit completes in the exchanges the common capabilities call for, and every call succeeds. Before each visit the responder may have been called with anything at all, however the calls failed or aborted, if reset is called then.",
  "every valid configuration of the responder, every live history, every list of visits (configurations, verifiers, roots, random numbers, buffers that hold the messages), and every list of calls between two visits",
  "a test serves one or two sessions; that nothing is left over from a session or from nonsense between sessions is a statement about all histories",
  ["src/responder.rs: Responder::handle_msg, reset", "src/requester.rs: next_request, handle_msg"])
p("Only what the configuration says matters, not how it is written",
  "In a valid configuration neither the order nor the repetition of capability and algorithm names matters to the endpoints, nor do the limits on measurements. A configuration that differs only in these is valid too, and the endpoints of the two builds, given the same calls, return the same: byte for byte, error for error and abort for abort.",
  "every two valid configurations that agree up to order and repetition of names and the limits on measurements, with and without the crypto provider, every slot contents, root, verifier and every list of calls",
  "there are infinitely many ways to write a configuration and infinitely many lists of calls, and a test runs one build",
  ["src/requester/capabilities.rs: config_to_get_capabilities_msg", "src/responder/capabilities.rs: config_to_capabilities_msg", "src/requester/algorithms.rs: config_to_negotiate_algorithms_msg", "build.rs", "config.rs.template"])
p("A completed session is with one responder",
  "Take any number of requesters and responders (a restarted responder counts as another one) and a network that loses, delays, repeats, reorders and misdelivers messages as it likes, but makes none, and let nobody forge signatures. If a requester accepts a CHALLENGE_AUTH, then one single responder, with the accepted leaf certificate in the slot it was asked for, signed it, up to the signature, and since their last GET_VERSION the two had exchanged the very same twelve messages of a session, each exactly once and in order: what other responders said played no part. Or the transcript the responder signed and the requester's are a collision of the hash.",
  "every number of requesters and responders of usual builds, every interleaving of their calls, every way the network loses, repeats, reorders and misdelivers, all slots, roots, verifiers, random numbers and buffers",
  "a test runs one requester against one responder over a channel that delivers everything once to the right place",
  ["src/requester.rs: handle_msg", "src/responder.rs: handle_msg", "src/responder/challenge.rs: State::handle_msg", "src/requester/challenge.rs: State::handle_msg"])
p("One signature authenticates one session, after its CHALLENGE",
  "Take any number of requesters and responders and a network that loses, delays, repeats, reorders and misdelivers messages, but hands out nothing that was not sent before; let no nonce be drawn twice and nobody forge signatures. Whenever a requester accepts a CHALLENGE_AUTH, it had written a CHALLENGE, and between that moment and the acceptance a responder signed what is accepted, in a session of the very same twelve messages; or the transcript collides with one signed before. And no signing call is the partner of two acceptances: as many sessions are completed, so many signatures were made for them.",
  "every number of requesters and responders of usual builds, every interleaving of their calls, every way the network loses, repeats, reorders and misdelivers, all slots, roots, verifiers, fresh nonces and buffers",
  "a test sees one session, and cannot show that no other interleaving lets two requesters live on one signature",
  ["src/requester.rs: next_request, handle_msg", "src/responder.rs: handle_msg", "src/requester/challenge.rs: State::write_msg, State::handle_msg", "src/responder/challenge.rs: State::handle_msg"])
p("The responses accepted at any moment, asked for or not",
  "At any moment of a session in which nothing was refused, whether or not a request was written, handle_msg of the requester accepts exactly the responses that are well-formed, due at this point of the handshake, select only what was offered, authenticate (CHALLENGE_AUTH) and for which the transcript has room; but CAPABILITIES only if GET_CAPABILITIES was written since the last accepted response, ALGORITHMS only if since then next_request was called with a buffer of at least 48 bytes (even if that call failed), and nothing once the handshake is complete. VERSION, DIGESTS, CERTIFICATE and CHALLENGE_AUTH need no request: this says exactly how far C61 fails.",
  "every configuration with 1 to 8 slots, every history of calls of the requester in which no response was refused, every root, verifier and response",
  "the set of histories and responses is unbounded, and a test does not show that no other condition decides",
  ["src/requester.rs: next_request, handle_msg", "src/requester/version.rs: State::handle_msg", "src/requester/capabilities.rs: State::handle_msg", "src/requester/algorithms.rs: State::write_msg, State::handle_msg", "src/requester/id_auth.rs: State::handle_digests, State::handle_certificate", "src/requester/challenge.rs: State::handle_msg"])
p("What arrives of a message",
  "Whatever message is written, its receiver reads exactly this: a CHALLENGE_AUTH that asks for mutual authentication arrives as one for slot 0 that does not, a MEASUREMENTS without signature as one for slot 0, a vendor-defined ERROR without its opaque data, and everything else as it was - if that survives at all (C105). Two messages, whatever their types, have the same bytes only if they arrive as the same message, and (vendor-defined errors apart) if they do. This says exactly how far C18, C20, C22 and C26 fail.",
  "every configuration with 1 to 8 slots, every pair of messages of all 15 types, buffer and parsing context",
  "the messages are unbounded in number, and a test cannot show that nothing else is lost or confused",
  ["src/msgs/mod.rs: Msg::write, Msg::parse_header", "src/msgs/challenge.rs: ChallengeAuth", "src/msgs/measurements.rs: Measurements", "src/msgs/error.rs: Error"])
p("The outcome of every request, by the first check that fails",
  "One ordered table of checks tells what becomes of every request: its length, code and header, each field of its body, the slot, the size and hash of each chain, room in the transcript and in each part of the reply, the signature. The process aborts, or the responder returns a given error value, exactly if the first check that is not met is one with an abort or that error, and the request is answered exactly if all are met. What is sent is the reply of C80, or the ERROR message for the returned error where the buffer has room for it. After a failed call every request aborts until reset.",
  "every configuration the build accepts, slots, provider answers, history of calls, request and response buffer",
  "the outcome depends on the request, the history, the slots, the provider and the sizes of two buffers; a test shows one cause at a time and never which of several wins",
  ["src/responder.rs: Responder::handle_msg, AllStates::handle_msg", "src/responder/version.rs: State::handle_msg", "src/responder/capabilities.rs: State::handle_msg", "src/responder/algorithms.rs: State::handle_msg", "src/responder/id_auth.rs: State::handle_msg", "src/responder/challenge.rs: State::handle_msg", "src/responder/error.rs: ResponderError"])
p("A successful authentication says nothing about what was negotiated",
  "Between any two honest builds with room for it, a man in the middle without any key can choose what the requester believes of the responder's capabilities and of the selected algorithms, and, independently, what the responder believes of the requester's capabilities and of the selected algorithms: any capability words the parsers know (those for the requester with CERT_CAP and CHAL_CAP), any selection from the requester's offer and any offer to the responder, as long as SHA-256 and ECDSA P-256 are selected on both sides. After the three spliced exchanges he passes everything on unmodified: the responder signs, the requester verifies that genuine signature against the chain and completes, and both hold the same transcript.",
  "every two valid configurations with the ring provider, honest certificates and keys, history of the responder without a failure, choice of what to make both sides believe, nonces and sufficient buffers",
  "a test can splice one session; that every plausible pair of lies goes unnoticed for every pair of configurations is about all of them",
  ["src/requester/version.rs: State::handle_msg", "src/requester/capabilities.rs: State::handle_msg", "src/requester/algorithms.rs: State::handle_msg", "src/requester/challenge.rs: State::handle_msg", "src/responder/version.rs: State::handle_msg", "src/responder/capabilities.rs: State::handle_msg", "src/responder/algorithms.rs: State::handle_msg", "src/responder/challenge.rs: State::handle_msg", "src/msgs/version.rs: GetVersion::parse_body", "src/msgs/algorithms.rs: Algorithms::parse_body"])
p("With three length checks at the responder the negotiation is protected",
  "Under the premises of C50 (an arbitrary network; what verifies was signed by the responder), if whoever feeds the responder hands it no GET_VERSION, GET_CAPABILITIES or NEGOTIATE_ALGORITHMS with bytes behind its end, and the bytes of the requester's NEGOTIATE_ALGORITHMS do not occur in the requester's transcript from byte 70 on, then a requester that accepts a CHALLENGE_AUTH agrees with the responder on both capability words, the hash and the signature algorithm, whatever surplus the requester has accepted behind responses and whatever follows the negotiation, unless the two transcripts collide. Neither condition can be dropped: with a surplus behind GET_CAPABILITIES (first) or GET_DIGESTS (second) the sides can be made to disagree.",
  "every two configurations, histories of requester and responder (retries, failed calls, resets), surplus behind responses, and accepted CHALLENGE_AUTH",
  "it is about every way to move message boundaries between two histories; a test tries one",
  ["src/requester/algorithms.rs: State::write_msg", "src/requester/capabilities.rs: State::write_msg", "src/requester/version.rs: State::handle_msg", "src/responder/version.rs: State::handle_msg", "src/responder/capabilities.rs: State::handle_msg", "src/responder/algorithms.rs: State::handle_msg", "src/responder/challenge.rs: State::handle_msg", "src/msgs/algorithms.rs: NegotiateAlgorithms::parse_body", "src/transcript.rs: Transcript::extend"])
p("Noise on the line is detected",
  "Let a requester built for P-256 and a new responder talk over a line that delivers every message once and in order, but perhaps not as it was sent, and let nobody forge signatures (C50's premise). If the requester accepts the CHALLENGE_AUTH although the line altered any number of bytes in any number of messages, keeping their lengths, then in fact every request and every response arrived exactly as it was sent, except possibly the signature field of the CHALLENGE_AUTH itself; or the two transcripts collide. The same holds if the line replaced one message, request or response, by anything at all, of any length. (C125 shows that moving bytes between two or more messages is not always detected.)",
  "every two configurations, histories of the two ends on the line (calls of next_request in vain included), sets of altered bytes in any messages, or choice of one message and of what arrives instead",
  "there are as many alterations as byte strings; a test flips a few bits",
  ["src/requester/challenge.rs: State::handle_msg", "src/responder/challenge.rs: State::handle_msg", "src/responder.rs: Responder::handle_msg", "src/requester.rs: Requester::handle_msg, next_request", "src/transcript.rs: Transcript::extend"])
p("Messages of one's own kind are refused (no reflection)",
  "Whatever any requester has written with next_request, of whatever configuration and history, is never accepted by any requester's handle_msg: while a response is awaited it is refused with the error naming the response awaited, and the requester fails. Whatever any responder has handed out, a response or an ERROR, is never accepted as a request by any responder: it is refused with ERROR(UnexpectedRequest) and nothing is signed. So a requester connected to a mirror or to other requesters accepts nothing and never completes, and responders connected to responders accept nothing and never use their keys.",
  "every pair of configurations, histories of the endpoint that wrote the message and of the endpoint that receives it",
  "it ranges over every history of both endpoints; a test sends one message back",
  ["src/requester.rs: Requester::next_request, handle_msg", "src/responder.rs: Responder::handle_msg", "src/msgs/mod.rs: Msg::parse_header"])
p("How often an endpoint can be asked: the transcript is a budget",
  "Between two GET_VERSIONs a responder answers at most a seventh as many requests as its transcript has bytes: whatever the requests and the buffers, after that many calls without a GET_VERSION it has failed, and stays failed until it is reset. GET_DIGESTS can be repeated exactly as long as the transcript has room for all the requests and responses; the next one is fatal. Likewise a requester that has accepted at least one response can write its next request again and again exactly as long as its transcript has room for the copies.",
  "every configuration, set of slots, history, sequence of further calls with any requests, nonces and buffers",
  "the bound is over sequences of any length, and the exact count depends on the configuration, the history and the sizes of the messages",
  ["src/transcript.rs: Transcript::extend", "src/responder/id_auth.rs: State::handle_get_digests", "src/responder/challenge.rs: State::handle_msg", "src/requester.rs: Requester::next_request"])
with open("/verif/properties.jsonl","w") as f:
    for x in P: f.write(json.dumps(x)+"\n")
print(len(P))
for x in P: print(x["id"],x["title"])

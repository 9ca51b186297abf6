import Verif.Props.Shipped
import Verif.Making
import Verif.Equal
import Verif.Provider
/-!
# The tests of the repository, run on the model

Each `example` is a test function of /repo (named in its comment), translated step by step, with the model's functions in place of the library's and the values the test
expects.  They prove nothing beyond those values; they show that the model gives the results the authors of the code expect (and the code, when its tests pass).  The certificates
and keys that the tests generate with rcgen are replaced by fixed bytes.
-/
namespace Spdm.RepoTests
open Spdm Spec

/-- The configuration the tests are built with: spdm-config-crypto.toml. -/
abbrev tc : Cfg := shippedCfg

/-- `DigestBuf::new_with_magic`, `SignatureBuf::new_with_magic` (src/msgs/common.rs 500-512). -/
abbrev magic (n : Nat) (b : UInt8) : Bytes := List.replicate n b

/-! ### src/msgs/digest.rs -/

/-- `test_digests`, digest.rs 136-142. -/
def testDigests (size : Nat) : List (Option Bytes) := [some (magic size 0), some (magic size 1), some (magic size 2), some (magic size 3), some (magic size 4)]

def writeDigests (m : Digests) (n : Nat) : Res Nat × Bytes := MsgType.digests.write (m.writeBody tc) (zeros n)

/-- `digest_32_order_0x5_mask`, digest.rs 145-159. -/
example : writeDigests ⟨0x5, testDigests 32⟩ 68 = (.ok 68, [0x11, 1, 0, 5] ++ magic 32 0 ++ magic 32 2) := by decide +kernel

/-- `digest_32_order_0x16_mask`, digest.rs 162-180. -/
example : writeDigests ⟨0x16, testDigests 32⟩ 100 = (.ok 100, [0x11, 1, 0, 0x16] ++ magic 32 1 ++ magic 32 2 ++ magic 32 4) := by decide +kernel

/-- `round_trip_digest_32_0x5_mask`, digest.rs 183-197. -/
example : Digests.parseBody tc 32 ((writeDigests ⟨0x5, [some (magic 32 0), none, some (magic 32 2), none, none]⟩ 68).2.drop 2) =
    .ok ⟨0x5, [some (magic 32 0), none, some (magic 32 2), none, none]⟩ := by decide +kernel

/-- `round_trip_digest_32_0x16_mask`, digest.rs 200-215. -/
example : Digests.parseBody tc 32 ((writeDigests ⟨0x16, [none, some (magic 32 1), some (magic 32 2), none, some (magic 32 2)]⟩ 100).2.drop 2) =
    .ok ⟨0x16, [none, some (magic 32 1), some (magic 32 2), none, some (magic 32 2)]⟩ := by decide +kernel

/-- `round_trip_digest_32_0xff_mask`, digest.rs 218-226: the mask names slots that do not exist. -/
example : Digests.parseBody tc 32 ((writeDigests ⟨0xFF, testDigests 32⟩ 324).2.drop 2) = .ok ⟨0xFF, testDigests 32⟩ := by decide +kernel

/-- `round_trip_digest_48_0x2_mask`, digest.rs 229-241. -/
example : (writeDigests ⟨0x2, [none, some (magic 48 2), none, none, none]⟩ 52).1 = .ok 52 ∧
    Digests.parseBody tc 48 ((writeDigests ⟨0x2, [none, some (magic 48 2), none, none, none]⟩ 52).2.drop 2) = .ok ⟨0x2, [none, some (magic 48 2), none, none, none]⟩ := by
  decide +kernel

/-! ### src/msgs/version.rs -/

/-- `default_version_parses_correctly`, version.rs 155-162. -/
example : (MsgType.version.write Version.default.writeBody (zeros 16)).1 = .ok 10 ∧
    MsgType.version.parseHeader (MsgType.version.write Version.default.writeBody (zeros 16)).2 = .ok true ∧
    Version.parseBody ((MsgType.version.write Version.default.writeBody (zeros 16)).2.drop 2) = .ok Version.default := by decide +kernel

/-! ### src/msgs/encoding.rs -/

/-- Bits read one after the other: the values, and whether the reader is aligned and empty after each. -/
def readBits (counts : List Nat) : List (Res UInt8 × Bool × Bool) :=
  (counts.foldl (fun (acc, r) n => let (v, r) := Reader.getBits n r; (acc ++ [(v, r.isAligned, r.isEmpty)], r)) ([], Reader.new [0xF0, 0xF0])).1

/-- `read_by_4_bits`, encoding.rs 318-336. -/
example : readBits [4, 4, 4, 4] = [(.ok 0, false, false), (.ok 0x0F, true, false), (.ok 0, false, false), (.ok 0x0F, true, true)] := by decide +kernel

/-- `read_by_3_bits`, encoding.rs 339-372. -/
example : readBits [3, 3, 3, 3, 3] = [(.ok 0, false, false), (.ok 6, false, false), (.ok 3, false, false), (.ok 0, false, false), (.ok 7, false, false)] ∧
    Reader.getBits 3 ⟨[0xF0, 0xF0], 1, 7⟩ = (.err (.read .bufferEmpty), ⟨[0xF0, 0xF0], 1, 7⟩) := by decide +kernel

/-- `read_by_gt_8_bits_fails`, encoding.rs 375-381. -/
example : (readBits [8, 9, 10]).all (fun x => x.1.isErr) = true := by decide +kernel

/-- `get_bit_by_bit`, encoding.rs 384-401. -/
example : (readBits (List.replicate 17 1)).map (·.1) = [.ok 0, .ok 0, .ok 0, .ok 0, .ok 1, .ok 1, .ok 1, .ok 1, .ok 0, .ok 0, .ok 0, .ok 0, .ok 1, .ok 1, .ok 1, .ok 1,
    .err (.read .bufferEmpty)] ∧ (readBits (List.replicate 16 1)).getLast?.map (·.2.2) = some true := by decide +kernel

/-- `u24_roundtrip`, encoding.rs 404-415. -/
example : (Writer.putU24 0x1de (Writer.new (zeros 4))).1 = .ok 3 ∧ (Reader.getU24 (Reader.new (Writer.putU24 0x1de (Writer.new (zeros 4))).2.buf)).1 = .ok 0x1de := by decide +kernel

/-! ### src/msgs/certificates.rs -/

/-- `get_certificate_round_trip`, certificates.rs 349-356. -/
example : let m : GetCertificate := ⟨0, 0, 1000⟩
    GetCertificate.parseBody ((MsgType.getCertificate.write m.writeBody (zeros 128)).2.drop 2) = .ok m := by decide +kernel

/-- `certificate_round_trip`, certificates.rs 359-376. -/
example : let m : Certificate := ⟨0, 800, 0, zeros 1024⟩
    Certificate.parseBody tc ((MsgType.certificate.write m.writeBody (zeros 1200)).2.drop 2) = .ok m := by decide +kernel

/-- A stand-in for the certificates of rcgen: a SEQUENCE of 300 bytes with a two byte length. -/
def fakeCert (b : UInt8) : Bytes := [0x30, 0x82, 0x01, 0x28] ++ magic 296 b

/-- `roundtrip_cert_chain_no_intermediate`, certificates.rs 379-398. -/
example : ((CertificateChain.new (zeros 32) (fakeCert 1)).write (Writer.new (zeros 1024))).1 = .ok 336 ∧
    CertificateChain.parse tc (((CertificateChain.new (zeros 32) (fakeCert 1)).write (Writer.new (zeros 1024))).2.buf.take 336) 32 = .ok (CertificateChain.new (zeros 32) (fakeCert 1)) := by decide +kernel

/-- `roundtrip_cert_chain_2_intermediates`, certificates.rs 401-437. -/
example : ∃ c1 c2, (CertificateChain.new (zeros 32) (fakeCert 1)).appendIntermediateCert tc (fakeCert 2) = .ok c1 ∧ c1.appendIntermediateCert tc (fakeCert 3) = .ok c2 ∧
    (c2.write (Writer.new (zeros 2048))).1 = .ok 936 ∧ CertificateChain.parse tc ((c2.write (Writer.new (zeros 2048))).2.buf.take 936) 32 = .ok c2 :=
  ⟨_, _, rfl, rfl, by decide +kernel, by decide +kernel⟩

/-! ### src/msgs/measurements.rs -/

def writeGetMeasurements (m : GetMeasurements) : Res Nat × Bytes := MsgType.getMeasurements.write m.writeBody (zeros 64)

/-- `get_measurements_roundtrip`, measurements.rs 892-925. -/
example : GetMeasurements.new tc ⟨true, true⟩ .allMeasurements 0 (magic 32 7) = .ok ⟨⟨true, true⟩, .allMeasurements, some (magic 32 7), 0⟩ ∧
    (writeGetMeasurements ⟨⟨true, true⟩, .allMeasurements, some (magic 32 7), 0⟩).1 = .ok 37 ∧
    GetMeasurements.parseBody tc ((writeGetMeasurements ⟨⟨true, true⟩, .allMeasurements, some (magic 32 7), 0⟩).2.drop 2) =
      .ok ⟨⟨true, true⟩, .allMeasurements, some (magic 32 7), 0⟩ ∧
    (writeGetMeasurements ⟨⟨false, true⟩, .allMeasurements, some (magic 32 7), 0⟩).1 = .ok 4 ∧
    GetMeasurements.parseBody tc ((writeGetMeasurements ⟨⟨false, true⟩, .allMeasurements, some (magic 32 7), 0⟩).2.drop 2) = .ok ⟨⟨false, true⟩, .allMeasurements, none, 0⟩ := by
  decide +kernel

/-- `get_measurements_write_err`, measurements.rs 928-949. -/
example : (writeGetMeasurements ⟨⟨true, true⟩, .reserved 0x5, some (magic 32 7), 0⟩).1.isErr = true ∧
    (writeGetMeasurements ⟨⟨true, true⟩, .implementationDefined 0xFE, some (magic 32 7), 0⟩).1.isErr = true ∧
    (writeGetMeasurements ⟨⟨true, true⟩, .implementationDefined 0x4, some (magic 32 7), 0⟩).1.isOk = true := by decide +kernel

/-- `get_measurements_read_err`, measurements.rs 952-989. -/
example : let m : GetMeasurements := ⟨⟨true, true⟩, .deviceMode, some (magic 32 7), 0⟩
    let buf := (writeGetMeasurements m).2
    GetMeasurements.parseBody tc (buf.drop 2) = .ok m ∧ (GetMeasurements.parseBody tc ((buf.set 2 0xCE).drop 2)).isErr = true ∧
      (GetMeasurements.parseBody tc ((buf.set 36 5).drop 2)).isErr = true := by decide +kernel

def writeMeasurements (m : Measurements) : Bytes := (MsgType.measurements.write m.writeBody (zeros 1024)).2

/-- What `new_with_num_measurements` and `new_with_measurements` return in the tests. -/
example : Measurements.newWithNumMeasurements tc 5 .notSupported 0 (magic 32 7) (OpaqueData.dflt tc) none = .ok ⟨5, .notSupported, 0, MeasurementBlocks.dflt tc, magic 32 7, OpaqueData.dflt tc, none⟩ :=
  by decide +kernel

/-- The message of the first two tests: no blocks, five of them announced. -/
def countOnly (sig : Option Bytes) : Measurements := ⟨5, .notSupported, 0, MeasurementBlocks.dflt tc, magic 32 7, OpaqueData.dflt tc, sig⟩

/-- `measurements_with_total_roundtrip_no_sig`, measurements.rs 992-1014. -/
example : Measurements.parseBody tc ((writeMeasurements (countOnly none)).drop 2) false 64 = .ok (countOnly none) := by decide +kernel

/-- `measurements_with_total_roundtrip_with_sig`, measurements.rs 1017-1036. -/
example : Measurements.parseBody tc ((writeMeasurements (countOnly (some (magic 64 0xaf)))).drop 2) true 64 = .ok (countOnly (some (magic 64 0xaf))) := by decide +kernel

/-- One block: the digest of the firmware. -/
def oneBlock : MeasurementBlocks :=
  ⟨1, [some ⟨1, 1, ⟨.digest, .mutableFirmware, .digest (magic 32 0xcc)⟩⟩, none, none, none, none, none, none, none]⟩

def oneMeasurement (sig : Option Bytes) : Measurements := ⟨0, .true, 0, oneBlock, magic 32 7, OpaqueData.dflt tc, sig⟩

/-- `measurements_roundtrip`, measurements.rs 1039-1076. -/
example : Measurements.parseBody tc ((writeMeasurements (oneMeasurement none)).drop 2) false 64 = .ok (oneMeasurement none) := by decide +kernel

/-- `measurements_with_sig_roundtrip`, measurements.rs 1079-1116. -/
example : Measurements.parseBody tc ((writeMeasurements (oneMeasurement (some (magic 64 0xde)))).drop 2) true 64 = .ok (oneMeasurement (some (magic 64 0xde))) := by decide +kernel

/-- `measurements_parse_size_mismatch`, measurements.rs 1119-1163. -/
example : Measurements.parseBody tc (((((writeMeasurements (oneMeasurement (some (magic 64 0xde)))).set 5 5).set 6 0).set 7 0).drop 2) true 64 = .err .blocksSizeMismatch := by
  decide +kernel

/-- `measurements_parse_max_slot_num_exceeded`, measurements.rs 1166-1205. -/
example : let buf := writeMeasurements (oneMeasurement (some (magic 64 0xde)))
    Measurements.parseBody tc ((buf.set 3 (buf[3]! ||| 0x0F)).drop 2) true 64 = .err .maxSlotNumberExceeded := by decide +kernel

/-! ### src/msgs/algorithms.rs -/

/-- `algo_requests`, algorithms.rs 795-814. -/
def algoRequests : List AlgorithmRequest := [⟨.dhe, 0x12⟩, ⟨.aead, 6⟩, ⟨.reqBaseAsym, 0x90⟩, ⟨.keySchedule, 1⟩]

/-- `algo_responses`, algorithms.rs 818-833. -/
def algoResponses : List AlgorithmRequest := [⟨.dhe, 0x2⟩, ⟨.aead, 2⟩, ⟨.reqBaseAsym, 0x80⟩, ⟨.keySchedule, 1⟩]

/-- `negotiate_algo`, algorithms.rs 835-847. -/
def negotiateAlgo : NegotiateAlgorithms := ⟨1, BaseAsymAlgo.ecdsaP256 ||| BaseAsymAlgo.ecdsaP521, BaseHashAlgo.sha384 ||| BaseHashAlgo.sha3_384, 4, algoRequests⟩

/-- `algo`, algorithms.rs 849-860. -/
def algo (rs : List AlgorithmRequest) : Algorithms := ⟨1, BaseHashAlgo.sha384, BaseAsymAlgo.ecdsaP256, BaseHashAlgo.sha384, 4, rs⟩

def writeAlgorithms (m : Algorithms) : Res Nat × Bytes := MsgType.algorithms.write m.writeBody (zeros 128)

def negotiateBuf : Bytes := (MsgType.negotiateAlgorithms.write negotiateAlgo.writeBody (zeros 128)).2

/-- `negotiate_algorithms_parses_correctly`, algorithms.rs 842-854. -/
example : (MsgType.negotiateAlgorithms.write negotiateAlgo.writeBody (zeros 128)).1 = .ok 48 ∧ MsgType.negotiateAlgorithms.parseHeader negotiateBuf = .ok true ∧
    NegotiateAlgorithms.parseBody (negotiateBuf.drop 2) = .ok negotiateAlgo := by decide +kernel

/-- `negotiate_algorithms_with_external_algorithms_skipped_parses_correctly`, algorithms.rs 863-897: the counts patched, then the structures moved. -/
example : let patched := (negotiateBuf.set 28 2).set 29 2
    (NegotiateAlgorithms.parseBody (patched.drop 2)).isErr = true ∧
    NegotiateAlgorithms.parseBody ((patched.take 48 ++ (patched.drop 32).take 16 ++ patched.drop 64).drop 2) = .ok negotiateAlgo := by decide +kernel

/-- `algorithms_parses_correctly`, algorithms.rs 900-912. -/
example : (writeAlgorithms (algo algoResponses)).1 = .ok 52 ∧ MsgType.algorithms.parseHeader (writeAlgorithms (algo algoResponses)).2 = .ok true ∧
    Algorithms.parseBody ((writeAlgorithms (algo algoResponses)).2.drop 2) = .ok (algo algoResponses) := by decide +kernel

/-- `algorithms_with_more_than_one_selection_fails_to_parse`, algorithms.rs 915-928. -/
example : (writeAlgorithms (algo algoRequests)).1 = .ok 52 ∧ MsgType.algorithms.parseHeader (writeAlgorithms (algo algoRequests)).2 = .ok true ∧
    (Algorithms.parseBody ((writeAlgorithms (algo algoRequests)).2.drop 2)).isErr = true := by decide +kernel

/-! ### src/msgs/challenge.rs -/

/-- `round_trip_challenge`, challenge.rs 270-276. -/
example : let m : Challenge := ⟨0, .tcb, magic 32 7⟩
    Challenge.parseBody tc ((MsgType.challenge.write m.writeBody (zeros 64)).2.drop 2) = .ok m := by decide +kernel

/-- `round_trip_challenge_auth`, challenge.rs 279-303. -/
example : let m : ChallengeAuth := ⟨0, 1, false, magic 32 9, magic 32 13, magic 32 7, OpaqueData.dflt tc, magic 64 1⟩
    ChallengeAuth.parseBody tc ((MsgType.challengeAuth.write (m.writeBody tc) (zeros 256)).2.drop 2) 32 64 = .ok m := by decide +kernel

/-! ### src/msgs/error.rs -/

def writeError (m : ErrorMsg) : Res Nat × Bytes := MsgType.error.write m.writeBody (zeros 64)

/-- `roundtrip`, error.rs 260-297. -/
example : (writeError (.responseTooLarge 56789)).1 = .ok 8 ∧ ErrorMsg.parseBody ((writeError (.responseTooLarge 56789)).2.drop 2) = .ok (.responseTooLarge 56789) ∧
    (writeError .unexpectedRequest).1 = .ok 4 ∧ ErrorMsg.parseBody ((writeError .unexpectedRequest).2.drop 2) = .ok .unexpectedRequest ∧
    (writeError (.responseNotReady 1 2 3 4)).1 = .ok 8 ∧ ErrorMsg.parseBody ((writeError (.responseNotReady 1 2 3 4)).2.drop 2) = .ok (.responseNotReady 1 2 3 4) ∧
    (writeError (.vendorDefined .jedec ⟨.u16 0x1234, 0, zeros 32⟩)).1 = .ok 7 ∧
    ErrorMsg.parseBody ((writeError (.vendorDefined .jedec ⟨.u16 0x1234, 0, zeros 32⟩)).2.drop 2) = .ok (.vendorDefined .jedec ⟨.u16 0x1234, 0, zeros 32⟩) ∧
    (ErrorMsg.parseBody (((writeError (.vendorDefined .jedec ⟨.u16 0x1234, 0, zeros 32⟩)).2.set 4 6).drop 2)).isErr = true := by decide +kernel

/-! ### src/msgs/capabilities.rs -/

def someFlags : UInt32 := ReqFlags.certCap ||| ReqFlags.chalCap ||| ReqFlags.encryptCap ||| ReqFlags.macCap ||| ReqFlags.keyExCap ||| ReqFlags.mutAuthCap

def capsBuf : Res Nat × Bytes := MsgType.getCapabilities.write (GetCapabilities.writeBody ⟨12, someFlags⟩) (zeros 16)

/-- `get_capabilities_parses_correctly`, capabilities.rs 226-243, and `get_capabilities_fails_to_parse_with_invalid_flags`, 246-265. -/
example : capsBuf.1 = .ok 12 ∧ MsgType.getCapabilities.parseHeader capsBuf.2 = .ok true ∧ GetCapabilities.parseBody (capsBuf.2.drop 2) = .ok ⟨12, someFlags⟩ ∧
      (GetCapabilities.parseBody ((capsBuf.2.set 8 1).drop 2)).isErr = true := by decide +kernel

/-! ### src/msgs/common.rs -/

def twoElements : OpaqueData := ⟨2, [⟨.dmtf, .empty, 1, magic 16 1⟩, ⟨.tcg, .u16 0x2222, 4, magic 16 4⟩]⟩

/-- `roundtrip_opaque_data`, common.rs 515-540. The model keeps the bytes beyond the length of an element, as the code does; those of the test are not zero, and `PartialEq` does not
compare them (C96). -/
example : twoElements.eq ⟨2, [⟨.dmtf, .empty, 1, 1 :: zeros 15⟩, ⟨.tcg, .u16 0x2222, 4, magic 4 4 ++ zeros 12⟩]⟩ = .ok true ∧ (twoElements.write (Writer.new (zeros 1024))).1.isOk = true ∧ (OpaqueData.read tc (Reader.new (twoElements.write (Writer.new (zeros 1024))).2.buf)).1 = .ok ⟨2, [⟨.dmtf, .empty, 1, 1 :: zeros 15⟩, ⟨.tcg, .u16 0x2222, 4, magic 4 4 ++ zeros 12⟩]⟩ := by decide +kernel

/-- `mismatched_vendor_register_id_detected_during_write`, common.rs 543-554. -/
example : (OpaqueElement.write ⟨.tcg, .empty, 4, magic 16 4⟩ (Writer.new (zeros 1024))).1.isErr = true := by decide +kernel

/-- `mismatched_vendor_register_id_detected_during_read`, common.rs 557-576. -/
example : (OpaqueElement.write ⟨.tcg, .u16 0x1111, 4, magic 16 4⟩ (Writer.new (zeros 1024))).1.isOk = true ∧
    (OpaqueElement.read tc (Reader.new ((OpaqueElement.write ⟨.tcg, .u16 0x1111, 4, magic 16 4⟩ (Writer.new (zeros 1024))).2.buf.set 1 4))).1.isErr = true := by decide +kernel

/-! ### src/requester/algorithms.rs -/

/-- `valid_algorithms_selected`, `catch_mismatched_bits`, `catch_bad_algorithm_response`, requester/algorithms.rs 250-279. -/
example : (Requester.ensureValidAlgorithmsSelected (some negotiateAlgo) (algo algoResponses)).isOk = true ∧
    (Requester.ensureValidAlgorithmsSelected (some negotiateAlgo) { algo algoResponses with baseHashAlgoSelected := BaseHashAlgo.sha256 }).isErr = true ∧
    (Requester.ensureValidAlgorithmsSelected (some negotiateAlgo) (algo (algoResponses.set 0 ⟨.dhe, 1⟩))).isErr = true := by decide +kernel

/-! ### src/crypto -/

/-- `ring_digest_sha256_incremental`, ring/digest.rs 60-75, for any hash that accumulates its input, and `ring_digest_unsupported`, 102-106. -/
example (H : HashImpl) (h : ∀ s a b, H.update (H.update s a) b = H.update s (a ++ b)) :
    ((ProvidedDigests.tryFrom H 1).map fun d => ((d.update [0x74, 0x65]).update [0x73, 0x74]).update [0x0a]) = (ProvidedDigests.tryFrom H 1).map fun d => d.update [0x74, 0x65, 0x73, 0x74, 0x0a] := by
  simp only [ProvidedDigests.tryFrom, BaseHashAlgo.sha256, if_true, Option.map_some, ProvidedDigests.update, h]
  rfl

example (H : HashImpl) : (ProvidedDigests.digest H tc BaseHashAlgo.sha3_256 [0x74, 0x65, 0x73, 0x74, 0x0a]).isPanic = true := rfl

/-! ### tests/protocol.rs -/

/-- The slots of `create_slots`, protocol.rs 86-111: those with an even number. -/
def evenSlots : List (Option FilledSlot) := [some honestSlot, none, some honestSlot, none, some honestSlot]

/-- One exchange of the test, with its buffers of 2048 bytes. -/
def e2eRound : Round := ⟨⟨magic 32 1, 0⟩, ⟨magic 32 2, 0⟩, zeros 2048, zeros 2048⟩

/-- After `k` exchanges: the flags, the names of both states, the length of the transcript, and whether the two are equal. -/
def e2e (k : Nat) : Option (List Bool × Res String × Res String × Nat × Bool) :=
  (talk tc tc honestCrypto honestCrypto (List.replicate k e2eRound) (Requester.new tc [1, 2, 3], Responder.new tc evenSlots)).map fun (fl, q, r) =>
    (fl, q.name, r.name, r.transcript.get.length, q.transcript.get == r.transcript.get)

/-- `successful_e2e`, protocol.rs 363-381 with the functions it calls: the states, and the transcripts, after each exchange. -/
example : e2e 1 = some ([false], .ok "Capabilities", .ok "Capabilities", 14, true) ∧ e2e 2 = some ([false, false], .ok "Algorithms", .ok "Algorithms", 38, true) ∧
    e2e 3 = some ([false, false, false], .ok "IdAuth", .ok "IdAuth", 138, true) ∧ e2e 4 = some ([false, false, false, false], .ok "IdAuth", .ok "IdAuth", 242, true) ∧
    e2e 5 = some ([false, false, false, false, false], .ok "Challenge", .ok "Challenge", 258 + (Wire.chain honestSlot.certChain).length, true) :=
  ⟨by decide +kernel, by decide +kernel, by decide +kernel, by decide +kernel, by decide +kernel⟩

example : (e2e 6).map (fun x => (x.1, x.2.1, x.2.2.1)) = some ([false, false, false, false, false, true], .ok "NewSession", .ok "Challenge") := by decide +kernel

/-- The algorithms the requester must have after `negotiate_algorithms`, protocol.rs 203-247. -/
example : (talk tc tc honestCrypto honestCrypto (List.replicate 3 e2eRound) (Requester.new tc [1, 2, 3], Responder.new tc evenSlots)).map (fun x =>
    match x.2.1.state with | some (.idAuth _ _ a _) => some a | _ => none) =
    some (some ⟨1, BaseHashAlgo.sha256, BaseAsymAlgo.ecdsaP256, BaseHashAlgo.sha256, 4, [⟨.dhe, 2⟩, ⟨.aead, 2⟩, ⟨.reqBaseAsym, 0x10⟩, ⟨.keySchedule, 1⟩]⟩) := by decide +kernel

/-- `reset_to_capabilities_state_from_capabilities_state` and `reset_to_capabilities_state_from_algorithms_state`, protocol.rs 388-418. -/
example : ∀ st ∈ [RspState.capabilities, RspState.algorithms ⟨0, 0, 0, 0⟩],
    (Responder.handle tc honestCrypto ⟨[], 0⟩ [] st ((MsgType.getVersion.write GetVersion.writeBody (zeros 512)).2.take 4) ⟨zeros 512, Transcript.new tc, []⟩).1.map (·.2) =
      .ok RspState.capabilities := by decide +kernel

end Spdm.RepoTests

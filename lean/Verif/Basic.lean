/-!
# Results, panics, configuration

Common vocabulary of the model: bytes, the three-way outcome of a Rust call
(`Ok`, `Err`, panic), the state-passing monad standing for `&mut self`, and the
build-time configuration.
-/

namespace Spdm

/-- `&[u8]`.  For example src/msgs/encoding.rs 12. -/
abbrev Bytes := List UInt8

/-- `ReadError`, src/msgs/encoding.rs 103-120. -/
inductive ReadError
  | bufferEmpty
  | reservedByteNotZero
  | unaligned
  | tooManyBits
  | typeConversionFailed
  deriving DecidableEq, Repr

/-- Why a Rust call would panic.  Assertions (src/msgs/mod.rs 69), indexing (src/msgs/encoding.rs 28), `unwrap` (src/responder.rs 182), checked arithmetic (src/responder/algorithms.rs 71-73), `unimplemented!` (src/responder.rs 119), `copy_from_slice` (src/msgs/encoding.rs 255). -/
inductive PanicKind
  /-- `assert!`, `assert_eq!` -/
  | assertion
  /-- slice or array index out of range -/
  | indexOutOfBounds
  /-- `unwrap` on `None` or `Err` -/
  | unwrapNone
  /-- `<<`/`>>` by at least the bit width, or an overflowing `+`/`-`
      (overflow-checking build profile) -/
  | overflow
  /-- `unimplemented!` -/
  | unimplemented
  /-- `unreachable!` -/
  | unreachable
  /-- `copy_from_slice` between slices of different lengths -/
  | copyLength
  deriving DecidableEq, Repr

/-- All error values returned through `Result` in the modelled code.  The Rust code has one
enum per message that wraps the leaf errors; the wrappers are dropped here, the
leaves are kept, except where the responder's choice of ERROR message depends on the wrapper
(`algorithmRequestRead`, `opaqueFull`, `challengeAuthFull`).  The leaf errors: src/msgs/encoding.rs 7-8, 103-120 and the lines noted below. -/
inductive Err
  /-- `BufferFullError`, src/msgs/encoding.rs 7-8 -/
  | bufferFull
  /-- `ReadError` -/
  | read (e : ReadError)
  /-- `ParseHeaderError`, src/msgs/mod.rs 39-40 -/
  | parseHeader
  -- src/msgs/version.rs 106-113
  | tooManyVersionsReceived
  -- src/msgs/capabilities.rs 63-67, 171-175
  | invalidBitsSet
  -- src/msgs/capabilities.rs 31-33, 137-139; src/msgs/algorithms.rs 46-47, 97-98
  | parseName
  -- src/msgs/algorithms.rs 246-252
  | incorrectFixedAlgCount
  | invalidFixedAlgorithm
  | invalidAlgorithmType
  /-- `ParseNegotiateAlgorithmsError::AlgorithmRequest(ParseAlgorithmRequestError::Read(e))`,
      src/msgs/algorithms.rs 246-252, 386-397: a read error inside an algorithm structure -/
  | algorithmRequestRead (e : ReadError)
  -- src/msgs/algorithms.rs 386-397
  | maxAlgorithmRequestsExceeded
  | tooLarge
  | invalidMeasurementSpec
  | invalidBaseAsymAlgo
  | invalidBaseHashAlgo
  -- src/msgs/algorithms.rs 548-562
  | maxAlgorithmResponsesExceeded
  | moreThanOneMeasurementSpecSelected
  | moreThanOneMeasurementHashAlgoSelected
  | moreThanOneBaseAsymAlgoSelected
  | moreThanOneBaseHashAlgoSelected
  | invalidMeasurementSpecSelected
  | invalidMeasurementHashAlgoSelected
  | invalidBaseAsymAlgoSelected
  | invalidBaseHashAlgoSelected
  -- src/msgs/algorithms.rs 585-591
  | moreThanOneDheAlgoSelected
  | moreThanOneAeadAlgoSelected
  | moreThanOneRspBaseAsymAlgoSelected
  | moreThanOneKeySchedule
  -- src/msgs/certificates.rs
  | certTooLarge
  | maxSizeExceeded
  | lengthMismatch
  | maxDepthExceeded
  | badDerEncoding
  -- src/msgs/common.rs
  | invalidDigestSize
  | invalidSignatureSize
  | opaqueInvalidVendorRegistryId
  | opaqueInvalidVendorIdLength
  | opaqueDataTooLarge
  -- src/msgs/challenge.rs
  | invalidMeasurementHashType
  | maxSlotNumberExceeded
  | maxOpaqueDataSizeExceeded
  /-- `WriteOpaqueElementError::BufferFull`, src/msgs/common.rs 67-78 -/
  | opaqueFull
  /-- `WriteChallengeAuthError::BufferFull`, src/msgs/challenge.rs 102-118 -/
  | challengeAuthFull
  -- src/msgs/error.rs
  | invalidErrorCode
  -- src/msgs/measurements.rs 74-77
  | invalidImplementationDefinedIndex
  | invalidReservedIndex
  -- src/msgs/measurements.rs 126-130
  | reservedBitsNotZero
  -- src/msgs/measurements.rs 239, 262, 291, 319, 434-440, 523-531, 603-608, 689-697
  | parseContentChanged
  | parseValueRepresentation
  | parseValueType
  | digestTooLarge
  | bitStreamMaxSizeExceeded
  | blockInvalidMeasurementSpec
  | blockSizeMismatch
  | blocksMaxSizeExceeded
  | blocksSizeMismatch
  | maxBlocksExceeded
  -- state machines (src/responder/error.rs, src/requester/error.rs)
  /-- `UnexpectedMsgCode { expected, got }` -/
  | unexpectedMsg (expected got : UInt8)
  | invalidSlot
  | initializationComplete
  | noSupportedVersions
  | selectedAlgorithmNotRequested (which : Nat)
  | incorrectSlot
  | slotNotInMask
  | digestMismatch
  | invalidSignature
  | chain (code : Nat)
  | sign
  deriving DecidableEq, Repr

/-- Outcome of a Rust call: a value, an `Err`, or a panic.  For example the `Result` of src/msgs/encoding.rs 24. -/
inductive Res (α : Type)
  | ok (a : α)
  | err (e : Err)
  | panic (k : PanicKind)
  deriving DecidableEq, Repr

namespace Res
/-- Sequencing (`?`): errors and panics propagate.  For example src/msgs/encoding.rs 43. -/
def bind {α β : Type} (x : Res α) (f : α → Res β) : Res β :=
  match x with
  | ok a => f a
  | err e => err e
  | panic k => panic k

/-- Sequencing with `?`, for example src/msgs/encoding.rs 43. -/
instance : Monad Res where
  pure := ok
  bind := bind

/-- The outcome is an `Ok` (src/msgs/encoding.rs 30). -/
def isOk {α : Type} : Res α → Bool
  | ok _ => true
  | _ => false

/-- The outcome is a panic (for example the index of src/msgs/encoding.rs 28). -/
def isPanic {α : Type} : Res α → Bool
  | panic _ => true
  | _ => false

/-- The outcome is an `Err` (src/msgs/encoding.rs 26). -/
def isErr {α : Type} : Res α → Bool
  | err _ => true
  | _ => false

@[simp] theorem pure_eq {α : Type} (a : α) : (Pure.pure a : Res α) = ok a := rfl
@[simp] theorem ok_bind {α β : Type} (a : α) (f : α → Res β) : (ok a >>= f) = f a := rfl
@[simp] theorem err_bind {α β : Type} (e : Err) (f : α → Res β) : (err e >>= f) = err e := rfl
@[simp] theorem panic_bind {α β : Type} (k : PanicKind) (f : α → Res β) :
    (panic k >>= f) = panic k := rfl
end Res

/-- A method taking `&mut self` with `σ` the type of `self`: the state is returned with
the outcome, also when the outcome is an error or a panic.  For example src/msgs/encoding.rs 24-32. -/
def M (σ α : Type) := σ → Res α × σ

namespace M
variable {σ α β : Type}

/-- `Ok(a)`, for example src/msgs/encoding.rs 30. -/
def pure (a : α) : M σ α := fun s => (.ok a, s)

/-- Sequencing with `?`, for example src/msgs/encoding.rs 43. -/
def bind (m : M σ α) (f : α → M σ β) : M σ β := fun s =>
  match m s with
  | (.ok a, s') => f a s'
  | (.err e, s') => (.err e, s')
  | (.panic k, s') => (.panic k, s')

/-- Sequencing with `?`, for example src/msgs/encoding.rs 43. -/
instance : Monad (M σ) where
  pure := pure
  bind := bind

/-- `return Err(e)`.  For example src/msgs/encoding.rs 26. -/
def fail (e : Err) : M σ α := fun s => (.err e, s)
/-- a panic.  For example the index of src/msgs/encoding.rs 28. -/
def die (k : PanicKind) : M σ α := fun s => (.panic k, s)
/-- lift a computation that does not touch the state.  For example src/msgs/challenge.rs 185-194. -/
def lift (x : Res α) : M σ α := fun s => (x, s)
/-- Reading the fields of `self`, for example src/msgs/encoding.rs 25. -/
def get : M σ σ := fun s => (.ok s, s)

/-- `map_err` / the `From` conversion applied by `?`.  For example src/msgs/capabilities.rs 107-109. -/
def mapErr (f : Err → Err) (m : M σ α) : M σ α := fun s =>
  match m s with
  | (.err e, s') => (.err (f e), s')
  | x => x

@[simp] theorem run_pure (a : α) (s : σ) : (Pure.pure a : M σ α) s = (.ok a, s) := rfl
theorem run_bind (m : M σ α) (f : α → M σ β) (s : σ) :
    (m >>= f) s = match m s with
      | (.ok a, s') => f a s'
      | (.err e, s') => (.err e, s')
      | (.panic k, s') => (.panic k, s') := rfl
theorem run_bind_ok {m : M σ α} {f : α → M σ β} {s s' : σ} {a : α} (h : m s = (.ok a, s')) :
    (m >>= f) s = f a s' := by rw [run_bind, h]
theorem run_bind_err {m : M σ α} {f : α → M σ β} {s s' : σ} {e : Err} (h : m s = (.err e, s')) :
    (m >>= f) s = (.err e, s') := by rw [run_bind, h]
theorem run_bind_panic {m : M σ α} {f : α → M σ β} {s s' : σ} {k : PanicKind}
    (h : m s = (.panic k, s')) : (m >>= f) s = (.panic k, s') := by rw [run_bind, h]
@[simp] theorem run_fail (e : Err) (s : σ) : (fail e : M σ α) s = (.err e, s) := rfl
@[simp] theorem run_die (k : PanicKind) (s : σ) : (die k : M σ α) s = (.panic k, s) := rfl
@[simp] theorem run_lift (x : Res α) (s : σ) : (lift x : M σ α) s = (x, s) := rfl
@[simp] theorem run_get (s : σ) : (get : M σ σ) s = (.ok s, s) := rfl

theorem bind_ok_inv {m : M σ α} {f : α → M σ β} {s s'' : σ} {b : β}
    (h : (m >>= f) s = (.ok b, s'')) : ∃ a s', m s = (.ok a, s') ∧ f a s' = (.ok b, s'') := by
  rw [run_bind] at h
  split at h
  · exact ⟨_, _, by assumption, h⟩
  · simp at h
  · simp at h

theorem ite_run {c : Prop} [Decidable c] (x y : M σ α) (s : σ) :
    (if c then x else y) s = if c then x s else y s := by split <;> rfl
end M

/-- The build-time configuration: config.rs.template 5-44, filled in by build.rs 153-181.
`caps` and `asymSigning` are the string lists `CAPABILITIES` and
`ALGORITHMS_ASYMMETRIC_SIGNING`. -/
structure Cfg where
  numSlots : Nat
  maxCertChainSize : Nat
  maxCertChainDepth : Nat
  transcriptSize : Nat
  maxDigestSize : Nat
  maxSignatureSize : Nat
  maxOpaqueElementDataSize : Nat
  maxOpaqueElements : Nat
  maxMeasurementBlocks : Nat
  maxMeasurementSize : Nat
  /-- bytes in a `Nonce`: 32 with the `rand` feature, 0 without (src/crypto/nonce.rs 16, 35) -/
  nonceSize : Nat
  capabilities : List String
  asymSigning : List String
  /-- the `crypto` feature, set by build.rs 199-201 exactly when `crypto-ring` is on (src/crypto/mod.rs 14-26): ring and webpki, or the
  stubs of src/crypto/no_crypto_defaults.rs -/
  provider : Bool := true
  deriving DecidableEq, Repr

end Spdm

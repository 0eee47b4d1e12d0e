/-!
# Shared data types

Plain data used by both the model (`Verif/Model`) and the specification
(`Verif/Spec`): machine words, the EVMC message and result records, and the
EVMC host interface.  No behaviour of evmzero is defined here.

The EVMC types themselves (`evmc.h`, `evmc.hpp`) are a third-party submodule
that is not part of the pinned repository; the fields below are the ones the
evmzero sources use.
-/

namespace Tosca

/-- `uint8_t`. -/
abbrev Byte := BitVec 8
/-- `uint256_t = intx::uint256` (cpp/vm/evmzero/uint256.h:23), also used for `evmc::bytes32`
and `evmc_uint256be`: the big-endian load/store conversions of uint256.h:36-40 are
bijections and are elided. -/
abbrev U256 := BitVec 256
/-- `evmc::address`: 20 bytes, as a 160-bit number (big-endian load elided). -/
abbrev Address := BitVec 160

/-- `evmc_revision`, by its enum value. -/
abbrev Revision := Nat
def ISTANBUL : Revision := 7
def BERLIN : Revision := 8
def LONDON : Revision := 9
def PARIS : Revision := 10
def SHANGHAI : Revision := 11
def CANCUN : Revision := 12

/-- `evmc_storage_status`. -/
inductive StorageStatus
  | assigned | added | deleted | modified | deletedAdded | modifiedDeleted
  | deletedRestored | addedDeleted | modifiedRestored
  deriving DecidableEq, Repr

/-- `evmc_access_status`. -/
inductive AccessStatus
  | cold | warm
  deriving DecidableEq, Repr

/-- `evmc_call_kind`. -/
inductive CallKind
  | call | delegatecall | callcode | create | create2
  deriving DecidableEq, Repr

/-- `evmc_status_code`: the codes evmzero produces, and any other code a host may report. -/
inductive EvmcStatus
  | success | failure | revert | outOfGas | invalidInstruction | undefinedInstruction
  | stackOverflow | stackUnderflow | badJumpDestination | invalidMemoryAccess
  | callDepthExceeded | staticModeViolation
  | other (code : Int)
  deriving DecidableEq, Repr

/-- `evmc_step_status_code`; `other` stands for values outside the enumerators. -/
inductive StepStatus
  | running | stopped | returned | reverted | failed | other
  deriving DecidableEq, Repr

/-- `evmc_message`.  `input_data`/`input_size` are one list; `flags` is a 32-bit mask whose
bit 0 is `EVMC_STATIC`; `codeHash` is the nullable pointer `code_hash`. -/
structure Message where
  kind : CallKind := .call
  flags : BitVec 32 := 0
  depth : Int := 0
  gas : Int := 0
  recipient : Address := 0
  sender : Address := 0
  input : List Byte := []
  value : U256 := 0
  create2Salt : U256 := 0
  codeAddress : Address := 0
  codeHash : Option U256 := none
  deriving DecidableEq, Repr

/-- The static-mode bit `EVMC_STATIC` of a message. -/
def Message.isStatic (m : Message) : Bool := m.flags.getLsbD 0

/-- `evmc::Result` as returned by the host's `call`. -/
structure CallResult where
  status : EvmcStatus := .success
  gasLeft : Int := 0
  gasRefund : Int := 0
  output : List Byte := []
  createAddress : Address := 0
  deriving DecidableEq, Repr

/-- `evmc_tx_context`; `blob_hashes`/`blob_hashes_count` are one list. -/
structure TxContext where
  gasPrice : U256 := 0
  origin : Address := 0
  coinbase : Address := 0
  blockNumber : Int := 0
  timestamp : Int := 0
  gasLimit : Int := 0
  prevRandao : U256 := 0
  chainId : U256 := 0
  baseFee : U256 := 0
  blobBaseFee : U256 := 0
  blobHashes : List U256 := []
  deriving DecidableEq, Repr

/-- The EVMC host interface over an arbitrary host state `σ`.  Every method may change the
state (so that "the host is not consulted" is expressible); the transaction context is
constant for one execution (the EVMC C++ wrapper fetches it once and caches it). -/
structure Host (σ : Type) where
  accountExists : Address → σ → Bool × σ
  getStorage : Address → U256 → σ → U256 × σ
  setStorage : Address → U256 → U256 → σ → StorageStatus × σ
  getTransient : Address → U256 → σ → U256 × σ
  setTransient : Address → U256 → U256 → σ → σ
  getBalance : Address → σ → U256 × σ
  getCodeSize : Address → σ → Nat × σ
  getCodeHash : Address → σ → U256 × σ
  /-- `copy_code(address, code_offset, buffer, buffer_size)`: the bytes the host writes to the
  start of the buffer; their number is the returned count. -/
  copyCode : Address → Nat → Nat → σ → List Byte × σ
  selfdestruct : Address → Address → σ → Bool × σ
  call : Message → σ → CallResult × σ
  txContext : TxContext
  getBlockHash : Int → σ → U256 × σ
  emitLog : Address → List Byte → List U256 → σ → σ
  accessAccount : Address → σ → AccessStatus × σ
  accessStorage : Address → U256 → σ → AccessStatus × σ

end Tosca

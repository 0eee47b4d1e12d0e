# Formal model of Tosca (evmzero in C++, lfvm in Go, and the Go code around them) in Lean 4

## 1. What is modelled

The C++ EVM interpreter `evmzero` (`/repo/cpp/vm/evmzero`) and the containers it
rests on (`/repo/cpp/common`): stack, memory, opcode table, jump analysis, all
instruction implementations, the dispatch loop (both the plain and the stepping
instantiation), the `Execute` / `StepN` / `SetOption` entry points, the LRU
cache, the SHA3 cache, the analysis cache, the stack-buffer free list, the
logger and the profiler counters.

Layout (`/verif/lean/Verif`):

* `Model/*`  – one definition per C++ function, each citing file and lines.
* `Spec/*`   – an independent specification: EVM small-step semantics over
  lists, unbounded naturals and integers (from the project's own conformance
  specification `go/ct/spc/specification.go` and the EIPs); an abstract LRU map;
  an abstract memory; instruction decoding. Uses nothing from `Model/` except
  shared *data types* (words, bytes, messages, the host interface).
* `Shared/*` – data types used by both (words, bytes, messages, the host
  interface, names of container operations). No behaviour.
* `Proofs/*` – helper lemmas.
* `Props/*`  – the property theorems, each followed by an `example` that
  instantiates the hypotheses on a concrete non-trivial case.

Which C++ is in which model file:

| C++ | Lean |
|----|----|
| `opcodes.h`, `opcodes.cc` | `Model/Opcodes` |
| `memory.h`, `memory.cc` | `Model/Memory` |
| `stack.h`, `stack.cc` (the buffer and its pointer during a run) | `Model/Context` |
| `stack.h`, `stack.cc` (class operations, copying, `Data::Get/Release`, free list) | `Model/StackPool` |
| `interpreter.h` (Context, Result, RunState) | `Model/Context` |
| `interpreter.cc` 40-1640 (word helpers, instruction bodies, gas helpers, `ApplyGasCost`, `MemoryExpansionCost`, `CheckJumpDest`, ...) | `Model/Ops` |
| `interpreter.cc` (`Run`, stack/revision/static checks, dispatch loop, `CalculateValidJumpTargets`, `PadCode`) | `Model/Interp` |
| `evmzero.cc` (`Execute`, `StepN`, `SetOption`, `ComputeContractInfo`, status mapping, marshalling) | `Model/Vm` |
| `evmzero.cc` (shared pointers to analyses) | `Model/Owners` |
| `lru_cache.h` | `Model/Lru` (pointer level), `Model/LruThreads` (interleaved) |
| `sha3_cache.h` | `Model/Sha3Cache` |
| `logger.h`, `observer.h`, `profiler.h` | `Model/Observers` |
| several calls at once on one VM | `Model/Threads` |
| a host whose nested calls run the VM again | `Model/Nest` |
| states a VM can be in after any history of calls | `Model/Reach` |

The Go code that embeds evmzero and processes transactions with it:

| Go | Lean |
|----|----|
| `go/tosca/types.go`, `interpreter.go` (Value, text forms, storage status) | `Model/GoValue` |
| `go/interpreter/evmc/evmc_interpreter.go`, `go/interpreter/evmzero/evmzero.go` (bridge in both directions, cgo host callbacks) | `Model/GoBridge` |
| `go/processor/floria/*.go` (transactions, calls, state contract, precompiled contracts) | `Model/Floria` |
| `go/interpreter/lfvm/opcode.go`, `instruction.go`, `converter.go` (opcodes, conversion) | `Model/LfvmCode` |
| `go/interpreter/lfvm/instructions.go`, `super_instructions.go`, `stack.go`, `stack_usage.go`, `memory.go`, `gas.go` | `Model/Lfvm` |
| `go/interpreter/lfvm/interpreter.go`, `lfvm.go` (loop, result, `Run`) | `Model/LfvmRun` |
| `go/interpreter/lfvm/ct.go` (stepping, program counter maps) | `Model/LfvmCt` |
| `go/tosca/interpreter_registry.go`, `processor_registry.go`, experimental configurations of `go/interpreter/lfvm/lfvm.go` | `Model/Registry` |
| `go/interpreter/lfvm/instruction_logger.go`, `instruction_statistics.go` (without the text of the summary) | `Model/LfvmObserve` |
| `go/interpreter/lfvm/hash_cache.go`, `converter.go` (caches) | `Model/LfvmHash` |
| `go/interpreter/lfvm/keccak.h`, `keccak.go` | `Model/LfvmKeccak` (rounds transcribed by a script from keccak.h) |
| `go/ct/st/*.go` (test states: code, memory, storage, accounts, journals), `go/ct/utils/adapter.go` | `Model/CtState` |
| `go/interpreter/evmzero/ct.go`, `go/interpreter/evmc/evmc_steppable_interpreter.go` | `Model/EvmzeroCt` |
| `go/geth_adapter/adapter.go` (run context, end of `Run`, read-only encoding, error mapping, refund shift; without parameter conversion and code cache), `go/interpreter/geth/geth.go` (`stateDbAdapter` without snapshots) | `Model/GethAdapter` |
| `go/processor/opera/processor.go` (checks, charges, refund, receipt, intrinsic gas, state contract; without the construction of geth's EVM), `PrepareAccessList` of `go/interpreter/geth/geth.go` | `Model/Opera` |
| `go/ct/st` (`Eq`, `Diff` of states and their parts) | `Model/Compare` |
| `go/ct/st/serialization.go`, texts of `go/ct/common`, `go/tosca/types.go`, `revisions.go` | `Model/Persist` |
| `go/ct/gen/block_context.go`, `transaction_context.go`, `go/ct/common/revisions.go` (forks) | `Model/GenContext` |
| `go/ct/gen/accounts.go` (`Generate`), the builder of `go/ct/st/accounts.go` | `Model/GenAccounts` |
| `go/ct/gen/code.go`, `stack.go`, `storage.go`, `transient_storage.go`, `selfdestructed.go` (`Clone`, `Restore` and `String` aside), `variable.go` | `Model/Gen` |
| `go/ct/gen/range_solver.go`, `go/ct/gen/interval_solver.go` (without printing) | `Model/Solver` |
| `go/ct/spc/specification.go`, `specification_map.go`, `go/ct/rlz/conditions.go`, `expressions.go` (checking conditions; the 1595 rules) | `Model/CtRules` |
| data types of `go/tosca` | `Shared/Go` |

## 2. Modelling decisions

* `uint256_t` is `BitVec 256`; intx operators are modelled by the corresponding
  `BitVec`/`Nat` operation (intx itself is a third-party submodule that is not in
  the repository). What evmzero itself computes on top of intx (SIGNEXTEND, BYTE,
  SAR, PUSH word assembly, address truncation, byte swapping) is modelled as coded.
* `int64_t` is `Int` with an explicit range check on every arithmetic operation:
  leaving the range is the outcome `UB.signedOverflow`. `uint64_t` is `Nat` with
  explicit reduction modulo 2^64. `__builtin_*_overflow` is modelled as such.
* Undefined behaviour is a distinct outcome (`Except UB`): stack slot outside the
  1024-slot buffer, code read outside the padded code, null pc, memory range
  outside the vector, use of a span after the vector was resized, host writing
  beyond the buffer it was given, cache list pointer null/dangling, pointer to a
  deleted analysis.
* The stack is the raw buffer plus a pointer, exactly as in the code; the buffer's
  initial contents are arbitrary (recycled storage).
* The host is an arbitrary state machine `Host σ`; what is assumed about it is a
  separate predicate (`HostOk`/`EnvOk`, `EnvKeeps`), stated with each theorem that
  needs it. Theorems about gas (C10), static calls (C16), own name (C43), observers
  (C26), refunds (C37) and memory (C38) need less or nothing of it.
* keccak256 is an arbitrary function; where two codes or inputs with one hash
  would matter, absence of such a collision among the inputs used is an explicit
  hypothesis.
* The interpreter loop takes fuel; theorems show that fuel `gas + 2` suffices (C08).
* Concurrency: every public method of the LRU cache and of the stack free list
  holds its mutex for its whole body, so it is one atomic action of the interleaving
  semantics (`LruThreads`, `StackPool`, `Threads`, `Owners`); everything between two
  such actions touches only data of its own call.

## 3. Plan and proof per property

Every property is stated in `Props/*` against `Spec/*`. `AXIOMS.md` lists the axioms
per theorem, `MANIFEST.json` the theorem names.

| id | what is modelled | how it is proved |
|----|----|----|
| C01 | word operators as coded | equality with integer definitions in `Spec/Word` for all operands; lifted through `StepN(1)` |
| C02 | PUSH assembly over padded code | equals the big-endian value of the zero-extended code |
| C03 | loop of `CalculateValidJumpTargets` | loop invariant; iff with an inductively defined instruction-start predicate |
| C04 | JUMP/JUMPI, `CheckJumpDest` | from C03 and C05 |
| C05 | every instruction | refinement relation between raw-buffer state and list state, per instruction (`Proofs/Ops1`–`Ops5`, `Run`, `One`) |
| C06 | `StepN` | induction on steps over C05 |
| C07 | `Execute` | induction on gas; JUMP with the inlined JUMPDEST is two specification steps |
| C08 | the loop | every iteration consumes gas or ends; measure |
| C09 | UB outcomes | by-product of C05–C07: these are proved in the semantics with UB |
| C10 | all instructions, any host | invariant, no assumption on the host |
| C11 | epilogue of the run | case analysis + trace |
| C12 | stack checks | iff between the model's checks and the specification's arity table |
| C13 | two runs with different stale data | relational (twin-run) induction |
| C14, C15 | `Memory` | refinement to a zero-initialised total function plus size; telescoping sum of costs |
| C16 | any run | preservation of any host relation preserved by the permitted host methods |
| C17–C19 | CALL family, CREATE family | exact message given to the host |
| C20 | SSTORE | EIP formulas over original/current/new with a truthful host |
| C21–C23 | RETURNDATACOPY, copies, BLOCKHASH/BLOBHASH | direct statements derived from C05 |
| C24, C25 | `StepN` composition | from C06/C07 |
| C26 | loop with any observer | simulation |
| C27 | logger | trace of the specification run determines the text |
| C28 | pointer-level LRU list | representation invariant, refinement to an association list, any history |
| C29 | threads calling `GetOrInsert` | interleaving semantics, invariant |
| C30, C31 | caches in the VM | invariant `value = f key` over any reachable cache |
| C32, C33 | `SetOption`, status mapping | case analysis over all strings/states |
| C34, C35 | heap of `Data` blocks with free list | invariant over operation histories, refinement to lists |
| C36 | marshalling | round trip |
| C37, C38 | refund and memory bounds | invariants with a gas potential |
| C39, C40, C42 | depth, revisions, early failures | case analysis |
| C41 | profiler | counters as a function of the trace, nested runs included |
| C43 | all host calls | every host call names the frame's own recipient |
| C44–C46 | remaining instructions | direct statements derived from C05 |
| C47 | host that runs nested executions on the same code | closed system: the knot between host and interpreter is tied by induction on depth/gas; existence, uniqueness, completeness |
| C48 | same | static flag propagates through the whole tree |
| C49 | threads calling `Execute` | commutation/invariant: each result is the result alone |
| C50 | reference counts | invariant count = owners over any interleaving |

| C51 | `Run` of the Go bridge around `Execute` | the host built from a Go run context meets `HostOk`/`EnvOk`; C07 gives conformance to `Spec.Go.run`, which is stated without the C++ side |
| C52 | floria on evmzero | induction on depth: the call function of the stack equals the one on the specified interpreter |
| C53–C56 | `Value` limbs, text, storage status, intrinsic gas | equality with integer/bit-vector definitions; induction over write histories |
| C57 | `Processor.Run` | case analysis into an independently stated receipt (`Spec/Transaction`), bounds from C52 |
| C58, C59, C61 | call trees | `call_stable`: a predicate preserved by every permitted effect of a frame and by transfers is preserved by calls of any depth; instantiated with nonces, the sum of balances, and arbitrary observations; frames of evmzero by C16, frames of lfvm by C69 and an effect analysis of the reference interpreter (`Proofs/NativeEffects`) |
| C60, C62–C64 | `runContext.Call` | case analysis; independent specifications in `Spec/StateContract` |

| C65, C66, C68 | lfvm, in its production configuration (no super instructions): `Run`, the interpreter loop, every instruction with stack array, memory and 16-bit positions, panics as outcomes | `Proofs/Lfvm*`: refinement relation to the list state of the specification, per instruction; the converted code is laid out along the original one (`Laid`); induction on gas. The reference is `Spec/GoNative` (the specification of C05/C07 with the gas rules of the EIPs and Go's handling of refunds), stated without lfvm |
| C67 | lfvm's converter | loop invariant; the result is laid out along the code, JUMPDESTs at the same positions |
| C69 | floria on lfvm | induction on depth, as C52; calls stay within the sizes C65 needs |
| C70 | the SHA3 cache at the level of its pointers; threads with a locked section and a later read | invariant on the doubly linked list (`Links`), refinement to the LRU of C37; for threads an age argument: an entry just used is at most as far from the front as there were operations since. C70_race: the schedule that returns a wrong hash |
| C71 | code cache (hashicorp's LRU as a list) | invariant: entries are conversions of the codes with their hashes |
| C72 | Keccak-256 in C: unrolled rounds, block loop, partial word, padding | independent `Spec/Keccak` (θρπχι with computed offsets and round constants, sponge over the padded message); each unrolled round equals the specified one, induction on blocks. A published digest ("abc") is derived for the specification in `Proofs/KeccakAbc` |
| C73 | lfvm with super-instructions (`lfvm-si`): the same model with the fused sequences | the converted code may hold a super-instruction where the code has its sequence (`Laid true`); each super-instruction does what its parts do one after the other, or both fail (`Proofs/LfvmSuper`, `Proofs/LfvmSuperOps`); one iteration of the loop is one or more steps of the specification. The condition `SafeRun` (Spec/GoSuper) speaks only of the specification |
| C74 | `StepN`: conversions of states, the map of program counters built by the converter's observer, the loop | `Spec/GoStep` says what a test state shows of a frame. The observer sees every instruction once and in order (`Seen`), the map is inverse on the layout relation of C67 (`MapOk`), each loop round is a step or an inserted jump (`step_ct`), the stack pointer stays in range also for failing instructions (`keeps_stepOnce`) |
| C75 | The conformance specification: all rules with their conditions and effects, the test states and the run context of the tests | `Spec/GoRules` says which states are in scope and what is expected (`Shows` of C74). A rule's effect and a step of the reference are related by `Does` through paying, memory growth and journal calls; one lemma per group of rules (`sounds_*`), generic over parameters where the rules are (calls: opcode × revision × warm × static × value). lfvm: the step lemma of C74 with calls that may answer any refund (`LfvmOne`). Lookup: conditions do not depend on the hash, the shape of all 1595 condition lists is evaluated by the kernel. Completeness: every group of rules covers the states at its opcodes but for `NoRule` (`Proofs/CtCover`); the converse by a kernel computation on the conditions of all rules. |
| C76 | The stepping adapters of evmzero in front of the C++ model's `StepN`, on the run context of the tests | The call journal may answer any refund and output, so the step lemmas of C01-C50 are proved for hosts of which only the gas of calls is known (`HostBase`, `Fits`). A step on two hosts that differ in their answers to calls (`EzCall.step_rel`) gives: the way the binding reports errors plays no role; memory stays in whole words and the counter in range (comparison with a host that refunds nothing). Stacks as bytes: round trip. The rules' reference and evmzero's differ only at `ColdRestore`, which no rule covers (C75_complete); there the refunds differ by 2100. |
| C77 | The two solvers for any integer type of Go with wrapping arithmetic; a random source is any function within its bounds | Invariant: intervals in order, not empty, with gaps. One step of `Exclude` on one interval by cases of `getRelationTo`; induction over intervals and constraints. Sizes: the sum is below 2^64 unless the domain is the whole type. |
| C78 | Both adapters over an abstract client; geth's `Call` family as an arbitrary function | Field-wise: the composition of the adapters shows the client's database (`Mirrors`). Runs: a homomorphism of hosts is one of frames, for every instruction of the reference EVM (`Proofs/HostMap`), then C51 and C65. Read-only flag: arithmetic modulo 2^64. Refunds: modulo 2^64 with the shift of 2^60 |
| C79 | The opera processor around an arbitrary EVM; its state contract over the adapter of C78 | Receipts by cases of the checks, gas in 64-bit arithmetic without overflow (`TxOk`, `GasKept`), and the formula `billed` of C57; agreement with floria from C57_receipt and C79_receipt; the state contract by cases of its methods against `StateMethod` of C63 |
| C80 | The generators as functions of an arbitrary source of random numbers, loops that draw until something fits with fuel | Specification by what the result must satisfy (`CodeMeets`, `StorageMeets`, …, no mention of the algorithm). Code: induction over the sorted positions with the invariant that the code written so far parses up to the next position; storage: an invariant over three passes (every slot done has what it needs, no later slot of another key disturbs it); stack: with the range solver of C77, in both directions |
| C81 | The generator of accounts over the same sources; map orders and global random numbers as parameters | Invariants of its five loops; the central one (`Names`): two variables stand for one account only if both were bound before, so that a clash the generator finds is one of every solution (`same_anywhere`) |
| C82 | The generators of contexts after any sequence of calls; machine integers wrap around | What the calls leave in the generator (`Stored`), then the solvers by C77 and the loops over the variables by induction |
| C83 | `State.Eq` and `State.Diff` with the comparisons of the parts; a Go map is the list of its entries in the order of an iteration | Each comparison decides equality of what it compares (for maps by counting distinct keys), then the states |
| C84 | Writing a state into a document and reading it back, with the texts of all values; the syntax of JSON is left out | Round trip of each text (digits by induction), of maps by induction over insertions, then of the state |
| C85 | The runners for logging (with any writer) and statistics, around the instruction of `Model/LfvmRun`; maps are lists of entries | Induction over the execution (`Path`), which the plain loop is shown to follow; counters: invariant of the collector over the executed instructions, keys as digits of a number |
| C86 | The registries as maps under a lock, and the loop that registers the experimental configurations | Induction over the calls: the map holds the first factory of each name |

## 4. Trusted base

* Lean 4.33.0's kernel and the three standard axioms `propext`, `Classical.choice`,
  `Quot.sound` (each theorem's own list is in `AXIOMS.md`, produced by
  `tools/axioms.py` from `#print axioms`). No axiom is added, nothing is admitted,
  no theorem rests on compiled evaluation (`decide +kernel` is evaluated by the
  kernel).
* The reading of the C++ text into `Model/*`. It is by hand; every definition cites
  the lines it models and the simplifications it makes.
* The reading of the EVM rules into `Spec/*`.
* The semantics of third-party code: intx (256-bit integers), evmc (types and
  C++ host wrapper, the Go binding and its `VMSteppable`), ethash keccak (any function; the one of lfvm is C72), hashicorp's LRU (a list), absl hash map (a finite map),
  the C++ standard library (vector, shared_ptr, mutex, unique_ptr), cgo.
* The client's world state is any set of functions `Db`; `DbOk` says that setting a
  balance, nonce or code is read back and affects nothing else. Snapshots are values
  of the state: `CreateSnapshot`/`RestoreSnapshot` of the client are assumed correct.

## 5. Not modelled

* Allocation failure (`std::bad_alloc`), the mimalloc/tracy glue (`allocator.cc`).
* Conversion of clock ticks to nanoseconds and the layout of the profiler's text
  (`profiler.h` Dump prints); the numbers printed are modelled.
* `data() + offset` pointer arithmetic for empty ranges with huge offsets is formally
  UB in C++ though nothing is accessed; the model allows it.
* `SetOption` concurrently with `Execute`; observers shared by concurrent calls
  (both are data races in the code, see finding 14).
* Weak-memory effects: mutex-protected sections are atomic and ordered.
* Big-endian platforms, codes of 2^32 bytes and more (jump targets are truncated to
  32 bits), buffers above 2^63 bytes.
* The benchmark and test files, the Rust parts, the construction of geth's EVM and geth itself; of `go/ct` everything but
  `spc`, the `Check` side of `rlz`, `st`, `utils/adapter.go`, the solvers and the generators of C80 to C82 (the generator
  of whole states, the `Restrict` side of `rlz`, drivers).
* The bodies of precompiled contracts (geth's), address derivation (`crypto.CreateAddress`)
  and keccak: arbitrary functions.

## 6. Findings

Where the code behaves differently from what one would expect. Each is either proved
or visible as a hypothesis of a theorem.

1. `LruCache`: `Clear` leaves the last node's `succ` dangling (never followed for
   capacity ≥ 2); capacity 1 dereferences null on the first insertion and capacity 0
   is out of bounds (`C28_capacity_one`, `C28_capacity_zero`); `InsertOrAssign` of an
   existing key does not refresh its recency; `GetOrInsert` is not atomic, so the value
   may be computed by several threads (C29).
2. `MemoryExpansionCost` returns `kMaxGas` as "too big": with gas = INT64_MAX (possible
   through StepN) and an instruction without static cost the check passes. Excluded by
   the hypothesis gas < INT64_MAX of C05/C06/C09.
3. `gas_refund` is not zeroed on failure or revert, and CALL/CREATE add the callee's
   refund whatever its status.
4. Refund additions are unchecked; overflow is excluded by refund ≤ 199·gas spent (C37).
5. SSTORE calls the host (access, set_storage) before it checks the gas: a failing
   SSTORE has host effects, which the caller must roll back.
6. JUMP truncates the target to 32 bits; the stack pointer may be moved out of its
   buffer on a failing instruction (it is never followed then).
   `Profiler` writes out of bounds for call depth ≥ 1026 (`C41_too_deep`).
   StepN with a pc beyond the code is UB (excluded by hypothesis).
7. StepN: a failed state fed back gets status INVALID_INSTRUCTION; memory is padded to
   a multiple of 32; the status code is FAILURE while running; a failed result
   reports the entry pc.
8. The logger and the observers do not see the JUMPDEST executed together with a jump.
   CREATE keeps return data only on REVERT.
9. Gas never increases even for a misbehaving host, but a host that returns more gas
   than it was given can make an execution run forever: termination needs `EnvOk`.
10. Memory of ≥ 2^63 squared words is rejected as out of gas although its cost is only
    ≥ 2^54.
11. StepN with steps = INT32_MAX overflows its counter (excluded by hypothesis).
12. Errors reported by instruction bodies still advance pc.
13. Exceeding the create depth and the init-code limit are both EVMC_FAILURE.
14. Profilers and logger of a VM are not synchronised; `SetOption` is not either.
15. STATICCALL sets the message flags to exactly EVMC_STATIC; other calls pass the
    parent's flags unchanged.
16. A value-bearing call failing for lack of balance still credits the 2300 stipend.
    EXTCODECOPY does not access the account if the gas does not cover the memory.
17. `Stack s(s)` (copy construction from itself) is undefined.

Go side:

18. Refunds of reverted or failed callees are kept by evmzero (finding 3), so a transaction's
    refund may be negative, its `GasUsed` larger than its gas limit and the credit of
    left-over gas wraps to almost 2^64 gas units: money is minted (`C57_exceeds`,
    `C59_minted`, both kernel-evaluated on a concrete contract).
19. `RequiredGas` of a precompiled contract is converted to a signed number: 2^63 and more
    (geth's modexp asks for 2^64-1 for large operands) is negative, hence free
    (`C64_wraps`).
20. DELEGATECALL and CALLCODE to the address of a precompiled contract do not run it (the
    recipient, not the code address, is looked up).
21. A creation that fails because its code is too long, starts with 0xEF or cannot be paid
    for does not restore the snapshot (`C60_stays`). A failing precompiled contract
    keeps the value transfer.
22. The state contract works even in static calls (`C63_driver` holds for any static
    flag); `incNonce` ignores the upper 24 bytes of its argument.
23. `Value.Scale` wraps modulo 2^256, so the price of gas may wrap (C53, C57).
24. A creation at a taken address does not increment the sender's nonce (C58); lack of
    intrinsic gas charges all gas without incrementing the nonce; too long init code is
    noticed after the gas was bought, but the receipt reports zero gas used (C57).
25. Rejected transactions return an empty receipt without error.
26. CREATE with too long init code makes the Go `Run` of the outermost frame return an
    error (C51, C52), because EVMC_FAILURE is not a known status there.
27. The bridge does not pass the static flag for DELEGATECALL/CALLCODE; floria keeps track
    of it itself (C61). Calls deeper than 1024 and calls with impossible transfers
    consume all forwarded gas.

Long-form EVM:

28. lfvm with super-instructions cuts the target of SWAP2 SWAP1 POP JUMP to 32 bits
    (`opSwap2_Swap1_Pop_Jump`): a jump to 2^32 + d goes to d instead of failing (`C73_wide`), one to
    2^31 panics with an index out of range (`C73_negative`). The configuration is registered as `lfvm-si`.
29. Positions are 16-bit: in code above 64 KiB (possible as init code before Shanghai)
    JUMP_TO leads to a wrong place and PC is replaced by INVALID and swallows a byte.
    Hypothesis of C65, C67 and C69.
30. lfvm drops the refunds of reverted or failed frames, evmzero keeps them (finding 18):
    the two interpreters differ in receipts.
31. Too long init code in CREATE is a failed result in lfvm, an error of `Run` in evmzero
    (finding 26).
32. evmzero refunds 4900 for a cold slot restored to its original value (2800 by
    the EIPs and in lfvm); a slot can only be cold there if it was written without being
    accessed, which the state contract does.
33. `sha3HashCache.getHash` reads `entry.hash` after unlocking: the entry may have been
    recycled for another key meanwhile (data race, `hash_cache.go:93-112`). C70_race is a
    schedule on the smallest cache; C70_threads bounds how far a thread must be overtaken.
34. A negative revision is not rejected by lfvm.
35. `StepN(n)` of lfvm executes fewer than n instructions if the converter inserted jumps on
    the way (example in `Props/LfvmCt`); code longer than 48 KiB may exceed the 16 bits of its map.
    A state whose program counter is in push data is stepped from position 0.
36. The conformance specification has gaps (`NoRule` in `Spec/GoRules`, exact by C75_complete):
    SSTORE of a dirty or unchanged slot with exactly 2300 gas (the limit is `gas >= 2301`, but the
    rule for too little gas ends at `gas < 2300`); cold dirty or unchanged slots from Berlin on;
    SSTORE in read-only mode with less gas than the store costs; JUMP/JUMPI with too little gas
    and no valid target (or no jump); PUSH0 before Shanghai with little gas or 1023 stack elements;
    LOG in read-only mode with too little gas.
37. `Accounts.GetCodeHash` of the test states is always zero (`hasher.Sum` returns the digest, which
    is dropped, go/ct/st); both sides of a test see the same zero.
38. The salt of CREATE2 is not recorded in `PastCall`, so no test checks it. The rule for
    CREATE2 in read-only mode asks for three operands instead of four.
39. For an unknown revision with the program counter in push data, two rules contradict each other
    (no effect and failure). C75_agree therefore needs a known revision.
40. `pc = len(code)` right after a truncated PUSH counts as data in the specification, while lfvm
    executes a STOP there; lfvm's `StepN` panics for larger program counters.
41. The rule for STOP clears the return data, lfvm keeps it; test states start with none.
42. The generators draw the refund of the call journal from all non-negative `int64`s (go/ct/gen/call_journal.go:35) and
    the state's own counter from ±500,000,000,000 (state.go:83). When the sum exceeds `int64` (rare: about one draw in
    10^8),
    `ctx.gas_refunds += result.gas_refund` (interpreter.cc:1640, 1792) is a signed overflow and so undefined behaviour of
    evmzero; lfvm wraps around, as the rules do (example `ctFull`).
43. Restoring a cold slot (a slot the host reports as changed but not accessed): evmzero refunds 4900, lfvm and EIP-2929
    2800 (C76_lfvm is exact; no rule covers such states).
44. `RangeSolver.Generate` and `IntervalSolver.Generate` compute `max - min` in the type of the solver. For signed types
    narrower than 64 bits the difference overflows and values outside of the range can be drawn (C77_narrow). No such
    type is used at this commit.
45. Before Cancun SELFDESTRUCT under the opera processor credits the beneficiary twice with a client that follows the
    documentation ("SelfDestruct destroys addr and transfers its balance to beneficiary", world_state.go:37):
    adapter.go:531 adds the balance through geth's interface, and geth.go:332 calls the client's `SelfDestruct`, which
    transfers it again (C78_credited_twice). From Cancun on the balance is subtracted in between and the result is right.
46. `isPrecompiledContract` (adapter.go:607-615) skips byte 18 of the address, so a static context is lost when code at an
    address such as 0x0105 is called (C78_readonly_lost). Only addresses below 2^16 are concerned.
47. `encodeReadOnlyInGas` has addresses 1 to 9 as precompiled contracts; the point evaluation contract 0x0a of Cancun,
    called from a static context, gets 2^63 gas too much from geth's point of view.
48. Floria records accesses only for transactions that have an access list; opera, as EIP-2929 demands, for all from
    Berlin on (C79_floria needs `accessList ≠ none`).
49. Opera records accesses of Berlin's precompiled contracts only, in Cancun as well (processor.go:205-206: "Cancun extends it"), so
    that 0x0a is cold at first; floria lists it.
50. The state contract of opera protects balance and nonce of the transaction's origin, floria's those of the sender of
    the call, i.e. of the driver itself; and a nonce increment of 2^64 + 1 is an error in opera, and 1 in floria
    (`OriginSafe` and `StateMethod.Allowed`).
51. Opera has no check of the sender's maximal nonce. A transaction with less gas than its intrinsic gas is an error in
    opera, yet its sender pays for it (C79_receipt); in floria it is an unsuccessful receipt.
52. A failed creation has a contract address in its receipt under opera (C79_receipt), and not under floria if no gas is left.
53. `CodeGenerator.solveIsCode` and `solveIsData` bind a variable anew that is bound already, if the slot it points to is not
    used by any other constraint (example in `Props/Gen`; this is why C80_code excludes them from what is kept).
54. `CodeGenerator` enlarges the code for constant operations only with `pos > minSize`: an operation at position 0, or one exactly
    at the size so far, leaves the code too short, and the generator reports a conflict although there is none. The same operation twice at
    one position is reported as a conflict as well.
55. `StackGenerator` reports a conflict if a constant and a variable of the same value are asked for at one position; `Generate` leaves its
    lower bound of the size in the generator.
56. `StorageGenerator` compares neighbours in a list that is sorted by configuration before key, so that two configurations of one key are
    accepted if another key stands between them. Two variables bound to one key are never compared: their configurations
    overwrite each other, or for warm and cold, warm wins (`SetWarm(key, false)` does not cool a key). C80_storage speaks of slots
    with one configuration only (examples in `Props/Gen`).
57. `StorageGenerator`: a variable for new values that is a key as well is not among the keys in use, so that another key may
    get its value (`Apart` of C80_storage). The third branch of the choice of new values is never taken: all nine
    statuses demand zero or non-zero.
58. `TransientStorageGenerator` compares unbound variables by their value 0 and reports conflicts that are none; its "non-zero" values are
    drawn at random and may be zero.
59. `AccountsGenerator` uses the global `rand.Intn(3)` instead of its argument, so that its results are not reproducible from the
    seed. An account that must not be empty but has an upper bound of its balance may get balance 0 and be empty; the executing account gets
    code even if it must be empty; one account may be asked to be warm and cold under two names, and is warm (`Sheltered`, examples in
    `Props/GenAccounts`). Addresses of variables that are bound are not among those in use unless they have a
    warm/cold constraint (`Misses`). `RandU256Between(0, max)` always returns 0, as its range overflows.
60. `StateGenerator` (not modelled): the bindings of variables to the state's own address reassign variables that other generators
    have used already (`NewAddress` truncates to 20 bytes), against its documentation ("sound and complete").
61. `BlockContextGenerator`: the check of variables that are bound counts the current block among the last 256 (`isInRange` with the
    block number as upper bound), so that a variable with offset 0 may be "one of the last 256", and one with offset 0 that is to be none
    of them is a conflict; for block numbers 1 to 255 the range to exclude for a free variable wraps around and nothing is excluded
    (`C82_early`). Offsets that leave the range of block numbers are a conflict even if another block number would do.
62. `TransactionContextGenerator`: an index that is to be present and absent is accepted if it is bound through two variables
    (`C82_blobs_tie`); if a variable that is to be absent is bound to 0, a free variable that is to be present is bound to an arbitrary value
    (`blobHashesCount-1` underflows).
63. `Storage.Eq` compares the original values with `maps.Equal`, so an original value of zero differs from a missing one, though no instruction
    can tell them apart and `Storage.Diff` ignores zeros: two states can be unequal without any difference being reported
    (`C83_original_zero`). `State.Eq` converts the length of the code to `uint16`: with code of 2^16 bytes all program counters are equal
    (`C83_long_code`).
64. `Revision.UnmarshalJSON` does not read what `MarshalJSON` writes for negative revisions (`C84_negative`).
65. A log writer that fails (a full disk) makes LFVM fail in the middle of a contract, with an error instead of a result; what was executed before
    has already been done to the world (`C85_refused`).
66. `RegisterInterpreter` is documented to panic for a nil implementation but accepts it (`interpreter_registry.go:82-97`): the name then gives
    a nil interpreter without an error. If one name of the experimental configurations is taken, which of the others are registered
    depends on the iteration order of a map (`lfvm.go:85-95`).
67. `lfvm-no-code-cache` runs without the SHA3 cache too, which its name does not say (`lfvm.go:81-83`, `C86_names`).

## 7. Checks of the theorems

`seeded/LOG.jsonl` lists the wrong programs tried. Two kinds: edits of `Model/*`
alone (a bug in the program), and edits of `Model/*` and `Spec/*` together (a bug that
the conformance proof would not see), which the directly stated properties must catch.

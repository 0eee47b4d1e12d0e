{"id": "C01", "title": "Word arithmetic, comparison, bitwise and shift instructions", "statement": "Executing ADD, MUL, SUB, DIV, SDIV, MOD, SMOD, ADDMOD, MULMOD, EXP, SIGNEXTEND, LT, GT, SLT, SGT, EQ, ISZERO, AND, OR, XOR, NOT, BYTE, SHL, SHR or SAR replaces its operands by the value the EVM defines by integer arithmetic modulo 2^256 (two's complement for the signed forms, division and modulus by zero giving 0, shifts of 256 or more saturating), and changes nothing else but the charged gas and the program counter.", "quantifier": "all 256-bit operand tuples, all stacks below the operands, all gas amounts", "why_tests_cant": "2^512 to 2^768 operand combinations per instruction; carries, sign boundaries and shift boundaries are sampled only.", "anchors": ["cpp/vm/evmzero/interpreter.cc: op::Impl<ADD..SAR>", "cpp/vm/evmzero/uint256.h: ToByteArrayLe, kUint256Max"]}
{"id": "C02", "title": "PUSHn pushes the big-endian immediate, zero-extended past the end of the code", "statement": "PUSH1..PUSH32 at any position pushes the big-endian number formed by the n bytes following the opcode, where bytes beyond the end of the contract count as 0, and continues after the immediate.", "quantifier": "all codes, all positions, all n in 1..32", "why_tests_cant": "The immediate is assembled from partial and full 64-bit words with byte swaps; contents and code-end positions are unbounded.", "anchors": ["cpp/vm/evmzero/interpreter.cc: op::PushImpl::Run", "cpp/vm/evmzero/interpreter.cc: internal::PadCode"]}
{"id": "C03", "title": "Jump-target analysis is exact", "statement": "A code offset is marked as valid jump target iff it is below the code size, holds JUMPDEST, and is the start of an instruction when the code is decoded sequentially from offset 0 (not inside a PUSH immediate).", "quantifier": "all codes of any length, all offsets", "why_tests_cant": "Codes are unbounded byte strings; PUSH immediates may contain PUSH and JUMPDEST bytes and may run past the end.", "anchors": ["cpp/vm/evmzero/opcodes.cc: CalculateValidJumpTargets"]}
{"id": "C04", "title": "JUMP and JUMPI transfer control exactly to valid targets", "statement": "JUMP (and JUMPI with non-zero condition) succeeds iff the full 256-bit destination is a valid jump target, continues exactly there, and otherwise fails with BAD_JUMP_DESTINATION; JUMPI with zero condition falls through without looking at the destination.", "quantifier": "all codes shorter than 2^32 bytes, all destinations, all conditions", "why_tests_cant": "Destinations are 256-bit values that are truncated twice (to 64 and 32 bit) in the implementation.", "anchors": ["cpp/vm/evmzero/interpreter.cc: internal::Run (jump part)", "cpp/vm/evmzero/interpreter.cc: Context::CheckJumpDest", "cpp/vm/evmzero/interpreter.cc: op::Impl<JUMP>, op::Impl<JUMPI>"]}
{"id": "C05", "title": "Single-instruction conformance to the EVM specification", "statement": "One StepN step from any well-formed state yields the state the EVM specification (the project's own CT specification and the EIPs) defines: same status and failure reason and, unless failed, same pc, gas, refund, stack, memory, return data and host state.", "quantifier": "all revisions, messages, codes, hosts, and all states with a stack of at most 1024 words, word-aligned memory and gas bounded by 2^54", "why_tests_cant": "The product of 256 opcodes, stacks, memories, gas values, revisions and host behaviours is unbounded.", "anchors": ["cpp/vm/evmzero/interpreter.cc: internal::Run, op::Impl<*>, op::Invoke", "cpp/vm/evmzero/evmzero.cc: VM::StepN"]}
{"id": "C06", "title": "StepN(n) executes exactly n specification steps", "statement": "StepN with step limit n returns the state the EVM specification reaches after n instructions, or the final state if it halts earlier.", "quantifier": "all n >= 0, all well-formed start states, codes, hosts", "why_tests_cant": "Executions and step counts are unbounded.", "anchors": ["cpp/vm/evmzero/interpreter.cc: internal::RunInterpreter<_, true>", "cpp/vm/evmzero/interpreter.cc: InterpretNSteps", "cpp/vm/evmzero/evmzero.cc: VM::StepN"]}
{"id": "C07", "title": "Execute conforms to the EVM specification", "statement": "Execute returns the status code, gas left, refund, output and host effects of running the EVM specification from the initial state until it halts.", "quantifier": "all codes, messages with gas at most 2^54, revisions, contract-abiding hosts", "why_tests_cant": "Program executions are unbounded and depend on arbitrary host answers.", "anchors": ["cpp/vm/evmzero/evmzero.cc: VM::Execute", "cpp/vm/evmzero/interpreter.cc: Interpret, internal::RunInterpreter<_, false>"]}
{"id": "C08", "title": "Execute terminates", "statement": "Every Execute call returns after interpreting at most gas+1 instructions.", "quantifier": "all codes, messages, revisions, contract-abiding hosts", "why_tests_cant": "Non-termination is not observable by a finite test.", "anchors": ["cpp/vm/evmzero/interpreter.cc: internal::RunInterpreter", "cpp/vm/evmzero/interpreter.cc: op::Impl<*>::kInfo.static_gas"]}
{"id": "C09", "title": "No undefined behaviour in the interpreter", "statement": "No execution reads or writes outside the 1024-word stack buffer, outside the padded code, outside memory, through a dangling span or null pointer, or overflows a signed integer.", "quantifier": "all codes, inputs, hosts within contract, gas at most 2^54, both Execute and StepN from well-formed states", "why_tests_cant": "Memory safety must hold on every path; sanitizers only see executed paths.", "anchors": ["cpp/vm/evmzero/interpreter.cc: op::Impl<*>::Run, internal::Run, RunInterpreter", "cpp/vm/evmzero/memory.h: GetSpan, Grow"]}
{"id": "C10", "title": "Gas never increases and gas left is bounded by the message gas", "statement": "At every instruction the available gas does not increase, and the gas left reported by Execute is between 0 and the message gas.", "quantifier": "all codes, states and hosts, including hosts that report more gas left than they were given", "why_tests_cant": "Requires a per-instruction monotonicity argument over unbounded runs and adversarial hosts.", "anchors": ["cpp/vm/evmzero/interpreter.cc: internal::Run", "cpp/vm/evmzero/evmzero.cc: VM::Execute"]}
{"id": "C11", "title": "Failed executions consume all gas and return no output", "statement": "If the status of Execute or StepN is neither success, revert nor still-running then gas_left is 0 and the output is empty; output is non-empty only for RETURN and REVERT.", "quantifier": "all codes, messages, hosts", "why_tests_cant": "There are many failure sites in the instruction implementations; each must reach the common epilogue.", "anchors": ["cpp/vm/evmzero/interpreter.cc: internal::RunInterpreter (end:)", "cpp/vm/evmzero/interpreter.cc: IsSuccess"]}
{"id": "C12", "title": "Stack depth limits are enforced exactly", "statement": "An instruction fails with STACK_UNDERFLOW iff it needs more operands than are on the stack and with STACK_OVERFLOW iff the resulting depth would exceed 1024 (earlier revision and static checks taking precedence), and a running state never holds more than 1024 words.", "quantifier": "all instructions, stacks and runs", "why_tests_cant": "The check is specialised per instruction at compile time; the invariant is over unbounded runs.", "anchors": ["cpp/vm/evmzero/interpreter.cc: internal::Run", "cpp/vm/evmzero/stack.h: Stack"]}
{"id": "C13", "title": "Stale stack-buffer contents are unobservable", "statement": "The result of an execution does not depend on the contents of the recycled, uninitialised stack buffer it runs on.", "quantifier": "all executions, all pairs of initial buffer contents", "why_tests_cant": "A non-interference property over pairs of executions; garbage contents are arbitrary.", "anchors": ["cpp/vm/evmzero/stack.h: Stack::Data", "cpp/vm/evmzero/stack.cc: Data::Get/Release", "cpp/vm/evmzero/interpreter.cc"]}
{"id": "C14", "title": "Memory is a zero-initialised, word-granular, never-shrinking byte array", "statement": "Bytes read from memory by MLOAD, MCOPY, RETURN, LOG, SHA3, CALL* and CREATE* are the last bytes written to those offsets or zero; the memory size is always a multiple of 32, is the least one covering all touched non-empty ranges, and never shrinks; empty ranges do not grow memory.", "quantifier": "all sequences of memory operations, offsets and sizes", "why_tests_cant": "Unbounded histories of overlapping reads, writes and copies.", "anchors": ["cpp/vm/evmzero/memory.h: Memory", "cpp/vm/evmzero/interpreter.cc: MLOAD, MSTORE, MSTORE8, MCOPY, *COPY"]}
{"id": "C15", "title": "Memory expansion is charged exactly", "statement": "The gas charged for memory by an instruction is C(new)-C(old) with C(w)=3w+floor(w^2/512) over words, where new covers every non-empty range the instruction touches (for two ranges: the larger one); zero for empty ranges; the total over a run telescopes to C(final)-C(initial).", "quantifier": "all offsets and sizes up to 2^256-1, all memory sizes", "why_tests_cant": "64-bit overflow paths and 256-bit operands are boundary-heavy; the telescoping is over unbounded runs.", "anchors": ["cpp/vm/evmzero/interpreter.cc: Context::MemoryExpansionCost"]}
{"id": "C16", "title": "Static calls cannot modify state", "statement": "With the static flag set, an execution invokes no state-modifying host operation: no storage or transient-storage write, no log, no selfdestruct, no create, no value-bearing call; and all nested calls it issues carry the static flag.", "quantifier": "all codes, hosts and runs in static mode", "why_tests_cant": "Absence of an effect on all paths of all programs.", "anchors": ["cpp/vm/evmzero/interpreter.cc: internal::Run (disallowed_in_static_call)", "cpp/vm/evmzero/interpreter.cc: op::CallImpl"]}
{"id": "C17", "title": "Gas forwarded to nested calls", "statement": "A nested call or create receives at most gas minus floor(gas/64) of the caller's remaining gas (min with the requested amount for calls) plus a 2300 stipend iff the value is non-zero, and the caller is charged exactly the gas not returned.", "quantifier": "all requested gas values, caller gas amounts and host results within contract", "why_tests_cant": "Arithmetic over 256-bit requests and all gas values including clamping boundaries.", "anchors": ["cpp/vm/evmzero/interpreter.cc: op::CallImpl::Run, op::CreateImpl::Run"]}
{"id": "C18", "title": "Nested call messages carry the right parties, value, input and flags", "statement": "For CALL, CALLCODE, DELEGATECALL and STATICCALL the message handed to the host has the kind, recipient, sender, code address, value, depth+1, static flag and input bytes (the requested memory range, zero-extended) that the EVM defines; the returned data is written to the output range truncated to its size, the success flag is pushed, and the return buffer is replaced.", "quantifier": "all operands, memories, messages and host results", "why_tests_cant": "Ten independent message fields over arbitrary 256-bit operands and memory contents.", "anchors": ["cpp/vm/evmzero/interpreter.cc: op::CallImpl::Run"]}
{"id": "C19", "title": "Contract creation", "statement": "CREATE and CREATE2 hand the host the init code, endowment, salt, sender and depth+1 the EVM defines, enforce the 49152-byte init-code limit and word costs from Shanghai, push the created address on success and 0 otherwise, and keep return data only on revert.", "quantifier": "all operands, revisions, memories, balances and host results", "why_tests_cant": "Combination of limits, gas rules and arbitrary host answers.", "anchors": ["cpp/vm/evmzero/interpreter.cc: op::CreateImpl::Run"]}
{"id": "C20", "title": "SSTORE cost and refund follow EIP-2200/2929/3529", "statement": "With a host that reports storage status and warm/cold access truthfully, SSTORE charges the cost and adjusts the refund exactly as the EIP formulas in terms of original, current and new value, and fails when at most 2300 gas is left.", "quantifier": "all original/current/new values, warmth, revisions Istanbul..Cancun, gas values", "why_tests_cant": "Nine statuses times five revisions times value relations; the formula equivalence quantifies over all values.", "anchors": ["cpp/vm/evmzero/interpreter.cc: op::Impl<SSTORE>"]}
{"id": "C21", "title": "Return-data buffer and RETURNDATACOPY bounds", "statement": "RETURNDATACOPY fails with INVALID_MEMORY_ACCESS iff offset+size (computed without wrap-around) exceeds the return buffer and otherwise copies exactly the requested bytes; RETURNDATASIZE reports the size of the last call's output.", "quantifier": "all offsets and sizes up to 2^256-1, all buffers", "why_tests_cant": "Overflow of a 256-bit addition.", "anchors": ["cpp/vm/evmzero/interpreter.cc: op::Impl<RETURNDATACOPY>, op::Impl<RETURNDATASIZE>"]}
{"id": "C22", "title": "Copies from call data and code are zero-padded", "statement": "CALLDATALOAD, CALLDATACOPY, CODECOPY and EXTCODECOPY read the source at any 256-bit offset as if followed by infinitely many zero bytes; the internal code padding is never observable.", "quantifier": "all offsets and sizes up to 2^256-1, all sources", "why_tests_cant": "Offsets range over 2^256 values and interact with internal padding.", "anchors": ["cpp/vm/evmzero/interpreter.cc: op::Impl<CALLDATALOAD>, op::Impl<CALLDATACOPY>, op::Impl<CODECOPY>, op::Impl<EXTCODECOPY>"]}
{"id": "C23", "title": "BLOCKHASH and BLOBHASH windows", "statement": "BLOCKHASH returns the host's hash exactly for the most recent 256 complete blocks and 0 otherwise; BLOBHASH returns the i-th blob hash for i below the count and 0 otherwise; neither calls the host out of range.", "quantifier": "all 256-bit arguments, all block numbers and blob lists", "why_tests_cant": "Boundary arithmetic over 256-bit arguments truncated to int64.", "anchors": ["cpp/vm/evmzero/interpreter.cc: op::Impl<BLOCKHASH>, op::Impl<BLOBHASH>"]}
{"id": "C24", "title": "Stepping composes and agrees with Execute", "statement": "StepN(a+b) equals StepN(b) applied to the result of StepN(a), and stepping a program to completion in any chunking gives the same final status, gas, refund, output and host state as Execute.", "quantifier": "all codes, hosts, chunkings", "why_tests_cant": "Unbounded programs and chunk sequences; Execute inlines JUMPDEST after jumps while StepN does not.", "anchors": ["cpp/vm/evmzero/evmzero.cc: VM::StepN, VM::Execute", "cpp/vm/evmzero/interpreter.cc: internal::Run<_, Stepping>"]}
{"id": "C25", "title": "StepN is the identity on halted states and for non-positive step counts", "statement": "Given a halted status or steps <= 0, StepN returns the given status, stack, memory (padded with zeros to a word boundary), pc and refund without consulting the host; gas and return data are unchanged for running, returned and reverted states, a stopped state reports no return data, a failed state reports neither gas nor return data.", "quantifier": "all states and step counts", "why_tests_cant": "Quantifies over all states.", "anchors": ["cpp/vm/evmzero/evmzero.cc: VM::StepN", "cpp/vm/evmzero/interpreter.cc: DISPATCH"]}
{"id": "C26", "title": "Observers do not influence execution", "statement": "The result and host effects of Execute are the same whichever of no observer, logger or profiler is active.", "quantifier": "all executions and all observers", "why_tests_cant": "The observer path writes gas and stack pointer back into the context after each instruction.", "anchors": ["cpp/vm/evmzero/interpreter.cc: RUN_OPCODE (Observer::uses_context)", "cpp/vm/evmzero/observer.h"]}
{"id": "C27", "title": "Logger trace is faithful", "statement": "With logging enabled the log lists, in order, each dispatched instruction with the gas and top of stack before it (JUMPDESTs entered by a taken jump are skipped).", "quantifier": "all executions", "why_tests_cant": "Unbounded traces.", "anchors": ["cpp/vm/evmzero/logger.h: Logger", "cpp/vm/evmzero/interpreter.cc: RUN_OPCODE"]}
{"id": "C28", "title": "The LRU cache is a map with least-recently-used eviction", "statement": "Any sequence of Get, InsertOrAssign, GetOrInsert and Clear on the cache behaves as the abstract LRU map: Get returns the last value stored for the key unless evicted, the size never exceeds the capacity, and the evicted entry is the one least recently inserted or hit by Get; no null or dangling list pointer is dereferenced.", "quantifier": "all operation sequences, all capacities >= 2", "why_tests_cant": "Unbounded histories over an intrusive doubly-linked list with raw pointers.", "anchors": ["cpp/common/lru_cache.h: LruCache"]}
{"id": "C29", "title": "Concurrent GetOrInsert returns the computed value", "statement": "If every thread inserts only f(key) for key, then under every interleaving of the atomic cache operations every GetOrInsert(key, f) and every hit returns f(key).", "quantifier": "all thread counts, programs and schedules, including evictions", "why_tests_cant": "Schedules cannot be enumerated by tests; GetOrInsert is not atomic.", "anchors": ["cpp/common/lru_cache.h: GetOrInsert"]}
{"id": "C30", "title": "Keccak caching is transparent", "statement": "SHA3 pushes keccak256 of the memory range whatever the cache contents produced by earlier executions, with the cache on or off.", "quantifier": "all inputs of all lengths, all cache histories", "why_tests_cant": "Cache histories are unbounded; wrong sharing between key sizes would need specific histories.", "anchors": ["cpp/vm/evmzero/sha3_cache.h: Sha3Cache::Hash", "cpp/vm/evmzero/interpreter.cc: op::Impl<SHA3>"]}
{"id": "C31", "title": "Code-analysis caching is transparent", "statement": "If equal code hashes imply equal codes among the executed messages, Execute and StepN behave as if the analysis were recomputed every time, for any cache history; the zero hash and absent hash are never cached.", "quantifier": "all histories of executions on one VM", "why_tests_cant": "Histories are unbounded and include evictions.", "anchors": ["cpp/vm/evmzero/evmzero.cc: VM::Execute, VM::StepN, ComputeContractInfo"]}
{"id": "C32", "title": "Option handling", "statement": "SetOption changes exactly the named flag for value true/false, reports INVALID_VALUE for other values of known names and INVALID_NAME for unknown names, without any other effect.", "quantifier": "all name and value strings, all option states", "why_tests_cant": "All strings.", "anchors": ["cpp/vm/evmzero/evmzero.cc: VM::SetOption"]}
{"id": "C33", "title": "Status code mapping", "statement": "Execute reports success iff the program stopped or returned, REVERT iff it reverted, and a non-success code for every failure; different failures have different codes except that exceeding the create depth and the init-code limit are both reported as FAILURE; step status codes survive a round trip.", "quantifier": "all run states", "why_tests_cant": "Stated for the composition with unbounded runs.", "anchors": ["cpp/vm/evmzero/evmzero.cc: ToEvmcStatusCode, ToRunStateCode, ToEvmcStepStatusCode"]}
{"id": "C34", "title": "Stack buffers are never shared", "statement": "At any time, under any interleaving of stack construction, copy, assignment and destruction from any threads, no storage buffer belongs to two live stacks or to a live stack and the free list, and the free list is acyclic.", "quantifier": "all histories and interleavings", "why_tests_cant": "Unbounded histories of a lock-protected intrusive list whose link field is also overwritten by copies.", "anchors": ["cpp/vm/evmzero/stack.cc: Data::Get, Data::Release, Stack copy and assignment"]}
{"id": "C35", "title": "Stack class operations and copies", "statement": "Push, Pop and indexing behave as a LIFO list; a copied or assigned stack equals its source and is independent of it afterwards.", "quantifier": "all operation sequences", "why_tests_cant": "Unbounded histories.", "anchors": ["cpp/vm/evmzero/stack.h", "cpp/vm/evmzero/stack.cc"]}
{"id": "C36", "title": "StepN state marshalling is lossless", "statement": "The stack and memory given to StepN are the ones the interpreter starts from and the ones returned are the ones it ended with, in the documented order; a result fed back as input continues unchanged.", "quantifier": "all stacks, memories and return data", "why_tests_cant": "All sizes and contents.", "anchors": ["cpp/vm/evmzero/evmzero.cc: VM::StepN"]}
{"id": "C37", "title": "Refund counter is bounded by consumed gas", "statement": "At any time the absolute refund accumulated is at most 199 times the gas consumed (given hosts respecting the same bound), so the counter cannot overflow for gas up to 2^54.", "quantifier": "all runs", "why_tests_cant": "Unbounded runs.", "anchors": ["cpp/vm/evmzero/interpreter.cc: op::Impl<SSTORE>, op::Impl<SELFDESTRUCT>, op::CallImpl, op::CreateImpl"]}
{"id": "C38", "title": "Memory size is bounded by gas", "statement": "At any point of an execution the memory size in words w satisfies 3w+floor(w^2/512) <= gas consumed so far.", "quantifier": "all runs", "why_tests_cant": "Unbounded runs; needed to bound host memory consumption.", "anchors": ["cpp/vm/evmzero/interpreter.cc: Context::MemoryExpansionCost"]}
{"id": "C39", "title": "Call depth limit", "statement": "Call and create instructions at depth above 1024 fail without invoking the host, and messages passed to the host have depth exactly one more than the current one, hence at most 1025.", "quantifier": "all runs and depths", "why_tests_cant": "Absence of host calls on all paths.", "anchors": ["cpp/vm/evmzero/interpreter.cc: op::CallImpl::Run, op::CreateImpl::Run"]}
{"id": "C40", "title": "Revision gating", "statement": "BASEFEE before London, PUSH0 before Shanghai, and BLOBHASH, BLOBBASEFEE, MCOPY, TLOAD, TSTORE before Cancun fail with UNDEFINED_INSTRUCTION and no host interaction; unassigned opcodes always fail with INVALID_INSTRUCTION.", "quantifier": "all revisions and states", "why_tests_cant": "Combination over all states.", "anchors": ["cpp/vm/evmzero/interpreter.cc: internal::Run (introduced_in)", "cpp/vm/evmzero/opcodes.inc"]}
{"id": "C41", "title": "Profiler counters", "statement": "After a run the profiler's per-opcode call counters grow by exactly the number of dispatched instructions of each opcode in scope (all for full mode, call and external ones for external mode); Merge adds and Reset clears counters.", "quantifier": "all runs, all profiles", "why_tests_cant": "Unbounded traces.", "anchors": ["cpp/vm/evmzero/profiler.h: Profiler, Profile"]}
{"id": "C42", "title": "Pre-execution failures have no host effects", "statement": "An instruction rejected for revision, static mode, stack depth or static gas changes neither host state nor memory.", "quantifier": "all instructions and states", "why_tests_cant": "Absence of effects over all states and hosts.", "anchors": ["cpp/vm/evmzero/interpreter.cc: internal::Run"]}
{"id": "C43", "title": "A frame only touches the outside world in its own name", "statement": "For every host (even one that breaks the EVMC contract), code, message and revision, every host call made during Execute or StepN stays within the frame's authority: storage and transient storage are read and written, logs emitted and self-destruction requested only for the message recipient; nested messages carry the recipient as sender (DELEGATECALL: the original sender and value), run at the recipient's account for CALLCODE and DELEGATECALL, are one level deeper and are never less static than the frame; access-list queries happen only from Berlin on; only hashes of the last 256 blocks are requested.", "quantifier": "all codes, messages, revisions, hosts, VM states, step limits, observers", "why_tests_cant": "The set of host calls a program can provoke is unbounded; a test sees only the calls of its own programs, while isolation must hold for every adversarial contract and host.", "anchors": ["cpp/vm/evmzero/interpreter.cc: SLOAD, SSTORE, TLOAD, TSTORE, LOG, SELFDESTRUCT, CallImpl, CreateImpl, BLOCKHASH"]}
{"id": "C44", "title": "Stack and environment instructions", "statement": "ADDRESS, ORIGIN, CALLER, CALLVALUE, CALLDATASIZE, CODESIZE, GASPRICE, RETURNDATASIZE, COINBASE, TIMESTAMP, NUMBER, PREVRANDAO, GASLIMIT, CHAINID, BASEFEE, BLOBBASEFEE, PC, MSIZE, GAS and PUSH0 push exactly the value the message, the transaction context or the frame defines; POP drops the top word, DUPn pushes a copy of the n-th word, SWAPn exchanges the top with the (n+1)-th word; JUMPDEST does nothing and STOP halts; each charges its fixed gas and changes nothing else.", "quantifier": "all messages, transaction contexts, codes, stacks, memories and gas amounts; all n", "why_tests_cant": "Values are up to 256 bits wide and come from arbitrary messages and hosts; tests use a few literals and would not notice truncation or a swapped field for other values.", "anchors": ["cpp/vm/evmzero/interpreter.cc: address, origin, caller, callvalue, calldatasize, codesize, gasprice, returndatasize, coinbase, timestamp, blocknumber, prevrandao, gaslimit, chainid, basefee, blobbasefee, pc, msize, gas, pop, dup, swap, jumpdest, stop"]}
{"id": "C45", "title": "Account and storage reads with warm/cold pricing", "statement": "BALANCE, EXTCODESIZE, EXTCODEHASH, SLOAD, SELFBALANCE and TLOAD push what the host reports for the address (truncated to 20 bytes) or key; from Berlin on the account or slot is accessed exactly once and costs 2600/2100 if cold and 100 if warm, before Berlin the fixed pre-Berlin price; with too little gas they fail with OUT_OF_GAS and the value is not delivered.", "quantifier": "all revisions, hosts, addresses, keys, stacks and gas amounts", "why_tests_cant": "The price depends on the history of accesses kept by an arbitrary host and on the revision; all combinations with all gas amounts around the thresholds cannot be enumerated.", "anchors": ["cpp/vm/evmzero/interpreter.cc: balance, extcodesize, extcodehash, sload, selfbalance, tload, address_access_cost"]}
{"id": "C46", "title": "LOG, TSTORE and SELFDESTRUCT effects", "statement": "LOGn emits exactly one log for the message recipient with the requested memory range as data and the n topics in operand order, for 375*(n+1)+8*size gas plus memory growth; TSTORE sets exactly the given transient slot of the recipient; SELFDESTRUCT requests exactly one self-destruction of the recipient in favour of the operand address, charges 5000 plus the cold-access and new-account surcharges of the revision, credits the 24000 refund only before London and only if the host reports a first destruction, and halts.", "quantifier": "all operands, revisions, hosts, balances and gas amounts", "why_tests_cant": "Effects depend on arbitrary host answers (existence, balance, warmth) and on unbounded data sizes; unit tests with mocks fix a handful of them.", "anchors": ["cpp/vm/evmzero/interpreter.cc: log, tstore, selfdestruct"]}
{"id": "C47", "title": "Nested executions: the closed call tree", "statement": "When the host answers nested calls by running evmzero again (on the same VM, with whatever its caches and recycled stack buffers hold by then), Execute on the outermost message ends without undefined behaviour and returns the status, gas, refund, output and state that the EVM semantics assigns to the whole call tree; the nesting is bounded by the call depth limit.", "quantifier": "all codes, messages, states, call trees of any shape, host behaviours between the runs, cache contents and stack buffer contents", "why_tests_cant": "Re-entrancy is mutual recursion between interpreter and host up to depth 1024 with arbitrary programs at every level; tests use mock hosts that do not re-enter.", "anchors": ["cpp/vm/evmzero/evmzero.cc: VM::Execute", "cpp/vm/evmzero/interpreter.cc: call_impl, create_impl (host->call)"]}
{"id": "C48", "title": "A static call is static through the whole call tree", "statement": "In an execution with the static flag nothing in the whole tree of nested calls modifies the state: every property of the state that reading (and entering and leaving a static callee) preserves holds afterwards.", "quantifier": "all codes at every level, all call trees, all preserved properties of the state", "why_tests_cant": "The flag must be passed on by every call instruction at every level of every tree.", "anchors": ["cpp/vm/evmzero/interpreter.cc: call_impl, create_impl, sstore, log, selfdestruct, tstore", "cpp/vm/evmzero/evmzero.cc: VM::Execute"]}
{"id": "C49", "title": "Concurrent Execute calls on one VM do not influence each other", "statement": "When any number of threads call Execute on one VM at the same time (options unchanged meanwhile), every call returns the status code, gas, refund, output and host effects it would have if it were the only call ever made on a VM; no interleaving introduces undefined behaviour; no thread is blocked or starved by the others; and the shared caches stay usable.", "quantifier": "every number of threads, every sequence of calls per thread (later calls may depend on earlier results), every schedule of the critical sections of the analysis cache, the SHA3 cache (including other threads acting between the lookup and the insertion of GetOrInsert, also inside one SHA3 instruction) and the stack free list, every VM state with a history, every host, code, message and revision", "why_tests_cant": "races are schedule dependent; tests exercise a few schedules and cannot show that no other interleaving changes a result", "anchors": ["cpp/vm/evmzero/evmzero.cc: VM::Execute", "cpp/common/lru_cache.h: Get, InsertOrAssign, GetOrInsert", "cpp/vm/evmzero/sha3_cache.h: Sha3Cache::Hash", "cpp/vm/evmzero/stack.cc: Data::Get, Data::Release", "cpp/vm/evmzero/interpreter.cc: RunInterpreter, Impl<SHA3>"]}
{"id": "C50", "title": "Code analyses live exactly as long as they are used", "statement": "Whatever calls are made of a VM and however they overlap, the code analysis a running execution uses stays alive and is the analysis of the code of that execution, even when other executions evict or overwrite its cache entry in the meantime. An analysis is deleted exactly when no cache entry and no execution in progress refers to it (no use after free, no double release, no leak), and destroying the VM when nothing is running deletes all of them.", "quantifier": "all cache capacities of at least two, all sequences of starting, inserting and returning calls of any codes (with or without code hash) in any interleaving", "why_tests_cant": "the lifetime of an analysis depends on the order of evictions by other, possibly concurrent or nested calls; a test only exercises a few orders and a dangling read usually goes unnoticed", "anchors": ["cpp/vm/evmzero/evmzero.cc:Execute", "cpp/vm/evmzero/evmzero.cc:StepN", "cpp/vm/evmzero/evmzero.cc:ComputeContractInfo", "cpp/common/lru_cache.h:InsertOrAssign"]}
{"id": "C51", "title": "Running a contract through the Go interface is the specified EVM", "statement": "Run of the Go evmzero interpreter returns for every call; result (success, output, gas left, gas refund) and the effects on the client are those of the EVM specification executed on the client's interface, whatever the client's context answers. It returns an error only for unknown revisions, frames deeper than 1024 levels or a CREATE with too long init code; every other failure of the contract is an unsuccessful result without error. Gas left is within the gas given.", "quantifier": "all parameters (code, input, gas, revision, static flag, kind), all world states, all behaviours of the client's Call, every state of the VM's caches and stack buffers", "why_tests_cant": "the bridge translates between two interfaces in both directions; a mistake in one of the translations shows only for particular combinations of call kind, status, flags and values", "anchors": ["go/interpreter/evmzero/evmzero.go: Run", "go/interpreter/evmc/evmc_interpreter.go: Run, hostContext", "go/tosca/interpreter.go: Parameters, Result, RunContext"]}
{"id": "C52", "title": "Whole-stack conformance", "statement": "Calls and transactions processed by the floria processor on the evmzero interpreter have the results and effects they have on the specified interpreter, through all levels of nested calls; processing always ends; gas returned by any call is between zero and the gas it was given; errors are returned only for unknown revisions or for init code that is too long in the outermost frame.", "quantifier": "all transactions, blocks, world states, contracts at every level, depths and cache states", "why_tests_cant": "interpreter and processor call each other recursively; tests fix one of both with mocks", "anchors": ["go/processor/floria/processor.go: Run", "go/processor/floria/run_context.go: Call", "go/interpreter/evmzero/evmzero.go"]}
{"id": "C53", "title": "Value arithmetic", "statement": "Add, Sub and Scale of Values are addition, subtraction and multiplication modulo 2^256, Cmp is numeric comparison, NewValue places up to four 64-bit digits most significant first and panics for more.", "quantifier": "all pairs of 256-bit values, all 64-bit factors, all argument lists", "why_tests_cant": "2^512 pairs; carries between limbs", "anchors": ["go/tosca/types.go: Add, Sub, Cmp, Scale, NewValue"]}
{"id": "C54", "title": "Textual form of byte types", "statement": "The text written for an address, key, word, value or hash is read back as the same bytes, distinct bytes have distinct texts, and reading succeeds exactly for 0x followed by two hexadecimal digits (either case) per byte.", "quantifier": "all byte strings and all texts", "why_tests_cant": "infinitely many texts, most of which must be rejected", "anchors": ["go/tosca/types.go: bytesToText, textToBytes, MarshalText, UnmarshalText"]}
{"id": "C55", "title": "Storage status and its refunds", "statement": "GetStorageStatus gives the EVMC status for every original, current and new value; for every sequence of writes to a slot the refunds add up to a number that is not negative. SizeInWords rounds up for every size without overflow.", "quantifier": "all triples of values, all finite sequences of writes (cold or warm), all revisions, all 64-bit sizes", "why_tests_cant": "the sum of refunds is a property of histories of writes, not of one write", "anchors": ["go/tosca/interpreter.go: GetStorageStatus, SizeInWords", "cpp/vm/evmzero/interpreter.cc: SSTORE"]}
{"id": "C56", "title": "Intrinsic gas", "statement": "The gas charged before a transaction runs is 21000 (53000 for creations) plus 4 per zero and 16 per other byte of input plus 2400 per account and 1900 per key of the access list.", "quantifier": "all transactions with sizes that fit the machine", "why_tests_cant": "all inputs and access lists", "anchors": ["go/processor/floria/processor.go: setupGasBilling"]}
{"id": "C57", "title": "What a transaction is billed", "statement": "A transaction that is not admitted (nonce, sender without code, funds) has an empty receipt and no effect; an admitted one pays the price of its gas limit, makes exactly one call with the limit minus the intrinsic gas if it can, in a state prepared as listed by its access list; its receipt reports the outcome of that call, and it is billed for the gas limit minus nine tenths of the gas left (all for internal transactions) minus the refund capped at a fifth (half before London) of the gas used, if successful; the rest is credited. The gas used is never negative, never more than the limit for unsuccessful transactions, and at least four fifths of the intrinsic gas for successful ones. (It may exceed the limit for successful transactions: refunds of reverted calls are kept, so the refund may be negative.)", "quantifier": "all transactions, blocks, world states and contracts; both interpreters of the model, evmzero and lfvm (from Shanghai on, gas up to 2^40)", "why_tests_cant": "billing depends on the outcome of arbitrary contract code", "anchors": ["go/processor/floria/processor.go: Run, buyGas, calculateGasLeft, refundGas, setUpAccessList"]}
{"id": "C58", "title": "Transactions count exactly once", "statement": "The nonce of the sender of an admitted transaction that makes its call is incremented by exactly one, whatever code is run and whether or not it succeeds (a creation at an address that is taken does not count); other transactions leave it unchanged; nonces of other accounts that have no code and a nonce are not affected by a transaction.", "quantifier": "all transactions, world states and call trees of contracts (by anyone but the driver); both interpreters of the model, evmzero and lfvm (from Shanghai on, gas up to 2^40)", "why_tests_cant": "contracts run in between may create contracts, destroy themselves and revert at every level", "anchors": ["go/processor/floria/processor.go: Run, nonceCheck", "go/processor/floria/run_context.go: Call"]}
{"id": "C59", "title": "Transactions do not create money", "statement": "Calls that do not involve the driver conserve the sum of all balances at every depth, if self-destruction does. A transaction decreases the sum of all balances by exactly the price of the gas it is billed for (at least that if self-destruction burns money), as long as the bill is at most the gas limit; when the bill exceeds the limit (see C57) money is created.", "quantifier": "all transactions, world states, call trees; both interpreters of the model, evmzero and lfvm (from Shanghai on, gas up to 2^40)", "why_tests_cant": "conservation is a property of all paths through transfers, failures, refunds and rollbacks", "anchors": ["go/processor/floria/processor.go: buyGas, refundGas", "go/processor/floria/run_context.go: transferValue, Call"]}
{"id": "C60", "title": "Failed calls have no effect", "statement": "A call that does not succeed (revert, failure or error at any level below it) leaves the world state exactly as it was; a failed creation leaves it as it was except for the nonces of the creator and the new account. (Exceptions, proved: a creation whose init code succeeds but returns code that cannot be stored keeps the effects of the init code and the transfer; failing precompiled contracts keep the transfer.)", "quantifier": "all world states, call kinds, depths, parameters and interpreters", "why_tests_cant": "the effects to undo are produced by arbitrary code at arbitrary nesting", "anchors": ["go/processor/floria/run_context.go: Call"]}
{"id": "C61", "title": "Static calls do not modify the state", "statement": "A static call, and every call without value in a static context, changes nothing but the record of accessed accounts and slots, at any nesting depth and whatever contracts are called.", "quantifier": "all contracts, world states, depths and observations of the world state that ignore the access record; both interpreters of the model, evmzero and lfvm (from Shanghai on, gas up to 2^40)", "why_tests_cant": "static mode must be propagated and enforced through every kind of nested call", "anchors": ["go/processor/floria/run_context.go: Call", "go/interpreter/evmc/evmc_interpreter.go: Call", "cpp/vm/evmzero/interpreter.cc"]}
{"id": "C62", "title": "Payments", "statement": "A call of an account without code moves exactly its value from sender to recipient and returns all gas, if the sender has the funds and the recipient's balance does not overflow; otherwise it fails without effect.", "quantifier": "all world states, values, addresses (also sender = recipient) and gas; both interpreters of the model, evmzero and lfvm (from Shanghai on, gas up to 2^40)", "why_tests_cant": "overflow and aliasing corner cases over 256-bit balances", "anchors": ["go/processor/floria/run_context.go: Call, transferValue, canTransferValue"]}
{"id": "C63", "title": "The state contract", "statement": "Calls of the state contract by the driver select one of five methods; with the right number of arguments, enough gas and permitted arguments the method has exactly its documented effect and price, otherwise nothing changes and all gas is consumed. Calls by anyone else and unknown methods have no effect but the transfer of their value.", "quantifier": "all inputs, senders, call kinds, depths, world states and gas", "why_tests_cant": "inputs are arbitrary byte strings; prices depend on the length of stored code", "anchors": ["go/processor/floria/state_contract.go: handleStateContract and methods"]}
{"id": "C64", "title": "Precompiled contracts", "statement": "A call to the address of a precompiled contract runs it once after the transfer: its price is subtracted from the gas and its answer is the result; if the gas does not suffice all of it is consumed; the state is not changed otherwise. (Finding, proved: prices of 2^63 and more wrap to negative numbers, such calls are free and gain gas.)", "quantifier": "all precompiled contracts, inputs, gas, call kinds and depths", "why_tests_cant": "prices are functions of arbitrary inputs", "anchors": ["go/processor/floria/precompiled.go: handlePrecompiledContract"]}
{"id": "C65", "title": "Long-form EVM: runs conform", "statement": "Run of the long-form EVM interpreter (lfvm, without super-instructions) gives, for every contract code, input, world state and behaviour of the nested Call, the result (success, output, gas left, refund, error) that the EVM rules prescribe, and leaves the client's state as prescribed unless the run fails (a failed run's effects are undone by the client).", "quantifier": "all codes up to 64 KiB, inputs, gas up to 2^40, revisions, world states, call functions", "why_tests_cant": "executions are unbounded sequences of instructions over arbitrary states; the code runs in a converted format", "anchors": ["go/interpreter/lfvm/interpreter.go: run, steps, step", "go/interpreter/lfvm/instructions.go", "go/interpreter/lfvm/gas.go", "go/interpreter/lfvm/lfvm.go: Run"]}
{"id": "C66", "title": "Long-form EVM: every run ends", "statement": "Run never panics (no stack, code or memory access out of range), ends within 2*gas+2 loop iterations, and its result respects the gas given: gas left within [0, gas], refund bounded by the gas spent, nothing refunded by failed or reverted runs.", "quantifier": "all codes, inputs, states and gas as in C65", "why_tests_cant": "absence of panics and termination for all programs", "anchors": ["go/interpreter/lfvm/interpreter.go: steps", "go/interpreter/lfvm/stack.go", "go/interpreter/lfvm/memory.go"]}
{"id": "C67", "title": "Long-form EVM: the converter keeps the code", "statement": "Converting code succeeds; the converted code has the same instructions in the same order with the same push data, PC offsets and jump targets (JUMPDEST exactly at the valid jump targets).", "quantifier": "all codes up to 64 KiB", "why_tests_cant": "positions shift by arbitrary amounts of push data", "anchors": ["go/interpreter/lfvm/converter.go: convert, convertWithObserver, appendInstructions", "go/interpreter/lfvm/instruction.go", "go/interpreter/lfvm/converter.go: codeBuilder"]}
{"id": "C68", "title": "Long-form EVM: independence of shared data", "statement": "The outcome of a run depends neither on what earlier runs left in the pooled stack nor on whether the conversion cache had an entry for the code.", "quantifier": "all codes, states and contents of stack and cache", "why_tests_cant": "pool and cache contents are left by arbitrary earlier runs", "anchors": ["go/interpreter/lfvm/stack.go: NewStack, ReturnStack", "go/interpreter/lfvm/converter.go: Converter.Convert"]}
{"id": "C69", "title": "Floria on the long-form EVM", "statement": "Calls and transactions processed by floria on the long-form EVM give the same results, receipts and state changes as on the reference interpreter, through all levels of nested calls.", "quantifier": "all world states, transactions up to 2^40 gas, nesting depths, from Shanghai on, codes up to 64 KiB", "why_tests_cant": "call trees of unbounded size over arbitrary contracts", "anchors": ["go/processor/floria/processor.go: Run", "go/processor/floria/run_context.go: Call", "go/interpreter/lfvm/lfvm.go: Run"]}
{"id": "C70", "title": "Long-form EVM: the SHA3 hash cache", "statement": "The cache of SHA3 hashes answers every sequence of requests with the hash of each key and never panics; it holds what an LRU map of its capacity would hold. Threads sharing it get the right hashes under every schedule in which no thread, between its locked section and its read of the entry, is overtaken by as many operations as the cache has entries (without this condition they need not: a wrong hash is possible).", "quantifier": "all capacities, request histories, numbers of threads and schedules", "why_tests_cant": "the list surgery must be right after every history; interleavings are unbounded", "anchors": ["go/interpreter/lfvm/hash_cache.go: newHashCache, getHash, sha3HashCache.hash"]}
{"id": "C71", "title": "Long-form EVM: the code cache", "statement": "Converting through the cache, whatever was converted before, gives the code a fresh conversion gives, provided equal code hashes mean equal codes; the cache holds only conversions of the codes with the hashes they are stored under, and never more than its capacity.", "quantifier": "all histories of conversion requests with and without hashes, all capacities", "why_tests_cant": "contents depend on arbitrary earlier runs", "anchors": ["go/interpreter/lfvm/converter.go: NewConverter, Convert"]}
{"id": "C72", "title": "Long-form EVM: Keccak-256", "statement": "The hash function used for SHA3 (C code) and its variant for 32 bytes compute Keccak-256 as specified by the Keccak team, for messages of every length.", "quantifier": "all messages of all lengths", "why_tests_cant": "test vectors sample a space of unbounded size; padding and block boundaries vary with the length", "anchors": ["go/interpreter/lfvm/keccak.h: keccakf1600_implementation, keccak, keccak_32", "go/interpreter/lfvm/keccak.go: Keccak256, Keccak256For32byte"]}
{"id": "C73", "title": "Long-form EVM with super-instructions", "statement": "The configuration that fuses frequent instruction sequences into super-instructions gives, for every code, the results and effects of the reference interpreter (hence of the configuration without them), unless a SWAP2 SWAP1 POP JUMP sequence jumps to a target of 2^31 or more: such targets are cut to a signed 32-bit number, so that the run may go on where it should fail, or panic. Code without this sequence of bytes is never affected.", "quantifier": "all codes of at most 64 KiB, inputs, states, clients, histories of the interpreter and all revisions", "why_tests_cant": "20 fused sequences can start at any offset and interact with jumps, push data, gas and stack limits at every boundary", "anchors": ["go/interpreter/lfvm/super_instructions.go", "go/interpreter/lfvm/converter.go: convert, appendInstructions", "go/interpreter/lfvm/lfvm.go: lfvm-si"]}
{"id": "C74", "title": "Long-form EVM: stepping for the conformance tests", "statement": "StepN(1) of the long-form EVM takes a test state over exactly one step of the reference interpreter, whatever the state, and can be repeated any number of times; StepN(n) executes at most n and at least n/2 instructions (jumps inserted by the converter count). The program counter, stack, memory, gas, refund, return data and status of the resulting state are those of the reference. Ended states and states of unknown revisions are not changed. The translation of program counters between EVM and converted code exists for all code up to 48 KiB and is the identity there and back on instructions.", "quantifier": "all codes of at most 48 KiB, states (program counter at an instruction or the end), numbers of steps, cache contents and supported revisions", "why_tests_cant": "program counters are translated through a map built from any code; a wrong entry is only noticed by tests that stop exactly there", "anchors": ["go/interpreter/lfvm/ct.go: StepN, getPcMap, genPcMap, convertLfvmStatusToCtStatus, convertCtStackToLfvmStack, convertLfvmMemoryToCtMemory", "go/interpreter/lfvm/converter.go: convertWithObserver", "go/ct/evm.go: StepN"]}
{"id": "C75", "title": "Conformance specification: rules are right and consistent", "statement": "Every rule of the conformance specification that applies to a running test state has an effect that does not panic and leads to the state one step of the reference EVM leads to, as far as the comparison of test states looks; rules that apply to the same state never contradict each other. Some rule applies to every such state, except for a short list of gaps, and to those none applies. The long-form EVM, started from the state through the test adapter and stepped once, ends in a state that the tests do not tell apart from the result of any rule that applies, whatever its caches hold and whatever the call journal answers. Looking rules up by opcode returns exactly the rules that apply, for every state.", "quantifier": "all test states in the range of the EVM (codes up to 48 KiB, stacks, memories, gas up to 2^40, storages, accounts, journals), all supported revisions, all rules of the specification", "why_tests_cant": "the rules are what the tests compare with; nothing tests the tests, and the generator samples a few states per rule", "anchors": ["go/ct/spc/specification.go: getAllRules, rulesFor, all effects", "go/ct/spc/specification_map.go: GetRulesFor, ruleToOpString", "go/ct/rlz/conditions.go, expressions.go: Check, Eval", "go/ct/st: State, Stack, Memory, Code, Storage, Accounts, CallJournal", "go/ct/utils/adapter.go: ToVmParameters, ctRunContext"]}
{"id": "C76", "title": "evmzero passes the conformance tests", "statement": "Stepped once through its test adapters, evmzero does not crash and returns the state one step of the reference EVM leads to; it passes every conformance test it has room for: whatever rule of the specification applies, the state returned is one the tests do not tell apart from the result of the rule, whatever the VM has cached and whatever the call journal answers. evmzero and the long-form EVM agree after one step, exactly unless the instruction restores the original value of a changed slot that is cold. States that are not running and unknown revisions are handed back unchanged.", "quantifier": "all test states in the range of the EVM (see C75) whose refund counter cannot overflow and whose program counter is not more than 32 bytes behind the code; all rules, all supported revisions, all contents of the caches", "why_tests_cant": "the tests sample a few states per rule; stack, memory and status conversions and the agreement of two interpreters have to hold for all of them", "anchors": ["go/interpreter/evmzero/ct.go: StepN", "go/interpreter/evmc/evmc_steppable_interpreter.go: StepN, convert*", "go/interpreter/evmc/evmc_interpreter.go: hostContext", "cpp/vm/evmzero/evmzero.cc: StepN", "go/ct/spc/specification.go"]}
{"id": "C77", "title": "The constraint solvers of the test generators are sound and complete", "statement": "A solver that has been given any sequence of bounds, equalities and excluded ranges contains exactly the values that meet all of them, says it is satisfiable exactly if there is one, and compares equal to another solver exactly if the same values meet the constraints. Generate reports that the constraints are unsatisfiable exactly if no value meets them; otherwise the value returned meets all constraints whatever the random numbers are, every such value can be returned, and the internal error is never reported. For signed types narrower than 64 bits Generate can leave the range.", "quantifier": "all sequences of constraints in any order, all integer types of Go (Generate: unsigned and 64-bit types), all bounds including the ends of the type, all random numbers", "why_tests_cant": "the tests use a few intervals and a few hundred draws; wrap-around at the ends of the type and the full 64-bit domain need an argument over all values", "anchors": ["go/ct/gen/range_solver.go: RangeSolver", "go/ct/gen/interval_solver.go: IntervalSolver, Exclude, AddLowerBoundary, AddUpperBoundary, AddEqualityConstraint, Generate, Equals"]}
{"id": "C78", "title": "Interpreters behind the go-ethereum adapters see the client's state and answer as without them", "statement": "An interpreter run by the opera processor reaches the client's transaction context through two adapters (run context to geth StateDB, StateDB to transaction context). With a client that keeps the rules of the Tosca interface every query has the same answer, and every operation the same status and effect, as on the client itself; so whole runs of evmzero and the long-form EVM give the same result and the same state. The one exception is SELFDESTRUCT before Cancun, where the beneficiary is credited before the client transfers the balance, so that it gets the balance twice. Read-only mode, gas, output, success and refunds of nested calls arrive unchanged, with the flag lost exactly for code addresses that look like precompiled contracts (which includes others up to 0xff09).", "quantifier": "all client states and all clients that keep the interface rules, all codes, parameters and nested calls, all gas amounts below 2^63, all addresses", "why_tests_cant": "the tests mock single methods on both sides; that all of them compose to the identity, and that whole runs cannot tell the difference, is a statement over all states, programs and gas amounts", "anchors": ["go/geth_adapter/adapter.go: runContextAdapter, gethInterpreterAdapter.Run, encodeReadOnlyInGas, decodeReadOnlyFromGas, gethToVMErrors, undoRefundShift", "go/interpreter/geth/geth.go: stateDbAdapter", "go/processor/opera/processor.go: Run"]}
{"id": "C79", "title": "Transactions on the opera processor: charges, receipts, state contract, and agreement with floria", "statement": "A transaction is rejected, with no change of the state, exactly for a wrong nonce, a sender with code or too little money for its gas; one with less gas than its intrinsic gas loses all of it; every other one runs with the rest of its gas, and is billed by the gas left, a tenth of which is lost, and the refund, capped by a fifth of the gas used (a half before London). The gas used is between 0 and the limit, and at least four fifths (half) of the intrinsic gas if the transaction succeeds. Where the outermost call has the same outcome, floria and opera give the same receipt and leave the same state, up to the rules in which they differ (maximal nonces, long init code, absent access lists). Methods of the state contract have exactly their documented price and effect, the same as under floria where both permit them, and other calls of it have none.", "quantifier": "all transactions with gas limits up to 2^54 and inputs and access lists below the stated sizes, all states and clients, all behaviours of geth's EVM that return no more gas than they got, all inputs and gas amounts of the state contract", "why_tests_cant": "the package of the opera processor has no test file; agreement of two processors on receipts and states is a statement about all transactions and states", "anchors": ["go/processor/opera/processor.go: Run, preCheck, buyGas, refundGas, IntrinsicGas, preCompiledStateContract.Run", "go/processor/floria/processor.go: Run", "go/processor/floria/state_contract.go: handleStateContract", "go/interpreter/geth/geth.go: PrepareAccessList"]}
{"id": "C80", "title": "Test generators of the conformance tests: what they generate satisfies what was asked for", "statement": "The generators of code, stack, storage, transient storage and the self-destruct flag either report that no state satisfies the constraints or return a part of a state that satisfies every one of them: operations stand at the positions asked for and are instructions, not data; variables asked to be positions of instructions (data) are; values stand on the stack at their places and its size solves the size constraints; each slot of the storage has the status asked for with respect to the new value asked for, and is warm or cold as asked for, provided that no other constraint is for the same slot; transient storage is zero or non-zero as asked. Variables bound before keep their values (except those constrained to be a code or data position). The stack generator and that for self-destruction report a conflict exactly if there is one.", "quantifier": "all constraints, all assignments of variables, all sources of random numbers", "why_tests_cant": "the generators are tested with a few constraints each and a few seeds; that everything generated satisfies everything asked for must hold for every combination of constraints and all random choices", "anchors": ["go/ct/gen/code.go: CodeGenerator", "go/ct/gen/stack.go: StackGenerator", "go/ct/gen/storage.go: StorageGenerator", "go/ct/gen/transient_storage.go: TransientStorageGenerator", "go/ct/gen/selfdestructed.go: SelfDestructedGenerator"]}
{"id": "C81", "title": "Generator of accounts of the conformance tests", "statement": "The generator of accounts either returns accounts and values of the variables under which accounts are empty, not empty, warm and cold as asked for and balances lie within the bounds asked for, or reports a conflict, and it does so only if no accounts and no values of the variables meet the constraints. Variables bound before keep their values; the account that executes the code has code.", "quantifier": "all constraints, all assignments of variables, all sources of random numbers whose addresses are not those of variables bound before, all orders in which maps are iterated", "why_tests_cant": "the unit tests try single constraints with a few seeds; soundness and completeness must hold for all combinations, all choices of addresses and map orders", "anchors": ["go/ct/gen/accounts.go: AccountsGenerator", "go/ct/st/accounts.go: AccountsBuilder", "go/ct/common/u256.go: RandU256Between", "go/ct/common/address.go: NewAddress, RandomAddress"]}
{"id": "C82", "title": "Generators of block and transaction contexts of the conformance tests", "statement": "Every generated block context has a block number of a revision within all bounds asked for and a time stamp of that revision; variables are at the offsets asked for, and one of or none of the 256 blocks before the current one as asked for, up to two exceptions stated in the theorem. If only revisions are asked for, an error is returned exactly if no block qualifies, and every qualifying block can be generated. Every generated transaction context has a number of blob hashes under which variables are indices of present and absent hashes as asked for, up to the exceptions stated, and if some number of hashes meets the constraints, the generator succeeds. Variables bound before keep their values.", "quantifier": "all sequences of calls that add constraints, all assignments of variables, all sources of random numbers, all orders in which maps are iterated", "why_tests_cant": "the unit tests try single constraints with a few seeds; the result must meet all combinations of constraints and bound variables for all random numbers", "anchors": ["go/ct/gen/block_context.go: BlockContextGenerator", "go/ct/gen/transaction_context.go: TransactionContextGenerator", "go/ct/common/revisions.go: GetForkBlock, GetForkTime, GetRevisionForBlock, GetBlockRangeLengthFor"]}
{"id": "C83", "title": "Comparison of test states", "statement": "State.Eq holds exactly for states that agree in status and, unless failed, in everything observable (storage values with absent meaning zero, logs, journals, contexts, \u2026), while running also in the internal state up to program counters behind the code, at the end in the result; it is an equivalence, does not depend on the order of maps, and accepts what C75 says about results of rules and of the interpreter. State.Diff has no message exactly if all components agree; if states are not equal it says why unless only zero original values differ, and between equal states that have not failed it only mentions what may differ.", "quantifier": "all pairs and triples of states, all iteration orders of maps", "why_tests_cant": "the unit tests change one component at a time; that no pair of different states is taken for equal (a conformance test that passes wrongly) quantifies over all pairs", "anchors": ["go/ct/st/state.go: State.Eq, State.Diff", "go/ct/st/storage.go: mapEqualIgnoringZeroValues, Storage.Eq, Storage.Diff", "go/ct/st/accounts.go: Accounts.Eq, Accounts.Diff", "go/ct/st/logs.go", "go/ct/st/call_journal.go", "go/ct/common/immutable_hash_array.go: Equal"]}
{"id": "C84", "title": "Saving and loading test states", "statement": "What ExportStateJSON writes for a state, ImportStateJSON reads as the same state, in all its components, whatever the order in which the entries of maps are written; so the loaded state is equal to the saved one, and different states are written differently. The texts of numbers, addresses, data, revisions, kinds of calls and status codes are read as what they were written for. A negative revision can be written but not read.", "quantifier": "all states with a revision that is not negative and at most 1024 stack elements, all orders of map entries", "why_tests_cant": "the unit tests export and import a few states; the round trip must hold for every value of every component", "anchors": ["go/ct/st/serialization.go: ExportStateJSON, ImportStateJSON", "go/ct/common/u256.go: MarshalText, UnmarshalText", "go/ct/common/bytes.go: MarshalJSON, UnmarshalJSON", "go/tosca/revisions.go: MarshalJSON, UnmarshalJSON", "go/tosca/types.go: CallKind.MarshalJSON, Address.MarshalText, Value.MarshalText", "go/ct/st/state.go: StatusCode.MarshalJSON"]}
{"id": "C85", "title": "Observing LFVM changes nothing and tells the truth", "statement": "Under the logging and the statistics runner a program has the result and the effects it has under the plain one. The log has one line per executed instruction, in order: name, gas and top of the stack before it; if the writer refuses a line, the run ends with its error, that instruction and all later ones are not executed and nothing more is written. The shared statistics are, whatever runs ended in whatever order since the last reset, the exact numbers of instructions and of sequences of two, three and four consecutive instructions, each run counted for itself, each sequence under a key of its own; the ranking does not depend on the order of a map.", "quantifier": "all programs, states and writers, all histories of runs, panics and resets, all orders of map entries", "why_tests_cant": "the unit tests run a few short programs; that counts are exact and that observing never changes a result are statements about every execution", "anchors": ["go/interpreter/lfvm/instruction_logger.go: loggingRunner.run", "go/interpreter/lfvm/instruction_statistics.go: statisticRunner, statsCollector.nextOp, statistics.insert, statistics.print (getTopN)", "go/interpreter/lfvm/interpreter.go: run, vanillaRunner, execute, steps"]}
{"id": "C86", "title": "Registries", "statement": "After whatever registrations, from however many threads, a name, in whatever case, stands for the factory first registered under it; a registration is accepted exactly if there is a factory and the name is free; nothing registered is replaced or lost, and the list of all has every name once. A new interpreter is what the factory of the name makes of the configuration. The experimental configurations of LFVM are all registered, each name with its own configuration, in whatever order the map is gone through; a second time is an error.", "quantifier": "all sequences of registrations and lookups, all names, factories and configurations, all iteration orders", "why_tests_cant": "the unit tests register one or two names; that no sequence of registrations replaces or loses one is a statement about histories", "anchors": ["go/tosca/interpreter_registry.go", "go/tosca/processor_registry.go", "go/interpreter/lfvm/lfvm.go: RegisterExperimentalInterpreterConfigurations"]}

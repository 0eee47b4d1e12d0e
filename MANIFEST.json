{
 "claims": [
  {
   "property": "C01",
   "status": "proved",
   "theorems": [
    "Tosca.C01_binary",
    "Tosca.C01_unary",
    "Tosca.C01_ternary",
    "Tosca.C01_exp"
   ],
   "note": "All operands, all word instructions; stated through StepN(1) on the public interface."
  },
  {
   "property": "C02",
   "status": "proved",
   "theorems": [
    "Tosca.C02_push"
   ],
   "note": "All n in 1..32, all codes and positions."
  },
  {
   "property": "C03",
   "status": "proved",
   "theorems": [
    "Tosca.C03_jump_targets",
    "Tosca.C03_push_data"
   ],
   "note": "The analysis table is exact against an inductive decoding of the code."
  },
  {
   "property": "C04",
   "status": "proved",
   "theorems": [
    "Tosca.C04_jump",
    "Tosca.C04_jumpi",
    "Tosca.C04_only_jumps"
   ],
   "note": "Codes below 2^32 bytes."
  },
  {
   "property": "C05",
   "status": "proved",
   "theorems": [
    "Tosca.C05_one_step",
    "Tosca.C05_one_step_exact",
    "Tosca.C05_one_step_failing"
   ],
   "note": "Every instruction, every well-formed state."
  },
  {
   "property": "C06",
   "status": "proved",
   "theorems": [
    "Tosca.C06_stepN_conforms"
   ],
   "note": "Induction over the number of steps."
  },
  {
   "property": "C07",
   "status": "proved",
   "theorems": [
    "Tosca.C07_execute_conforms",
    "Tosca.C07_final_unique",
    "Tosca.execute_of_steps"
   ],
   "note": "Execute against the small-step specification."
  },
  {
   "property": "C08",
   "status": "proved",
   "theorems": [
    "Tosca.C08_execute_terminates",
    "Tosca.C08_specification_halts"
   ],
   "note": "Fuel gas+2 always suffices."
  },
  {
   "property": "C09",
   "status": "proved",
   "theorems": [
    "Tosca.C09_execute_no_ub",
    "Tosca.C09_stepN_no_ub"
   ],
   "note": "UB is a distinct outcome of the model; it is never reached."
  },
  {
   "property": "C10",
   "status": "proved",
   "theorems": [
    "Tosca.C10_execute_gas",
    "Tosca.C10_stepN_gas"
   ],
   "note": "For arbitrary, even misbehaving, hosts."
  },
  {
   "property": "C11",
   "status": "proved",
   "theorems": [
    "Tosca.C11_execute_failure",
    "Tosca.C11_stepN_failure",
    "Tosca.C11_output_from_return",
    "Tosca.C11_stopped_no_output"
   ],
   "note": ""
  },
  {
   "property": "C12",
   "status": "proved",
   "theorems": [
    "Tosca.C12_underflow_iff",
    "Tosca.C12_overflow_iff",
    "Tosca.C12_stack_bounded"
   ],
   "note": ""
  },
  {
   "property": "C13",
   "status": "proved",
   "theorems": [
    "Tosca.C13_execute",
    "Tosca.C13_stepN"
   ],
   "note": "Recycled stack buffers, fresh memory and uninitialised words never influence any result."
  },
  {
   "property": "C14",
   "status": "proved",
   "theorems": [
    "Tosca.C14_mload",
    "Tosca.C14_mstore",
    "Tosca.C14_mstore8",
    "Tosca.C14_mcopy",
    "Tosca.C14_return"
   ],
   "note": ""
  },
  {
   "property": "C15",
   "status": "proved",
   "theorems": [
    "Tosca.C15_telescopes",
    "Tosca.growth_telescopes",
    "Tosca.C14_mload",
    "Tosca.C14_mstore",
    "Tosca.C14_mstore8",
    "Tosca.C14_mcopy"
   ],
   "note": "Per instruction and telescoping over runs."
  },
  {
   "property": "C16",
   "status": "proved",
   "theorems": [
    "Tosca.C16_execute_static",
    "Tosca.C16_stepN_static",
    "Tosca.C16_invariant",
    "Tosca.C16_modifying_fails",
    "Tosca.C16_only_static"
   ],
   "note": ""
  },
  {
   "property": "C17",
   "status": "proved",
   "theorems": [
    "Tosca.C17_forwarded",
    "Tosca.C18_call",
    "Tosca.C19_create"
   ],
   "note": ""
  },
  {
   "property": "C18",
   "status": "proved",
   "theorems": [
    "Tosca.C18_call"
   ],
   "note": ""
  },
  {
   "property": "C19",
   "status": "proved",
   "theorems": [
    "Tosca.C19_create"
   ],
   "note": ""
  },
  {
   "property": "C20",
   "status": "proved",
   "theorems": [
    "Tosca.C20_sstore"
   ],
   "note": ""
  },
  {
   "property": "C21",
   "status": "proved",
   "theorems": [
    "Tosca.C21_returndatacopy",
    "Tosca.C21_only_returndatacopy"
   ],
   "note": ""
  },
  {
   "property": "C22",
   "status": "proved",
   "theorems": [
    "Tosca.C22_calldataload",
    "Tosca.C22_calldatacopy",
    "Tosca.C22_codecopy",
    "Tosca.C22_extcodecopy"
   ],
   "note": ""
  },
  {
   "property": "C23",
   "status": "proved",
   "theorems": [
    "Tosca.C23_blockhash",
    "Tosca.C23_blobhash",
    "Tosca.C23_execute_blocks"
   ],
   "note": ""
  },
  {
   "property": "C24",
   "status": "proved",
   "theorems": [
    "Tosca.C24_compose_running",
    "Tosca.C24_compose_halted",
    "Tosca.C24_compose_failed",
    "Tosca.C24_chunks_agree_with_execute"
   ],
   "note": ""
  },
  {
   "property": "C25",
   "status": "proved",
   "theorems": [
    "Tosca.C25_idle",
    "Tosca.C25_zero_steps"
   ],
   "note": ""
  },
  {
   "property": "C26",
   "status": "proved",
   "theorems": [
    "Tosca.C26_observers"
   ],
   "note": "For every observer, in particular the logger and both profilers."
  },
  {
   "property": "C27",
   "status": "proved",
   "theorems": [
    "Tosca.C27_logger",
    "Tosca.C41_off"
   ],
   "note": "The text of nested runs is an input: it follows the line of the call instruction that starts them."
  },
  {
   "property": "C28",
   "status": "proved",
   "theorems": [
    "Tosca.C28_refines",
    "Tosca.C28_value",
    "Tosca.C28_stores",
    "Tosca.C28_size",
    "Tosca.C28_retained",
    "Tosca.C28_order",
    "Tosca.C28_capacity_one",
    "Tosca.C28_capacity_zero"
   ],
   "note": ""
  },
  {
   "property": "C29",
   "status": "proved",
   "theorems": [
    "Tosca.C29_threads",
    "Tosca.C29_function",
    "Tosca.C29_progress"
   ],
   "note": ""
  },
  {
   "property": "C30",
   "status": "proved",
   "theorems": [
    "Tosca.C30_sha3",
    "Tosca.C30_execute",
    "Tosca.C30_stepN",
    "Tosca.C30_hash"
   ],
   "note": ""
  },
  {
   "property": "C31",
   "status": "proved",
   "theorems": [
    "Tosca.C31_execute",
    "Tosca.C31_stepN",
    "Tosca.C31_off_is_recomputed",
    "Tosca.C31_execute_uncached",
    "Tosca.C31_stepN_uncached"
   ],
   "note": ""
  },
  {
   "property": "C32",
   "status": "proved",
   "theorems": [
    "Tosca.C32_set",
    "Tosca.C32_invalid_value",
    "Tosca.C32_invalid_name"
   ],
   "note": ""
  },
  {
   "property": "C33",
   "status": "proved",
   "theorems": [
    "Tosca.C33_status_codes",
    "Tosca.C33_failure_codes",
    "Tosca.C33_step_status_round_trip"
   ],
   "note": ""
  },
  {
   "property": "C34",
   "status": "proved",
   "theorems": [
    "Tosca.Props.Stacks.C34_storage",
    "Tosca.Props.Stacks.C34_defined",
    "Tosca.Props.Stacks.C34_peak",
    "Tosca.Props.Stacks.C35_independent"
   ],
   "note": "Histories of atomic actions; Get and Release are atomic because they hold the mutex."
  },
  {
   "property": "C35",
   "status": "proved",
   "theorems": [
    "Tosca.Props.Stacks.C35_refines",
    "Tosca.Props.Stacks.C35_independent",
    "Tosca.Props.Stacks.C35_copy",
    "Tosca.Props.Stacks.C35_no_stale_words"
   ],
   "note": ""
  },
  {
   "property": "C36",
   "status": "proved",
   "theorems": [
    "Tosca.C36_round_trip"
   ],
   "note": ""
  },
  {
   "property": "C37",
   "status": "proved",
   "theorems": [
    "Tosca.C37_execute_refund",
    "Tosca.C37_stepN_refund"
   ],
   "note": ""
  },
  {
   "property": "C38",
   "status": "proved",
   "theorems": [
    "Tosca.C38_stepN_memory",
    "Tosca.C38_memory_bounded"
   ],
   "note": ""
  },
  {
   "property": "C39",
   "status": "proved",
   "theorems": [
    "Tosca.C39_execute_depth"
   ],
   "note": ""
  },
  {
   "property": "C40",
   "status": "proved",
   "theorems": [
    "Tosca.C40_undefined_iff",
    "Tosca.C40_invalid_iff"
   ],
   "note": ""
  },
  {
   "property": "C41",
   "status": "proved",
   "theorems": [
    "Tosca.C41_execute",
    "Tosca.C41_counters",
    "Tosca.C41_nested_runs",
    "Tosca.C41_merge",
    "Tosca.C41_reset",
    "Tosca.C41_reset_other",
    "Tosca.C41_dump",
    "Tosca.C41_off",
    "Tosca.C41_too_deep"
   ],
   "note": "Counters and times, with arbitrarily nested runs; conversion to nanoseconds is not modelled."
  },
  {
   "property": "C42",
   "status": "proved",
   "theorems": [
    "Tosca.C42_rejected"
   ],
   "note": ""
  },
  {
   "property": "C43",
   "status": "proved",
   "theorems": [
    "Tosca.C43_execute_calls",
    "Tosca.C43_stepN_calls",
    "Tosca.C43_execute_effect",
    "Tosca.C43_stepN_effect"
   ],
   "note": ""
  },
  {
   "property": "C44",
   "status": "proved",
   "theorems": [
    "Tosca.C44_environment",
    "Tosca.C44_pop",
    "Tosca.C44_jumpdest",
    "Tosca.C44_stop",
    "Tosca.C44_dup",
    "Tosca.C44_swap"
   ],
   "note": ""
  },
  {
   "property": "C45",
   "status": "proved",
   "theorems": [
    "Tosca.C45_account",
    "Tosca.C45_sload",
    "Tosca.C45_selfbalance",
    "Tosca.C45_tload"
   ],
   "note": ""
  },
  {
   "property": "C46",
   "status": "proved",
   "theorems": [
    "Tosca.C46_log",
    "Tosca.C46_tstore",
    "Tosca.C46_selfdestruct"
   ],
   "note": ""
  },
  {
   "property": "C47",
   "status": "proved",
   "theorems": [
    "Tosca.C47_closed",
    "Tosca.C47_closed_unique",
    "Tosca.C47_host_ok",
    "Tosca.C47_nested_hosts",
    "Tosca.C47_levels",
    "Tosca.C47_nested_complete",
    "Tosca.C47_execute"
   ],
   "note": "The part of the host that runs no code is a parameter (NestOk)."
  },
  {
   "property": "C48",
   "status": "proved",
   "theorems": [
    "Tosca.C48_static_call",
    "Tosca.C48_static_tree"
   ],
   "note": ""
  },
  {
   "property": "C49",
   "status": "proved",
   "theorems": [
    "Tosca.C49_results",
    "Tosca.C49_undefined",
    "Tosca.C49_vm",
    "Tosca.C49_conforms",
    "Tosca.C49_completes"
   ],
   "note": "Without observers; stack blocks are values (ownership of blocks is C34); options do not change meanwhile."
  },
  {
   "property": "C50",
   "status": "proved",
   "theorems": [
    "Tosca.C50_no_dangling",
    "Tosca.C50_reads_own_analysis",
    "Tosca.C50_alive_iff_referenced",
    "Tosca.C50_no_leak",
    "Tosca.C50_destroy"
   ],
   "note": "Reference counts of the shared pointers made explicit over the pointer-level LRU cache; any interleaving of calls; std::shared_ptr itself is trusted."
  },
  {
   "property": "C51",
   "status": "proved",
   "theorems": [
    "Tosca.C51_run",
    "Tosca.C51_errors",
    "Tosca.C51_gas"
   ],
   "note": "The EVMC binding is modelled by its effect (Model/GoBridge); statuses it reports for client errors are parameters."
  },
  {
   "property": "C52",
   "status": "proved",
   "theorems": [
    "Tosca.C52_recursion",
    "Tosca.C52_call",
    "Tosca.C52_call_gas",
    "Tosca.C52_transaction",
    "Tosca.C52_errors"
   ],
   "note": "Keccak, contract addresses and precompiled contracts are parameters."
  },
  {
   "property": "C53",
   "status": "proved",
   "theorems": [
    "Tosca.C53_add",
    "Tosca.C53_sub",
    "Tosca.C53_cmp",
    "Tosca.C53_scale",
    "Tosca.C53_newValue"
   ],
   "note": ""
  },
  {
   "property": "C54",
   "status": "proved",
   "theorems": [
    "Tosca.C54_read",
    "Tosca.C54_round_trip",
    "Tosca.C54_injective"
   ],
   "note": "Text of fixed-size byte types."
  },
  {
   "property": "C55",
   "status": "proved",
   "theorems": [
    "Tosca.C55_status",
    "Tosca.C55_refund",
    "Tosca.C55_refund_from_original",
    "Tosca.C55_sizeInWords"
   ],
   "note": ""
  },
  {
   "property": "C56",
   "status": "proved",
   "theorems": [
    "Tosca.C56_intrinsic"
   ],
   "note": "For transactions whose sizes fit the machine (TxOk); beyond, the sums wrap around."
  },
  {
   "property": "C57",
   "status": "proved",
   "theorems": [
    "Tosca.C57_receipt",
    "Tosca.C57_bounds",
    "Tosca.C57_minimum",
    "Tosca.C57_exceeds"
   ],
   "note": "On evmzero and on the long-form EVM (`Supported`). C57_exceeds is the counterexample to the naive bound (gas used up to the gas limit) for successful transactions."
  },
  {
   "property": "C58",
   "status": "proved",
   "theorems": [
    "Tosca.C58_call",
    "Tosca.C58_create",
    "Tosca.C58_others"
   ],
   "note": "On evmzero and on the long-form EVM (`Supported`). Calls to the state contract by the driver are excluded by hypothesis."
  },
  {
   "property": "C59",
   "status": "proved",
   "theorems": [
    "Tosca.C59_call",
    "Tosca.C59_transaction",
    "Tosca.C59_exact",
    "Tosca.C59_minted"
   ],
   "note": "On evmzero and on the long-form EVM (`Supported`, `CallSupported`). C59_minted is the counterexample when the bill exceeds the gas limit."
  },
  {
   "property": "C60",
   "status": "proved",
   "theorems": [
    "Tosca.C60_call",
    "Tosca.C60_create",
    "Tosca.C60_stays"
   ],
   "note": "For every interpreter. C60_stays: creations with unstorable code are not undone (kernel-evaluated counterexample)."
  },
  {
   "property": "C61",
   "status": "proved",
   "theorems": [
    "Tosca.C61_static"
   ],
   "note": "On evmzero and on the long-form EVM (`CallSupported`). Driver calls excluded: the state contract ignores static mode (C63)."
  },
  {
   "property": "C62",
   "status": "proved",
   "theorems": [
    "Tosca.C62_payment"
   ],
   "note": "On evmzero and on the long-form EVM (`CallSupported`). "
  },
  {
   "property": "C63",
   "status": "proved",
   "theorems": [
    "Tosca.C63_driver",
    "Tosca.C63_others"
   ],
   "note": "Selectors of the five methods are assumed to differ (hypothesis Selectors on the hash function)."
  },
  {
   "property": "C64",
   "status": "proved",
   "theorems": [
    "Tosca.C64_precompiled",
    "Tosca.C64_wraps"
   ],
   "note": "The precompiled contracts themselves are arbitrary functions."
  },
  {
   "property": "C65",
   "status": "proved",
   "theorems": [
    "Tosca.C65_run"
   ],
   "note": "The production configuration of lfvm, i.e. without super-instructions. Code up to 64 KiB: beyond, 16-bit positions wrap (finding 29)."
  },
  {
   "property": "C66",
   "status": "proved",
   "theorems": [
    "Tosca.C66_total",
    "Tosca.C66_limit"
   ],
   "note": ""
  },
  {
   "property": "C67",
   "status": "proved",
   "theorems": [
    "Tosca.C67_convert"
   ],
   "note": ""
  },
  {
   "property": "C68",
   "status": "proved",
   "theorems": [
    "Tosca.C68_shared"
   ],
   "note": ""
  },
  {
   "property": "C69",
   "status": "proved",
   "theorems": [
    "Tosca.C69_call",
    "Tosca.C69_transaction"
   ],
   "note": "From Shanghai on: older revisions allow init code above 64 KiB."
  },
  {
   "property": "C70",
   "status": "proved",
   "theorems": [
    "Tosca.C70_cache",
    "Tosca.C70_threads",
    "Tosca.C70_race",
    "Tosca.C70_sha3"
   ],
   "note": "C70_race: a concrete schedule of two threads with a cache of two entries for which a wrong hash is returned (finding 33); the production capacities are 2^16 and 2^18."
  },
  {
   "property": "C71",
   "status": "proved",
   "theorems": [
    "Tosca.C71_convert",
    "Tosca.C71_found"
   ],
   "note": ""
  },
  {
   "property": "C72",
   "status": "proved",
   "theorems": [
    "Tosca.C72_keccak256",
    "Tosca.C72_keccak32",
    "Tosca.C72_go",
    "Tosca.C72_length",
    "Tosca.C72_sha3"
   ],
   "note": "The hash of the empty message comes from golang.org/x/crypto/sha3, a parameter."
  },
  {
   "property": "C73",
   "status": "proved",
   "theorems": [
    "Tosca.C73_run",
    "Tosca.C73_free",
    "Tosca.C73_shared",
    "Tosca.C73_same",
    "Tosca.C73_wide",
    "Tosca.C73_negative"
   ],
   "note": "C73_wide and C73_negative: concrete runs which show that the condition on jump targets is needed (finding 28)."
  },
  {
   "property": "C74",
   "status": "proved",
   "theorems": [
    "Tosca.C74_step",
    "Tosca.C74_steps",
    "Tosca.C74_walk",
    "Tosca.C74_unchanged",
    "Tosca.C74_pcmap"
   ],
   "note": "A program counter inside push data is not a state an execution reaches; StepN maps it to the start of the code."
  },
  {
   "property": "C75",
   "status": "proved",
   "theorems": [
    "Tosca.C75_rules",
    "Tosca.C75_agree",
    "Tosca.C75_complete",
    "Tosca.C75_lfvm",
    "Tosca.C75_lookup"
   ],
   "note": "States in scope: Spec/GoRules.InScope. C75_lfvm needs the program counter not behind the end of the code (StepN panics there)."
  },
  {
   "property": "C76",
   "status": "proved",
   "theorems": [
    "Tosca.C76_stepN",
    "Tosca.C76_expected",
    "Tosca.C76_rules",
    "Tosca.C76_lfvm",
    "Tosca.C76_idle"
   ],
   "note": "Room: evmzero has undefined behaviour if the refund counter overflows (finding 42), and reads behind its padded code if the program counter is far behind the end."
  },
  {
   "property": "C77",
   "status": "proved",
   "theorems": [
    "Tosca.C77_range_domain",
    "Tosca.C77_range_generate",
    "Tosca.C77_interval_domain",
    "Tosca.C77_interval_equals",
    "Tosca.C77_interval_generate",
    "Tosca.C77_narrow"
   ],
   "note": "C77_narrow: the restriction on the type is needed (the code only instantiates uint64, int and tosca.Gas)."
  },
  {
   "property": "C78",
   "status": "proved",
   "theorems": [
    "Tosca.C78_state_cancun",
    "Tosca.C78_state_before",
    "Tosca.C78_credited_twice",
    "Tosca.C78_setBalance",
    "Tosca.C78_evmzero",
    "Tosca.C78_lfvm",
    "Tosca.C78_readonly",
    "Tosca.C78_readonly_lost",
    "Tosca.C78_roundtrip",
    "Tosca.C78_refund",
    "Tosca.C78_refund_revert",
    "Tosca.C78_request",
    "Tosca.C78_answer"
   ],
   "note": "Geth itself is not modelled: nested calls are arbitrary functions that answer alike on both sides (CallsAgree); C78_roundtrip reduces geth to the handling of errors and gas after a run."
  },
  {
   "property": "C79",
   "status": "proved",
   "theorems": [
    "Tosca.C79_intrinsic",
    "Tosca.C79_receipt",
    "Tosca.C79_bounds",
    "Tosca.C79_minimum",
    "Tosca.C79_floria",
    "Tosca.C79_state",
    "Tosca.C79_state_others",
    "Tosca.C79_state_floria"
   ],
   "note": "Geth is not modelled: its EVM is an arbitrary function that returns no more gas than it gets (GasKept). C79_floria assumes that this function and the outermost call of floria have the same outcome."
  },
  {
   "property": "C80",
   "status": "proved",
   "theorems": [
    "Tosca.C80_code",
    "Tosca.C80_storage",
    "Tosca.C80_transient",
    "Tosca.C80_stack",
    "Tosca.C80_selfdestruct"
   ],
   "note": "C80_storage: no new-value variable is also a key (Apart). C80_transient: non-zero values need a source that never yields the word zero. C80_code: an explicit code size is below 2^63. Completeness (no conflict reported without one) holds only for stack and self-destruct; the other generators give up early, see findings 53-60 of DESIGN.md."
  },
  {
   "property": "C81",
   "status": "proved",
   "theorems": [
    "Tosca.C81_accounts",
    "Tosca.C81_accounts_conflict"
   ],
   "note": "Soundness except for the cases excluded by Sheltered (finding 59): an account that must be empty is the executing one; a non-empty account with bounds that allow the balance zero; one account warm and cold under two names."
  },
  {
   "property": "C82",
   "status": "proved",
   "theorems": [
    "Tosca.C82_block",
    "Tosca.C82_block_meets",
    "Tosca.C82_revisions",
    "Tosca.C82_early",
    "Tosca.C82_blobs",
    "Tosca.C82_blobs_complete",
    "Tosca.C82_blobs_tie"
   ],
   "note": "Soundness up to the exceptions of findings 61 and 62, which are part of the statements; completeness for revisions alone and for blob hashes (with offsets and ranges the block generator may report a conflict though there is none, finding 61). Offsets of -2^63, which have no negation, are excluded."
  },
  {
   "property": "C83",
   "status": "proved",
   "theorems": [
    "Tosca.C83_eq",
    "Tosca.C83_equivalence",
    "Tosca.C83_diff",
    "Tosca.C83_explained",
    "Tosca.C83_sound",
    "Tosca.C83_same",
    "Tosca.C83_original_zero",
    "Tosca.C83_long_code"
   ],
   "note": "States whose code is shorter than 2^16 bytes (C83_long_code shows what happens at 2^16). Messages of Diff are reduced to what they are about. The exception to Diff explaining inequality (C83_original_zero) is finding 63."
  },
  {
   "property": "C84",
   "status": "proved",
   "theorems": [
    "Tosca.C84_round_trip",
    "Tosca.C84_equal",
    "Tosca.C84_injective",
    "Tosca.C84_texts",
    "Tosca.C84_negative"
   ],
   "note": "The syntax of JSON and the mapping of Go structures to objects by encoding/json are taken as given; a document is the tree of its members."
  },
  {
   "property": "C85",
   "status": "proved",
   "theorems": [
    "Tosca.C85_execution",
    "Tosca.C85_log",
    "Tosca.C85_writer",
    "Tosca.C85_refused",
    "Tosca.C85_quiet",
    "Tosca.C85_result",
    "Tosca.C85_statistics",
    "Tosca.C85_counted",
    "Tosca.C85_program",
    "Tosca.C85_keys",
    "Tosca.C85_ranking"
   ],
   "note": "Counts are modulo 2^64, and a single run has fewer than 2^64 instructions (its gas allows no more than 2^63). The text of the summary is left out but for the ranking; the names of opcodes are arbitrary. Runs end one after the other (the lock is held while a run adds its counts)."
  },
  {
   "property": "C86",
   "status": "proved",
   "theorems": [
    "Tosca.C86_lookup",
    "Tosca.C86_answer",
    "Tosca.C86_stays",
    "Tosca.C86_all",
    "Tosca.C86_new",
    "Tosca.C86_instance",
    "Tosca.C86_names",
    "Tosca.C86_experimental",
    "Tosca.C86_twice"
   ],
   "note": "strings.ToLower is an arbitrary function; for the experimental configurations it is assumed to keep their names (shown for the lower case of Lean). All accesses are made under a lock, so threads are sequences of calls."
  }
 ]
}
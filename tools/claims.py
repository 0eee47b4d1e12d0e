c('C01','proved','C01_binary C01_unary C01_ternary C01_exp','All operands, all word instructions; stated through StepN(1) on the public interface.')
c('C02','proved','C02_push','All n in 1..32, all codes and positions.')
c('C03','proved','C03_jump_targets C03_push_data','The analysis table is exact against an inductive decoding of the code.')
c('C04','proved','C04_jump C04_jumpi C04_only_jumps','Codes below 2^32 bytes.')
c('C05','proved','C05_one_step C05_one_step_exact C05_one_step_failing','Every instruction, every well-formed state.')
c('C06','proved','C06_stepN_conforms','Induction over the number of steps.')
c('C07','proved','C07_execute_conforms C07_final_unique execute_of_steps','Execute against the small-step specification.')
c('C08','proved','C08_execute_terminates C08_specification_halts','Fuel gas+2 always suffices.')
c('C09','proved','C09_execute_no_ub C09_stepN_no_ub','UB is a distinct outcome of the model; it is never reached.')
c('C10','proved','C10_execute_gas C10_stepN_gas','For arbitrary, even misbehaving, hosts.')
c('C11','proved','C11_execute_failure C11_stepN_failure C11_output_from_return C11_stopped_no_output','')
c('C12','proved','C12_underflow_iff C12_overflow_iff C12_stack_bounded','')
c('C14','proved','C14_mload C14_mstore C14_mstore8 C14_mcopy C14_return','')
c('C15','proved','C15_telescopes growth_telescopes C14_mload C14_mstore C14_mstore8 C14_mcopy','Per instruction and telescoping over runs.')
c('C16','proved','C16_execute_static C16_stepN_static C16_invariant C16_modifying_fails C16_only_static','')
c('C17','proved','C17_forwarded C18_call C19_create','')
c('C18','proved','C18_call','')
c('C19','proved','C19_create','')
c('C20','proved','C20_sstore','')
c('C21','proved','C21_returndatacopy C21_only_returndatacopy','')
c('C22','proved','C22_calldataload C22_calldatacopy C22_codecopy C22_extcodecopy','')
c('C23','proved','C23_blockhash C23_blobhash C23_execute_blocks','')
c('C24','proved','C24_compose_running C24_compose_halted C24_compose_failed C24_chunks_agree_with_execute','')
c('C25','proved','C25_idle C25_zero_steps','')
c('C26','proved','C26_observers','For every observer, in particular the logger and both profilers.')
c('C33','proved','C33_status_codes C33_failure_codes C33_step_status_round_trip','')
c('C36','proved','C36_round_trip','')
c('C37','proved','C37_execute_refund C37_stepN_refund','')
c('C38','proved','C38_stepN_memory C38_memory_bounded','')
c('C39','proved','C39_execute_depth','')
c('C40','proved','C40_undefined_iff C40_invalid_iff','')
c('C42','proved','C42_rejected','')
c('C43','proved','C43_execute_calls C43_stepN_calls C43_execute_effect C43_stepN_effect','')
c('C44','proved','C44_environment C44_pop C44_jumpdest C44_stop C44_dup C44_swap','')
c('C45','proved','C45_account C45_sload C45_selfbalance C45_tload','')
c('C46','proved','C46_log C46_tstore C46_selfdestruct','')
c('C28','proved','C28_refines C28_value C28_stores C28_size C28_retained C28_order C28_capacity_one C28_capacity_zero','')
c('C29','proved','C29_threads C29_function C29_progress','')
c('C13','proved','C13_execute C13_stepN','Recycled stack buffers, fresh memory and uninitialised words never influence any result.')
c('C30','proved','C30_sha3 C30_execute C30_stepN C30_hash','')
c('C31','proved','C31_execute C31_stepN C31_off_is_recomputed C31_execute_uncached C31_stepN_uncached','')
c('C32','proved','C32_set C32_invalid_value C32_invalid_name','')
c('C34','proved','Props.Stacks.C34_storage Props.Stacks.C34_defined Props.Stacks.C34_peak Props.Stacks.C35_independent','Histories of atomic actions; Get and Release are atomic because they hold the mutex.')
c('C35','proved','Props.Stacks.C35_refines Props.Stacks.C35_independent Props.Stacks.C35_copy Props.Stacks.C35_no_stale_words','')
c('C27','proved','C27_logger C41_off','The text of nested runs is an input: it follows the line of the call instruction that starts them.')
c('C41','proved','C41_execute C41_counters C41_nested_runs C41_merge C41_reset C41_reset_other C41_dump C41_off C41_too_deep','Counters and times, with arbitrarily nested runs; conversion to nanoseconds is not modelled.')
c('C47','proved','C47_closed C47_closed_unique C47_host_ok C47_nested_hosts C47_levels C47_nested_complete C47_execute','The part of the host that runs no code is a parameter (NestOk).')
c('C48','proved','C48_static_call C48_static_tree','')
c('C49','proved','C49_results C49_undefined C49_vm C49_conforms C49_completes','Without observers; stack blocks are values (ownership of blocks is C34); options do not change meanwhile.')
c('C50','proved','C50_no_dangling C50_reads_own_analysis C50_alive_iff_referenced C50_no_leak C50_destroy','Reference counts of the shared pointers made explicit over the pointer-level LRU cache; any interleaving of calls; std::shared_ptr itself is trusted.')
c('C51','proved','C51_run C51_errors C51_gas','The EVMC binding is modelled by its effect (Model/GoBridge); statuses it reports for client errors are parameters.')
c('C52','proved','C52_recursion C52_call C52_call_gas C52_transaction C52_errors','Keccak, contract addresses and precompiled contracts are parameters.')
c('C53','proved','C53_add C53_sub C53_cmp C53_scale C53_newValue','')
c('C54','proved','C54_read C54_round_trip C54_injective','Text of fixed-size byte types.')
c('C55','proved','C55_status C55_refund C55_refund_from_original C55_sizeInWords','')
c('C56','proved','C56_intrinsic','For transactions whose sizes fit the machine (TxOk); beyond, the sums wrap around.')
c('C57','proved','C57_receipt C57_bounds C57_minimum C57_exceeds','On evmzero and on the long-form EVM (`Supported`). C57_exceeds is the counterexample to the naive bound (gas used up to the gas limit) for successful transactions.')
c('C58','proved','C58_call C58_create C58_others','On evmzero and on the long-form EVM (`Supported`). Calls to the state contract by the driver are excluded by hypothesis.')
c('C59','proved','C59_call C59_transaction C59_exact C59_minted','On evmzero and on the long-form EVM (`Supported`, `CallSupported`). C59_minted is the counterexample when the bill exceeds the gas limit.')
c('C60','proved','C60_call C60_create C60_stays','For every interpreter. C60_stays: creations with unstorable code are not undone (kernel-evaluated counterexample).')
c('C61','proved','C61_static','On evmzero and on the long-form EVM (`CallSupported`). Driver calls excluded: the state contract ignores static mode (C63).')
c('C62','proved','C62_payment','On evmzero and on the long-form EVM (`CallSupported`). ')
c('C63','proved','C63_driver C63_others','Selectors of the five methods are assumed to differ (hypothesis Selectors on the hash function).')
c('C64','proved','C64_precompiled C64_wraps','The precompiled contracts themselves are arbitrary functions.')
c('C65','proved','C65_run','The production configuration of lfvm, i.e. without super-instructions. Code up to 64 KiB: beyond, 16-bit positions wrap (finding 29).')
c('C66','proved','C66_total C66_limit','')
c('C67','proved','C67_convert','')
c('C68','proved','C68_shared','')
c('C69','proved','C69_call C69_transaction','From Shanghai on: older revisions allow init code above 64 KiB.')
c('C70','proved','C70_cache C70_threads C70_race C70_sha3','C70_race: a concrete schedule of two threads with a cache of two entries for which a wrong hash is returned (finding 33); the production capacities are 2^16 and 2^18.')
c('C71','proved','C71_convert C71_found','')
c('C72','proved','C72_keccak256 C72_keccak32 C72_go C72_length C72_sha3','The hash of the empty message comes from golang.org/x/crypto/sha3, a parameter.')
c('C73','proved','C73_run C73_free C73_shared C73_same C73_wide C73_negative','C73_wide and C73_negative: concrete runs which show that the condition on jump targets is needed (finding 28).')
c('C74','proved','C74_step C74_steps C74_walk C74_unchanged C74_pcmap','A program counter inside push data is not a state an execution reaches; StepN maps it to the start of the code.')
c('C75','proved','C75_rules C75_agree C75_complete C75_lfvm C75_lookup','States in scope: Spec/GoRules.InScope. C75_lfvm needs the program counter not behind the end of the code (StepN panics there).')
c('C76','proved','C76_stepN C76_expected C76_rules C76_lfvm C76_idle','Room: evmzero has undefined behaviour if the refund counter overflows (finding 42), and reads behind its padded code if the program counter is far behind the end.')
c('C77','proved','C77_range_domain C77_range_generate C77_interval_domain C77_interval_equals C77_interval_generate C77_narrow','C77_narrow: the restriction on the type is needed (the code only instantiates uint64, int and tosca.Gas).')
c('C78','proved','C78_state_cancun C78_state_before C78_credited_twice C78_setBalance C78_evmzero C78_lfvm C78_readonly C78_readonly_lost C78_roundtrip C78_refund C78_refund_revert C78_request C78_answer','Geth itself is not modelled: nested calls are arbitrary functions that answer alike on both sides (CallsAgree); C78_roundtrip reduces geth to the handling of errors and gas after a run.')
c('C79','proved','C79_intrinsic C79_receipt C79_bounds C79_minimum C79_floria C79_state C79_state_others C79_state_floria','Geth is not modelled: its EVM is an arbitrary function that returns no more gas than it gets (GasKept). C79_floria assumes that this function and the outermost call of floria have the same outcome.')
c('C80','proved','C80_code C80_storage C80_transient C80_stack C80_selfdestruct','C80_storage: no new-value variable is also a key (Apart). C80_transient: non-zero values need a source that never yields the word zero. C80_code: an explicit code size is below 2^63. Completeness (no conflict reported without one) holds only for stack and self-destruct; the other generators give up early, see findings 53-60 of DESIGN.md.')
c('C81','proved','C81_accounts C81_accounts_conflict','Soundness except for the cases excluded by Sheltered (finding 59): an account that must be empty is the executing one; a non-empty account with bounds that allow the balance zero; one account warm and cold under two names.')
c('C82','proved','C82_block C82_block_meets C82_revisions C82_early C82_blobs C82_blobs_complete C82_blobs_tie','Soundness up to the exceptions of findings 61 and 62, which are part of the statements; completeness for revisions alone and for blob hashes (with offsets and ranges the block generator may report a conflict though there is none, finding 61). Offsets of -2^63, which have no negation, are excluded.')
c('C83','proved','C83_eq C83_equivalence C83_diff C83_explained C83_sound C83_same C83_original_zero C83_long_code','States whose code is shorter than 2^16 bytes (C83_long_code shows what happens at 2^16). Messages of Diff are reduced to what they are about. The exception to Diff explaining inequality (C83_original_zero) is finding 63.')
c('C84','proved','C84_round_trip C84_equal C84_injective C84_texts C84_negative','The syntax of JSON and the mapping of Go structures to objects by encoding/json are taken as given; a document is the tree of its members.')
c('C85','proved','C85_execution C85_log C85_writer C85_refused C85_quiet C85_result C85_statistics C85_counted C85_program C85_keys C85_ranking','Counts are modulo 2^64, and a single run has fewer than 2^64 instructions (its gas allows no more than 2^63). The text of the summary is left out but for the ranking; the names of opcodes are arbitrary. Runs end one after the other (the lock is held while a run adds its counts).')
c('C86','proved','C86_lookup C86_answer C86_stays C86_all C86_new C86_instance C86_names C86_experimental C86_twice','strings.ToLower is an arbitrary function; for the experimental configurations it is assumed to keep their names (shown for the lower case of Lean). All accesses are made under a lock, so threads are sequences of calls.')

# Axioms of the claimed theorems

Output of `#print axioms`, written by `tools/axioms.py`.

| property | theorem | axioms |
|---|---|---|
| C01 | `Tosca.C01_binary` | propext, Classical.choice, Quot.sound |
| C01 | `Tosca.C01_unary` | propext, Classical.choice, Quot.sound |
| C01 | `Tosca.C01_ternary` | propext, Classical.choice, Quot.sound |
| C01 | `Tosca.C01_exp` | propext, Classical.choice, Quot.sound |
| C02 | `Tosca.C02_push` | propext, Classical.choice, Quot.sound |
| C03 | `Tosca.C03_jump_targets` | propext, Classical.choice, Quot.sound |
| C03 | `Tosca.C03_push_data` | propext, Classical.choice, Quot.sound |
| C04 | `Tosca.C04_jump` | propext, Classical.choice, Quot.sound |
| C04 | `Tosca.C04_jumpi` | propext, Classical.choice, Quot.sound |
| C04 | `Tosca.C04_only_jumps` | propext, Classical.choice, Quot.sound |
| C05 | `Tosca.C05_one_step` | propext, Classical.choice, Quot.sound |
| C05 | `Tosca.C05_one_step_exact` | propext, Classical.choice, Quot.sound |
| C05 | `Tosca.C05_one_step_failing` | propext, Classical.choice, Quot.sound |
| C06 | `Tosca.C06_stepN_conforms` | propext, Classical.choice, Quot.sound |
| C07 | `Tosca.C07_execute_conforms` | propext, Classical.choice, Quot.sound |
| C07 | `Tosca.C07_final_unique` | propext, Classical.choice, Quot.sound |
| C07 | `Tosca.execute_of_steps` | propext, Classical.choice, Quot.sound |
| C08 | `Tosca.C08_execute_terminates` | propext, Classical.choice, Quot.sound |
| C08 | `Tosca.C08_specification_halts` | propext, Classical.choice, Quot.sound |
| C09 | `Tosca.C09_execute_no_ub` | propext, Classical.choice, Quot.sound |
| C09 | `Tosca.C09_stepN_no_ub` | propext, Classical.choice, Quot.sound |
| C10 | `Tosca.C10_execute_gas` | propext, Classical.choice, Quot.sound |
| C10 | `Tosca.C10_stepN_gas` | propext, Classical.choice, Quot.sound |
| C11 | `Tosca.C11_execute_failure` | propext, Classical.choice, Quot.sound |
| C11 | `Tosca.C11_stepN_failure` | propext, Classical.choice, Quot.sound |
| C11 | `Tosca.C11_output_from_return` | propext, Quot.sound |
| C11 | `Tosca.C11_stopped_no_output` | propext, Quot.sound |
| C12 | `Tosca.C12_underflow_iff` | propext, Classical.choice, Quot.sound |
| C12 | `Tosca.C12_overflow_iff` | propext, Classical.choice, Quot.sound |
| C12 | `Tosca.C12_stack_bounded` | propext, Classical.choice, Quot.sound |
| C13 | `Tosca.C13_execute` | propext, Classical.choice, Quot.sound |
| C13 | `Tosca.C13_stepN` | propext, Classical.choice, Quot.sound |
| C14 | `Tosca.C14_mload` | propext, Classical.choice, Quot.sound |
| C14 | `Tosca.C14_mstore` | propext, Classical.choice, Quot.sound |
| C14 | `Tosca.C14_mstore8` | propext, Classical.choice, Quot.sound |
| C14 | `Tosca.C14_mcopy` | propext, Classical.choice, Quot.sound |
| C14 | `Tosca.C14_return` | propext, Classical.choice, Quot.sound |
| C15 | `Tosca.C15_telescopes` | propext, Classical.choice, Quot.sound |
| C15 | `Tosca.growth_telescopes` | propext, Classical.choice, Quot.sound |
| C15 | `Tosca.C14_mload` | propext, Classical.choice, Quot.sound |
| C15 | `Tosca.C14_mstore` | propext, Classical.choice, Quot.sound |
| C15 | `Tosca.C14_mstore8` | propext, Classical.choice, Quot.sound |
| C15 | `Tosca.C14_mcopy` | propext, Classical.choice, Quot.sound |
| C16 | `Tosca.C16_execute_static` | propext, Classical.choice, Quot.sound |
| C16 | `Tosca.C16_stepN_static` | propext, Classical.choice, Quot.sound |
| C16 | `Tosca.C16_invariant` | propext, Classical.choice, Quot.sound |
| C16 | `Tosca.C16_modifying_fails` | propext, Classical.choice, Quot.sound |
| C16 | `Tosca.C16_only_static` | propext, Classical.choice, Quot.sound |
| C17 | `Tosca.C17_forwarded` | propext, Quot.sound |
| C17 | `Tosca.C18_call` | propext, Classical.choice, Quot.sound |
| C17 | `Tosca.C19_create` | propext, Classical.choice, Quot.sound |
| C18 | `Tosca.C18_call` | propext, Classical.choice, Quot.sound |
| C19 | `Tosca.C19_create` | propext, Classical.choice, Quot.sound |
| C20 | `Tosca.C20_sstore` | propext, Classical.choice, Quot.sound |
| C21 | `Tosca.C21_returndatacopy` | propext, Classical.choice, Quot.sound |
| C21 | `Tosca.C21_only_returndatacopy` | propext, Classical.choice, Quot.sound |
| C22 | `Tosca.C22_calldataload` | propext, Classical.choice, Quot.sound |
| C22 | `Tosca.C22_calldatacopy` | propext, Classical.choice, Quot.sound |
| C22 | `Tosca.C22_codecopy` | propext, Classical.choice, Quot.sound |
| C22 | `Tosca.C22_extcodecopy` | propext, Classical.choice, Quot.sound |
| C23 | `Tosca.C23_blockhash` | propext, Classical.choice, Quot.sound |
| C23 | `Tosca.C23_blobhash` | propext, Classical.choice, Quot.sound |
| C23 | `Tosca.C23_execute_blocks` | propext, Classical.choice, Quot.sound |
| C24 | `Tosca.C24_compose_running` | propext, Classical.choice, Quot.sound |
| C24 | `Tosca.C24_compose_halted` | propext, Classical.choice, Quot.sound |
| C24 | `Tosca.C24_compose_failed` | propext, Classical.choice, Quot.sound |
| C24 | `Tosca.C24_chunks_agree_with_execute` | propext, Classical.choice, Quot.sound |
| C25 | `Tosca.C25_idle` | propext, Classical.choice, Quot.sound |
| C25 | `Tosca.C25_zero_steps` | propext, Classical.choice, Quot.sound |
| C26 | `Tosca.C26_observers` | propext, Quot.sound |
| C27 | `Tosca.C27_logger` | propext, Classical.choice, Quot.sound |
| C27 | `Tosca.C41_off` | propext, Classical.choice, Quot.sound |
| C28 | `Tosca.C28_refines` | propext, Classical.choice, Quot.sound |
| C28 | `Tosca.C28_value` | propext, Classical.choice, Quot.sound |
| C28 | `Tosca.C28_stores` | propext, Classical.choice, Quot.sound |
| C28 | `Tosca.C28_size` | propext, Classical.choice, Quot.sound |
| C28 | `Tosca.C28_retained` | propext, Classical.choice, Quot.sound |
| C28 | `Tosca.C28_order` | propext, Classical.choice, Quot.sound |
| C28 | `Tosca.C28_capacity_one` | propext |
| C28 | `Tosca.C28_capacity_zero` | (none) |
| C29 | `Tosca.C29_threads` | propext, Classical.choice, Quot.sound |
| C29 | `Tosca.C29_function` | propext, Classical.choice, Quot.sound |
| C29 | `Tosca.C29_progress` | propext, Classical.choice, Quot.sound |
| C30 | `Tosca.C30_sha3` | propext, Classical.choice, Quot.sound |
| C30 | `Tosca.C30_execute` | propext, Classical.choice, Quot.sound |
| C30 | `Tosca.C30_stepN` | propext, Classical.choice, Quot.sound |
| C30 | `Tosca.C30_hash` | propext, Classical.choice, Quot.sound |
| C31 | `Tosca.C31_execute` | propext, Classical.choice, Quot.sound |
| C31 | `Tosca.C31_stepN` | propext, Classical.choice, Quot.sound |
| C31 | `Tosca.C31_off_is_recomputed` | propext, Classical.choice, Quot.sound |
| C31 | `Tosca.C31_execute_uncached` | propext, Quot.sound |
| C31 | `Tosca.C31_stepN_uncached` | propext, Quot.sound |
| C32 | `Tosca.C32_set` | propext, Classical.choice, Quot.sound |
| C32 | `Tosca.C32_invalid_value` | propext, Classical.choice, Quot.sound |
| C32 | `Tosca.C32_invalid_name` | propext |
| C33 | `Tosca.C33_status_codes` | propext, Classical.choice, Quot.sound |
| C33 | `Tosca.C33_failure_codes` | propext |
| C33 | `Tosca.C33_step_status_round_trip` | propext, Classical.choice, Quot.sound |
| C34 | `Tosca.Props.Stacks.C34_storage` | propext, Classical.choice, Quot.sound |
| C34 | `Tosca.Props.Stacks.C34_defined` | propext, Classical.choice, Quot.sound |
| C34 | `Tosca.Props.Stacks.C34_peak` | propext, Classical.choice, Quot.sound |
| C34 | `Tosca.Props.Stacks.C35_independent` | propext, Classical.choice, Quot.sound |
| C35 | `Tosca.Props.Stacks.C35_refines` | propext, Classical.choice, Quot.sound |
| C35 | `Tosca.Props.Stacks.C35_independent` | propext, Classical.choice, Quot.sound |
| C35 | `Tosca.Props.Stacks.C35_copy` | propext, Classical.choice, Quot.sound |
| C35 | `Tosca.Props.Stacks.C35_no_stale_words` | propext, Classical.choice, Quot.sound |
| C36 | `Tosca.C36_round_trip` | propext, Classical.choice, Quot.sound |
| C37 | `Tosca.C37_execute_refund` | propext, Classical.choice, Quot.sound |
| C37 | `Tosca.C37_stepN_refund` | propext, Classical.choice, Quot.sound |
| C38 | `Tosca.C38_stepN_memory` | propext, Classical.choice, Quot.sound |
| C38 | `Tosca.C38_memory_bounded` | propext, Classical.choice, Quot.sound |
| C39 | `Tosca.C39_execute_depth` | propext, Classical.choice, Quot.sound |
| C40 | `Tosca.C40_undefined_iff` | propext, Classical.choice, Quot.sound |
| C40 | `Tosca.C40_invalid_iff` | propext, Classical.choice, Quot.sound |
| C41 | `Tosca.C41_execute` | propext, Classical.choice, Quot.sound |
| C41 | `Tosca.C41_counters` | propext, Classical.choice, Quot.sound |
| C41 | `Tosca.C41_nested_runs` | propext, Classical.choice, Quot.sound |
| C41 | `Tosca.C41_merge` | (none) |
| C41 | `Tosca.C41_reset` | propext, Quot.sound |
| C41 | `Tosca.C41_reset_other` | (none) |
| C41 | `Tosca.C41_dump` | propext, Quot.sound |
| C41 | `Tosca.C41_off` | propext, Classical.choice, Quot.sound |
| C41 | `Tosca.C41_too_deep` | propext, Classical.choice, Quot.sound |
| C42 | `Tosca.C42_rejected` | propext, Classical.choice, Quot.sound |
| C43 | `Tosca.C43_execute_calls` | propext, Classical.choice, Quot.sound |
| C43 | `Tosca.C43_stepN_calls` | propext, Classical.choice, Quot.sound |
| C43 | `Tosca.C43_execute_effect` | propext, Classical.choice, Quot.sound |
| C43 | `Tosca.C43_stepN_effect` | propext, Classical.choice, Quot.sound |
| C44 | `Tosca.C44_environment` | propext, Classical.choice, Quot.sound |
| C44 | `Tosca.C44_pop` | propext, Classical.choice, Quot.sound |
| C44 | `Tosca.C44_jumpdest` | propext, Classical.choice, Quot.sound |
| C44 | `Tosca.C44_stop` | propext, Classical.choice, Quot.sound |
| C44 | `Tosca.C44_dup` | propext, Classical.choice, Quot.sound |
| C44 | `Tosca.C44_swap` | propext, Classical.choice, Quot.sound |
| C45 | `Tosca.C45_account` | propext, Classical.choice, Quot.sound |
| C45 | `Tosca.C45_sload` | propext, Classical.choice, Quot.sound |
| C45 | `Tosca.C45_selfbalance` | propext, Classical.choice, Quot.sound |
| C45 | `Tosca.C45_tload` | propext, Classical.choice, Quot.sound |
| C46 | `Tosca.C46_log` | propext, Classical.choice, Quot.sound |
| C46 | `Tosca.C46_tstore` | propext, Classical.choice, Quot.sound |
| C46 | `Tosca.C46_selfdestruct` | propext, Classical.choice, Quot.sound |
| C47 | `Tosca.C47_closed` | propext, Classical.choice, Quot.sound |
| C47 | `Tosca.C47_closed_unique` | propext, Classical.choice, Quot.sound |
| C47 | `Tosca.C47_host_ok` | propext, Classical.choice, Quot.sound |
| C47 | `Tosca.C47_nested_hosts` | propext, Classical.choice, Quot.sound |
| C47 | `Tosca.C47_levels` | propext, Classical.choice, Quot.sound |
| C47 | `Tosca.C47_nested_complete` | propext, Classical.choice, Quot.sound |
| C47 | `Tosca.C47_execute` | propext, Classical.choice, Quot.sound |
| C48 | `Tosca.C48_static_call` | propext, Classical.choice, Quot.sound |
| C48 | `Tosca.C48_static_tree` | propext, Classical.choice, Quot.sound |
| C49 | `Tosca.C49_results` | propext, Classical.choice, Quot.sound |
| C49 | `Tosca.C49_undefined` | propext, Classical.choice, Quot.sound |
| C49 | `Tosca.C49_vm` | propext, Classical.choice, Quot.sound |
| C49 | `Tosca.C49_conforms` | propext, Classical.choice, Quot.sound |
| C49 | `Tosca.C49_completes` | propext, Classical.choice, Quot.sound |
| C50 | `Tosca.C50_no_dangling` | propext, Classical.choice, Quot.sound |
| C50 | `Tosca.C50_reads_own_analysis` | propext, Classical.choice, Quot.sound |
| C50 | `Tosca.C50_alive_iff_referenced` | propext, Classical.choice, Quot.sound |
| C50 | `Tosca.C50_no_leak` | propext, Classical.choice, Quot.sound |
| C50 | `Tosca.C50_destroy` | propext, Classical.choice, Quot.sound |
| C51 | `Tosca.C51_run` | propext, Classical.choice, Quot.sound |
| C51 | `Tosca.C51_errors` | propext, Classical.choice, Quot.sound |
| C51 | `Tosca.C51_gas` | propext, Classical.choice, Quot.sound |
| C52 | `Tosca.C52_recursion` | propext, Quot.sound |
| C52 | `Tosca.C52_call` | propext, Classical.choice, Quot.sound |
| C52 | `Tosca.C52_call_gas` | propext, Classical.choice, Quot.sound |
| C52 | `Tosca.C52_transaction` | propext, Classical.choice, Quot.sound |
| C52 | `Tosca.C52_errors` | propext, Classical.choice, Quot.sound |
| C53 | `Tosca.C53_add` | propext, Quot.sound |
| C53 | `Tosca.C53_sub` | propext, Quot.sound |
| C53 | `Tosca.C53_cmp` | propext, Classical.choice, Quot.sound |
| C53 | `Tosca.C53_scale` | propext, Quot.sound |
| C53 | `Tosca.C53_newValue` | propext, Classical.choice, Quot.sound |
| C54 | `Tosca.C54_read` | propext, Classical.choice, Quot.sound |
| C54 | `Tosca.C54_round_trip` | propext, Classical.choice, Quot.sound |
| C54 | `Tosca.C54_injective` | propext, Classical.choice, Quot.sound |
| C55 | `Tosca.C55_status` | propext |
| C55 | `Tosca.C55_refund` | propext, Quot.sound |
| C55 | `Tosca.C55_refund_from_original` | propext, Quot.sound |
| C55 | `Tosca.C55_sizeInWords` | propext, Quot.sound |
| C56 | `Tosca.C56_intrinsic` | propext, Classical.choice, Quot.sound |
| C57 | `Tosca.C57_receipt` | propext, Classical.choice, Quot.sound |
| C57 | `Tosca.C57_bounds` | propext, Classical.choice, Quot.sound |
| C57 | `Tosca.C57_minimum` | propext, Classical.choice, Quot.sound |
| C57 | `Tosca.C57_exceeds` | propext, Classical.choice, Quot.sound |
| C58 | `Tosca.C58_call` | propext, Classical.choice, Quot.sound |
| C58 | `Tosca.C58_create` | propext, Classical.choice, Quot.sound |
| C58 | `Tosca.C58_others` | propext, Classical.choice, Quot.sound |
| C59 | `Tosca.C59_call` | propext, Classical.choice, Quot.sound |
| C59 | `Tosca.C59_transaction` | propext, Classical.choice, Quot.sound |
| C59 | `Tosca.C59_exact` | propext, Classical.choice, Quot.sound |
| C59 | `Tosca.C59_minted` | propext, Classical.choice, Quot.sound |
| C60 | `Tosca.C60_call` | propext, Quot.sound |
| C60 | `Tosca.C60_create` | propext, Quot.sound |
| C60 | `Tosca.C60_stays` | propext, Classical.choice, Quot.sound |
| C61 | `Tosca.C61_static` | propext, Classical.choice, Quot.sound |
| C62 | `Tosca.C62_payment` | propext, Classical.choice, Quot.sound |
| C63 | `Tosca.C63_driver` | propext, Classical.choice, Quot.sound |
| C63 | `Tosca.C63_others` | propext, Classical.choice, Quot.sound |
| C64 | `Tosca.C64_precompiled` | propext, Classical.choice, Quot.sound |
| C64 | `Tosca.C64_wraps` | propext, Classical.choice, Quot.sound |
| C65 | `Tosca.C65_run` | propext, Classical.choice, Quot.sound |
| C66 | `Tosca.C66_total` | propext, Classical.choice, Quot.sound |
| C66 | `Tosca.C66_limit` | propext, Classical.choice, Quot.sound |
| C67 | `Tosca.C67_convert` | propext, Classical.choice, Quot.sound |
| C68 | `Tosca.C68_shared` | propext, Classical.choice, Quot.sound |
| C69 | `Tosca.C69_call` | propext, Classical.choice, Quot.sound |
| C69 | `Tosca.C69_transaction` | propext, Classical.choice, Quot.sound |
| C70 | `Tosca.C70_cache` | propext, Classical.choice, Quot.sound |
| C70 | `Tosca.C70_threads` | propext, Classical.choice, Quot.sound |
| C70 | `Tosca.C70_race` | (none) |
| C70 | `Tosca.C70_sha3` | propext, Classical.choice, Quot.sound |
| C71 | `Tosca.C71_convert` | propext, Classical.choice, Quot.sound |
| C71 | `Tosca.C71_found` | propext, Classical.choice, Quot.sound |
| C72 | `Tosca.C72_keccak256` | propext, Classical.choice, Quot.sound |
| C72 | `Tosca.C72_keccak32` | propext, Classical.choice, Quot.sound |
| C72 | `Tosca.C72_go` | propext, Classical.choice, Quot.sound |
| C72 | `Tosca.C72_length` | propext, Classical.choice, Quot.sound |
| C72 | `Tosca.C72_sha3` | propext, Classical.choice, Quot.sound |
| C73 | `Tosca.C73_run` | propext, Classical.choice, Quot.sound |
| C73 | `Tosca.C73_free` | propext, Classical.choice, Quot.sound |
| C73 | `Tosca.C73_shared` | propext, Classical.choice, Quot.sound |
| C73 | `Tosca.C73_same` | propext, Classical.choice, Quot.sound |
| C73 | `Tosca.C73_wide` | propext, Classical.choice, Quot.sound |
| C73 | `Tosca.C73_negative` | propext, Classical.choice, Quot.sound |
| C74 | `Tosca.C74_step` | propext, Classical.choice, Quot.sound |
| C74 | `Tosca.C74_steps` | propext, Classical.choice, Quot.sound |
| C74 | `Tosca.C74_walk` | propext, Classical.choice, Quot.sound |
| C74 | `Tosca.C74_unchanged` | propext, Quot.sound |
| C74 | `Tosca.C74_pcmap` | propext, Classical.choice, Quot.sound |
| C75 | `Tosca.C75_rules` | propext, Classical.choice, Quot.sound |
| C75 | `Tosca.C75_agree` | propext, Classical.choice, Quot.sound |
| C75 | `Tosca.C75_complete` | propext, Classical.choice, Quot.sound |
| C75 | `Tosca.C75_lfvm` | propext, Classical.choice, Quot.sound |
| C75 | `Tosca.C75_lookup` | propext, Classical.choice, Quot.sound |
| C76 | `Tosca.C76_stepN` | propext, Classical.choice, Quot.sound |
| C76 | `Tosca.C76_expected` | propext, Classical.choice, Quot.sound |
| C76 | `Tosca.C76_rules` | propext, Classical.choice, Quot.sound |
| C76 | `Tosca.C76_lfvm` | propext, Classical.choice, Quot.sound |
| C76 | `Tosca.C76_idle` | propext, Quot.sound |
| C77 | `Tosca.C77_range_domain` | propext, Classical.choice, Quot.sound |
| C77 | `Tosca.C77_range_generate` | propext, Classical.choice, Quot.sound |
| C77 | `Tosca.C77_interval_domain` | propext, Classical.choice, Quot.sound |
| C77 | `Tosca.C77_interval_equals` | propext, Classical.choice, Quot.sound |
| C77 | `Tosca.C77_interval_generate` | propext, Classical.choice, Quot.sound |
| C77 | `Tosca.C77_narrow` | propext, Quot.sound |
| C78 | `Tosca.C78_state_cancun` | propext, Quot.sound |
| C78 | `Tosca.C78_state_before` | propext, Quot.sound |
| C78 | `Tosca.C78_credited_twice` | propext, Quot.sound |
| C78 | `Tosca.C78_setBalance` | propext, Classical.choice, Quot.sound |
| C78 | `Tosca.C78_evmzero` | propext, Classical.choice, Quot.sound |
| C78 | `Tosca.C78_lfvm` | propext, Classical.choice, Quot.sound |
| C78 | `Tosca.C78_readonly` | propext, Quot.sound |
| C78 | `Tosca.C78_readonly_lost` | propext, Quot.sound |
| C78 | `Tosca.C78_roundtrip` | propext, Quot.sound |
| C78 | `Tosca.C78_refund` | propext, Quot.sound |
| C78 | `Tosca.C78_refund_revert` | propext, Quot.sound |
| C78 | `Tosca.C78_request` | propext |
| C78 | `Tosca.C78_answer` | propext, Quot.sound |
| C79 | `Tosca.C79_intrinsic` | propext, Classical.choice, Quot.sound |
| C79 | `Tosca.C79_receipt` | propext, Classical.choice, Quot.sound |
| C79 | `Tosca.C79_bounds` | propext, Classical.choice, Quot.sound |
| C79 | `Tosca.C79_minimum` | propext, Classical.choice, Quot.sound |
| C79 | `Tosca.C79_floria` | propext, Classical.choice, Quot.sound |
| C79 | `Tosca.C79_state` | propext, Classical.choice, Quot.sound |
| C79 | `Tosca.C79_state_others` | propext |
| C79 | `Tosca.C79_state_floria` | propext, Classical.choice, Quot.sound |
| C80 | `Tosca.C80_code` | propext, Classical.choice, Quot.sound |
| C80 | `Tosca.C80_storage` | propext, Classical.choice, Quot.sound |
| C80 | `Tosca.C80_transient` | propext, Classical.choice, Quot.sound |
| C80 | `Tosca.C80_stack` | propext, Classical.choice, Quot.sound |
| C80 | `Tosca.C80_selfdestruct` | (none) |
| C81 | `Tosca.C81_accounts` | propext, Classical.choice, Quot.sound |
| C81 | `Tosca.C81_accounts_conflict` | propext, Classical.choice, Quot.sound |
| C82 | `Tosca.C82_block` | propext, Classical.choice, Quot.sound |
| C82 | `Tosca.C82_block_meets` | propext, Classical.choice, Quot.sound |
| C82 | `Tosca.C82_revisions` | propext, Classical.choice, Quot.sound |
| C82 | `Tosca.C82_early` | propext, Classical.choice, Quot.sound |
| C82 | `Tosca.C82_blobs` | propext, Classical.choice, Quot.sound |
| C82 | `Tosca.C82_blobs_complete` | propext, Classical.choice, Quot.sound |
| C82 | `Tosca.C82_blobs_tie` | propext, Classical.choice, Quot.sound |
| C83 | `Tosca.C83_eq` | propext, Quot.sound |
| C83 | `Tosca.C83_equivalence` | propext, Quot.sound |
| C83 | `Tosca.C83_diff` | propext, Classical.choice, Quot.sound |
| C83 | `Tosca.C83_explained` | propext, Classical.choice, Quot.sound |
| C83 | `Tosca.C83_sound` | propext, Classical.choice, Quot.sound |
| C83 | `Tosca.C83_same` | propext, Quot.sound |
| C83 | `Tosca.C83_original_zero` | propext, Classical.choice, Quot.sound |
| C83 | `Tosca.C83_long_code` | propext, Classical.choice, Quot.sound |
| C84 | `Tosca.C84_round_trip` | propext, Classical.choice, Quot.sound |
| C84 | `Tosca.C84_equal` | propext, Classical.choice, Quot.sound |
| C84 | `Tosca.C84_injective` | propext, Classical.choice, Quot.sound |
| C84 | `Tosca.C84_texts` | propext, Classical.choice, Quot.sound |
| C84 | `Tosca.C84_negative` | propext, Classical.choice, Quot.sound |
| C85 | `Tosca.C85_execution` | propext, Classical.choice, Quot.sound |
| C85 | `Tosca.C85_log` | propext, Classical.choice, Quot.sound |
| C85 | `Tosca.C85_writer` | propext, Classical.choice, Quot.sound |
| C85 | `Tosca.C85_refused` | propext, Classical.choice, Quot.sound |
| C85 | `Tosca.C85_quiet` | propext, Quot.sound |
| C85 | `Tosca.C85_result` | propext, Classical.choice, Quot.sound |
| C85 | `Tosca.C85_statistics` | propext, Classical.choice, Quot.sound |
| C85 | `Tosca.C85_counted` | propext, Classical.choice, Quot.sound |
| C85 | `Tosca.C85_program` | propext, Classical.choice, Quot.sound |
| C85 | `Tosca.C85_keys` | propext, Classical.choice, Quot.sound |
| C85 | `Tosca.C85_ranking` | propext, Classical.choice, Quot.sound |
| C86 | `Tosca.C86_lookup` | propext, Quot.sound |
| C86 | `Tosca.C86_answer` | propext, Quot.sound |
| C86 | `Tosca.C86_stays` | propext, Quot.sound |
| C86 | `Tosca.C86_all` | propext, Quot.sound |
| C86 | `Tosca.C86_new` | propext, Classical.choice, Quot.sound |
| C86 | `Tosca.C86_instance` | propext, Classical.choice, Quot.sound |
| C86 | `Tosca.C86_names` | propext |
| C86 | `Tosca.C86_experimental` | propext, Quot.sound |
| C86 | `Tosca.C86_twice` | propext, Quot.sound |

# Axioms of the property theorems

Written by `tools/axioms.py` from Lean's `#print axioms`. All names are in `M68k.Props`.

## none

6 theorems: C26_frame, C37_opcodeMap_refuted, C38_state, C42_callbacks, C65_number, C90_get_next_word

## propext

5 theorems: C17_postinc, C17_predec, C22_state, C30_wake, C50_string_zero

## propext, Classical.choice, Quot.sound

570 theorems: C01_word_round_trip, C01_mask, C01_and, C01_or, C01_xor, C02_cmp, C02_cmpi, C02_cmpa, C02_cmpm, C03_add_to_register, C03_add_to_operand, C03_add_operand_error, C03_addi, C03_addi_operand_error, C03_addq, C03_addq_address, C03_adda, C04_sub_to_register, C04_sub_to_operand, C04_sub_operand_error, C04_subi, C04_subi_operand_error, C04_subq, C04_subq_address, C04_suba, C04_neg, C04_neg_operand_error, C05_addx, C05_subx, C05_negx, C05_addx_chain, C05_subx_chain, C05_negx_chain, C05_addx_memory, C05_subx_memory, C06_abcd, C06_sbcd, C06_nbcd, C06_abcd_chain, C06_sbcd_chain, C06_nbcd_chain, C06_abcd_memory, C06_sbcd_memory, C07_mulu, C07_muls, C07_operand_error, C08_by_zero, C08_divu, C08_divu_overflow, C08_divs_partial, C08_divs_overflow, C08_operand_error, C09_and_to_register, C09_and_to_operand, C09_and_operand_error, C09_or_to_register, C09_or_to_operand, C09_or_operand_error, C09_andi, C09_andi_operand_error, C09_ori, C09_ori_operand_error, C09_eori, C09_eori_operand_error, C09_eor, C09_not, C10_lsl, C10_lsr, C10_asl, C10_asr, C10_lsl_memory, C10_lsr_memory, C10_asl_memory, C10_asr_memory, C10_operand_error, C11_rol, C11_ror, C11_roxl, C11_roxr, C11_rol_memory, C11_ror_memory, C11_roxl_memory, C11_roxr_memory, C11_operand_error, C11_register_restored, C12_register, C12_memory, C12_btst_memory, C12_operand_error, C13_exg_data, C13_exg_address, C13_exg_data_address, C13_exg_twice, C13_swap, C13_swap_twice, C13_moveq, C13_ext_long, C13_ext_word_partial, C14_registers, C14_byte, C14_word, C14_unnamed, C14_movea, C15_register, C15_memory, C15_completes, C15_odd, C15_readBack, C16_postincrement, C16_predecrement, C16_move, C16_pair, C16_cmpm, C16_pushPop, C17_lea, C17_jmp, C17_pea, C18_store, C18_storePredecrement, C18_load, C18_loadPostincrement, C18_saveRestore, C18_saveRestore_control, C18_store_completes, C18_storePredecrement_completes, C18_load_completes, C18_odd, C19_store, C19_store_completes, C19_load, C19_roundTrip, C20_link, C20_link_completes, C20_unlk, C20_linkUnlk, C21_bsr, C21_jsr, C21_jsr_address, C21_call_completes, C21_rts, C21_return, C22_bcc_short, C22_bcc_word, C22_bra_short, C22_bra_word, C22_bsr_short, C22_bsr_word, C22_bsr_fails, C23_condition, C23_branch, C23_expired, C23_turns, C23_loop, C24_traps, C24_always, C24_opcodes, C25_step_partial, C25_sequence_partial, C26_entry, C26_entered, C26_oddStack, C27_resume, C27_resumeTime, C28_levels, C28_iff, C28_kept, C28_waits, C29_ordered, C29_request_partial, C29_dropped, C29_processed, C30_stop, C30_user, C31_new, C31_discards, C31_requested, C32_trace, C32_privileged, C32_exception, C32_untraced, C32_interpreter, C33_odd_accesses_irrelevant, C33_recording_transparent, C33_call_aligned, C33_runs_aligned, C33_odd_pc, C33_odd_operand, C33_odd_source, C33_odd_destination, C33_odd_movesr, C33_odd_pair, C33_odd_stack, C33_odd_unlk, C34_call, C34_call_back, C34_panic, C34_accessError, C34_address, C34_runs, C35_overshoot, C35_fetch, C35_fetch_odd, C36_cycleUntilException, C36_cycle_refuted, C36_held_refuted, C36_cycle_partial, C37_opcodeMap_partial, C37_differences, C37_generator, C38_unimplemented_partial, C38_illegal, C38_misfits_execute, C39_add, C39_sub, C39_and, C39_or, C39_cmp, C39_eor, C39_adda_partial, C39_suba_partial, C39_cmpa_partial, C39_addi, C39_andi, C39_cmpi, C39_eori, C39_ori, C39_subi, C39_addq, C39_subq, C39_asm, C39_lsm, C39_roxm, C39_rom, C39_bchgDynamic, C39_bchgStatic, C39_bclrDynamic, C39_bclrStatic, C39_bsetDynamic, C39_bsetStatic, C39_btstDynamic, C39_btstStatic_partial, C39_chk, C39_divs, C39_divu, C39_muls, C39_mulu, C39_lea, C39_clr, C39_neg, C39_negx, C39_not, C39_tst, C39_jmp, C39_jsr, C39_pea, C39_moveccr, C39_movesr, C39_movefsr, C39_nbcd, C39_tas, C39_abcd, C39_sbcd, C39_addx, C39_subx, C39_cmpm, C39_asr, C39_lsr, C39_roxr, C39_ror, C39_illegal, C39_nop, C39_reset, C39_rte, C39_rtr, C39_rts, C39_trapv, C39_andisr, C39_eorisr, C39_orisr, C39_stop, C39_andiccr, C39_eoriccr, C39_oriccr, C39_swap, C39_unlk, C39_ext, C39_exg, C39_moveusp, C39_trap, C39_moveq, C39_link, C39_dbcc, C39_movep, C39_bra, C39_bsr, C39_bcc, C39_scc, C39_movem, C39_move_partial, C39_movea_partial, C40_length, C40_misfit, C40_branch, C40_decoder, C40_decoder_next, C40_decodes, C40_decoder_misfit, C41_registers, C41_accesses, C41_reads, C41_compare, C41_unchanged, C42_noPanic, C42_misfit, C42_extensionWord, C42_words, C42_bytes, C42_total, C42_total_interpreter, C42_total_disassembler, C42_total_cycle, C42_total_cycleUntilException, C42_total_loopUntilExceptionStop, C43_bytes_read, C43_words_read, C43_refs_read, C43_bytes_write, C43_words_write, C43_read_refused, C43_same_execution, C45_assemble, C45_assembleMoveDst, C46_instruction, C46_call, C46_runs, C47_andi_ccr, C47_ori_ccr_partial, C47_eori_ccr_partial, C47_move_ccr, C47_andi_sr, C47_ori_sr, C47_eori_sr, C47_move_sr, C47_move_from_sr, C47_move_from_sr_dn, C47_rtr, C48_tas, C48_scc, C48_scc_dn, C48_clr, C48_clr_fails, C48_clr_dn, C48_tst, C48_chk_outside, C48_chk_inside, C48_operand_error, C49_trap, C49_trapv_set, C49_trapv_clear, C50_read, C50_read_fails, C50_write, C50_write_fails, C50_opcode, C50_exceptionField, C50_peek, C50_nextWord, C50_nextWord_odd, C51_raised, C52_usp_to_register, C52_register_to_usp, C52_usp_kept, C53_nop, C53_reset, C54_reads_back, C54_map, C54_unknown, C54_injective, C54_forms, C54_printable, C54_total, C54_formats, C54_interpreter, C54_executed, C54_c_string, C54_c_interpreter, C55_writes, C55_unchanged, C56_accesses, C56_completed, C56_privileged, C57_cycles, C57_completed, C57_rte, C57_same, C57_trace, C58_instruction, C58_call, C58_continues, C58_runs, C59_others, C59_new, C59_registers, C59_independent, C59_delete, C60_consecutive, C60_slices, C61_program, C61_instructions, C61_text, C61_odd, C61_missing, C61_errors, C61_next, C62_operands, C62_decoded, C62_misfit, C62_words, C62_listing, C63_reassemble, C63_same, C63_decodes, C63_misfit, C63_program, C64_raised_partial, C64_trap_partial, C64_return, C64_lost_refuted, C65_listing_partial, C65_empty, C65_program, C65_output, C65_standard_output, C65_files, C65_truncated_refuted, C65_huge_refuted, C65_overwrite_refuted, C66_boot, C66_runs, C66_main, C67_panics, C67_quiet, C67_interpreter, C68_call, C68_interpreter, C68_cycle, C68_cycleUntilException, C68_loopUntilExceptionStop, C68_memory, C68_memory_cycle, C68_longer, C69_turns, C69_copy, C70_readsBack, C70_generated, C70_panics, C70_shortWrite_refuted, C71_masked, C71_served, C71_interlude, C71_transparent, C71_tick_service, C71_timer, C72_addx, C72_subx, C72_abcd, C72_sbcd, C73_delay_times, C73_delay, C73_copy_times, C73_copy, C74_call, C74_interpreter, C74_cycle_total, C74_cycle, C74_cycleUntilException_total, C74_cycleUntilException, C74_loopUntilExceptionStop, C74_cycle_returns, C75_kept, C75_return, C75_recursion, C76_left, C76_misfit, C76_pc, C76_registers, C76_memory, C77_write, C77_stays_inside_partial, C77_as_slice_partial, C77_cycle_as_slice_partial, C78_register, C78_register_twice, C78_memory, C78_memory_twice, C78_to_register, C78_quick_address, C78_address, C79_call, C79_interpreter, C79_instruction, C79_run, C79_kept, C79_agree, C80_mask, C80_word, C80_pending, C80_user, C81_execute_partial, C81_btst_refuted, C81_immediate, C81_line_partial, C81_program_partial, C82_same, C83_gcd, C83_copy, C84_lock, C84_progress, C85_alone, C85_order, C86_call, C86_run, C86_ordered, C86_session, C86_session_noReset, C86_session_after, C87_ends, C87_forever, C87_iff, C88_ends, C88_forever, C88_determined, C88_iff, C89_program, C89_ends, C89_forever, C89_timer, C90_bit, C90_bits_partial, C90_i32_be_sized, C90_signed_add, C90_signed_sub, C91_times_partial, C91_excess, C91_trap, C91_exception_partial, C91_interrupt, C91_reset, C92_interpreter, C92_exception, C92_ffi, C93_time, C93_host, C93_addUp, C93_cycle, C93_slices, C93_interrupted, C93_procedures, C93_proceduresHost, C93_proceduresCycle, C93_addDown, C94_served, C94_interlude, C94_transparent, C94_compiled, C94_timer, C95_time, C95_host, C96_program, C96_clock

## propext, Quot.sound

99 theorems: C01_value, C01_sr_round_trip, C08_divs_refuted, C11_rol_undoes_ror, C11_ror_undoes_rol, C12_bchg_twice, C13_ext_word_refuted, C17_operand, C17_destination, C17_total, C21_jsr_stackPointer, C24_state, C25_refuted, C27_longFrames_refuted, C28_userVectors, C29_nothingLost_refuted, C30_call, C30_asleep, C30_maskedWakes, C31_lost, C34_unreadable_refuted, C35_cycle, C35_cycleUntilException, C35_loopUntilExceptionStop, C35_interpreter, C35_fetch_refuted, C37_complete, C38_refuted, C39_btstStatic_refuted, C39_register_refuted, C39_truncated, C40_bounded, C42_fullRam, C42_missing_refuted, C43_bytes_refused, C43_words_refused, C43_write_refused_partial, C43_readonly, C43_odd_length_refuted, C43_long_write_refuted, C44_get, C44_get_first_fails, C44_get_second_fails, C44_set, C44_set_fails, C45_brief, C45_brief_rejects, C45_brief_injective, C45_moveDst_accepts, C45_field, C47_ori_ccr_refuted, C47_eori_ccr_refuted, C49_trap_opcodes, C50_string, C50_string_fits, C57_trace_shift, C58_fault, C60_overshoot, C60_carry_refuted, C61_documented_refuted, C63_exact_refuted, C66_ram, C68_fence_needed, C73_cycle, C73_cycleUntilException, C77_read, C77_refused, C77_slice, C77_read_refuted, C77_write_refuted, C80_cycle, C80_cycleUntilException, C80_loopUntilExceptionStop, C80_hostMask_refuted, C82_differences, C82_oversized, C87_assembles, C88_assembles, C90_bit_panics, C90_model, C90_bits_refuted, C90_even, C90_u32_be, C90_unsigned_add, C90_unsigned_sub, C90_chain_add, C90_chain_sub, C91_refuted, C91_trap_refuted, C92_loops, C92_setup, C93_meaning, C93_unique, C93_straight, C93_proceduresMeaning, C93_proceduresUnique, C94_run, C95_source, C95_needed

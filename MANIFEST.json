{
 "claims": [
  {
   "property": "C01",
   "status": "proved",
   "theorems": [
    "M68k.Props.C01_value",
    "M68k.Props.C01_word_round_trip",
    "M68k.Props.C01_sr_round_trip",
    "M68k.Props.C01_mask",
    "M68k.Props.C01_and",
    "M68k.Props.C01_or",
    "M68k.Props.C01_xor"
   ],
   "note": ""
  },
  {
   "property": "C02",
   "status": "proved",
   "theorems": [
    "M68k.Props.C02_cmp",
    "M68k.Props.C02_cmpi",
    "M68k.Props.C02_cmpa",
    "M68k.Props.C02_cmpm"
   ],
   "note": ""
  },
  {
   "property": "C03",
   "status": "proved",
   "theorems": [
    "M68k.Props.C03_add_to_register",
    "M68k.Props.C03_add_to_operand",
    "M68k.Props.C03_add_operand_error",
    "M68k.Props.C03_addi",
    "M68k.Props.C03_addi_operand_error",
    "M68k.Props.C03_addq",
    "M68k.Props.C03_addq_address",
    "M68k.Props.C03_adda"
   ],
   "note": ""
  },
  {
   "property": "C04",
   "status": "proved",
   "theorems": [
    "M68k.Props.C04_sub_to_register",
    "M68k.Props.C04_sub_to_operand",
    "M68k.Props.C04_sub_operand_error",
    "M68k.Props.C04_subi",
    "M68k.Props.C04_subi_operand_error",
    "M68k.Props.C04_subq",
    "M68k.Props.C04_subq_address",
    "M68k.Props.C04_suba",
    "M68k.Props.C04_neg",
    "M68k.Props.C04_neg_operand_error"
   ],
   "note": ""
  },
  {
   "property": "C05",
   "status": "proved",
   "theorems": [
    "M68k.Props.C05_addx",
    "M68k.Props.C05_subx",
    "M68k.Props.C05_negx",
    "M68k.Props.C05_addx_chain",
    "M68k.Props.C05_subx_chain",
    "M68k.Props.C05_negx_chain",
    "M68k.Props.C05_addx_memory",
    "M68k.Props.C05_subx_memory"
   ],
   "note": ""
  },
  {
   "property": "C06",
   "status": "proved",
   "theorems": [
    "M68k.Props.C06_abcd",
    "M68k.Props.C06_sbcd",
    "M68k.Props.C06_nbcd",
    "M68k.Props.C06_abcd_chain",
    "M68k.Props.C06_sbcd_chain",
    "M68k.Props.C06_nbcd_chain",
    "M68k.Props.C06_abcd_memory",
    "M68k.Props.C06_sbcd_memory"
   ],
   "note": ""
  },
  {
   "property": "C07",
   "status": "proved",
   "theorems": [
    "M68k.Props.C07_mulu",
    "M68k.Props.C07_muls",
    "M68k.Props.C07_operand_error"
   ],
   "note": ""
  },
  {
   "property": "C08",
   "status": "partial",
   "theorems": [
    "M68k.Props.C08_by_zero",
    "M68k.Props.C08_divu",
    "M68k.Props.C08_divu_overflow",
    "M68k.Props.C08_divs_partial",
    "M68k.Props.C08_divs_overflow",
    "M68k.Props.C08_divs_refuted",
    "M68k.Props.C08_operand_error"
   ],
   "note": "DIVS with quotient -32768 is taken as an overflow by the code; refuted by C08_divs_refuted, the rest is proved"
  },
  {
   "property": "C09",
   "status": "proved",
   "theorems": [
    "M68k.Props.C09_and_to_register",
    "M68k.Props.C09_and_to_operand",
    "M68k.Props.C09_and_operand_error",
    "M68k.Props.C09_or_to_register",
    "M68k.Props.C09_or_to_operand",
    "M68k.Props.C09_or_operand_error",
    "M68k.Props.C09_andi",
    "M68k.Props.C09_andi_operand_error",
    "M68k.Props.C09_ori",
    "M68k.Props.C09_ori_operand_error",
    "M68k.Props.C09_eori",
    "M68k.Props.C09_eori_operand_error",
    "M68k.Props.C09_eor",
    "M68k.Props.C09_not"
   ],
   "note": ""
  },
  {
   "property": "C10",
   "status": "proved",
   "theorems": [
    "M68k.Props.C10_lsl",
    "M68k.Props.C10_lsr",
    "M68k.Props.C10_asl",
    "M68k.Props.C10_asr",
    "M68k.Props.C10_lsl_memory",
    "M68k.Props.C10_lsr_memory",
    "M68k.Props.C10_asl_memory",
    "M68k.Props.C10_asr_memory",
    "M68k.Props.C10_operand_error"
   ],
   "note": ""
  },
  {
   "property": "C11",
   "status": "proved",
   "theorems": [
    "M68k.Props.C11_rol",
    "M68k.Props.C11_ror",
    "M68k.Props.C11_roxl",
    "M68k.Props.C11_roxr",
    "M68k.Props.C11_rol_memory",
    "M68k.Props.C11_ror_memory",
    "M68k.Props.C11_roxl_memory",
    "M68k.Props.C11_roxr_memory",
    "M68k.Props.C11_operand_error",
    "M68k.Props.C11_rol_undoes_ror",
    "M68k.Props.C11_ror_undoes_rol",
    "M68k.Props.C11_register_restored"
   ],
   "note": ""
  },
  {
   "property": "C12",
   "status": "proved",
   "theorems": [
    "M68k.Props.C12_register",
    "M68k.Props.C12_memory",
    "M68k.Props.C12_btst_memory",
    "M68k.Props.C12_operand_error",
    "M68k.Props.C12_bchg_twice"
   ],
   "note": ""
  },
  {
   "property": "C13",
   "status": "partial",
   "theorems": [
    "M68k.Props.C13_exg_data",
    "M68k.Props.C13_exg_address",
    "M68k.Props.C13_exg_data_address",
    "M68k.Props.C13_exg_twice",
    "M68k.Props.C13_swap",
    "M68k.Props.C13_swap_twice",
    "M68k.Props.C13_moveq",
    "M68k.Props.C13_ext_long",
    "M68k.Props.C13_ext_word_partial",
    "M68k.Props.C13_ext_word_refuted"
   ],
   "note": "EXT.W takes its flags from all 32 bits of the register; refuted by C13_ext_word_refuted, the rest is proved"
  },
  {
   "property": "C14",
   "status": "proved",
   "theorems": [
    "M68k.Props.C14_registers",
    "M68k.Props.C14_byte",
    "M68k.Props.C14_word",
    "M68k.Props.C14_unnamed",
    "M68k.Props.C14_movea"
   ],
   "note": ""
  },
  {
   "property": "C15",
   "status": "proved",
   "theorems": [
    "M68k.Props.C15_register",
    "M68k.Props.C15_memory",
    "M68k.Props.C15_completes",
    "M68k.Props.C15_odd",
    "M68k.Props.C15_readBack"
   ],
   "note": ""
  },
  {
   "property": "C16",
   "status": "proved",
   "theorems": [
    "M68k.Props.C16_postincrement",
    "M68k.Props.C16_predecrement",
    "M68k.Props.C16_move",
    "M68k.Props.C16_pair",
    "M68k.Props.C16_cmpm",
    "M68k.Props.C16_pushPop"
   ],
   "note": ""
  },
  {
   "property": "C17",
   "status": "proved",
   "theorems": [
    "M68k.Props.C17_lea",
    "M68k.Props.C17_jmp",
    "M68k.Props.C17_pea",
    "M68k.Props.C17_operand",
    "M68k.Props.C17_destination",
    "M68k.Props.C17_postinc",
    "M68k.Props.C17_predec",
    "M68k.Props.C17_total"
   ],
   "note": ""
  },
  {
   "property": "C18",
   "status": "proved",
   "theorems": [
    "M68k.Props.C18_store",
    "M68k.Props.C18_storePredecrement",
    "M68k.Props.C18_load",
    "M68k.Props.C18_loadPostincrement",
    "M68k.Props.C18_saveRestore",
    "M68k.Props.C18_saveRestore_control",
    "M68k.Props.C18_store_completes",
    "M68k.Props.C18_storePredecrement_completes",
    "M68k.Props.C18_load_completes",
    "M68k.Props.C18_odd"
   ],
   "note": ""
  },
  {
   "property": "C19",
   "status": "proved",
   "theorems": [
    "M68k.Props.C19_store",
    "M68k.Props.C19_store_completes",
    "M68k.Props.C19_load",
    "M68k.Props.C19_roundTrip"
   ],
   "note": ""
  },
  {
   "property": "C20",
   "status": "proved",
   "theorems": [
    "M68k.Props.C20_link",
    "M68k.Props.C20_link_completes",
    "M68k.Props.C20_unlk",
    "M68k.Props.C20_linkUnlk"
   ],
   "note": ""
  },
  {
   "property": "C21",
   "status": "proved",
   "theorems": [
    "M68k.Props.C21_bsr",
    "M68k.Props.C21_jsr",
    "M68k.Props.C21_jsr_address",
    "M68k.Props.C21_jsr_stackPointer",
    "M68k.Props.C21_call_completes",
    "M68k.Props.C21_rts",
    "M68k.Props.C21_return"
   ],
   "note": ""
  },
  {
   "property": "C22",
   "status": "proved",
   "theorems": [
    "M68k.Props.C22_bcc_short",
    "M68k.Props.C22_bcc_word",
    "M68k.Props.C22_bra_short",
    "M68k.Props.C22_bra_word",
    "M68k.Props.C22_bsr_short",
    "M68k.Props.C22_bsr_word",
    "M68k.Props.C22_bsr_fails",
    "M68k.Props.C22_state"
   ],
   "note": ""
  },
  {
   "property": "C23",
   "status": "proved",
   "theorems": [
    "M68k.Props.C23_condition",
    "M68k.Props.C23_branch",
    "M68k.Props.C23_expired",
    "M68k.Props.C23_turns",
    "M68k.Props.C23_loop"
   ],
   "note": ""
  },
  {
   "property": "C24",
   "status": "proved",
   "theorems": [
    "M68k.Props.C24_traps",
    "M68k.Props.C24_state",
    "M68k.Props.C24_always",
    "M68k.Props.C24_opcodes"
   ],
   "note": ""
  },
  {
   "property": "C25",
   "status": "partial",
   "theorems": [
    "M68k.Props.C25_step_partial",
    "M68k.Props.C25_sequence_partial",
    "M68k.Props.C25_refuted"
   ],
   "note": "ORI and EORI to CCR change the whole status register in the code; refuted by C25_refuted. The partial theorems require the immediate words of ORI/EORI to CCR to have a clear high byte"
  },
  {
   "property": "C26",
   "status": "proved",
   "theorems": [
    "M68k.Props.C26_entry",
    "M68k.Props.C26_frame",
    "M68k.Props.C26_entered",
    "M68k.Props.C26_oddStack"
   ],
   "note": ""
  },
  {
   "property": "C27",
   "status": "proved",
   "theorems": [
    "M68k.Props.C27_resume",
    "M68k.Props.C27_resumeTime",
    "M68k.Props.C27_longFrames_refuted"
   ],
   "note": "For the short frame of every exception. A handler of the longer MC68000 access and address error frames must take the 8 additional bytes off first, as the CPU manual says; C27_longFrames_refuted shows that it has to."
  },
  {
   "property": "C28",
   "status": "proved",
   "theorems": [
    "M68k.Props.C28_levels",
    "M68k.Props.C28_iff",
    "M68k.Props.C28_kept",
    "M68k.Props.C28_waits",
    "M68k.Props.C28_userVectors"
   ],
   "note": ""
  },
  {
   "property": "C29",
   "status": "partial",
   "theorems": [
    "M68k.Props.C29_ordered",
    "M68k.Props.C29_request_partial",
    "M68k.Props.C29_dropped",
    "M68k.Props.C29_nothingLost_refuted",
    "M68k.Props.C29_processed"
   ],
   "note": "Order and processing are proved for every history. The pending set has one entry per priority, so a request with the priority of a pending one is dropped (C29_dropped, C29_nothingLost_refuted); C29_request_partial says exactly when a request is kept."
  },
  {
   "property": "C30",
   "status": "proved",
   "theorems": [
    "M68k.Props.C30_stop",
    "M68k.Props.C30_user",
    "M68k.Props.C30_call",
    "M68k.Props.C30_wake",
    "M68k.Props.C30_asleep",
    "M68k.Props.C30_maskedWakes"
   ],
   "note": ""
  },
  {
   "property": "C31",
   "status": "proved",
   "theorems": [
    "M68k.Props.C31_new",
    "M68k.Props.C31_discards",
    "M68k.Props.C31_requested",
    "M68k.Props.C31_lost"
   ],
   "note": ""
  },
  {
   "property": "C32",
   "status": "proved",
   "theorems": [
    "M68k.Props.C32_trace",
    "M68k.Props.C32_privileged",
    "M68k.Props.C32_exception",
    "M68k.Props.C32_untraced",
    "M68k.Props.C32_interpreter"
   ],
   "note": ""
  },
  {
   "property": "C33",
   "status": "proved",
   "theorems": [
    "M68k.Props.C33_odd_accesses_irrelevant",
    "M68k.Props.C33_recording_transparent",
    "M68k.Props.C33_call_aligned",
    "M68k.Props.C33_runs_aligned",
    "M68k.Props.C33_odd_pc",
    "M68k.Props.C33_odd_operand",
    "M68k.Props.C33_odd_source",
    "M68k.Props.C33_odd_destination",
    "M68k.Props.C33_odd_movesr",
    "M68k.Props.C33_odd_pair",
    "M68k.Props.C33_odd_stack",
    "M68k.Props.C33_odd_unlk"
   ],
   "note": ""
  },
  {
   "property": "C34",
   "status": "proved",
   "theorems": [
    "M68k.Props.C34_call",
    "M68k.Props.C34_call_back",
    "M68k.Props.C34_panic",
    "M68k.Props.C34_accessError",
    "M68k.Props.C34_address",
    "M68k.Props.C34_runs",
    "M68k.Props.C34_unreadable_refuted"
   ],
   "note": ""
  },
  {
   "property": "C35",
   "status": "proved",
   "theorems": [
    "M68k.Props.C35_cycle",
    "M68k.Props.C35_overshoot",
    "M68k.Props.C35_cycleUntilException",
    "M68k.Props.C35_loopUntilExceptionStop",
    "M68k.Props.C35_interpreter",
    "M68k.Props.C35_fetch",
    "M68k.Props.C35_fetch_odd",
    "M68k.Props.C35_fetch_refuted"
   ],
   "note": ""
  },
  {
   "property": "C36",
   "status": "partial",
   "theorems": [
    "M68k.Props.C36_cycleUntilException",
    "M68k.Props.C36_cycle_refuted",
    "M68k.Props.C36_held_refuted",
    "M68k.Props.C36_cycle_partial"
   ],
   "note": "cycle_until_exception terminates after at most n calls (C36_cycleUntilException). cycle need not: C36_cycle_refuted (odd SSP and PC), C36_held_refuted (TRAPs while an on-chip interrupt is held back). C36_cycle_partial: for every memory, cycle(n) ends after at most 3n+2 calls when the supervisor stack pointer is even before each call and no on-chip interrupt is pending at the start."
  },
  {
   "property": "C37",
   "status": "partial",
   "theorems": [
    "M68k.Props.C37_opcodeMap_partial",
    "M68k.Props.C37_differences",
    "M68k.Props.C37_complete",
    "M68k.Props.C37_opcodeMap_refuted",
    "M68k.Props.C37_generator"
   ],
   "note": "The generator's output is the table (C37_generator, proved in full). The table is the opcode map except for the 32 MOVEM opcodes of C37_differences, which refute the rest (C37_opcodeMap_refuted)."
  },
  {
   "property": "C38",
   "status": "partial",
   "theorems": [
    "M68k.Props.C38_unimplemented_partial",
    "M68k.Props.C38_illegal",
    "M68k.Props.C38_state",
    "M68k.Props.C38_refuted",
    "M68k.Props.C38_misfits_execute"
   ],
   "note": "Proved for every opcode without instruction except the 32 MOVEM opcodes the decoder accepts (0x4898-9F, 0x48D8-DF, 0x4CA0-A7, 0x4CE0-E7); C38_misfits_execute and C38_refuted show that these execute as MOVEM."
  },
  {
   "property": "C39",
   "status": "partial",
   "theorems": [
    "M68k.Props.C39_add",
    "M68k.Props.C39_sub",
    "M68k.Props.C39_and",
    "M68k.Props.C39_or",
    "M68k.Props.C39_cmp",
    "M68k.Props.C39_eor",
    "M68k.Props.C39_adda_partial",
    "M68k.Props.C39_suba_partial",
    "M68k.Props.C39_cmpa_partial",
    "M68k.Props.C39_addi",
    "M68k.Props.C39_andi",
    "M68k.Props.C39_cmpi",
    "M68k.Props.C39_eori",
    "M68k.Props.C39_ori",
    "M68k.Props.C39_subi",
    "M68k.Props.C39_addq",
    "M68k.Props.C39_subq",
    "M68k.Props.C39_asm",
    "M68k.Props.C39_lsm",
    "M68k.Props.C39_roxm",
    "M68k.Props.C39_rom",
    "M68k.Props.C39_bchgDynamic",
    "M68k.Props.C39_bchgStatic",
    "M68k.Props.C39_bclrDynamic",
    "M68k.Props.C39_bclrStatic",
    "M68k.Props.C39_bsetDynamic",
    "M68k.Props.C39_bsetStatic",
    "M68k.Props.C39_btstDynamic",
    "M68k.Props.C39_btstStatic_partial",
    "M68k.Props.C39_chk",
    "M68k.Props.C39_divs",
    "M68k.Props.C39_divu",
    "M68k.Props.C39_muls",
    "M68k.Props.C39_mulu",
    "M68k.Props.C39_lea",
    "M68k.Props.C39_clr",
    "M68k.Props.C39_neg",
    "M68k.Props.C39_negx",
    "M68k.Props.C39_not",
    "M68k.Props.C39_tst",
    "M68k.Props.C39_jmp",
    "M68k.Props.C39_jsr",
    "M68k.Props.C39_pea",
    "M68k.Props.C39_moveccr",
    "M68k.Props.C39_movesr",
    "M68k.Props.C39_movefsr",
    "M68k.Props.C39_nbcd",
    "M68k.Props.C39_tas",
    "M68k.Props.C39_abcd",
    "M68k.Props.C39_sbcd",
    "M68k.Props.C39_addx",
    "M68k.Props.C39_subx",
    "M68k.Props.C39_cmpm",
    "M68k.Props.C39_asr",
    "M68k.Props.C39_lsr",
    "M68k.Props.C39_roxr",
    "M68k.Props.C39_ror",
    "M68k.Props.C39_illegal",
    "M68k.Props.C39_nop",
    "M68k.Props.C39_reset",
    "M68k.Props.C39_rte",
    "M68k.Props.C39_rtr",
    "M68k.Props.C39_rts",
    "M68k.Props.C39_trapv",
    "M68k.Props.C39_andisr",
    "M68k.Props.C39_eorisr",
    "M68k.Props.C39_orisr",
    "M68k.Props.C39_stop",
    "M68k.Props.C39_andiccr",
    "M68k.Props.C39_eoriccr",
    "M68k.Props.C39_oriccr",
    "M68k.Props.C39_swap",
    "M68k.Props.C39_unlk",
    "M68k.Props.C39_ext",
    "M68k.Props.C39_exg",
    "M68k.Props.C39_moveusp",
    "M68k.Props.C39_trap",
    "M68k.Props.C39_moveq",
    "M68k.Props.C39_link",
    "M68k.Props.C39_dbcc",
    "M68k.Props.C39_movep",
    "M68k.Props.C39_bra",
    "M68k.Props.C39_bsr",
    "M68k.Props.C39_bcc",
    "M68k.Props.C39_scc",
    "M68k.Props.C39_movem",
    "M68k.Props.C39_move_partial",
    "M68k.Props.C39_movea_partial",
    "M68k.Props.C39_btstStatic_refuted",
    "M68k.Props.C39_register_refuted",
    "M68k.Props.C39_truncated"
   ],
   "note": "All assembler functions are covered. Missing: adda, suba, cmpa, move, movea do not check the source register (C39_register_refuted); btst_static accepts an immediate operand that is no instruction (C39_btstStatic_refuted). Immediates wider than the size are cut (C39_truncated, in the statements as held/heldImm)."
  },
  {
   "property": "C40",
   "status": "proved",
   "theorems": [
    "M68k.Props.C40_length",
    "M68k.Props.C40_misfit",
    "M68k.Props.C40_bounded",
    "M68k.Props.C40_branch",
    "M68k.Props.C40_decoder",
    "M68k.Props.C40_decoder_next",
    "M68k.Props.C40_decodes",
    "M68k.Props.C40_decoder_misfit"
   ],
   "note": ""
  },
  {
   "property": "C41",
   "status": "proved",
   "theorems": [
    "M68k.Props.C41_registers",
    "M68k.Props.C41_accesses",
    "M68k.Props.C41_reads",
    "M68k.Props.C41_compare",
    "M68k.Props.C41_unchanged"
   ],
   "note": ""
  },
  {
   "property": "C42",
   "status": "proved",
   "theorems": [
    "M68k.Props.C42_noPanic",
    "M68k.Props.C42_misfit",
    "M68k.Props.C42_extensionWord",
    "M68k.Props.C42_words",
    "M68k.Props.C42_bytes",
    "M68k.Props.C42_total",
    "M68k.Props.C42_total_interpreter",
    "M68k.Props.C42_total_disassembler",
    "M68k.Props.C42_total_cycle",
    "M68k.Props.C42_total_cycleUntilException",
    "M68k.Props.C42_total_loopUntilExceptionStop",
    "M68k.Props.C42_fullRam",
    "M68k.Props.C42_callbacks",
    "M68k.Props.C42_missing_refuted"
   ],
   "note": ""
  },
  {
   "property": "C43",
   "status": "partial",
   "theorems": [
    "M68k.Props.C43_bytes_read",
    "M68k.Props.C43_words_read",
    "M68k.Props.C43_refs_read",
    "M68k.Props.C43_bytes_write",
    "M68k.Props.C43_words_write",
    "M68k.Props.C43_bytes_refused",
    "M68k.Props.C43_words_refused",
    "M68k.Props.C43_read_refused",
    "M68k.Props.C43_write_refused_partial",
    "M68k.Props.C43_readonly",
    "M68k.Props.C43_odd_length_refuted",
    "M68k.Props.C43_long_write_refuted",
    "M68k.Props.C43_same_execution"
   ],
   "note": "Holds for aligned accesses with all bytes inside; refuted cases: word read at the last byte of an odd-length [u8] panics, a refused long write may have written its high word."
  },
  {
   "property": "C44",
   "status": "proved",
   "theorems": [
    "M68k.Props.C44_get",
    "M68k.Props.C44_get_first_fails",
    "M68k.Props.C44_get_second_fails",
    "M68k.Props.C44_set",
    "M68k.Props.C44_set_fails"
   ],
   "note": ""
  },
  {
   "property": "C45",
   "status": "proved",
   "theorems": [
    "M68k.Props.C45_brief",
    "M68k.Props.C45_brief_rejects",
    "M68k.Props.C45_brief_injective",
    "M68k.Props.C45_assemble",
    "M68k.Props.C45_assembleMoveDst",
    "M68k.Props.C45_moveDst_accepts",
    "M68k.Props.C45_field"
   ],
   "note": ""
  },
  {
   "property": "C46",
   "status": "proved",
   "theorems": [
    "M68k.Props.C46_instruction",
    "M68k.Props.C46_call",
    "M68k.Props.C46_runs"
   ],
   "note": ""
  },
  {
   "property": "C47",
   "status": "partial",
   "theorems": [
    "M68k.Props.C47_andi_ccr",
    "M68k.Props.C47_ori_ccr_partial",
    "M68k.Props.C47_eori_ccr_partial",
    "M68k.Props.C47_ori_ccr_refuted",
    "M68k.Props.C47_eori_ccr_refuted",
    "M68k.Props.C47_move_ccr",
    "M68k.Props.C47_andi_sr",
    "M68k.Props.C47_ori_sr",
    "M68k.Props.C47_eori_sr",
    "M68k.Props.C47_move_sr",
    "M68k.Props.C47_move_from_sr",
    "M68k.Props.C47_move_from_sr_dn",
    "M68k.Props.C47_rtr"
   ],
   "note": "ORI and EORI to CCR are proved for words with a clear high byte; the code does not mask the word, so other words change T, S and the mask (C47_ori_ccr_refuted, C47_eori_ccr_refuted). All other forms are proved in full."
  },
  {
   "property": "C48",
   "status": "proved",
   "theorems": [
    "M68k.Props.C48_tas",
    "M68k.Props.C48_scc",
    "M68k.Props.C48_scc_dn",
    "M68k.Props.C48_clr",
    "M68k.Props.C48_clr_fails",
    "M68k.Props.C48_clr_dn",
    "M68k.Props.C48_tst",
    "M68k.Props.C48_chk_outside",
    "M68k.Props.C48_chk_inside",
    "M68k.Props.C48_operand_error"
   ],
   "note": ""
  },
  {
   "property": "C49",
   "status": "proved",
   "theorems": [
    "M68k.Props.C49_trap",
    "M68k.Props.C49_trap_opcodes",
    "M68k.Props.C49_trapv_set",
    "M68k.Props.C49_trapv_clear"
   ],
   "note": ""
  },
  {
   "property": "C50",
   "status": "proved",
   "theorems": [
    "M68k.Props.C50_read",
    "M68k.Props.C50_read_fails",
    "M68k.Props.C50_write",
    "M68k.Props.C50_write_fails",
    "M68k.Props.C50_opcode",
    "M68k.Props.C50_exceptionField",
    "M68k.Props.C50_peek",
    "M68k.Props.C50_nextWord",
    "M68k.Props.C50_nextWord_odd",
    "M68k.Props.C50_string",
    "M68k.Props.C50_string_fits",
    "M68k.Props.C50_string_zero"
   ],
   "note": ""
  },
  {
   "property": "C51",
   "status": "proved",
   "theorems": [
    "M68k.Props.C51_raised"
   ],
   "note": ""
  },
  {
   "property": "C52",
   "status": "proved",
   "theorems": [
    "M68k.Props.C52_usp_to_register",
    "M68k.Props.C52_register_to_usp",
    "M68k.Props.C52_usp_kept"
   ],
   "note": ""
  },
  {
   "property": "C53",
   "status": "proved",
   "theorems": [
    "M68k.Props.C53_nop",
    "M68k.Props.C53_reset"
   ],
   "note": ""
  },
  {
   "property": "C54",
   "status": "proved",
   "theorems": [
    "M68k.Props.C54_reads_back",
    "M68k.Props.C54_map",
    "M68k.Props.C54_unknown",
    "M68k.Props.C54_injective",
    "M68k.Props.C54_forms",
    "M68k.Props.C54_printable",
    "M68k.Props.C54_total",
    "M68k.Props.C54_formats",
    "M68k.Props.C54_interpreter",
    "M68k.Props.C54_executed",
    "M68k.Props.C54_c_string",
    "M68k.Props.C54_c_interpreter"
   ],
   "note": ""
  },
  {
   "property": "C55",
   "status": "proved",
   "theorems": [
    "M68k.Props.C55_writes",
    "M68k.Props.C55_unchanged"
   ],
   "note": ""
  },
  {
   "property": "C56",
   "status": "proved",
   "theorems": [
    "M68k.Props.C56_accesses",
    "M68k.Props.C56_completed",
    "M68k.Props.C56_privileged"
   ],
   "note": ""
  },
  {
   "property": "C57",
   "status": "proved",
   "theorems": [
    "M68k.Props.C57_cycles",
    "M68k.Props.C57_completed",
    "M68k.Props.C57_rte",
    "M68k.Props.C57_same",
    "M68k.Props.C57_trace",
    "M68k.Props.C57_trace_shift"
   ],
   "note": ""
  },
  {
   "property": "C58",
   "status": "proved",
   "theorems": [
    "M68k.Props.C58_instruction",
    "M68k.Props.C58_call",
    "M68k.Props.C58_continues",
    "M68k.Props.C58_runs",
    "M68k.Props.C58_fault"
   ],
   "note": ""
  },
  {
   "property": "C59",
   "status": "proved",
   "theorems": [
    "M68k.Props.C59_others",
    "M68k.Props.C59_new",
    "M68k.Props.C59_registers",
    "M68k.Props.C59_independent",
    "M68k.Props.C59_delete"
   ],
   "note": ""
  },
  {
   "property": "C60",
   "status": "proved",
   "theorems": [
    "M68k.Props.C60_consecutive",
    "M68k.Props.C60_overshoot",
    "M68k.Props.C60_slices",
    "M68k.Props.C60_carry_refuted"
   ],
   "note": "The documentation of m68000_*_cycle says that the next call subtracts the extra cycles; it does not (C60_carry_refuted). The theorems are about a host that does."
  },
  {
   "property": "C61",
   "status": "proved",
   "theorems": [
    "M68k.Props.C61_program",
    "M68k.Props.C61_instructions",
    "M68k.Props.C61_text",
    "M68k.Props.C61_odd",
    "M68k.Props.C61_missing",
    "M68k.Props.C61_errors",
    "M68k.Props.C61_documented_refuted",
    "M68k.Props.C61_next"
   ],
   "note": ""
  },
  {
   "property": "C62",
   "status": "proved",
   "theorems": [
    "M68k.Props.C62_operands",
    "M68k.Props.C62_decoded",
    "M68k.Props.C62_misfit",
    "M68k.Props.C62_words",
    "M68k.Props.C62_listing"
   ],
   "note": ""
  },
  {
   "property": "C63",
   "status": "proved",
   "theorems": [
    "M68k.Props.C63_reassemble",
    "M68k.Props.C63_same",
    "M68k.Props.C63_decodes",
    "M68k.Props.C63_misfit",
    "M68k.Props.C63_program",
    "M68k.Props.C63_exact_refuted"
   ],
   "note": ""
  },
  {
   "property": "C64",
   "status": "partial",
   "theorems": [
    "M68k.Props.C64_raised_partial",
    "M68k.Props.C64_trap_partial",
    "M68k.Props.C64_return",
    "M68k.Props.C64_lost_refuted"
   ],
   "note": "C64_raised_partial and C64_trap_partial: proved while no on-chip interrupt is pending; C64_return: the return. The code violates the full property: while an on-chip interrupt is held back a TRAP is dropped (C64_lost_refuted)."
  },
  {
   "property": "C65",
   "status": "partial",
   "theorems": [
    "M68k.Props.C65_listing_partial",
    "M68k.Props.C65_empty",
    "M68k.Props.C65_program",
    "M68k.Props.C65_number",
    "M68k.Props.C65_output",
    "M68k.Props.C65_standard_output",
    "M68k.Props.C65_files",
    "M68k.Props.C65_truncated_refuted",
    "M68k.Props.C65_huge_refuted",
    "M68k.Props.C65_overwrite_refuted"
   ],
   "note": "C65_listing_partial: proved for every range of every file below 4 GiB, with a panic exactly where no instruction can be decoded. The code violates the rest: a file of 4 GiB is never finished (C65_huge_refuted), a file that ends within an instruction makes it panic (C65_truncated_refuted), and an output file that is the input file is emptied before it is read (C65_overwrite_refuted)."
  },
  {
   "property": "C66",
   "status": "proved",
   "theorems": [
    "M68k.Props.C66_boot",
    "M68k.Props.C66_runs",
    "M68k.Props.C66_ram",
    "M68k.Props.C66_main"
   ],
   "note": ""
  },
  {
   "property": "C67",
   "status": "proved",
   "theorems": [
    "M68k.Props.C67_panics",
    "M68k.Props.C67_quiet",
    "M68k.Props.C67_interpreter"
   ],
   "note": ""
  },
  {
   "property": "C68",
   "status": "proved",
   "theorems": [
    "M68k.Props.C68_call",
    "M68k.Props.C68_interpreter",
    "M68k.Props.C68_cycle",
    "M68k.Props.C68_cycleUntilException",
    "M68k.Props.C68_loopUntilExceptionStop",
    "M68k.Props.C68_memory",
    "M68k.Props.C68_memory_cycle",
    "M68k.Props.C68_longer",
    "M68k.Props.C68_fence_needed"
   ],
   "note": ""
  },
  {
   "property": "C69",
   "status": "proved",
   "theorems": [
    "M68k.Props.C69_turns",
    "M68k.Props.C69_copy"
   ],
   "note": ""
  },
  {
   "property": "C70",
   "status": "proved",
   "theorems": [
    "M68k.Props.C70_readsBack",
    "M68k.Props.C70_generated",
    "M68k.Props.C70_panics",
    "M68k.Props.C70_shortWrite_refuted"
   ],
   "note": ""
  },
  {
   "property": "C71",
   "status": "proved",
   "theorems": [
    "M68k.Props.C71_masked",
    "M68k.Props.C71_served",
    "M68k.Props.C71_interlude",
    "M68k.Props.C71_transparent",
    "M68k.Props.C71_tick_service",
    "M68k.Props.C71_timer"
   ],
   "note": ""
  },
  {
   "property": "C72",
   "status": "proved",
   "theorems": [
    "M68k.Props.C72_addx",
    "M68k.Props.C72_subx",
    "M68k.Props.C72_abcd",
    "M68k.Props.C72_sbcd"
   ],
   "note": ""
  },
  {
   "property": "C73",
   "status": "proved",
   "theorems": [
    "M68k.Props.C73_cycle",
    "M68k.Props.C73_cycleUntilException",
    "M68k.Props.C73_delay_times",
    "M68k.Props.C73_delay",
    "M68k.Props.C73_copy_times",
    "M68k.Props.C73_copy"
   ],
   "note": ""
  },
  {
   "property": "C74",
   "status": "proved",
   "theorems": [
    "M68k.Props.C74_call",
    "M68k.Props.C74_interpreter",
    "M68k.Props.C74_cycle_total",
    "M68k.Props.C74_cycle",
    "M68k.Props.C74_cycleUntilException_total",
    "M68k.Props.C74_cycleUntilException",
    "M68k.Props.C74_loopUntilExceptionStop",
    "M68k.Props.C74_cycle_returns"
   ],
   "note": ""
  },
  {
   "property": "C75",
   "status": "proved",
   "theorems": [
    "M68k.Props.C75_kept",
    "M68k.Props.C75_return",
    "M68k.Props.C75_recursion"
   ],
   "note": ""
  },
  {
   "property": "C76",
   "status": "proved",
   "theorems": [
    "M68k.Props.C76_left",
    "M68k.Props.C76_misfit",
    "M68k.Props.C76_pc",
    "M68k.Props.C76_registers",
    "M68k.Props.C76_memory"
   ],
   "note": ""
  },
  {
   "property": "C77",
   "status": "partial",
   "theorems": [
    "M68k.Props.C77_read",
    "M68k.Props.C77_write",
    "M68k.Props.C77_refused",
    "M68k.Props.C77_stays_inside_partial",
    "M68k.Props.C77_as_slice_partial",
    "M68k.Props.C77_cycle_as_slice_partial",
    "M68k.Props.C77_slice",
    "M68k.Props.C77_read_refuted",
    "M68k.Props.C77_write_refuted"
   ],
   "note": "C77_stays_inside_partial, C77_as_slice_partial, C77_cycle_as_slice_partial: proved for every run without an access to the long at 0xFFFFE, the only access that leaves the buffer. The example violates the rest: it tests only the first address of a long, so a program that reads or writes this long makes it access two bytes behind the buffer (C77_read_refuted, C77_write_refuted)."
  },
  {
   "property": "C78",
   "status": "proved",
   "theorems": [
    "M68k.Props.C78_register",
    "M68k.Props.C78_register_twice",
    "M68k.Props.C78_memory",
    "M68k.Props.C78_memory_twice",
    "M68k.Props.C78_to_register",
    "M68k.Props.C78_quick_address",
    "M68k.Props.C78_address"
   ],
   "note": ""
  },
  {
   "property": "C79",
   "status": "proved",
   "theorems": [
    "M68k.Props.C79_call",
    "M68k.Props.C79_interpreter",
    "M68k.Props.C79_instruction",
    "M68k.Props.C79_run",
    "M68k.Props.C79_kept",
    "M68k.Props.C79_agree"
   ],
   "note": ""
  },
  {
   "property": "C80",
   "status": "proved",
   "theorems": [
    "M68k.Props.C80_mask",
    "M68k.Props.C80_word",
    "M68k.Props.C80_pending",
    "M68k.Props.C80_cycle",
    "M68k.Props.C80_cycleUntilException",
    "M68k.Props.C80_loopUntilExceptionStop",
    "M68k.Props.C80_user",
    "M68k.Props.C80_hostMask_refuted"
   ],
   "note": ""
  },
  {
   "property": "C81",
   "status": "partial",
   "theorems": [
    "M68k.Props.C81_execute_partial",
    "M68k.Props.C81_btst_refuted",
    "M68k.Props.C81_immediate",
    "M68k.Props.C81_line_partial",
    "M68k.Props.C81_program_partial"
   ],
   "note": "C81_execute_partial, C81_line_partial, C81_program_partial: proved for every function of the assembler and every accepted operand, except the static BTST of an immediate operand. The code violates the property there: no such instruction exists, the assembler accepts it, and executing its words is an illegal instruction (C81_btst_refuted)."
  },
  {
   "property": "C82",
   "status": "proved",
   "theorems": [
    "M68k.Props.C82_same",
    "M68k.Props.C82_differences",
    "M68k.Props.C82_oversized"
   ],
   "note": ""
  },
  {
   "property": "C83",
   "status": "proved",
   "theorems": [
    "M68k.Props.C83_gcd",
    "M68k.Props.C83_copy"
   ],
   "note": ""
  },
  {
   "property": "C84",
   "status": "proved",
   "theorems": [
    "M68k.Props.C84_lock",
    "M68k.Props.C84_progress"
   ],
   "note": ""
  },
  {
   "property": "C85",
   "status": "proved",
   "theorems": [
    "M68k.Props.C85_alone",
    "M68k.Props.C85_order"
   ],
   "note": ""
  },
  {
   "property": "C86",
   "status": "proved",
   "theorems": [
    "M68k.Props.C86_call",
    "M68k.Props.C86_run",
    "M68k.Props.C86_ordered",
    "M68k.Props.C86_session",
    "M68k.Props.C86_session_noReset",
    "M68k.Props.C86_session_after"
   ],
   "note": ""
  },
  {
   "property": "C87",
   "status": "proved",
   "theorems": [
    "M68k.Props.C87_assembles",
    "M68k.Props.C87_ends",
    "M68k.Props.C87_forever",
    "M68k.Props.C87_iff"
   ],
   "note": ""
  },
  {
   "property": "C88",
   "status": "proved",
   "theorems": [
    "M68k.Props.C88_assembles",
    "M68k.Props.C88_ends",
    "M68k.Props.C88_forever",
    "M68k.Props.C88_determined",
    "M68k.Props.C88_iff"
   ],
   "note": ""
  },
  {
   "property": "C89",
   "status": "proved",
   "theorems": [
    "M68k.Props.C89_program",
    "M68k.Props.C89_ends",
    "M68k.Props.C89_forever",
    "M68k.Props.C89_timer"
   ],
   "note": ""
  },
  {
   "property": "C90",
   "status": "partial",
   "theorems": [
    "M68k.Props.C90_bit",
    "M68k.Props.C90_bit_panics",
    "M68k.Props.C90_bits_partial",
    "M68k.Props.C90_model",
    "M68k.Props.C90_bits_refuted",
    "M68k.Props.C90_even",
    "M68k.Props.C90_u32_be",
    "M68k.Props.C90_i32_be_sized",
    "M68k.Props.C90_get_next_word",
    "M68k.Props.C90_unsigned_add",
    "M68k.Props.C90_unsigned_sub",
    "M68k.Props.C90_signed_add",
    "M68k.Props.C90_signed_sub",
    "M68k.Props.C90_chain_add",
    "M68k.Props.C90_chain_sub"
   ],
   "note": "bits is proved for every range but the whole word: bits(d, 0, 15) shifts by 16, which panics with overflow checks and gives 0 without (C90_bits_refuted). Everything else is proved in full."
  },
  {
   "property": "C91",
   "status": "partial",
   "theorems": [
    "M68k.Props.C91_times_partial",
    "M68k.Props.C91_excess",
    "M68k.Props.C91_refuted",
    "M68k.Props.C91_trap",
    "M68k.Props.C91_trap_refuted",
    "M68k.Props.C91_exception_partial",
    "M68k.Props.C91_interrupt",
    "M68k.Props.C91_reset"
   ],
   "note": "Proved for all instructions but those that modify a long in memory, which take exactly 4 cycles more than in the manual (C91_excess, C91_refuted), and for all exceptions in the manual but interrupts with vector 15 or 64 to 255, which take 40 cycles instead of 44 (C91_interrupt), and but the effective address of a CHK or a division that traps, for which no time is returned (C91_trap, C91_trap_refuted)."
  },
  {
   "property": "C92",
   "status": "proved",
   "theorems": [
    "M68k.Props.C92_interpreter",
    "M68k.Props.C92_exception",
    "M68k.Props.C92_ffi",
    "M68k.Props.C92_loops",
    "M68k.Props.C92_setup"
   ],
   "note": ""
  },
  {
   "property": "C93",
   "status": "proved",
   "theorems": [
    "M68k.Props.C93_meaning",
    "M68k.Props.C93_time",
    "M68k.Props.C93_host",
    "M68k.Props.C93_unique",
    "M68k.Props.C93_straight",
    "M68k.Props.C93_addUp",
    "M68k.Props.C93_cycle",
    "M68k.Props.C93_slices",
    "M68k.Props.C93_interrupted",
    "M68k.Props.C93_proceduresMeaning",
    "M68k.Props.C93_proceduresUnique",
    "M68k.Props.C93_procedures",
    "M68k.Props.C93_proceduresHost",
    "M68k.Props.C93_proceduresCycle",
    "M68k.Props.C93_addDown"
   ],
   "note": ""
  },
  {
   "property": "C94",
   "status": "proved",
   "theorems": [
    "M68k.Props.C94_served",
    "M68k.Props.C94_interlude",
    "M68k.Props.C94_transparent",
    "M68k.Props.C94_run",
    "M68k.Props.C94_compiled",
    "M68k.Props.C94_timer"
   ],
   "note": ""
  },
  {
   "property": "C95",
   "status": "proved",
   "theorems": [
    "M68k.Props.C95_source",
    "M68k.Props.C95_time",
    "M68k.Props.C95_host",
    "M68k.Props.C95_needed"
   ],
   "note": ""
  },
  {
   "property": "C96",
   "status": "proved",
   "theorems": [
    "M68k.Props.C96_program",
    "M68k.Props.C96_clock"
   ],
   "note": ""
  }
 ]
}
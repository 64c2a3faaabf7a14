{
 "claims": [
  {
   "property": "C01",
   "status": "proved",
   "theorems": [
    "Verif.CondAsm.C01_selects",
    "Verif.CondAsm.C01_selects_nested",
    "Verif.CondAsm.C01_skipped_text_is_inert"
   ],
   "note": "refinement of the line-by-line machine to big-step semantics of structured text"
  },
  {
   "property": "C02",
   "status": "proved",
   "theorems": [
    "Verif.CondAsm.C02_diagnoses"
   ],
   "note": "first diagnostic is exactly the first structural error"
  },
  {
   "property": "C33",
   "status": "partial",
   "theorems": [
    "Verif.CondAsm.C33_condition_truth_partial",
    "Verif.CondAsm.C33_wide_value_counts_as_zero",
    "Verif.CondAsm.C33_if2_uninitialised"
   ],
   "note": "false for values that are nonzero multiples of 2^32"
  },
  {
   "property": "C03",
   "status": "proved",
   "theorems": [
    "Verif.Num.C03_literal_value",
    "Verif.Num.C03_literal_exact",
    "Verif.Num.C03_bad_digit_rejected",
    "Verif.Num.C03_bad_suffix_rejected"
   ],
   "note": "tokenizer scan (get_number) and 128-bit evaluation (myatoi128) together"
  },
  {
   "property": "C04",
   "status": "proved",
   "theorems": [
    "Verif.Num.C04_myltoa_roundtrip",
    "Verif.Num.C04_myltoa_signed",
    "Verif.Num.C04_myqtoa_roundtrip",
    "Verif.Num.C04_num2hex64",
    "Verif.Num.C04_myqtoa_radix2_overflow",
    "Verif.Num.C04_negative_zero"
   ],
   "note": "64-bit: radix 4..16 (the only caller uses 10); radix 2 overflow is a proved finding"
  },
  {
   "property": "C34",
   "status": "proved",
   "theorems": [
    "Verif.Num.C34_generated_number"
   ],
   "note": ""
  },
  {
   "property": "C35",
   "status": "partial",
   "theorems": [
    "Verif.Num.C35_pct_argument_partial",
    "Verif.Num.C35_pct_truncates",
    "Verif.Num.C35_pct_lone_minus"
   ],
   "note": "false for |value| >= 2^32"
  },
  {
   "property": "C05",
   "status": "proved",
   "theorems": [
    "Verif.Omf.C05_framing",
    "Verif.Omf.C05_no_overflow",
    "Verif.Omf.C05_contents",
    "Verif.Omf.C05_written",
    "Verif.Omf.C05_file"
   ],
   "note": "all record types of omfint.c, with an independent reader of frame and fields"
  },
  {
   "property": "C06",
   "status": "proved",
   "theorems": [
    "Verif.Omf.C06_index",
    "Verif.Omf.C06_comdef",
    "Verif.Omf.C06_comdef_size"
   ],
   "note": ""
  },
  {
   "property": "C07",
   "status": "partial",
   "theorems": [
    "Verif.Omf.C07_location_and_target",
    "Verif.Omf.C07_frame_partial",
    "Verif.Omf.C07_frame_lost",
    "Verif.Omf.C07_start_address"
   ],
   "note": "the frame is not preserved when an explicit frame has the kind of the target and another index: proved finding C07_frame_lost; everything else is proved"
  },
  {
   "property": "C36",
   "status": "proved",
   "theorems": [
    "Verif.Omf.C36_all_fixups_written",
    "Verif.Omf.C36_linker_sees_all"
   ],
   "note": ""
  },
  {
   "property": "C37",
   "status": "proved",
   "theorems": [
    "Verif.Omf.C37_segment_contents",
    "Verif.Omf.C37_incbin_overflows",
    "Verif.Omf.C37_wide_string_overflows"
   ],
   "note": "OutputByte/OutputBytes/SetCurrOffset/flush; the two bulk writers INCBIN and wide strings do overflow the buffer (proved findings)"
  },
  {
   "property": "C08",
   "status": "proved",
   "theorems": [
    "Verif.Align.C08_align",
    "Verif.Align.C08_even",
    "Verif.Align.C08_rejects",
    "Verif.Align.C08_align_internal",
    "Verif.Align.C08_large_value_hangs"
   ],
   "note": "for values up to 2^30; larger values make the assembler hang (proved finding)"
  },
  {
   "property": "C09",
   "status": "partial",
   "theorems": [
    "Verif.Mangle.C09_documented",
    "Verif.Mangle.C09_injective",
    "Verif.Mangle.C09_no_mixed_collision_partial",
    "Verif.Mangle.C09_pascal",
    "Verif.Mangle.C09_collision"
   ],
   "note": "false in general: proc f with 4 bytes of parameters and variable f@4 collide (proved finding); true if names contain no @"
  },
  {
   "property": "C10",
   "status": "proved",
   "theorems": [
    "Verif.LineQueue.C10_fifo",
    "Verif.LineQueue.C10_complete",
    "Verif.LineQueue.C10_once",
    "Verif.LineQueue.C10_queue_empty",
    "Verif.LineQueue.C10_plain"
   ],
   "note": "linked list in an explicit heap refines an abstract queue, including nested use from inside a line"
  },
  {
   "property": "C29",
   "status": "proved",
   "theorems": [
    "Verif.Mem.C29_blocks_disjoint",
    "Verif.Mem.C29_sizes",
    "Verif.Mem.C29_4GB_request_overruns"
   ],
   "note": "requests below 4 GB; a 4 GB request overruns (proved finding)"
  },
  {
   "property": "C13",
   "status": "proved",
   "theorems": [
    "Verif.Expr.C13_precedence",
    "Verif.Expr.C13_errors",
    "Verif.Expr.C13_unambiguous",
    "Verif.Expr.C13_m510_brackets"
   ],
   "note": "without OPTION M510; with it the rule fails (proved finding). OPATTR/.TYPE/record literals not modelled"
  },
  {
   "property": "C14",
   "status": "partial",
   "theorems": [
    "Verif.Expr.C14_binary_partial",
    "Verif.Expr.C14_unary",
    "Verif.Expr.C14_brackets",
    "Verif.Expr.C14_expression_partial",
    "Verif.Expr.C14_negate_128_partial",
    "Verif.Expr.C14_division_crash",
    "Verif.Expr.C14_shift_count_truncated",
    "Verif.Expr.C14_large_left_operand",
    "Verif.Expr.C14_negate_128_wrong",
    "Verif.Expr.C14_shr_host_dependent"
   ],
   "note": "64-bit operands; false outside of the stated conditions (proved findings)"
  },
  {
   "property": "C17",
   "status": "proved",
   "theorems": [
    "Verif.Branch.C17_reaches",
    "Verif.Branch.C17_short_iff_fits",
    "Verif.Branch.C17_out_of_reach",
    "Verif.Branch.C17_always_assembles"
   ],
   "note": "against an independent decoder/executor of branch instructions; offsets below 2 GB"
  },
  {
   "property": "C18",
   "status": "proved",
   "theorems": [
    "Verif.Passes.C18_branches_reach_labels",
    "Verif.Passes.C18_layout"
   ],
   "note": "one segment without ORG; the pass loop is modelled including pass 1 with backpatching, without a bound on passes"
  },
  {
   "property": "C38",
   "status": "partial",
   "theorems": [
    "Verif.Passes.C18_passes_may_not_terminate"
   ],
   "note": "false: a seven-line source for which the pass loop oscillates for ever (proved finding)"
  },
  {
   "property": "C39",
   "status": "partial",
   "theorems": [
    "Verif.Passes.C18_data_label_wrong"
   ],
   "note": "false: backward jump to a data label is silently assembled as a jump to itself (proved finding)"
  },
  {
   "property": "C11",
   "status": "proved",
   "theorems": [
    "Verif.Symbols.C11_symbol_table_refines_map",
    "Verif.Symbols.C11_symcount_exact",
    "Verif.Symbols.C11_map",
    "Verif.Symbols.C11_one_symbol_per_name"
   ],
   "note": "pointer-level model of the chained hash tables, cursors and saved local lists; hypothesis Repeats: labels inside procedures in later passes were seen in pass 1"
  },
  {
   "property": "C12",
   "status": "partial",
   "theorems": [
    "Verif.ResWords.C12_keywords_partial",
    "Verif.ResWords.finds_unique",
    "Verif.ResWords.C12_rename_again_hangs",
    "Verif.ResWords.C12_hang_reachable"
   ],
   "note": "pointer-level model of the chained hash table and the list of disabled words, from ResWordsInit. False in general: renaming a second keyword twice hangs (proved finding); histories that rename or disable SYSCALL are excluded"
  },
  {
   "property": "C15",
   "status": "partial",
   "theorems": [
    "Verif.Strings.C15_substr_func",
    "Verif.Strings.C15_substr_dir_partial",
    "Verif.Strings.C15_substr_dir_overflow",
    "Verif.Strings.C15_position_truncated",
    "Verif.Strings.C15_instr_dir",
    "Verif.Strings.C15_instr_func",
    "Verif.Strings.C15_sizestr_func",
    "Verif.Strings.C15_sizestr_dir",
    "Verif.Strings.C15_catstr_dir",
    "Verif.Strings.C15_catstr_func"
   ],
   "note": "positions and sizes are cut to 32 bits (finding C15_position_truncated); the SUBSTR directive reads outside of the text when pos+size overflows (finding C15_substr_dir_overflow), so its theorem has the hypothesis that it does not"
  },
  {
   "property": "C40",
   "status": "proved",
   "theorems": [
    "Verif.Strings.Utf.C40_utf8_to_utf16",
    "Verif.Strings.Utf.C40_bounded",
    "Verif.Strings.Utf.C40_as_called"
   ],
   "note": "all texts and all buffer sizes"
  },
  {
   "property": "C28",
   "status": "partial",
   "theorems": [
    "Verif.Hll.hll_condition_partial",
    "Verif.Hll.hll_condition_flat",
    "Verif.Hll.hll_condition_if",
    "Verif.Hll.run_deterministic",
    "Verif.Hll.while_and_and_wrong",
    "Verif.Hll.if_not_and_wrong",
    "Verif.Hll.if_or_const_duplicate",
    "Verif.Hll.if_const_or_garbage",
    "Verif.Hll.const_wrong",
    "Verif.Hll.nan_wrong"
   ],
   "note": "proved for every condition without nested parentheses in all directives, for every nesting of && || and parentheses with ! on comparisons in .IF/.ELSEIF/.UNTIL, and for all conditions with the syntactic predicate OrE.good. False in general: five proved findings (wrong code for .while (a && b) && c and .if !(a && b) || c, duplicate label, garbage line, constant -2^32, NaN)"
  },
  {
   "property": "C16",
   "status": "partial",
   "theorems": [
    "Verif.Macro.C16_substitution_partial",
    "Verif.Macro.C16_upTo32",
    "Verif.Macro.C16_other_text",
    "Verif.Macro.C16_locals_unique",
    "Verif.Macro.C16_exclamation_overrun",
    "Verif.Macro.C16_index_rescanned",
    "Verif.Macro.C16_index_loop",
    "Verif.Macro.C16_count_wraps"
   ],
   "note": "proved for all lines, arguments and counters with up to 32 parameters and locals (more: index bytes must be inert), less than 256 replacements in a line, not ending with !. False otherwise: four proved findings"
  },
  {
   "property": "C19",
   "status": "partial",
   "theorems": [
    "Verif.ModRM.C19_memory_operand_partial",
    "Verif.ModRM.C19_fixup",
    "Verif.ModRM.C19_finding_si",
    "Verif.ModRM.C19_finding_rip",
    "Verif.ModRM.C19_finding_si64",
    "Verif.ModRM.C19_finding_disp",
    "Verif.ModRM.C19_finding_disp_address",
    "Verif.ModRM.C19_finding_scale",
    "Verif.ModRM.C19_finding_ax"
   ],
   "note": "all registers, scales, displacements, modes and other operands against an independent decoder; false for six classes of operands (proved findings), which the structure Source excludes"
  },
  {
   "property": "C31",
   "status": "proved",
   "theorems": [
    "Verif.Context.C31_refines_stacks",
    "Verif.Context.C31_balanced",
    "Verif.Context.C31_unmatched",
    "Verif.Context.C31_saved_state",
    "Verif.Context.C31_cpu_symbol",
    "Verif.Context.C31_finding_total_size",
    "Verif.Context.C31_finding_ofssize"
   ],
   "note": "pointer-level model, every history; the listed settings are restored exactly; two settings next to them are not saved at all (findings)"
  },
  {
   "property": "C20",
   "status": "partial",
   "theorems": [
    "Verif.Data.C20_data_directive_partial",
    "Verif.Data.C20_number",
    "Verif.Data.C20_address",
    "Verif.Data.C20_finding_upper_half_ignored",
    "Verif.Data.C20_finding_dup_count_truncated",
    "Verif.Data.C20_finding_dup_size_wraps",
    "Verif.Data.C20_finding_word_string_counted_twice",
    "Verif.Data.C20_finding_literal_string_lost",
    "Verif.Data.C20_finding_ymmword_negative",
    "Verif.Data.C20_finding_fixup_type_unassigned"
   ],
   "note": "data_item on whole initializer lists (nested DUP, ?, numbers of every item size, strings, addresses): acceptance iff the line is a list of initializers in the independent grammar, emitted bytes, LENGTHOF/SIZEOF, termination. Missing: float and STRUCT initializers, OPTION LITERALS:ON with non-ASCII strings; the full claim is false for the seven findings, which are proved as counterexamples (constants above 64 bits silently truncated, DUP count cut to 32 bits, 32-bit wrap of DUP(?) space, dw 'AB' counted twice, literal strings lost, ymmword -1, unassigned fixup type)."
  },
  {
   "property": "C21",
   "status": "partial",
   "theorems": [
    "Verif.Struct.C21_layout_partial",
    "Verif.Struct.C21_tight",
    "Verif.Struct.C21_offsets_exact",
    "Verif.Struct.C21_names_unique",
    "Verif.Struct.C21_lookup",
    "Verif.Struct.finding_fword",
    "Verif.Struct.finding_org_unsigned",
    "Verif.Struct.finding_org_overlap",
    "Verif.Struct.finding_zero_dup"
   ],
   "note": "every accepted sequence of STRUCT/UNION/field/structured field/ALIGN/ENDS lines, any nesting, 32-bit arithmetic, below 2 GB: no overlap, order, containment, alignment, padding, exact offsets, unique and correctly resolved member names. Missing: ORG inside a structure and alignment of FWORD/TBYTE members, for which the full claim is false (findings)."
  },
  {
   "property": "C22",
   "status": "partial",
   "theorems": [
    "Verif.Record.C22_accept",
    "Verif.Record.C22_zero_refused",
    "Verif.Record.C22_tiling",
    "Verif.Record.C22_field_mask",
    "Verif.Record.C22_record_mask",
    "Verif.Record.C22_width",
    "Verif.Record.C22_init_partial",
    "Verif.Record.finding_negative_width",
    "Verif.Record.finding_width_wraps",
    "Verif.Record.finding_mask63",
    "Verif.Record.finding_shiftleft",
    "Verif.Record.finding_mask_alias",
    "Verif.Record.finding_stale_half",
    "Verif.Record.finding_no_check"
   ],
   "note": "all width lists: acceptance, tiling, size, MASK, WIDTH, and read-back of initialisers. Full claim false for negative widths, MASK above 64 bits, and 128-bit initialisers across bit 63/64 (findings)."
  },
  {
   "property": "C23",
   "status": "partial",
   "theorems": [
    "Verif.Bin.C23_file_layout",
    "Verif.Bin.C23_ungrouped",
    "Verif.Bin.C23_group_image",
    "Verif.Bin.C23_pe_layout",
    "Verif.Bin.C23_pe_section",
    "Verif.Bin.C23_section_table",
    "Verif.Bin.C23_sort",
    "Verif.Bin.C23_interleaved_group_wrong",
    "Verif.Bin.C23_mz_bss_overlaps",
    "Verif.Bin.C23_mz_group_bss_wrong",
    "Verif.Bin.C23_org_ungrouped_inconsistent",
    "Verif.Bin.C23_raw_size_too_small",
    "Verif.Bin.C23_empty_segment_merges_sections",
    "Verif.Bin.C23_pe_large_alignment_mismatch",
    "Verif.Bin.C23_pe_alignment_lost"
   ],
   "note": "every list of segments below 4 GB: file offsets ordered, aligned, disjoint (BIN, MZ); group images consistent with the file when the members are adjacent; PE: sections page and file aligned, addresses disjoint, section table describes them; SortSegments terminates with a stable sort. The full claim is false for eight classes of modules (proved findings: interleaved group members, BSS before data, ORG, raw size too small, empty last segment of a section, large alignments)"
  },
  {
   "property": "C24",
   "status": "partial",
   "theorems": [
    "Verif.Bin.C24_fixups_partial",
    "Verif.Bin.C24_completes",
    "Verif.Bin.C24_far_pointer",
    "Verif.Bin.C24_selector_overwrites",
    "Verif.Bin.C24_stale_value64",
    "Verif.Bin.C24_frame_mismatch",
    "Verif.Bin.C24_unaligned_group",
    "Verif.Bin.C24_no_segment"
   ],
   "note": "all fixup types and formats, any list of non-overlapping fixups; the structure Supported lists the cases in which the stored value is right; the other cases are wrong (proved findings)"
  },
  {
   "property": "C25",
   "status": "partial",
   "theorems": [
    "Verif.Bin.C25_base_relocs_partial",
    "Verif.Bin.C25_page_aligned",
    "Verif.Bin.C25_mz_reloc",
    "Verif.Bin.C25_mz_complete",
    "Verif.Bin.C25_empty_table_overrun",
    "Verif.Bin.C25_last_block_unpadded"
   ],
   "note": "all lists of fixups: table well formed, complete, exactly as long as allocated; MZ relocations. Missing: without relocations 4 bytes are written behind an empty buffer, the last block is not padded, the page address is relative to the segment start (proved findings)"
  },
  {
   "property": "C26",
   "status": "partial",
   "theorems": [
    "Verif.Coff.C26_symbol_table_partial",
    "Verif.Coff.C26_section_name_partial",
    "Verif.Coff.C26_string_table_size",
    "Verif.Coff.C26_file_name",
    "Verif.Coff.Example.C26_slash_counterexample"
   ],
   "note": "whole file written by coff_write_module read back by an independent reader; short names beginning with '/' and string offsets of 10^7 and more are misread"
  },
  {
   "property": "C41",
   "status": "partial",
   "theorems": [
    "Verif.Coff.C41_relocations_partial",
    "Verif.Coff.C41_alias_target",
    "Verif.Coff.Example.C41_zls_comdat_counterexample"
   ],
   "note": "false for -zls with COMDAT sections; line numbers and -Zi not modelled"
  },
  {
   "property": "C42",
   "status": "partial",
   "theorems": [
    "Verif.Coff.C42_section_data_partial",
    "Verif.Coff.contents_plain",
    "Verif.Coff.Example.C42_readonly_bss_counterexample"
   ],
   "note": "false for BSS segments that are READONLY or CONST"
  },
  {
   "property": "C27",
   "status": "proved",
   "theorems": [
    "Verif.Elf.C27_elf_symbols",
    "Verif.Elf.elf_written"
   ],
   "note": "whole file written by elf_write_module read back by an independent gABI reader, both classes; input conditions in ModOk (file below 4 GB, fixups have an existing target)"
  },
  {
   "property": "C43",
   "status": "proved",
   "theorems": [
    "Verif.Elf.C43_elf_sections"
   ],
   "note": "same model"
  },
  {
   "property": "C44",
   "status": "partial",
   "theorems": [
    "Verif.Elf.C44_elf_relocations",
    "Verif.Elf.C44_elf32_link",
    "Verif.Elf.C44_elf64_link",
    "Verif.Elf.C44_elf32_displacement_lost",
    "Verif.Elf.C44_elf64_displacement_lost"
   ],
   "note": "relocation sections fully proved; the claim about displacements of relative references is false (proved): ELF32 overwrites the field, ELF64 does not put the displacement into r_addend"
  },
  {
   "property": "C30",
   "status": "partial",
   "theorems": [
    "Verif.Proc.C30_generic_frame",
    "Verif.Proc.C30_generic_alignment",
    "Verif.Proc.C30_rbp_frame",
    "Verif.Proc.C30_rbp_alignment",
    "Verif.Proc.C30_sysv_frame_partial",
    "Verif.Proc.C30_sysv_redzone_frame_partial",
    "Verif.Proc.C30_rsp_frame_partial",
    "Verif.Proc.C30_parameter_order",
    "Verif.Proc.C30_generic_rspalign_overlap",
    "Verif.Proc.C30_sysv_vector_overlap",
    "Verif.Proc.C30_sysv_redzone_overlap",
    "Verif.Proc.C30_rsp_empty_local_overlap",
    "Verif.Proc.C30_rsp_zmm_overlap"
   ],
   "note": "16/32-bit and Win64 RBP frames proved for all inputs against a machine that executes the prologue; SysV and RSP frames under conditions whose necessity is proved by counterexamples (real overlaps in the code)"
  },
  {
   "property": "C32",
   "status": "proved",
   "theorems": [
    "Verif.Cgv2.lookup_first",
    "Verif.Cgv2.findForm_first",
    "Verif.Cgv2.shipped_unambiguous",
    "Verif.Cgv2.shipped_rows_live",
    "Verif.Cgv2.matchReg_classes",
    "Verif.Cgv2.shipped_hash_buffer",
    "Verif.Cgv2.hash_lt"
   ],
   "note": "for every table and every query; plus statements about the shipped table (all 367 rows, transcribed mechanically): at most one non-reserved row answers a request, every row is reachable"
  },
  {
   "property": "C45",
   "status": "partial",
   "theorems": [
    "Verif.Cgv2.address_roundtrip_partial",
    "Verif.Cgv2.index32_no_prefix",
    "Verif.Cgv2.base32_symbol_no_prefix",
    "Verif.Cgv2.bp_becomes_bx_si"
   ],
   "note": "for every row and displacement; missing (proved wrong): 16-bit base registers in 32-bit code; 32-bit index without base and 32-bit base with symbol in 64-bit code (no 67h); EVEX compressed displacement is C47"
  },
  {
   "property": "C46",
   "status": "partial",
   "theorems": [
    "Verif.Cgv2.shipped_covered",
    "Verif.Cgv2.shipped_fixed",
    "Verif.Cgv2.shipped_plusR",
    "Verif.Cgv2.shipped_moffs",
    "Verif.Cgv2.shipped_legacy",
    "Verif.Cgv2.shipped_vex_partial",
    "Verif.Cgv2.shipped_prefix_rejected",
    "Verif.Cgv2.segment_rejected",
    "Verif.Cgv2.lookup_operand",
    "Verif.Cgv2.gather_mask_changes_base",
    "Verif.Cgv2.qword_store_in_32bit",
    "Verif.Cgv2.dup_with_mask_no_prefix"
   ],
   "note": "all 367 shipped rows except six noForm rows, against an independent reader and forms transcribed by hand from the manual; missing (proved wrong): VEX gathers whose mask register is xmm8 or above; MEM_ABS rows read outside the operand array (modelled as the intended operand); IsValidInCPUMode not modelled"
  },
  {
   "property": "C47",
   "status": "partial",
   "theorems": [
    "Verif.Cgv2.shipped_evex_partial",
    "Verif.Cgv2.shipped_rejects",
    "Verif.Cgv2.shipped_bcst",
    "Verif.Cgv2.evexErr_iff",
    "Verif.Cgv2.evex_index_only_disp",
    "Verif.Cgv2.evex_symbol_disp",
    "Verif.Cgv2.evex_only_disp8",
    "Verif.Cgv2.evex_wrong_multiplier",
    "Verif.Cgv2.evex_store_variable_is_bound"
   ],
   "note": "all EVEX rows; missing (each proved wrong by a counterexample): displacements outside DispFits, stores to plain variables, rounding on rows shorter than 512 bits"
  },
  {
   "property": "C48",
   "status": "partial",
   "theorems": [
    "Verif.Cgv2.rip_patch",
    "Verif.Cgv2.shipped_rip_legacy",
    "Verif.Cgv2.shipped_rip_vex",
    "Verif.Cgv2.shipped_rip_evex_partial",
    "Verif.Cgv2.shipped_memOpnd"
   ],
   "note": "legacy and VEX rows complete; EVEX rows without decorators"
  },
  {
   "property": "C49",
   "status": "partial",
   "theorems": [
    "Verif.Hll.blocks_run_partial",
    "Verif.Hll.accepted_nested",
    "Verif.Hll.blocks_det",
    "Verif.Hll.prog1_ok",
    "Verif.Hll.while_zero_wrong",
    "Verif.Hll.while_empty_wrong",
    "Verif.Hll.until_empty_once",
    "Verif.Hll.untilcxz_zero_wrong",
    "Verif.Hll.for_zero_undefined"
   ],
   "note": "every nesting of the directives, with the conditions covered by C28; missing: .SWITCH, and conditions that are proved wrong (a .WHILE/.FOR condition that starts with a constant operand of && or ||, .UNTILCXZ constant, .FOR with constant 0)"
  },
  {
   "property": "C50",
   "status": "proved",
   "theorems": [
    "Verif.Lex.C50_terminates",
    "Verif.Lex.C50_lossless",
    "Verif.Lex.C50_size",
    "Verif.Lex.C50_line",
    "Verif.Lex.C50_number",
    "Verif.Lex.exWritten"
   ],
   "note": "lines without EVEX decorators and {} literals (those give `outside` in the model); the losslessness theorem is for single physical lines, the round-trip theorem also for joined lines"
  },
  {
   "property": "C51",
   "status": "proved",
   "theorems": [
    "Verif.Lex.C51_comment_line",
    "Verif.Lex.C51_comment_block"
   ],
   "note": "COMMENT as first token of the line"
  },
  {
   "property": "C52",
   "status": "partial",
   "theorems": [
    "Verif.Frame.unwind_data_reads_back_partial",
    "Verif.Frame.unwind_data_are_bytes",
    "Verif.Frame.savereg_far_wrong",
    "Verif.Frame.savexmm_far_wrong",
    "Verif.Frame.savereg_boundary_wrong",
    "Verif.Frame.savexmm_boundary_wrong",
    "Verif.Frame.savereg_high_wrong",
    "Verif.Frame.savexmm_high_register_wrong"
   ],
   "note": "every sequence of directives with operands in InRange (all .ALLOCSTACK and .SETFRAME operands; register saves below 512 KB / 1 MB); beyond that the assembler accepts and encodes wrongly (proved)"
  },
  {
   "property": "C53",
   "status": "partial",
   "theorems": [
    "Verif.Frame.unwind_restores_partial",
    "Verif.Frame.unwind_restores_rsp_partial",
    "Verif.Frame.volatile_register_breaks_unwind",
    "Verif.Frame.home_area_breaks_unwind",
    "Verif.Frame.unannounced_alloc_breaks_unwind"
   ],
   "note": "at every instruction boundary and in the body, for the RBP prologue and the part of the RSP prologue that announces what it does; false (proved) for volatile USES registers, registers kept in the home area, and the unannounced sub of the RSP prologue"
  },
  {
   "property": "C54",
   "status": "partial",
   "theorems": [
    "Verif.Frame.epilogue_undoes_rbp",
    "Verif.Frame.epilogue_undoes_default",
    "Verif.Frame.epilogue_undoes_rsp_partial",
    "Verif.Frame.epilogue_undoes_sysv_partial",
    "Verif.Frame.epilogue_undoes_generic_partial",
    "Verif.Frame.home_area_is_not_shared",
    "Verif.Frame.rsp_vector_not_saved",
    "Verif.Frame.rsp_zmm_not_restored",
    "Verif.Frame.rsp_vector_room_not_freed",
    "Verif.Frame.sysv_reserved_not_freed",
    "Verif.Frame.sysv_redzone_overwrites",
    "Verif.Frame.generic_auto64_wrong"
   ],
   "note": "default Win64 pair complete; RSP, System V and generic pairs under conditions, each shown to be necessary by a proved counterexample; vectorcall and OPTION FRAMEFLAGS not modelled"
  },
  {
   "property": "C55",
   "status": "partial",
   "theorems": [
    "Verif.Frame.stack_aligned",
    "Verif.Frame.stack_aligned_rsp_partial",
    "Verif.Frame.rsp_misaligned"
   ],
   "note": "default prologue complete for the frames SetLocalOffsets_RBP computes; RSP prologue without vector registers; with vector registers false (rsp_misaligned: movdqa to an unaligned address)"
  },
  {
   "property": "C56",
   "status": "proved",
   "theorems": [
    "Verif.Assume.C56_last_assume_counts",
    "Verif.Assume.C56_label_is_reached",
    "Verif.Assume.C56_refused_iff",
    "Verif.Assume.C56_choice",
    "Verif.Assume.C56_stack_variable",
    "Verif.Assume.C56_external_variable",
    "Verif.Assume.C56_prefix"
   ],
   "note": "16- and 32-bit code; in 64-bit code ES, CS, SS and DS have base 0; builds on C19 (ModRM)"
  },
  {
   "property": "C57",
   "status": "partial",
   "theorems": [
    "Verif.Assume.C57_named_override_partial",
    "Verif.Assume.C57_named_override_refused",
    "Verif.Assume.C57_register_override",
    "Verif.Assume.C57_finding_flat",
    "Verif.Assume.C57_string_instructions_partial",
    "Verif.Assume.C57_string_not_refused",
    "Verif.Assume.C57_finding_movs",
    "Verif.Assume.C57_finding_movs_refused"
   ],
   "note": "false (proved) for name:[number] while the default register is assumed to FLAT, and for MOVS with an override of the destination"
  },
  {
   "property": "C58",
   "status": "partial",
   "theorems": [
    "Verif.Assume.C58_register_refused_iff",
    "Verif.Assume.C58_address_refused_partial",
    "Verif.Assume.C58_finding_ah",
    "Verif.Assume.C58_finding_table_end"
   ],
   "note": "operands complete; addresses: AH-BH share the table entries of SP-DI (proved), RIP and vector indices are read outside of the table"
  },
  {
   "property": "C59",
   "status": "partial",
   "theorems": [
    "Verif.Loop.repeat_partial",
    "Verif.Loop.repeat_count",
    "Verif.Loop.repeat_exitm",
    "Verif.Loop.repeat_error",
    "Verif.Loop.repeat_high_bits_lost",
    "Verif.Loop.while_partial",
    "Verif.Loop.while_high_bits_lost",
    "Verif.Loop.empty_body"
   ],
   "note": "false (proved) for values beyond 32 bits: REPEAT 100000000h and WHILE 100000000h do nothing"
  },
  {
   "property": "C60",
   "status": "partial",
   "theorems": [
    "Verif.Loop.forc_each",
    "Verif.Loop.forc_literal",
    "Verif.Loop.for_each_partial",
    "Verif.Loop.for_blank_lost",
    "Verif.Loop.for_required_blank"
   ],
   "note": "FORC complete; FOR: false (proved) for a literal followed by blank and text, and for REQ with a blank behind the last comma; items with %, {} or macro functions are not modelled"
  },
  {
   "property": "C61",
   "status": "proved",
   "theorems": [
    "Verif.Loop.anon_back",
    "Verif.Loop.anon_fwd",
    "Verif.Loop.labelName_inj",
    "Verif.Loop.labelName_amp"
   ],
   "note": ""
  },
  {
   "property": "C62",
   "status": "partial",
   "theorems": [
    "Verif.Invoke.C62_arguments_partial",
    "Verif.Invoke.C62_callee_partial",
    "Verif.Invoke.ex_hyps",
    "Verif.Invoke.C62_struct_counterexample",
    "Verif.Invoke.C62_stackbase_counterexample",
    "Verif.Invoke.C62_eax_address_counterexample",
    "Verif.Invoke.C62_eax_register_counterexample"
   ],
   "note": "false (proved) for structures of 3, 5, 7, ... bytes, for stack-relative arguments with STACKBASE:ESP and for address arguments that use EAX after ADDR of a local; FAR procedures, register pairs, string and float literals and the register calling conventions are not modelled"
  },
  {
   "property": "C63",
   "status": "partial",
   "theorems": [
    "Verif.Invoke.C63_balance_partial",
    "Verif.Invoke.C63_struct_counterexample",
    "Verif.Invoke.C63_dword_for_qword_counterexample",
    "Verif.Invoke.C63_xmm_counterexample",
    "Verif.Invoke.C63_stdcall_vararg_counterexample",
    "Verif.Invoke.C63_real10_counterexample",
    "Verif.Invoke.C63_vararg_struct_counterexample"
   ],
   "note": "false (proved) for structures of odd sizes, a DWORD variable for a QWORD parameter, XMM registers, STDCALL with VARARG, C VARARG with a fixed 10-byte parameter, 6-byte structures as VARARG"
  },
  {
   "property": "C64",
   "status": "partial",
   "theorems": [
    "Verif.Ins.C64_the_instruction_assembled_is_the_instruction_written",
    "Verif.Ins.C64_push_of_a_number",
    "Verif.Ins.C64_finding_low",
    "Verif.Ins.C64_finding_long",
    "Verif.Ins.C64_finding_byte",
    "Verif.Ins.C64_finding_word",
    "Verif.Ins.C64_finding_nop",
    "Verif.Ins.C64_finding_ptr"
   ],
   "note": "false (proved, C64_finding_...) for constants below -2^31, constants 80000000h and above in 64-bit operations, BYTE PTR before larger constants, constants 0FF80h to 0FFFFh with memory of unknown size, xchg eax,eax in 64-bit code; symbols, segment registers, LOCK/REP, other instructions are not modelled"
  },
  {
   "property": "C65",
   "status": "partial",
   "theorems": [
    "Verif.Ins.C65_a_constant_that_does_not_fit_is_refused",
    "Verif.Ins.C65_a_number_too_large_for_the_register_is_refused",
    "Verif.Ins.C65_finding_word",
    "Verif.Ins.C65_finding_limits"
   ],
   "note": "words -65535 to -32769 and numbers that are small negative 32-bit numbers (0FFFFFFFFh) are accepted; WORD PTR before a larger constant is accepted and cut off (proved)"
  },
  {
   "property": "C66",
   "status": "partial",
   "theorems": [
    "Verif.Invoke64.C66_arguments_partial",
    "Verif.Invoke64.C66_overwritten_is_refused",
    "Verif.Invoke64.C66_overwritten_register_is_refused",
    "Verif.Invoke64.C66_finding_xmm",
    "Verif.Invoke64.C66_finding_ch",
    "Verif.Invoke64.C66_finding_equate",
    "Verif.Invoke64.C66_finding_null",
    "Verif.Invoke64.C66_finding_real_gpr",
    "Verif.Invoke64.C66_finding_real_const",
    "Verif.Invoke64.C66_finding_real_size",
    "Verif.Invoke64.C66_finding_real_addr",
    "Verif.Invoke64.C66_finding_rsp",
    "Verif.Invoke64.C66_finding_struct",
    "Verif.Invoke64.C66_finding_target",
    "Verif.Invoke64.C66_finding_fifth"
   ],
   "note": "false (proved, C66_finding_...) for exchanged XMM registers, CH and DH, equates that are multiples of 2^32, NULL/FALSE with another value, general registers, constants or ADDR for REAL parameters, RSP-relative arguments, the called address in RCX etc.; string literals, VECTORCALL, SysV not modelled"
  },
  {
   "property": "C67",
   "status": "proved",
   "theorems": [
    "Verif.Invoke64.C67_stack",
    "Verif.Invoke64.C67_reserved"
   ],
   "note": ""
  },
  {
   "property": "C68",
   "status": "partial",
   "theorems": [
    "Verif.Switch.C68_switch_partial",
    "Verif.Switch.C68_operand_size",
    "Verif.Switch.C68_accepts",
    "Verif.Switch.C68_small_blocks",
    "Verif.Switch.C68_defect_lost_label_32",
    "Verif.Switch.C68_defect_lost_label_64",
    "Verif.Switch.C68_defect_no_default",
    "Verif.Switch.C68_defect_64bit_constants",
    "Verif.Switch.C68_defect_huge_table",
    "Verif.Switch.C68_defect_fall_through",
    "Verif.Switch.C68_defect_upper_half",
    "Verif.Switch.C68_defect_constant_operand",
    "Verif.Switch.C68_defect_comma",
    "Verif.Switch.C68_defect_no_break"
   ],
   "note": "proved for blocks that end with .BREAK and have a .BREAK between statements and the next .CASE, and whose constants fit (GoodConsts; always so for up to 36 constants with 32 bits less than 2^29 apart); false otherwise (proved, C68_defect_...): labels lost in jump tables with holes, no default entry for 75 constants, 64-bit constants cut in the binary search, .CASE behind a section without .BREAK, no .BREAK at the end, EAX in 64-bit code with a dirty upper half, constant operands; OPTION SWITCHSTYLE:ASMSWITCH not modelled"
  },
  {
   "property": "C69",
   "status": "partial",
   "theorems": [
    "Verif.Equate.C69_passes_partial",
    "Verif.Equate.C69_full_passes",
    "Verif.Equate.C69_defect_segment_not_restored",
    "Verif.Equate.C69_defect_forward_assign",
    "Verif.Equate.C69_defect_sizestr_segment",
    "Verif.Equate.C69_defect_sizestr_high",
    "Verif.Equate.C69_defect_equ_not_saved",
    "Verif.Equate.C69_defect_forward_ref"
   ],
   "note": "C69_full_passes: without replay, if names set by SIZESTR/INSTR are never addresses; C69_passes_partial: with replay, for regular sources (Regular); false otherwise (proved, C69_defect_...): the segment of a variable is not restored, so the first entry of a linked list gets a relocation; a variable set with a forward reference is not saved; SIZESTR keeps the segment and clears the high word before saving; EQU does not save"
  },
  {
   "property": "C70",
   "status": "partial",
   "theorems": [
    "Verif.Equate.C70_constant_partial",
    "Verif.Equate.C70_accepts",
    "Verif.Equate.C70_defect_equ_then_assign",
    "Verif.Equate.C70_defect_equ_then_sizestr",
    "Verif.Equate.C70_defect_address_becomes_number",
    "Verif.Equate.C70_defect_label_assigned",
    "Verif.Equate.C70_defect_second_pass"
   ],
   "note": "constancy proved for names defined by EQU only that are not both number and address; false otherwise (proved, C70_defect_...): x EQU 5 / x = 5 / x = 6 is accepted, so is x EQU 5 / x SIZESTR; an address at offset 0 may become the number 0; a label at offset 0 may be assigned 0. Acceptance proved for all proper sources read again in each pass"
  },
  {
   "property": "C71",
   "status": "partial",
   "theorems": [
    "Verif.Real10.C71_accurate_partial",
    "Verif.Real10.C71_neighbours",
    "Verif.Real10.C71_exact",
    "Verif.Real10.C71_order",
    "Verif.Real10.C71_zero",
    "Verif.Real10.C71_defect_nearest",
    "Verif.Real10.C71_defect_tie",
    "Verif.Real10.C71_defect_overflow",
    "Verif.Real10.C71_defect_underflow",
    "Verif.Real10.C71_defect_zero_exponent",
    "Verif.Real10.C71_defect_no_exponent"
   ],
   "note": "proved for all literals in the range of normal numbers, with error 1/2 + 2^-16 units of the last place; correct rounding is false (proved, C71_defect_nearest: 7.0000000000000000002168404345; ties go up); out of range: no error, 1e8192 is 1.0, 1e5000 and 1e-4940 become negative numbers; 0.0e1 is not a valid zero"
  },
  {
   "property": "C72",
   "status": "partial",
   "theorems": [
    "Verif.Macho.C72_header",
    "Verif.Macho.C72_sections_partial",
    "Verif.Macho.C72_segment",
    "Verif.Macho.C72_defect_other_segment",
    "Verif.Macho.C72_defect_size",
    "Verif.Macho.C72_defect_no_section"
   ],
   "note": "proved for modules whose segments are _TEXT, _DATA, CONST (and an empty _BSS) with every byte assembled; outside of this it is false (proved): segments with other names are dropped silently, uninitialised data (all of _BSS) and ORG gaps are not counted in section sizes, without any of the four segments the writer dereferences NULL"
  },
  {
   "property": "C73",
   "status": "partial",
   "theorems": [
    "Verif.Macho.C73_symbols_partial",
    "Verif.Macho.C73_relocs_partial",
    "Verif.Macho.C73_defect_absolute",
    "Verif.Macho.C73_defect_immediate",
    "Verif.Macho.C73_defect_missing",
    "Verif.Macho.C73_defect_unused_extern"
   ],
   "note": "proved when externals are used and fixups are 4-byte relative fields at the end of the instruction to listed symbols; otherwise false (proved): absolute addresses get pc-relative relocations of length 1, an immediate behind the displacement gives lengths of 1 or 8 bytes, unlisted symbols give index 0FFFFFFh, an unused EXTERN shifts the string table beyond the end of the file"
  },
  {
   "property": "C74",
   "status": "partial",
   "theorems": [
    "Verif.Call.C74_statement_partial",
    "Verif.Call.C74_function_partial",
    "Verif.Call.C74_simple",
    "Verif.Call.C74_defect_blank_in_parens",
    "Verif.Call.C74_defect_surplus_parens",
    "Verif.Call.C74_defect_literal_blank",
    "Verif.Call.C74_defect_call_blank",
    "Verif.Call.C74_defect_req_vararg"
   ],
   "note": "missing: %, {} and <> with %, unbalanced parentheses, predefined macro functions, buffer size; five deviations proved as defects"
  },
  {
   "property": "C75",
   "status": "proved",
   "theorems": [
    "Verif.MacroRun.C75_run",
    "Verif.MacroRun.C75_converse",
    "Verif.MacroRun.C75_label",
    "Verif.MacroRun.C75_defect_into_block"
   ],
   "note": "both directions against a big-step semantics; GOTO into an IF block (excluded by the statement) is shown to close the caller's block; malformed label lines, END and the value of EXITM not modelled"
  },
  {
   "property": "C76",
   "status": "partial",
   "theorems": [
    "Verif.Cpu.C76_instructions_partial",
    "Verif.Cpu.C76_registers",
    "Verif.Cpu.C76_symbol_partial",
    "Verif.Cpu.C76_default_size",
    "Verif.Cpu.C76_segment",
    "Verif.Cpu.C76_defect_model",
    "Verif.Cpu.C76_defect_3dnow",
    "Verif.Cpu.C76_defect_v2",
    "Verif.Cpu.C76_defect_mmx"
   ],
   "note": "false for 3DNow (accepted with .XMM), for all instructions of the second table (never checked), for bit 5 of @Cpu with .686 and .X64: proved as defects or excluded"
  },
  {
   "property": "C77",
   "status": "partial",
   "theorems": [
    "Verif.Startup.C77_accepted",
    "Verif.Startup.C77_unknown",
    "Verif.Startup.C77_settings_partial",
    "Verif.Startup.C77_modes",
    "Verif.Startup.C77_symbols",
    "Verif.Startup.C77_defect_os"
   ],
   "note": "false for a written operating system: OS_DOS selects OS/2 and OS_OS2 DOS (C77_defect_os); the segments and ASSUMEs created are not modelled"
  },
  {
   "property": "C78",
   "status": "proved",
   "theorems": [
    "Verif.Startup.C78_startup_near",
    "Verif.Startup.C78_startup_far",
    "Verif.Startup.C78_interrupts",
    "Verif.Startup.C78_exit"
   ],
   "note": "a machine with 16-bit registers, a stack and the two system calls; the generated lines are taken as the instructions they name"
  },
  {
   "property": "C79",
   "status": "partial",
   "theorems": [
    "Verif.TextExp.C79_expand_partial",
    "Verif.TextExp.C79_nesting",
    "Verif.TextExp.C79_unique",
    "Verif.TextExp.C79_unchanged",
    "Verif.TextExp.C79_self",
    "Verif.TextExp.C79_defect_number"
   ],
   "note": "missing: macro functions in % lines, a name directly behind a digit (replaced inside of numbers: C79_defect_number), two names with & between them only"
  },
  {
   "property": "C80",
   "status": "partial",
   "theorems": [
    "Verif.TextExp.C80_expand_partial",
    "Verif.TextExp.C80_bracket_partial",
    "Verif.TextExp.C80_defect_continuation"
   ],
   "note": "missing: macro functions, tokens that join with their neighbours; a value with a backslash before a semicolon is taken for a line continuation (C80_defect_continuation)"
  },
  {
   "property": "C81",
   "status": "partial",
   "theorems": [
    "Verif.MzHdr.C81_load_image",
    "Verif.MzHdr.C81_file",
    "Verif.MzHdr.C81_memory",
    "Verif.MzHdr.C81_entry",
    "Verif.MzHdr.C81_stack_partial",
    "Verif.MzHdr.C81_option",
    "Verif.MzHdr.C81_defect_stack",
    "Verif.MzHdr.C81_defect_relocs"
   ],
   "note": "missing: FLAT with ORG gaps; false for a stack segment that does not start at a paragraph (C81_defect_stack) and for 65536 relocations or more (C81_defect_relocs)"
  },
  {
   "property": "C82",
   "status": "partial",
   "theorems": [
    "Verif.SimSeg.C82_directive",
    "Verif.SimSeg.C82_program",
    "Verif.SimSeg.C82_model",
    "Verif.SimSeg.C82_dgroup",
    "Verif.SimSeg.C82_whole"
   ],
   "note": "missing: OPTION FLAT, passes after the first, options -nt and -nd giving both default segments the same name"
  },
  {
   "property": "C83",
   "status": "partial",
   "theorems": [
    "Verif.OrgFlat.C83_file_partial",
    "Verif.OrgFlat.C83_defect_start",
    "Verif.OrgFlat.C83_defect_label"
   ],
   "note": "missing: backward ORG; false for programs that start at an ORG, where bytes are lost (C83_defect_start), and for ORG with a label (C83_defect_label)"
  },
  {
   "property": "C84",
   "status": "partial",
   "theorems": [
    "Verif.FpEmu.C84_linked_partial",
    "Verif.FpEmu.C84_externs",
    "Verif.FpEmu.C84_defect_prefix"
   ],
   "note": "missing: FS and GS overrides (the libraries have no value for FIFRQQ and FIGRQQ); false for emulated instructions with a 66h or 67h prefix, which the source comment admits (C84_defect_prefix)"
  }
 ]
}
{
 "claims": [
  {
   "property": "C01",
   "status": "partial",
   "theorems": [
    "Gaia.C01_scanned_value",
    "Gaia.C01_literal_value_partial",
    "Gaia.C01_wraps",
    "Gaia.C01_too_big_partial",
    "Gaia.C01_jump_partial",
    "Gaia.C01_digits"
   ],
   "note": "False of the code for literals of 2^64 and more (the 64-bit accumulator wraps): C01_wraps. C01_scanned_value is the exact behaviour for every digit string; the _partial theorems are the property for values below 2^64 (resp. not congruent to a small number)."
  },
  {
   "property": "C02",
   "status": "proved",
   "theorems": [
    "Gaia.C02_illegal_digit",
    "Gaia.C02_no_digits"
   ],
   "note": "In any line after any faultless lines and any lexemes."
  },
  {
   "property": "C03",
   "status": "proved",
   "theorems": [
    "Gaia.C03_word_scanned",
    "Gaia.C03_too_long",
    "Gaia.C03_labels_distinct",
    "Gaia.C03_letters",
    "Gaia.C03_name_characters"
   ],
   "note": "Scanner (C03_word_scanned), refusal in every context (C03_too_long), distinctness end to end (C03_labels_distinct)."
  },
  {
   "property": "C04",
   "status": "proved",
   "theorems": [
    "Gaia.C04_case_insensitive",
    "Gaia.C04_upper_case",
    "Gaia.C04_messages",
    "Gaia.C04_output"
   ],
   "note": "All sources of fewer than 21474836 lines, errors included; C04_messages and C04_output say what is printed."
  },
  {
   "property": "C05",
   "status": "proved",
   "theorems": [
    "Gaia.C05_layout",
    "Gaia.C05_comment",
    "Gaia.C05_cr",
    "Gaia.C05_indent",
    "Gaia.C05_blanks",
    "Gaia.C05_trailing",
    "Gaia.C05_crlf",
    "Gaia.C05_final_newline",
    "Gaia.C05_messages"
   ],
   "note": "C05_layout for whole sources; the other theorems show that the listed edits are instances of its relation, C05_crlf and C05_final_newline are end to end, C05_messages adds what is printed when the runs fail. Lines up to 126 characters, as in the property."
  },
  {
   "property": "C06",
   "status": "proved",
   "theorems": [
    "Gaia.C06_accepted",
    "Gaia.C06_tokens",
    "Gaia.C06_documented",
    "Gaia.C06_unambiguous"
   ],
   "note": "Exact for all lines; literal values modulo 2^64 (Spec/Cut.lean); C06_documented connects to the documented lexemes."
  },
  {
   "property": "C07",
   "status": "proved",
   "theorems": [
    "Gaia.C07_lexer_safe",
    "Gaia.C07_slots"
   ],
   "note": "Out-of-bounds reads and writes and exhausted fuel are the result .ub in the model; it is unreachable."
  },
  {
   "property": "C08",
   "status": "proved",
   "theorems": [
    "Gaia.C08_lexer_independent",
    "Gaia.C08_line_independent"
   ],
   "note": "Lexer, and the whole step of the main loop."
  },
  {
   "property": "C09",
   "status": "proved",
   "theorems": [
    "Gaia.C09_words"
   ],
   "note": "All words up to 63 characters in whatever case."
  },
  {
   "property": "C10",
   "status": "partial",
   "theorems": [
    "Gaia.C10_accepted_exactly",
    "Gaia.C10_grammar_partial",
    "Gaia.C10_refused",
    "Gaia.C10_junk_accepted"
   ],
   "note": "False of the code for lexemes after an indexed operand (C10_junk_accepted). C10_accepted_exactly is the exact set; C10_grammar_partial the property without such lines; C10_refused gives message and position."
  },
  {
   "property": "C11",
   "status": "proved",
   "theorems": [
    "Gaia.C11_parse_in_bounds",
    "Gaia.C11_operand_in_bounds"
   ],
   "note": ""
  },
  {
   "property": "C12",
   "status": "proved",
   "theorems": [
    "Gaia.C12_accepted_iff",
    "Gaia.C12_mode",
    "Gaia.C12_refused",
    "Gaia.C12_run_refused"
   ],
   "note": "C12_accepted_iff and C12_mode for all mnemonics, forms and values, from any reachable state; C12_run_refused: the whole run, which line and message."
  },
  {
   "property": "C13",
   "status": "proved",
   "theorems": [
    "Gaia.C13_opcode",
    "Gaia.C13_allowed",
    "Gaia.C13_no_other_modes",
    "Gaia.C13_distinct",
    "Gaia.C13_rows"
   ],
   "note": "Against opcodes/6502ops.csv, transcribed by tools/gen_opcode.py into Spec/OpTable.lean."
  },
  {
   "property": "C14",
   "status": "partial",
   "theorems": [
    "Gaia.C14_exact_opcode",
    "Gaia.C14_documented_partial",
    "Gaia.C14_illegal_opcode"
   ],
   "note": "False of the code: JMP to a label defined later with ',X' emits 0xF3 (C14_illegal_opcode). C14_documented_partial: all other lines."
  },
  {
   "property": "C15",
   "status": "proved",
   "theorems": [
    "Gaia.C15_decodes"
   ],
   "note": "Decoding the bytes with the table gives back mnemonic, mode and operand."
  },
  {
   "property": "C16",
   "status": "partial",
   "theorems": [
    "Gaia.C16_bytes_determine_partial",
    "Gaia.C16_branch_determine_partial",
    "Gaia.C16_branch_cut",
    "Gaia.C16_label_cut",
    "Gaia.C16_label_cut_reached"
   ],
   "note": "False of the code: 'BNE $1234' keeps only the low byte (C16_branch_cut), labels above 0xFFFF are cut (C16_label_cut, C16_label_cut_reached). C16_bytes_determine_partial: all other cases."
  },
  {
   "property": "C17",
   "status": "proved",
   "theorems": [
    "Gaia.C17_symbolTable_is_finite_map",
    "Gaia.C17_searchSymbol_value"
   ],
   "note": ""
  },
  {
   "property": "C18",
   "status": "proved",
   "theorems": [
    "Gaia.C18_probing_terminates"
   ],
   "note": ""
  },
  {
   "property": "C19",
   "status": "proved",
   "theorems": [
    "Gaia.C19_isPrime_correct",
    "Gaia.C19_nextPrime_least",
    "Gaia.C19_nextPrime_le",
    "Gaia.C19_loop_bound"
   ],
   "note": ""
  },
  {
   "property": "C20",
   "status": "proved",
   "theorems": [
    "Gaia.C20_run_refused",
    "Gaia.C20_redefinition",
    "Gaia.C20_value_kept",
    "Gaia.C20_run_fails",
    "Gaia.C20_uses",
    "Gaia.C20_one_definition"
   ],
   "note": "C20_redefinition, C20_value_kept: any reachable state; C20_run_fails, C20_run_refused: the whole run; C20_uses: all uses in a successful run (documented language, ascending addresses); C20_one_definition: any text."
  },
  {
   "property": "C21",
   "status": "proved",
   "theorems": [
    "Gaia.C21_defined",
    "Gaia.C21_origin",
    "Gaia.C21_forms",
    "Gaia.C21_lands",
    "Gaia.C21_constant",
    "Gaia.C21_sum"
   ],
   "note": "Any reachable state: C21_defined, C21_origin; whole runs: C21_lands, C21_constant (documented language, ascending addresses), C21_sum; any text: C57, C66."
  },
  {
   "property": "C22",
   "status": "proved",
   "theorems": [
    "Gaia.C22_run_refused",
    "Gaia.C22_forward_refused",
    "Gaia.C22_branch"
   ],
   "note": "Backward branches C22_branch; forward branches by C23_branches; C22_run_refused, C22_forward_refused: the whole run's failure."
  },
  {
   "property": "C23",
   "status": "proved",
   "theorems": [
    "Gaia.C23_jumps",
    "Gaia.C23_branches",
    "Gaia.C23_undefined_fails",
    "Gaia.C23_undefined_message",
    "Gaia.C23_any_addresses"
   ],
   "note": "For programs of the documented language without indexed jumps to labels (see C14), C23_branches/C23_jumps for ascending addresses (see C27 for why); C23_any_addresses for any order of addresses."
  },
  {
   "property": "C24",
   "status": "proved",
   "theorems": [
    "Gaia.C24_references_kept"
   ],
   "note": ""
  },
  {
   "property": "C25",
   "status": "proved",
   "theorems": [
    "Gaia.C25_run_refused",
    "Gaia.C25_forward",
    "Gaia.C25_run_fails"
   ],
   "note": "C25_run_refused: the whole run."
  },
  {
   "property": "C26",
   "status": "partial",
   "theorems": [
    "Gaia.C26_assembles",
    "Gaia.C26_refuses",
    "Gaia.C26_two_pass_partial",
    "Gaia.C26_low",
    "Gaia.C26_accepts",
    "Gaia.C26_label_counterexample",
    "Gaia.C26_offset_counterexample",
    "Gaia.C26_damage",
    "Gaia.C26_any_addresses",
    "Gaia.C26_no_forward"
   ],
   "note": "Proved for ascending addresses and operands that fit (C26_two_pass_partial); C26_low is exact for ascending addresses, C26_accepts for all addresses (acceptance and totals), C26_any_addresses whenever the dummy bytes of forward references do no harm. False otherwise: C26_label_counterexample, C26_offset_counterexample, C26_damage."
  },
  {
   "property": "C27",
   "status": "partial",
   "theorems": [
    "Gaia.C27_undamaged_partial",
    "Gaia.C27_forward_damage",
    "Gaia.C27_position",
    "Gaia.C27_undamaged_in_sequence",
    "Gaia.C27_damage"
   ],
   "note": "False of the code for a forward reference after a change of origin (C27_damage). C27_undamaged_partial: all lines without a forward reference; C27_forward_damage + C27_position: exactly which bytes a forward reference may damage; C27_undamaged_in_sequence: no change of origin."
  },
  {
   "property": "C28",
   "status": "proved",
   "theorems": [
    "Gaia.C28_image",
    "Gaia.C28_any_addresses"
   ],
   "note": "Programs of the documented language with ascending addresses, as in the property; C28_any_addresses for any order of addresses."
  },
  {
   "property": "C29",
   "status": "proved",
   "theorems": [
    "Gaia.C29_decimal",
    "Gaia.C29_hex",
    "Gaia.C29_totals",
    "Gaia.C29_at_most_length",
    "Gaia.C29_printed",
    "Gaia.C29_symbols_any",
    "Gaia.C29_bytes_any"
   ],
   "note": "C29_totals: programs of the documented language; C29_symbols_any and C29_bytes_any: any text at all (bytes for a text with one origin at most); C29_printed ties the digits printed to the number."
  },
  {
   "property": "C30",
   "status": "proved",
   "theorems": [
    "Gaia.C30_end",
    "Gaia.C30_end_last"
   ],
   "note": ""
  },
  {
   "property": "C31",
   "status": "proved",
   "theorems": [
    "Gaia.C31_status",
    "Gaia.C31_success_iff"
   ],
   "note": "All sources of fewer than 21474836 lines."
  },
  {
   "property": "C32",
   "status": "partial",
   "theorems": [
    "Gaia.C32_diagnostic_partial",
    "Gaia.C32_one_diagnostic_partial",
    "Gaia.C32_silent"
   ],
   "note": "False of the code: a line of more than eight tokens stops gaia without a message (C32_silent). C32_diagnostic_partial: this is the only exception, for all sources; C32_one_diagnostic_partial: in terms of source lines."
  },
  {
   "property": "C33",
   "status": "proved",
   "theorems": [
    "Gaia.C33_diagnostic",
    "Gaia.C33_every_failure_partial",
    "Gaia.C33_line_number",
    "Gaia.C33_forward",
    "Gaia.C33_unambiguous"
   ],
   "note": "C33_diagnostic: soundness for every error of a source; C33_line_number, C33_forward: any source. C33_every_failure_partial adds completeness, with the listed exceptions."
  },
  {
   "property": "C34",
   "status": "partial",
   "theorems": [
    "Gaia.C34_pieces",
    "Gaia.C34_whole_lines_partial",
    "Gaia.C34_long_line"
   ],
   "note": "False of the code for lines over 126 characters (C34_long_line). C34_pieces is the exact behaviour for all sources; C34_whole_lines_partial the property for short lines."
  },
  {
   "property": "C35",
   "status": "proved",
   "theorems": [
    "Gaia.C35_no_undefined_behaviour",
    "Gaia.C35_limit",
    "Gaia.C35_defined_iff",
    "Gaia.C35_small",
    "Gaia.C35_limit_reached",
    "Gaia.C35_limit_tight"
   ],
   "note": "All sources of fewer than 21474836 lines, any names and files; undefined behaviour is a result of the model (C.ub) and unreachable. Termination: the model is total, and exhausted fuel counts as undefined. C35_limit, C35_defined_iff: the exact limit on symbols, up to 2^28 lines; C35_limit_reached and C35_limit_tight exhibit it."
  },
  {
   "property": "C36",
   "status": "proved",
   "theorems": [
    "Gaia.C36_no_source",
    "Gaia.C36_no_output",
    "Gaia.C36_only_output"
   ],
   "note": ""
  },
  {
   "property": "C37",
   "status": "partial",
   "theorems": [
    "Gaia.C37_source_kept_partial",
    "Gaia.C37_overwritten",
    "Gaia.C37_links",
    "Gaia.C37_links_overwritten",
    "Gaia.C37_kept_iff"
   ],
   "note": "False of the code if the output has the source's name (C37_overwritten); C37_source_kept_partial otherwise. C37_kept_iff: exactly when the source is kept, for file systems with any links (Model/Links.lean)."
  },
  {
   "property": "C38",
   "status": "proved",
   "theorems": [
    "Gaia.C38_failed_allocation_harmless"
   ],
   "note": ""
  },
  {
   "property": "C39",
   "status": "proved",
   "theorems": [
    "Gaia.C39_label_line",
    "Gaia.C39_colon",
    "Gaia.C39_any_text",
    "Gaia.C39_conditions",
    "Gaia.C39_needs_instruction"
   ],
   "note": "C39_any_text has the messages, for any text around the two lines; C39_needs_instruction shows why the second line has to be an instruction there."
  },
  {
   "property": "C40",
   "status": "proved",
   "theorems": [
    "Gaia.C40_literal_notation",
    "Gaia.C40_messages"
   ],
   "note": "C40_messages adds what is printed when the runs fail."
  },
  {
   "property": "C41",
   "status": "proved",
   "theorems": [
    "Gaia.C41_output"
   ],
   "note": "Programs of the documented language, any addresses."
  },
  {
   "property": "C42",
   "status": "proved",
   "theorems": [
    "Gaia.C42_all_released",
    "Gaia.C42_all_released_made"
   ],
   "note": "Memory model: blocks and files; use after free is in the pointer model (C56), sizes are not modelled."
  },
  {
   "property": "C43",
   "status": "proved",
   "theorems": [
    "Gaia.C43_no_undefined_behaviour",
    "Gaia.C43_success_is_real",
    "Gaia.C43_refused_at_start",
    "Gaia.C43_refused_later"
   ],
   "note": ""
  },
  {
   "property": "C44",
   "status": "partial",
   "theorems": [
    "Gaia.C44_init_leaks",
    "Gaia.C44_symbol_leaks",
    "Gaia.C44_reference_leaks",
    "Gaia.C44_realloc_leaks",
    "Gaia.C44_no_leak_partial",
    "Gaia.C44_leak_bound",
    "Gaia.C44_leak_reached"
   ],
   "note": "False of the code: C44_init_leaks, C44_symbol_leaks, C44_reference_leaks and C44_realloc_leaks are runs that leak. C44_no_leak_partial covers every run without a refused request; C44_leak_bound says exactly how many blocks any run can leave (reached: C44_leak_reached)."
  },
  {
   "property": "C45",
   "status": "proved",
   "theorems": [
    "Gaia.C45_source_and_output",
    "Gaia.C45_usage",
    "Gaia.C45_parse_opt"
   ],
   "note": "parse_opt as written, for any sequence of calls (C45_parse_opt); argp_parse itself as its manual describes it; --help, --usage, --version and unknown options are outside the model."
  },
  {
   "property": "C46",
   "status": "proved",
   "theorems": [
    "Gaia.C46_locality",
    "Gaia.C46_output_name",
    "Gaia.C46_source_name"
   ],
   "note": ""
  },
  {
   "property": "C47",
   "status": "proved",
   "theorems": [
    "Gaia.C47_renaming",
    "Gaia.C47_messages"
   ],
   "note": "Lines up to 126 characters (see C34); sources with errors included, with their messages in C47_messages."
  },
  {
   "property": "C48",
   "status": "proved",
   "theorems": [
    "Gaia.C48_unused_symbol",
    "Gaia.C48_blank_line",
    "Gaia.C48_messages",
    "Gaia.C48_blank_messages"
   ],
   "note": "Lines up to 126 characters (see C34); sources with errors included, with their messages in C48_messages and C48_blank_messages."
  },
  {
   "property": "C49",
   "status": "proved",
   "theorems": [
    "Gaia.C49_any_text",
    "Gaia.C49_known_name",
    "Gaia.C49_fails_later",
    "Gaia.C49_refused",
    "Gaia.C49_not_later",
    "Gaia.C49_constant_inlined",
    "Gaia.C49_not_for_branches"
   ],
   "note": "C49_constant_inlined: a constant defined by =, .EQU or .DEFINE on an earlier line; C49_any_text: the same for any text, with the messages; C49_known_name: any name known there. C49_not_for_branches shows why branches are excluded."
  },
  {
   "property": "C50",
   "status": "proved",
   "theorems": [
    "Gaia.C50_disassembly",
    "Gaia.C50_stretch",
    "Gaia.C50_origin"
   ],
   "note": "C50_disassembly: programs without .ORG. C50_stretch: any stretch without origin line of a program with ascending addresses. C50_origin: one origin line, at the start."
  },
  {
   "property": "C51",
   "status": "proved",
   "theorems": [
    "Gaia.C51_instructions",
    "Gaia.C51_only",
    "Gaia.C51_round_trip",
    "Gaia.C51_not_writable"
   ],
   "note": "C51_instructions has no restriction but the size (fewer than 21474836 lines); C51_only and C51_round_trip need operands that fit (see C26). C51_not_writable records the exceptions."
  },
  {
   "property": "C52",
   "status": "proved",
   "theorems": [
    "Gaia.C52_statement_error",
    "Gaia.C52_reference_error",
    "Gaia.C52_bad_line"
   ],
   "note": "Errors of every kind; HugeFree (no digits after a literal overflow, see C01) only for 'literal too big'."
  },
  {
   "property": "C53",
   "status": "proved",
   "theorems": [
    "Gaia.C53_size",
    "Gaia.C53_success"
   ],
   "note": "Arbitrary bytes as source; fewer than 21474836 lines."
  },
  {
   "property": "C54",
   "status": "proved",
   "theorems": [
    "Gaia.C54_write_errors_ignored",
    "Gaia.C54_full_disk",
    "Gaia.C54_read_error_ignored"
   ],
   "note": "Model/IO.lean: the output FILE is an arbitrary device, fgets may fail. Finding: I/O errors are ignored and success is reported."
  },
  {
   "property": "C55",
   "status": "proved",
   "theorems": [
    "Gaia.C55_complete",
    "Gaia.C55_left_any",
    "Gaia.C55_length_any",
    "Gaia.C55_bytes_any",
    "Gaia.C55_bytes_back",
    "Gaia.C55_rerun",
    "Gaia.C55_left",
    "Gaia.C55_bytes",
    "Gaia.C55_prefix"
   ],
   "note": "Rerun: any source on which the run ends. Contents: any source, successful or not (C55_left_any, C55_length_any, C55_complete: the file left is that of a prefix of the writes of the complete run); any source whose origin lines do not go back: each byte is 0 or the one the complete run leaves (C55_bytes_any; C55_bytes_back: the condition is needed); successful programs of the documented language: C55_bytes, prefix of the final file (C55_prefix). Crash = a prefix of the seek/write requests has reached the disk (buffering by stdio keeps their order)."
  },
  {
   "property": "C56",
   "status": "proved",
   "theorems": [
    "Gaia.C56_no_bad_access",
    "Gaia.C56_all_released",
    "Gaia.C56_uninitialised",
    "Gaia.C56_success_is_real"
   ],
   "note": "Model/Pointers.lean: every structure as an object in a heap block, accessed through pointers. Source of fewer than 21474836 lines; the source's name contains no NUL (it is a C string)."
  },
  {
   "property": "C57",
   "status": "proved",
   "theorems": [
    "Gaia.C57_within_limit",
    "Gaia.C57_reference",
    "Gaia.C57_viable",
    "Gaia.C57_success",
    "Gaia.C57_failure"
   ],
   "note": "Spec/Reference.lean is a complete executable specification; it shares no function with Model/*. Source of fewer than 21474836 lines, files in place."
  },
  {
   "property": "C58",
   "status": "proved",
   "theorems": [
    "Gaia.C58_relocatable",
    "Gaia.C58_position_independent",
    "Gaia.C58_example",
    "Gaia.C58_conditions"
   ],
   "note": "Any bytes as body. Origin 256 or more, no other origin line, no branch to a constant: C58_conditions shows that each of the three is necessary. Fewer than 21474836 lines."
  },
  {
   "property": "C59",
   "status": "proved",
   "theorems": [
    "Gaia.C59_append",
    "Gaia.C59_no_repair",
    "Gaia.C59_example",
    "Gaia.C59_conditions",
    "Gaia.C59_repair"
   ],
   "note": "Any bytes. C59_conditions and C59_repair show that the conditions and the exception are necessary. Fewer than 21474836 lines."
  },
  {
   "property": "C60",
   "status": "proved",
   "theorems": [
    "Gaia.C60_modules",
    "Gaia.C60_example",
    "Gaia.C60_conditions"
   ],
   "note": "Any bytes. C60_conditions shows that the conditions on names and .END are necessary. Fewer than 21474836 lines."
  },
  {
   "property": "C61",
   "status": "proved",
   "theorems": [
    "Gaia.C61_requests",
    "Gaia.C61_arrays"
   ],
   "note": "C61_requests: sources of any size, any pattern of refusals; C61_arrays: states reached with fewer than 21474836 lines. c61_eight: the 8 is reached."
  },
  {
   "property": "C62",
   "status": "proved",
   "theorems": [
    "Gaia.C62_moved",
    "Gaia.C62_accepted"
   ],
   "note": "Documented language; C62_moved for ascending addresses (the binary), C62_accepted for any addresses (acceptance and totals)."
  },
  {
   "property": "C63",
   "status": "proved",
   "theorems": [
    "Gaia.C63_same_address",
    "Gaia.C63_continue",
    "Gaia.C63_zero",
    "Gaia.C63_overridden"
   ],
   "note": "Any text (fewer than 21474836 lines), messages included. overridden says when an origin is not used."
  },
  {
   "property": "C64",
   "status": "proved",
   "theorems": [
    "Gaia.C64_interchangeable"
   ],
   "note": "One use at a time; documented language, ascending addresses."
  },
  {
   "property": "C65",
   "status": "proved",
   "theorems": [
    "Gaia.C65_same_run",
    "Gaia.C65_exits",
    "Gaia.C65_codes",
    "Gaia.C65_parse_line",
    "Gaia.C65_offset",
    "Gaia.C65_operand",
    "Gaia.C65_addr_mode",
    "Gaia.C65_bytes",
    "Gaia.C65_digit"
   ],
   "note": "Model/Codes.lean is the program with plain int returns; C65_same_run relates it to the main model for every run the main model defines."
  },
  {
   "property": "C66",
   "status": "proved",
   "theorems": [
    "Gaia.C66_statements",
    "Gaia.C66_constants",
    "Gaia.C66_origins",
    "Gaia.C66_all_forms"
   ],
   "note": ""
  },
  {
   "property": "C67",
   "status": "proved",
   "theorems": [
    "Gaia.C67_characters",
    "Gaia.C67_refused"
   ],
   "note": ""
  },
  {
   "property": "C68",
   "status": "proved",
   "theorems": [
    "Gaia.C68_behind_error",
    "Gaia.C68_up_to_error",
    "Gaia.C68_beginning"
   ],
   "note": "Any bytes; fewer than 21474836 lines. C33_unambiguous: reading messages back."
  },
  {
   "property": "C69",
   "status": "proved",
   "theorems": [
    "Gaia.C69_fetch",
    "Gaia.C69_step",
    "Gaia.C69_loaded",
    "Gaia.C69_progress",
    "Gaia.C69_run",
    "Gaia.C69_next",
    "Gaia.C69_this",
    "Gaia.C69_label"
   ],
   "note": "Spec/Machine.lean: an arbitrary processor with the 6502's instruction format, and an interpreter of the source. Not about programs that overwrite themselves."
  },
  {
   "property": "C70",
   "status": "proved",
   "theorems": [
    "Gaia.C70_local",
    "Gaia.C70_conditions",
    "Gaia.C70_window",
    "Gaia.C70_refused"
   ],
   "note": "For any text, via the reference assembler of C57 (its state before the line gives the address and the known symbols). C70_window: the exception is needed."
  },
  {
   "property": "C71",
   "status": "proved",
   "theorems": [
    "Gaia.C71_value_for_name",
    "Gaia.C71_name_for_value",
    "Gaia.C71_not_for_branches"
   ],
   "note": "One operand at a time; documented language, ascending addresses. C49 has the case of a name that is known above for any text, with the messages of failures."
  },
  {
   "property": "C72",
   "status": "proved",
   "theorems": [
    "Gaia.C72_code_before",
    "Gaia.C72_no_origins",
    "Gaia.C72_conditions",
    "Gaia.C72_file_position"
   ],
   "note": "Any text, via the reference assembler of C57 (its state behind the common lines gives the address reached and the references that wait). C72_no_origins: texts without origin lines; C72_file_position: the condition on the file position is needed."
  },
  {
   "property": "C73",
   "status": "proved",
   "theorems": [
    "Gaia.C73_same",
    "Gaia.C73_time",
    "Gaia.C73_few_symbols",
    "Gaia.C73_no_source",
    "Gaia.C73_lookup",
    "Gaia.C73_insert",
    "Gaia.C73_room",
    "Gaia.C73_message",
    "Gaia.C73_case",
    "Gaia.C73_small",
    "Gaia.C73_table_case"
   ],
   "note": "Iterations of the loops of src/ are counted in Model/Steps.lean, a second version of the program that is proved to compute the same outcome (C73_same). C73_time: any source, any outcome; C73_few_symbols: in terms of the symbols reported. The message of a failing run enters with its maximum (C73_message). Library functions are not counted. C73_small: counts small enough to check by hand."
  },
  {
   "property": "C74",
   "status": "proved",
   "theorems": [
    "Gaia.C74_same",
    "Gaia.C74_utf8",
    "Gaia.C74_accepted",
    "Gaia.C74_differs"
   ],
   "note": "Model/Unsigned.lean is the program compiled with an unsigned char: the four places where the signedness shows are changed, everything that uses them is repeated. C74_same: any source without 0xFF, any file system, same outcome; C74_utf8: in particular every UTF-8 text; C74_accepted: any source at all. C74_differs: 0xFF outside a comment is where the two differ."
  },
  {
   "property": "C75",
   "status": "proved",
   "theorems": [
    "Gaia.C75_any_hash",
    "Gaia.C75_bits",
    "Gaia.C75_table",
    "Gaia.C75_other"
   ],
   "note": "Model/Hash.lean is the program with an arbitrary hash function. C75_any_hash: any source, any file system, same outcome, also where the number of symbols overflows int. C75_bits: unsigned long of any width. C75_table: the table as a finite map, for any hash function. C75_other: a hash function that does put symbols elsewhere."
  },
  {
   "property": "C76",
   "status": "proved",
   "theorems": [
    "Gaia.C76_result",
    "Gaia.C76_undefined",
    "Gaia.C76_files",
    "Gaia.C76_order",
    "Gaia.C76_killed",
    "Gaia.C76_rerun",
    "Gaia.C76_finishes",
    "Gaia.C76_steps",
    "Gaia.C76_alone",
    "Gaia.C76_case",
    "Gaia.C76_killed_case",
    "Gaia.C76_race"
   ],
   "note": "Model/Process.lean is gaia as a machine that makes one system call or handles one line at a time, on a file system shared with other processes. C76_result, C76_undefined, C76_files, C76_order: interleaving cannot be observed. C76_killed, C76_rerun: processes that are killed. C76_finishes, C76_steps: no waiting, bounded number of steps. C76_alone: one process, any block sizes. C76_race: the condition is needed."
  },
  {
   "property": "C77",
   "status": "proved",
   "theorems": [
    "Gaia.C77_result",
    "Gaia.C77_defined",
    "Gaia.C77_append",
    "Gaia.C77_unchanged",
    "Gaia.C77_case",
    "Gaia.C77_append_case"
   ],
   "note": "One process of Model/Process.lean among programs that overwrite files (Spec/Changing.lean: versions, Spliced, Whole). C77_result: the general case. C77_defined: no undefined behaviour. C77_append: a source that only grows. C77_unchanged: other files. The output itself is changed by nobody else."
  },
  {
   "property": "C78",
   "status": "partial",
   "theorems": [
    "Gaia.C78_undefined",
    "Gaia.C78_known_partial",
    "Gaia.C78_more",
    "Gaia.C78_repaired"
   ],
   "note": "False of the code: the table of options has no terminating entry, so argp reads behind it (C78_undefined). C78_known_partial: the claim holds if and only if the memory behind the table happens to look like the missing entry; C78_more: otherwise that memory is taken for further options. C78_repaired: with the missing entry the claim holds."
  },
  {
   "property": "C79",
   "status": "proved",
   "theorems": [
    "Gaia.C79_linked",
    "Gaia.C79_needs",
    "Gaia.C79_sections",
    "Gaia.C79_order",
    "Gaia.C79_conditions"
   ],
   "note": "C79_sections: result of any list of sections; C79_order: any permutation gives the same file, bytes and symbols. C79_conditions: the conditions are needed (in particular the one on the first instruction, see C27). C79_linked: sections of a documented program that branch and jump into each other; C79_needs: other uses of names must come behind the definition."
  },
  {
   "property": "C80",
   "status": "proved",
   "theorems": [
    "Gaia.C80_insert",
    "Gaia.C80_exchange",
    "Gaia.C80_between",
    "Gaia.C80_conditions"
   ],
   "note": "C80_insert: for any program there are slots (fixed bytes, bytes of moved addresses, branch offsets) that give the output for every inserted code, and gaia succeeds iff the offsets fit. C80_exchange: the same for instructions exchanged for others or taken out. C80_between: without references across the place the bytes stay. C80_conditions: the conditions are needed."
  },
  {
   "property": "C81",
   "status": "proved",
   "theorems": [
    "Gaia.C81_anywhere",
    "Gaia.C81_every_file",
    "Gaia.C81_exact",
    "Gaia.C81_only",
    "Gaia.C81_any_source",
    "Gaia.C81_indexed",
    "Gaia.C81_exact_any"
   ],
   "note": "C81_every_file: a source for every file that begins with an opcode (written backwards, as operands of overlapping instructions). C81_only and C81_exact: no other files from documented programs. C81_any_source, C81_indexed, C81_exact_any: exactly the files that any source can make ($F3 comes from JMP L,X). C81_anywhere: instructions at any addresses."
  },
  {
   "property": "C82",
   "status": "proved",
   "theorems": [
    "Gaia.C82_change",
    "Gaia.C82_value",
    "Gaia.C82_conditions"
   ],
   "note": "C82_change: for any source and constant there are spots (fixed bytes, low and high bytes of the value, branch offsets) that give the output for every value on the same side of page zero, and gaia succeeds iff the branches reach. C82_value: without branches. C82_conditions: the conditions are needed."
  },
  {
   "property": "C83",
   "status": "proved",
   "theorems": [
    "Gaia.C83_code",
    "Gaia.C83_exact",
    "Gaia.C83_prefix",
    "Gaia.C83_mnemonics",
    "Gaia.C83_origin_code",
    "Gaia.C83_origin_exact",
    "Gaia.C83_origins"
   ],
   "note": "C83_exact: the outputs of two programs without origins are equal iff the programs have the same machine code (a textbook first pass: mnemonics, modes, numbers). C83_prefix: likewise for beginnings. C83_code: the output is the bytes of the machine code. C83_mnemonics: other mnemonics, other output. C83_origin_exact, C83_origin_code: the same behind a first line that sets the origin. C83_origins: with origins elsewhere this does not hold."
  }
 ]
}
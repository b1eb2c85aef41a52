# Axioms of the theorems in MANIFEST.json (by `#print axioms`; written by tools/mkaxioms.py)

| property | theorem | axioms |
|---|---|---|
| C01 | `Gaia.C01_scanned_value` | propext, Classical.choice, Quot.sound |
| C01 | `Gaia.C01_literal_value_partial` | propext, Classical.choice, Quot.sound |
| C01 | `Gaia.C01_wraps` | propext, Quot.sound |
| C01 | `Gaia.C01_too_big_partial` | propext, Classical.choice, Quot.sound |
| C01 | `Gaia.C01_jump_partial` | propext, Classical.choice, Quot.sound |
| C01 | `Gaia.C01_digits` | propext |
| C02 | `Gaia.C02_illegal_digit` | propext, Classical.choice, Quot.sound |
| C02 | `Gaia.C02_no_digits` | propext, Classical.choice, Quot.sound |
| C03 | `Gaia.C03_word_scanned` | propext, Classical.choice, Quot.sound |
| C03 | `Gaia.C03_too_long` | propext, Classical.choice, Quot.sound |
| C03 | `Gaia.C03_labels_distinct` | propext, Classical.choice, Quot.sound |
| C03 | `Gaia.C03_letters` | propext |
| C03 | `Gaia.C03_name_characters` | propext |
| C04 | `Gaia.C04_case_insensitive` | propext, Classical.choice, Quot.sound |
| C04 | `Gaia.C04_upper_case` | propext |
| C04 | `Gaia.C04_messages` | propext, Classical.choice, Quot.sound |
| C04 | `Gaia.C04_output` | propext, Classical.choice, Quot.sound |
| C05 | `Gaia.C05_layout` | propext, Classical.choice, Quot.sound |
| C05 | `Gaia.C05_comment` | propext, Classical.choice, Quot.sound |
| C05 | `Gaia.C05_cr` | propext, Classical.choice, Quot.sound |
| C05 | `Gaia.C05_indent` | propext, Quot.sound |
| C05 | `Gaia.C05_blanks` | propext, Quot.sound |
| C05 | `Gaia.C05_trailing` | propext, Quot.sound |
| C05 | `Gaia.C05_crlf` | propext, Classical.choice, Quot.sound |
| C05 | `Gaia.C05_final_newline` | propext, Classical.choice, Quot.sound |
| C05 | `Gaia.C05_messages` | propext, Classical.choice, Quot.sound |
| C06 | `Gaia.C06_accepted` | propext, Classical.choice, Quot.sound |
| C06 | `Gaia.C06_tokens` | propext, Classical.choice, Quot.sound |
| C06 | `Gaia.C06_documented` | propext, Classical.choice, Quot.sound |
| C06 | `Gaia.C06_unambiguous` | propext, Classical.choice, Quot.sound |
| C07 | `Gaia.C07_lexer_safe` | propext, Classical.choice, Quot.sound |
| C07 | `Gaia.C07_slots` | propext, Classical.choice, Quot.sound |
| C08 | `Gaia.C08_lexer_independent` | propext, Classical.choice, Quot.sound |
| C08 | `Gaia.C08_line_independent` | propext, Classical.choice, Quot.sound |
| C09 | `Gaia.C09_words` | propext, Classical.choice, Quot.sound |
| C10 | `Gaia.C10_accepted_exactly` | propext, Classical.choice, Quot.sound |
| C10 | `Gaia.C10_grammar_partial` | propext, Classical.choice, Quot.sound |
| C10 | `Gaia.C10_refused` | propext, Classical.choice, Quot.sound |
| C10 | `Gaia.C10_junk_accepted` | propext, Classical.choice, Quot.sound |
| C11 | `Gaia.C11_parse_in_bounds` | propext, Quot.sound |
| C11 | `Gaia.C11_operand_in_bounds` | propext, Classical.choice, Quot.sound |
| C12 | `Gaia.C12_accepted_iff` | propext, Classical.choice, Quot.sound |
| C12 | `Gaia.C12_mode` | propext, Classical.choice, Quot.sound |
| C12 | `Gaia.C12_refused` | propext, Classical.choice, Quot.sound |
| C12 | `Gaia.C12_run_refused` | propext, Classical.choice, Quot.sound |
| C13 | `Gaia.C13_opcode` | propext |
| C13 | `Gaia.C13_allowed` | propext, Quot.sound |
| C13 | `Gaia.C13_no_other_modes` | propext, Quot.sound |
| C13 | `Gaia.C13_distinct` | propext, Quot.sound |
| C13 | `Gaia.C13_rows` | none |
| C14 | `Gaia.C14_exact_opcode` | propext, Classical.choice, Quot.sound |
| C14 | `Gaia.C14_documented_partial` | propext, Classical.choice, Quot.sound |
| C14 | `Gaia.C14_illegal_opcode` | propext, Quot.sound |
| C15 | `Gaia.C15_decodes` | propext, Classical.choice, Quot.sound |
| C16 | `Gaia.C16_bytes_determine_partial` | propext, Classical.choice, Quot.sound |
| C16 | `Gaia.C16_branch_determine_partial` | propext, Classical.choice, Quot.sound |
| C16 | `Gaia.C16_branch_cut` | propext, Quot.sound |
| C16 | `Gaia.C16_label_cut` | propext, Classical.choice, Quot.sound |
| C16 | `Gaia.C16_label_cut_reached` | propext, Classical.choice, Quot.sound |
| C17 | `Gaia.C17_symbolTable_is_finite_map` | propext, Classical.choice, Quot.sound |
| C17 | `Gaia.C17_searchSymbol_value` | propext, Classical.choice, Quot.sound |
| C18 | `Gaia.C18_probing_terminates` | propext, Classical.choice, Quot.sound |
| C19 | `Gaia.C19_isPrime_correct` | propext, Classical.choice, Quot.sound |
| C19 | `Gaia.C19_nextPrime_least` | propext, Classical.choice, Quot.sound |
| C19 | `Gaia.C19_nextPrime_le` | propext, Classical.choice, Quot.sound |
| C19 | `Gaia.C19_loop_bound` | propext, Classical.choice, Quot.sound |
| C20 | `Gaia.C20_run_refused` | propext, Classical.choice, Quot.sound |
| C20 | `Gaia.C20_redefinition` | propext, Classical.choice, Quot.sound |
| C20 | `Gaia.C20_value_kept` | propext, Classical.choice, Quot.sound |
| C20 | `Gaia.C20_run_fails` | propext, Classical.choice, Quot.sound |
| C20 | `Gaia.C20_uses` | propext, Classical.choice, Quot.sound |
| C20 | `Gaia.C20_one_definition` | propext, Classical.choice, Quot.sound |
| C21 | `Gaia.C21_defined` | propext, Classical.choice, Quot.sound |
| C21 | `Gaia.C21_origin` | propext, Classical.choice, Quot.sound |
| C21 | `Gaia.C21_forms` | propext |
| C21 | `Gaia.C21_lands` | propext, Classical.choice, Quot.sound |
| C21 | `Gaia.C21_constant` | propext, Classical.choice, Quot.sound |
| C21 | `Gaia.C21_sum` | propext, Classical.choice, Quot.sound |
| C22 | `Gaia.C22_run_refused` | propext, Classical.choice, Quot.sound |
| C22 | `Gaia.C22_forward_refused` | propext, Classical.choice, Quot.sound |
| C22 | `Gaia.C22_branch` | propext, Classical.choice, Quot.sound |
| C23 | `Gaia.C23_jumps` | propext, Classical.choice, Quot.sound |
| C23 | `Gaia.C23_branches` | propext, Classical.choice, Quot.sound |
| C23 | `Gaia.C23_undefined_fails` | propext, Classical.choice, Quot.sound |
| C23 | `Gaia.C23_undefined_message` | propext, Classical.choice, Quot.sound |
| C23 | `Gaia.C23_any_addresses` | propext, Classical.choice, Quot.sound |
| C24 | `Gaia.C24_references_kept` | propext, Classical.choice, Quot.sound |
| C25 | `Gaia.C25_run_refused` | propext, Classical.choice, Quot.sound |
| C25 | `Gaia.C25_forward` | propext, Classical.choice, Quot.sound |
| C25 | `Gaia.C25_run_fails` | propext, Classical.choice, Quot.sound |
| C26 | `Gaia.C26_assembles` | propext, Classical.choice, Quot.sound |
| C26 | `Gaia.C26_refuses` | propext, Classical.choice, Quot.sound |
| C26 | `Gaia.C26_two_pass_partial` | propext, Classical.choice, Quot.sound |
| C26 | `Gaia.C26_low` | propext, Classical.choice, Quot.sound |
| C26 | `Gaia.C26_accepts` | propext, Classical.choice, Quot.sound |
| C26 | `Gaia.C26_label_counterexample` | propext, Classical.choice, Quot.sound |
| C26 | `Gaia.C26_offset_counterexample` | propext, Classical.choice, Quot.sound |
| C26 | `Gaia.C26_damage` | propext, Classical.choice, Quot.sound |
| C26 | `Gaia.C26_any_addresses` | propext, Classical.choice, Quot.sound |
| C26 | `Gaia.C26_no_forward` | propext, Classical.choice, Quot.sound |
| C27 | `Gaia.C27_undamaged_partial` | propext, Classical.choice, Quot.sound |
| C27 | `Gaia.C27_forward_damage` | propext, Classical.choice, Quot.sound |
| C27 | `Gaia.C27_position` | propext, Classical.choice, Quot.sound |
| C27 | `Gaia.C27_undamaged_in_sequence` | propext, Classical.choice, Quot.sound |
| C27 | `Gaia.C27_damage` | propext, Quot.sound |
| C28 | `Gaia.C28_image` | propext, Classical.choice, Quot.sound |
| C28 | `Gaia.C28_any_addresses` | propext, Classical.choice, Quot.sound |
| C29 | `Gaia.C29_decimal` | propext, Classical.choice, Quot.sound |
| C29 | `Gaia.C29_hex` | propext, Classical.choice, Quot.sound |
| C29 | `Gaia.C29_totals` | propext, Classical.choice, Quot.sound |
| C29 | `Gaia.C29_at_most_length` | propext, Classical.choice, Quot.sound |
| C29 | `Gaia.C29_printed` | propext, Classical.choice, Quot.sound |
| C29 | `Gaia.C29_symbols_any` | propext, Classical.choice, Quot.sound |
| C29 | `Gaia.C29_bytes_any` | propext, Classical.choice, Quot.sound |
| C30 | `Gaia.C30_end` | propext, Classical.choice, Quot.sound |
| C30 | `Gaia.C30_end_last` | propext, Classical.choice, Quot.sound |
| C31 | `Gaia.C31_status` | propext, Classical.choice, Quot.sound |
| C31 | `Gaia.C31_success_iff` | propext, Classical.choice, Quot.sound |
| C32 | `Gaia.C32_diagnostic_partial` | propext, Classical.choice, Quot.sound |
| C32 | `Gaia.C32_one_diagnostic_partial` | propext, Classical.choice, Quot.sound |
| C32 | `Gaia.C32_silent` | propext, Quot.sound |
| C33 | `Gaia.C33_diagnostic` | propext, Classical.choice, Quot.sound |
| C33 | `Gaia.C33_every_failure_partial` | propext, Classical.choice, Quot.sound |
| C33 | `Gaia.C33_line_number` | propext, Classical.choice, Quot.sound |
| C33 | `Gaia.C33_forward` | propext, Classical.choice, Quot.sound |
| C33 | `Gaia.C33_unambiguous` | propext, Classical.choice, Quot.sound |
| C34 | `Gaia.C34_pieces` | propext, Classical.choice, Quot.sound |
| C34 | `Gaia.C34_whole_lines_partial` | propext, Classical.choice, Quot.sound |
| C34 | `Gaia.C34_long_line` | propext, Quot.sound |
| C35 | `Gaia.C35_no_undefined_behaviour` | propext, Classical.choice, Quot.sound |
| C35 | `Gaia.C35_limit` | propext, Classical.choice, Quot.sound |
| C35 | `Gaia.C35_defined_iff` | propext, Classical.choice, Quot.sound |
| C35 | `Gaia.C35_small` | propext, Classical.choice, Quot.sound |
| C35 | `Gaia.C35_limit_reached` | propext, Classical.choice, Quot.sound |
| C35 | `Gaia.C35_limit_tight` | propext, Classical.choice, Quot.sound |
| C36 | `Gaia.C36_no_source` | propext, Quot.sound |
| C36 | `Gaia.C36_no_output` | propext, Quot.sound |
| C36 | `Gaia.C36_only_output` | propext, Classical.choice, Quot.sound |
| C37 | `Gaia.C37_source_kept_partial` | propext, Classical.choice, Quot.sound |
| C37 | `Gaia.C37_overwritten` | propext, Quot.sound |
| C37 | `Gaia.C37_links` | propext, Quot.sound |
| C37 | `Gaia.C37_links_overwritten` | propext, Quot.sound |
| C37 | `Gaia.C37_kept_iff` | propext, Classical.choice, Quot.sound |
| C38 | `Gaia.C38_failed_allocation_harmless` | propext, Classical.choice, Quot.sound |
| C39 | `Gaia.C39_label_line` | propext, Classical.choice, Quot.sound |
| C39 | `Gaia.C39_colon` | propext, Quot.sound |
| C39 | `Gaia.C39_any_text` | propext, Classical.choice, Quot.sound |
| C39 | `Gaia.C39_conditions` | propext, Classical.choice, Quot.sound |
| C39 | `Gaia.C39_needs_instruction` | propext, Classical.choice, Quot.sound |
| C40 | `Gaia.C40_literal_notation` | propext, Classical.choice, Quot.sound |
| C40 | `Gaia.C40_messages` | propext, Classical.choice, Quot.sound |
| C41 | `Gaia.C41_output` | propext, Classical.choice, Quot.sound |
| C42 | `Gaia.C42_all_released` | propext, Classical.choice, Quot.sound |
| C42 | `Gaia.C42_all_released_made` | propext, Classical.choice, Quot.sound |
| C43 | `Gaia.C43_no_undefined_behaviour` | propext, Classical.choice, Quot.sound |
| C43 | `Gaia.C43_success_is_real` | propext, Classical.choice, Quot.sound |
| C43 | `Gaia.C43_refused_at_start` | propext, Classical.choice, Quot.sound |
| C43 | `Gaia.C43_refused_later` | propext, Classical.choice, Quot.sound |
| C44 | `Gaia.C44_init_leaks` | propext, Quot.sound |
| C44 | `Gaia.C44_symbol_leaks` | propext, Quot.sound |
| C44 | `Gaia.C44_reference_leaks` | propext, Quot.sound |
| C44 | `Gaia.C44_realloc_leaks` | propext, Quot.sound |
| C44 | `Gaia.C44_no_leak_partial` | propext, Classical.choice, Quot.sound |
| C44 | `Gaia.C44_leak_bound` | propext, Classical.choice, Quot.sound |
| C44 | `Gaia.C44_leak_reached` | propext, Quot.sound |
| C45 | `Gaia.C45_source_and_output` | propext, Quot.sound |
| C45 | `Gaia.C45_usage` | propext, Quot.sound |
| C45 | `Gaia.C45_parse_opt` | propext, Classical.choice, Quot.sound |
| C46 | `Gaia.C46_locality` | propext, Classical.choice, Quot.sound |
| C46 | `Gaia.C46_output_name` | propext, Classical.choice, Quot.sound |
| C46 | `Gaia.C46_source_name` | propext, Classical.choice, Quot.sound |
| C47 | `Gaia.C47_renaming` | propext, Classical.choice, Quot.sound |
| C47 | `Gaia.C47_messages` | propext, Classical.choice, Quot.sound |
| C48 | `Gaia.C48_unused_symbol` | propext, Classical.choice, Quot.sound |
| C48 | `Gaia.C48_blank_line` | propext, Classical.choice, Quot.sound |
| C48 | `Gaia.C48_messages` | propext, Classical.choice, Quot.sound |
| C48 | `Gaia.C48_blank_messages` | propext, Classical.choice, Quot.sound |
| C49 | `Gaia.C49_any_text` | propext, Classical.choice, Quot.sound |
| C49 | `Gaia.C49_known_name` | propext, Classical.choice, Quot.sound |
| C49 | `Gaia.C49_fails_later` | propext, Classical.choice, Quot.sound |
| C49 | `Gaia.C49_refused` | propext, Classical.choice, Quot.sound |
| C49 | `Gaia.C49_not_later` | propext, Classical.choice, Quot.sound |
| C49 | `Gaia.C49_constant_inlined` | propext, Classical.choice, Quot.sound |
| C49 | `Gaia.C49_not_for_branches` | propext, Quot.sound |
| C50 | `Gaia.C50_disassembly` | propext, Classical.choice, Quot.sound |
| C50 | `Gaia.C50_stretch` | propext, Classical.choice, Quot.sound |
| C50 | `Gaia.C50_origin` | propext, Classical.choice, Quot.sound |
| C51 | `Gaia.C51_instructions` | propext, Classical.choice, Quot.sound |
| C51 | `Gaia.C51_only` | propext, Classical.choice, Quot.sound |
| C51 | `Gaia.C51_round_trip` | propext, Classical.choice, Quot.sound |
| C51 | `Gaia.C51_not_writable` | propext, Classical.choice, Quot.sound |
| C52 | `Gaia.C52_statement_error` | propext, Classical.choice, Quot.sound |
| C52 | `Gaia.C52_reference_error` | propext, Classical.choice, Quot.sound |
| C52 | `Gaia.C52_bad_line` | propext, Classical.choice, Quot.sound |
| C53 | `Gaia.C53_size` | propext, Classical.choice, Quot.sound |
| C53 | `Gaia.C53_success` | propext, Classical.choice, Quot.sound |
| C54 | `Gaia.C54_write_errors_ignored` | propext, Quot.sound |
| C54 | `Gaia.C54_full_disk` | propext, Quot.sound |
| C54 | `Gaia.C54_read_error_ignored` | propext, Classical.choice, Quot.sound |
| C55 | `Gaia.C55_complete` | propext, Classical.choice, Quot.sound |
| C55 | `Gaia.C55_left_any` | propext, Classical.choice, Quot.sound |
| C55 | `Gaia.C55_length_any` | propext, Classical.choice, Quot.sound |
| C55 | `Gaia.C55_bytes_any` | propext, Classical.choice, Quot.sound |
| C55 | `Gaia.C55_bytes_back` | propext, Quot.sound |
| C55 | `Gaia.C55_rerun` | propext, Classical.choice, Quot.sound |
| C55 | `Gaia.C55_left` | propext, Classical.choice, Quot.sound |
| C55 | `Gaia.C55_bytes` | propext, Classical.choice, Quot.sound |
| C55 | `Gaia.C55_prefix` | propext, Classical.choice, Quot.sound |
| C56 | `Gaia.C56_no_bad_access` | propext, Classical.choice, Quot.sound |
| C56 | `Gaia.C56_all_released` | propext, Classical.choice, Quot.sound |
| C56 | `Gaia.C56_uninitialised` | propext, Classical.choice, Quot.sound |
| C56 | `Gaia.C56_success_is_real` | propext, Classical.choice, Quot.sound |
| C57 | `Gaia.C57_within_limit` | propext, Classical.choice, Quot.sound |
| C57 | `Gaia.C57_reference` | propext, Classical.choice, Quot.sound |
| C57 | `Gaia.C57_viable` | propext, Classical.choice, Quot.sound |
| C57 | `Gaia.C57_success` | propext, Classical.choice, Quot.sound |
| C57 | `Gaia.C57_failure` | propext, Classical.choice, Quot.sound |
| C58 | `Gaia.C58_relocatable` | propext, Classical.choice, Quot.sound |
| C58 | `Gaia.C58_position_independent` | propext, Classical.choice, Quot.sound |
| C58 | `Gaia.C58_example` | propext |
| C58 | `Gaia.C58_conditions` | propext |
| C59 | `Gaia.C59_append` | propext, Classical.choice, Quot.sound |
| C59 | `Gaia.C59_no_repair` | propext, Classical.choice, Quot.sound |
| C59 | `Gaia.C59_example` | propext |
| C59 | `Gaia.C59_conditions` | propext |
| C59 | `Gaia.C59_repair` | propext |
| C60 | `Gaia.C60_modules` | propext, Classical.choice, Quot.sound |
| C60 | `Gaia.C60_example` | propext |
| C60 | `Gaia.C60_conditions` | propext |
| C61 | `Gaia.C61_requests` | propext, Quot.sound |
| C61 | `Gaia.C61_arrays` | propext, Classical.choice, Quot.sound |
| C62 | `Gaia.C62_moved` | propext, Classical.choice, Quot.sound |
| C62 | `Gaia.C62_accepted` | propext, Classical.choice, Quot.sound |
| C63 | `Gaia.C63_same_address` | propext, Classical.choice, Quot.sound |
| C63 | `Gaia.C63_continue` | propext, Classical.choice, Quot.sound |
| C63 | `Gaia.C63_zero` | propext, Classical.choice, Quot.sound |
| C63 | `Gaia.C63_overridden` | propext, Classical.choice, Quot.sound |
| C64 | `Gaia.C64_interchangeable` | propext, Classical.choice, Quot.sound |
| C65 | `Gaia.C65_same_run` | propext, Classical.choice, Quot.sound |
| C65 | `Gaia.C65_exits` | propext, Classical.choice, Quot.sound |
| C65 | `Gaia.C65_codes` | none |
| C65 | `Gaia.C65_parse_line` | propext, Quot.sound |
| C65 | `Gaia.C65_offset` | propext, Classical.choice, Quot.sound |
| C65 | `Gaia.C65_operand` | propext |
| C65 | `Gaia.C65_addr_mode` | propext, Classical.choice, Quot.sound |
| C65 | `Gaia.C65_bytes` | propext, Quot.sound |
| C65 | `Gaia.C65_digit` | propext, Classical.choice, Quot.sound |
| C66 | `Gaia.C66_statements` | propext, Classical.choice, Quot.sound |
| C66 | `Gaia.C66_constants` | propext |
| C66 | `Gaia.C66_origins` | propext |
| C66 | `Gaia.C66_all_forms` | propext, Quot.sound |
| C67 | `Gaia.C67_characters` | propext, Classical.choice, Quot.sound |
| C67 | `Gaia.C67_refused` | propext, Classical.choice, Quot.sound |
| C68 | `Gaia.C68_behind_error` | propext, Classical.choice, Quot.sound |
| C68 | `Gaia.C68_up_to_error` | propext, Classical.choice, Quot.sound |
| C68 | `Gaia.C68_beginning` | propext, Classical.choice, Quot.sound |
| C69 | `Gaia.C69_fetch` | propext, Classical.choice, Quot.sound |
| C69 | `Gaia.C69_step` | propext, Classical.choice, Quot.sound |
| C69 | `Gaia.C69_loaded` | propext, Classical.choice, Quot.sound |
| C69 | `Gaia.C69_progress` | propext, Classical.choice, Quot.sound |
| C69 | `Gaia.C69_run` | propext, Classical.choice, Quot.sound |
| C69 | `Gaia.C69_next` | propext, Classical.choice, Quot.sound |
| C69 | `Gaia.C69_this` | propext, Classical.choice, Quot.sound |
| C69 | `Gaia.C69_label` | propext, Classical.choice, Quot.sound |
| C70 | `Gaia.C70_local` | propext, Classical.choice, Quot.sound |
| C70 | `Gaia.C70_conditions` | propext, Quot.sound |
| C70 | `Gaia.C70_window` | propext, Quot.sound |
| C70 | `Gaia.C70_refused` | propext, Classical.choice, Quot.sound |
| C71 | `Gaia.C71_value_for_name` | propext, Classical.choice, Quot.sound |
| C71 | `Gaia.C71_name_for_value` | propext, Classical.choice, Quot.sound |
| C71 | `Gaia.C71_not_for_branches` | propext, Quot.sound |
| C72 | `Gaia.C72_code_before` | propext, Classical.choice, Quot.sound |
| C72 | `Gaia.C72_no_origins` | propext, Classical.choice, Quot.sound |
| C72 | `Gaia.C72_conditions` | propext, Quot.sound |
| C72 | `Gaia.C72_file_position` | propext, Quot.sound |
| C73 | `Gaia.C73_same` | propext, Quot.sound |
| C73 | `Gaia.C73_time` | propext, Classical.choice, Quot.sound |
| C73 | `Gaia.C73_few_symbols` | propext, Classical.choice, Quot.sound |
| C73 | `Gaia.C73_no_source` | propext, Quot.sound |
| C73 | `Gaia.C73_lookup` | propext, Classical.choice, Quot.sound |
| C73 | `Gaia.C73_insert` | propext, Classical.choice, Quot.sound |
| C73 | `Gaia.C73_room` | propext, Classical.choice, Quot.sound |
| C73 | `Gaia.C73_message` | propext, Quot.sound |
| C73 | `Gaia.C73_case` | propext, Quot.sound |
| C73 | `Gaia.C73_small` | propext, Quot.sound |
| C73 | `Gaia.C73_table_case` | propext, Classical.choice, Quot.sound |
| C74 | `Gaia.C74_same` | propext, Classical.choice, Quot.sound |
| C74 | `Gaia.C74_utf8` | propext, Classical.choice, Quot.sound |
| C74 | `Gaia.C74_accepted` | propext, Classical.choice, Quot.sound |
| C74 | `Gaia.C74_differs` | propext, Quot.sound |
| C75 | `Gaia.C75_any_hash` | propext, Classical.choice, Quot.sound |
| C75 | `Gaia.C75_bits` | propext, Classical.choice, Quot.sound |
| C75 | `Gaia.C75_table` | propext, Classical.choice, Quot.sound |
| C75 | `Gaia.C75_other` | propext |
| C76 | `Gaia.C76_result` | propext, Classical.choice, Quot.sound |
| C76 | `Gaia.C76_undefined` | propext, Classical.choice, Quot.sound |
| C76 | `Gaia.C76_files` | propext, Classical.choice, Quot.sound |
| C76 | `Gaia.C76_order` | propext, Classical.choice, Quot.sound |
| C76 | `Gaia.C76_killed` | propext, Classical.choice, Quot.sound |
| C76 | `Gaia.C76_rerun` | propext, Classical.choice, Quot.sound |
| C76 | `Gaia.C76_finishes` | propext, Classical.choice, Quot.sound |
| C76 | `Gaia.C76_steps` | propext, Classical.choice, Quot.sound |
| C76 | `Gaia.C76_alone` | propext, Classical.choice, Quot.sound |
| C76 | `Gaia.C76_case` | propext, Quot.sound |
| C76 | `Gaia.C76_killed_case` | propext, Quot.sound |
| C76 | `Gaia.C76_race` | propext, Quot.sound |
| C77 | `Gaia.C77_result` | propext, Classical.choice, Quot.sound |
| C77 | `Gaia.C77_defined` | propext, Classical.choice, Quot.sound |
| C77 | `Gaia.C77_append` | propext, Classical.choice, Quot.sound |
| C77 | `Gaia.C77_unchanged` | propext, Classical.choice, Quot.sound |
| C77 | `Gaia.C77_case` | propext, Quot.sound |
| C77 | `Gaia.C77_append_case` | propext, Classical.choice, Quot.sound |
| C78 | `Gaia.C78_undefined` | none |
| C78 | `Gaia.C78_known_partial` | propext, Quot.sound |
| C78 | `Gaia.C78_more` | propext, Quot.sound |
| C78 | `Gaia.C78_repaired` | propext, Quot.sound |
| C79 | `Gaia.C79_linked` | propext, Classical.choice, Quot.sound |
| C79 | `Gaia.C79_needs` | propext |
| C79 | `Gaia.C79_sections` | propext, Classical.choice, Quot.sound |
| C79 | `Gaia.C79_order` | propext, Classical.choice, Quot.sound |
| C79 | `Gaia.C79_conditions` | propext |
| C80 | `Gaia.C80_insert` | propext, Classical.choice, Quot.sound |
| C80 | `Gaia.C80_exchange` | propext, Classical.choice, Quot.sound |
| C80 | `Gaia.C80_between` | propext, Classical.choice, Quot.sound |
| C80 | `Gaia.C80_conditions` | propext |
| C81 | `Gaia.C81_anywhere` | propext, Classical.choice, Quot.sound |
| C81 | `Gaia.C81_every_file` | propext, Classical.choice, Quot.sound |
| C81 | `Gaia.C81_exact` | propext, Classical.choice, Quot.sound |
| C81 | `Gaia.C81_only` | propext, Classical.choice, Quot.sound |
| C81 | `Gaia.C81_any_source` | propext, Classical.choice, Quot.sound |
| C81 | `Gaia.C81_indexed` | propext, Classical.choice, Quot.sound |
| C81 | `Gaia.C81_exact_any` | propext, Classical.choice, Quot.sound |
| C82 | `Gaia.C82_change` | propext, Classical.choice, Quot.sound |
| C82 | `Gaia.C82_value` | propext, Classical.choice, Quot.sound |
| C82 | `Gaia.C82_conditions` | propext |
| C83 | `Gaia.C83_code` | propext, Classical.choice, Quot.sound |
| C83 | `Gaia.C83_exact` | propext, Classical.choice, Quot.sound |
| C83 | `Gaia.C83_prefix` | propext, Classical.choice, Quot.sound |
| C83 | `Gaia.C83_mnemonics` | propext, Classical.choice, Quot.sound |
| C83 | `Gaia.C83_origin_code` | propext, Classical.choice, Quot.sound |
| C83 | `Gaia.C83_origin_exact` | propext, Classical.choice, Quot.sound |
| C83 | `Gaia.C83_origins` | propext, Quot.sound |

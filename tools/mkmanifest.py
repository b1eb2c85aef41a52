#!/usr/bin/env python3
"""Writes MANIFEST.json: status and note per property; theorem names are collected from lean/Verif/Props."""
import re, glob, json, os
root = os.path.dirname(os.path.dirname(os.path.abspath(__file__)))
names = {}
for f in sorted(glob.glob(root + '/lean/Verif/Props/*.lean')):
    for m in re.finditer(r'^theorem (C\d\d)_(\w+)', open(f).read(), re.M):
        names.setdefault(m.group(1), []).append('Gaia.%s_%s' % m.groups())
P, Q = 'proved', 'partial'
claims = {
 'C01': (Q, "False of the code for literals of 2^64 and more (the 64-bit accumulator wraps): C01_wraps. C01_scanned_value is the exact behaviour for every digit string; the _partial theorems are the property for values below 2^64 (resp. not congruent to a small number)."),
 'C02': (P, "In any line after any faultless lines and any lexemes."),
 'C03': (P, "Scanner (C03_word_scanned), refusal in every context (C03_too_long), distinctness end to end (C03_labels_distinct)."),
 'C04': (P, "All sources of fewer than 21474836 lines, errors included; C04_messages and C04_output say what is printed."),
 'C05': (P, "C05_layout for whole sources; the other theorems show that the listed edits are instances of its relation, C05_crlf and C05_final_newline are end to end, C05_messages adds what is printed when the runs fail. Lines up to 126 characters, as in the property."),
 'C06': (P, "Exact for all lines; literal values modulo 2^64 (Spec/Cut.lean); C06_documented connects to the documented lexemes."),
 'C07': (P, "Out-of-bounds reads and writes and exhausted fuel are the result .ub in the model; it is unreachable."),
 'C08': (P, "Lexer, and the whole step of the main loop."),
 'C09': (P, "All words up to 63 characters in whatever case."),
 'C10': (Q, "False of the code for lexemes after an indexed operand (C10_junk_accepted). C10_accepted_exactly is the exact set; C10_grammar_partial the property without such lines; C10_refused gives message and position."),
 'C11': (P, ""),
 'C12': (P, "C12_accepted_iff and C12_mode for all mnemonics, forms and values, from any reachable state; C12_run_refused: the whole run, which line and message."),
 'C13': (P, "Against opcodes/6502ops.csv, transcribed by tools/gen_opcode.py into Spec/OpTable.lean."),
 'C14': (Q, "False of the code: JMP to a label defined later with ',X' emits 0xF3 (C14_illegal_opcode). C14_documented_partial: all other lines."),
 'C15': (P, "Decoding the bytes with the table gives back mnemonic, mode and operand."),
 'C16': (Q, "False of the code: 'BNE $1234' keeps only the low byte (C16_branch_cut), labels above 0xFFFF are cut (C16_label_cut, C16_label_cut_reached). C16_bytes_determine_partial: all other cases."),
 'C17': (P, ""),
 'C18': (P, ""),
 'C19': (P, ""),
 'C20': (P, "C20_redefinition, C20_value_kept: any reachable state; C20_run_fails, C20_run_refused: the whole run; C20_uses: all uses in a successful run (documented language, ascending addresses); C20_one_definition: any text."),
 'C21': (P, "Any reachable state: C21_defined, C21_origin; whole runs: C21_lands, C21_constant (documented language, ascending addresses), C21_sum; any text: C57, C66."),
 'C22': (P, "Backward branches C22_branch; forward branches by C23_branches; C22_run_refused, C22_forward_refused: the whole run's failure."),
 'C23': (P, "For programs of the documented language without indexed jumps to labels (see C14), C23_branches/C23_jumps for ascending addresses (see C27 for why); C23_any_addresses for any order of addresses."),
 'C24': (P, ""),
 'C25': (P, "C25_run_refused: the whole run."),
 'C26': (Q, "Proved for ascending addresses and operands that fit (C26_two_pass_partial); C26_low is exact for ascending addresses, C26_accepts for all addresses (acceptance and totals), C26_any_addresses whenever the dummy bytes of forward references do no harm. False otherwise: C26_label_counterexample, C26_offset_counterexample, C26_damage."),
 'C27': (Q, "False of the code for a forward reference after a change of origin (C27_damage). C27_undamaged_partial: all lines without a forward reference; C27_forward_damage + C27_position: exactly which bytes a forward reference may damage; C27_undamaged_in_sequence: no change of origin."),
 'C28': (P, "Programs of the documented language with ascending addresses, as in the property; C28_any_addresses for any order of addresses."),
 'C29': (P, "C29_totals: programs of the documented language; C29_symbols_any and C29_bytes_any: any text at all (bytes for a text with one origin at most); C29_printed ties the digits printed to the number."),
 'C30': (P, ""),
 'C31': (P, "All sources of fewer than 21474836 lines."),
 'C32': (Q, "False of the code: a line of more than eight tokens stops gaia without a message (C32_silent). C32_diagnostic_partial: this is the only exception, for all sources; C32_one_diagnostic_partial: in terms of source lines."),
 'C33': (P, "C33_diagnostic: soundness for every error of a source; C33_line_number, C33_forward: any source. C33_every_failure_partial adds completeness, with the listed exceptions."),
 'C34': (Q, "False of the code for lines over 126 characters (C34_long_line). C34_pieces is the exact behaviour for all sources; C34_whole_lines_partial the property for short lines."),
 'C35': (P, "All sources of fewer than 21474836 lines, any names and files; undefined behaviour is a result of the model (C.ub) and unreachable. Termination: the model is total, and exhausted fuel counts as undefined. C35_limit, C35_defined_iff: the exact limit on symbols, up to 2^28 lines; C35_limit_reached and C35_limit_tight exhibit it."),
 'C36': (P, ""),
 'C37': (Q, "False of the code if the output has the source's name (C37_overwritten); C37_source_kept_partial otherwise. C37_kept_iff: exactly when the source is kept, for file systems with any links (Model/Links.lean)."),
 'C38': (P, ""),
 'C39': (P, "C39_any_text has the messages, for any text around the two lines; C39_needs_instruction shows why the second line has to be an instruction there."),
 'C40': (P, "C40_messages adds what is printed when the runs fail."),
 'C42': (P, "Memory model: blocks and files; use after free is in the pointer model (C56), sizes are not modelled."),
 'C43': (P, ""),
 'C44': (Q, "False of the code: C44_init_leaks, C44_symbol_leaks, C44_reference_leaks and C44_realloc_leaks are runs that leak. C44_no_leak_partial covers every run without a refused request; C44_leak_bound says exactly how many blocks any run can leave (reached: C44_leak_reached)."),
 'C45': (P, "parse_opt as written, for any sequence of calls (C45_parse_opt); argp_parse itself as its manual describes it; --help, --usage, --version and unknown options are outside the model."),
 'C46': (P, ""),
 'C47': (P, "Lines up to 126 characters (see C34); sources with errors included, with their messages in C47_messages."),
 'C48': (P, "Lines up to 126 characters (see C34); sources with errors included, with their messages in C48_messages and C48_blank_messages."),
 'C49': (P, "C49_constant_inlined: a constant defined by =, .EQU or .DEFINE on an earlier line; C49_any_text: the same for any text, with the messages; C49_known_name: any name known there. C49_not_for_branches shows why branches are excluded."),
 'C50': (P, "C50_disassembly: programs without .ORG. C50_stretch: any stretch without origin line of a program with ascending addresses. C50_origin: one origin line, at the start."),
 'C51': (P, "C51_instructions has no restriction but the size (fewer than 21474836 lines); C51_only and C51_round_trip need operands that fit (see C26). C51_not_writable records the exceptions."),
 'C52': (P, "Errors of every kind; HugeFree (no digits after a literal overflow, see C01) only for 'literal too big'."),
 'C53': (P, "Arbitrary bytes as source; fewer than 21474836 lines."),
 'C54': (P, "Model/IO.lean: the output FILE is an arbitrary device, fgets may fail. Finding: I/O errors are ignored and success is reported."),
 'C55': (P, "Rerun: any source on which the run ends. Contents: any source, successful or not (C55_left_any, C55_length_any, C55_complete: the file left is that of a prefix of the writes of the complete run); any source whose origin lines do not go back: each byte is 0 or the one the complete run leaves (C55_bytes_any; C55_bytes_back: the condition is needed); successful programs of the documented language: C55_bytes, prefix of the final file (C55_prefix). Crash = a prefix of the seek/write requests has reached the disk (buffering by stdio keeps their order)."),
 'C56': (P, "Model/Pointers.lean: every structure as an object in a heap block, accessed through pointers. Source of fewer than 21474836 lines; the source's name contains no NUL (it is a C string)."),
 'C57': (P, "Spec/Reference.lean is a complete executable specification; it shares no function with Model/*. Source of fewer than 21474836 lines, files in place."),
 'C58': (P, "Any bytes as body. Origin 256 or more, no other origin line, no branch to a constant: C58_conditions shows that each of the three is necessary. Fewer than 21474836 lines."),
 'C60': (P, "Any bytes. C60_conditions shows that the conditions on names and .END are necessary. Fewer than 21474836 lines."),
 'C61': (P, "C61_requests: sources of any size, any pattern of refusals; C61_arrays: states reached with fewer than 21474836 lines. c61_eight: the 8 is reached."),
 'C62': (P, "Documented language; C62_moved for ascending addresses (the binary), C62_accepted for any addresses (acceptance and totals)."),
 'C63': (P, "Any text (fewer than 21474836 lines), messages included. overridden says when an origin is not used."),
 'C64': (P, "One use at a time; documented language, ascending addresses."),
 'C65': (P, "Model/Codes.lean is the program with plain int returns; C65_same_run relates it to the main model for every run the main model defines."),
 'C66': (P, ""),
 'C67': (P, ""),
 'C68': (P, "Any bytes; fewer than 21474836 lines. C33_unambiguous: reading messages back."),
 'C69': (P, "Spec/Machine.lean: an arbitrary processor with the 6502's instruction format, and an interpreter of the source. Not about programs that overwrite themselves."),
 'C70': (P, "For any text, via the reference assembler of C57 (its state before the line gives the address and the known symbols). C70_window: the exception is needed."),
 'C72': (P, "Any text, via the reference assembler of C57 (its state behind the common lines gives the address reached and the references that wait). C72_no_origins: texts without origin lines; C72_file_position: the condition on the file position is needed."),
 'C73': (P, "Iterations of the loops of src/ are counted in Model/Steps.lean, a second version of the program that is proved to compute the same outcome (C73_same). C73_time: any source, any outcome; C73_few_symbols: in terms of the symbols reported. The message of a failing run enters with its maximum (C73_message). Library functions are not counted. C73_small: counts small enough to check by hand."),
 'C74': (P, "Model/Unsigned.lean is the program compiled with an unsigned char: the four places where the signedness shows are changed, everything that uses them is repeated. C74_same: any source without 0xFF, any file system, same outcome; C74_utf8: in particular every UTF-8 text; C74_accepted: any source at all. C74_differs: 0xFF outside a comment is where the two differ."),
 'C75': (P, "Model/Hash.lean is the program with an arbitrary hash function. C75_any_hash: any source, any file system, same outcome, also where the number of symbols overflows int. C75_bits: unsigned long of any width. C75_table: the table as a finite map, for any hash function. C75_other: a hash function that does put symbols elsewhere."),
 'C76': (P, "Model/Process.lean is gaia as a machine that makes one system call or handles one line at a time, on a file system shared with other processes. C76_result, C76_undefined, C76_files, C76_order: interleaving cannot be observed. C76_killed, C76_rerun: processes that are killed. C76_finishes, C76_steps: no waiting, bounded number of steps. C76_alone: one process, any block sizes. C76_race: the condition is needed."),
 'C77': (P, "One process of Model/Process.lean among programs that overwrite files (Spec/Changing.lean: versions, Spliced, Whole). C77_result: the general case. C77_defined: no undefined behaviour. C77_append: a source that only grows. C77_unchanged: other files. The output itself is changed by nobody else."),
 'C78': (Q, "False of the code: the table of options has no terminating entry, so argp reads behind it (C78_undefined). C78_known_partial: the claim holds if and only if the memory behind the table happens to look like the missing entry; C78_more: otherwise that memory is taken for further options. C78_repaired: with the missing entry the claim holds."),
 'C79': (P, "C79_sections: result of any list of sections; C79_order: any permutation gives the same file, bytes and symbols. C79_conditions: the conditions are needed (in particular the one on the first instruction, see C27). C79_linked: sections of a documented program that branch and jump into each other; C79_needs: other uses of names must come behind the definition."),
 'C80': (P, "C80_insert: for any program there are slots (fixed bytes, bytes of moved addresses, branch offsets) that give the output for every inserted code, and gaia succeeds iff the offsets fit. C80_exchange: the same for instructions exchanged for others or taken out. C80_between: without references across the place the bytes stay. C80_conditions: the conditions are needed."),
 'C81': (P, "C81_every_file: a source for every file that begins with an opcode (written backwards, as operands of overlapping instructions). C81_only and C81_exact: no other files from documented programs. C81_any_source, C81_indexed, C81_exact_any: exactly the files that any source can make ($F3 comes from JMP L,X). C81_anywhere: instructions at any addresses."),
 'C82': (P, "C82_change: for any source and constant there are spots (fixed bytes, low and high bytes of the value, branch offsets) that give the output for every value on the same side of page zero, and gaia succeeds iff the branches reach. C82_value: without branches. C82_conditions: the conditions are needed."),
 'C83': (P, "C83_exact: the outputs of two programs without origins are equal iff the programs have the same machine code (a textbook first pass: mnemonics, modes, numbers). C83_prefix: likewise for beginnings. C83_code: the output is the bytes of the machine code. C83_mnemonics: other mnemonics, other output. C83_origin_exact, C83_origin_code: the same behind a first line that sets the origin. C83_origins: with origins elsewhere this does not hold."),
 'C71': (P, "One operand at a time; documented language, ascending addresses. C49 has the case of a name that is known above for any text, with the messages of failures."),
 'C59': (P, "Any bytes. C59_conditions and C59_repair show that the conditions and the exception are necessary. Fewer than 21474836 lines."),
 'C41': (P, "Programs of the documented language, any addresses."),
}
ids = [json.loads(l)['id'] for l in open(root + '/properties.jsonl')]
extra = {}
if os.path.exists(root + '/tools/claims_extra.json'):
    extra = json.load(open(root + '/tools/claims_extra.json'))
out = []
for i in ids:
    if i in claims: st, note = claims[i]
    else: st, note = extra.get(i, ('partial', 'in progress'))
    if names.get(i): out.append({'property': i, 'status': st, 'theorems': names[i], 'note': note})
    else: print('no theorem for', i)
json.dump({'claims': out}, open(root + '/MANIFEST.json', 'w'), indent=1)

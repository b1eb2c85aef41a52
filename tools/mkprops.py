# Writes ../properties.jsonl (one JSON object per line). Source of truth for the property list.
import json, os
P=[]
def p(id,title,statement,quantifier,why,anchors):
    P.append(dict(id=id,title=title,statement=statement,quantifier=quantifier,why_tests_cant=why,anchors=anchors))

p("C01","Numeric literals denote their positional value",
  "A literal written $hex, %binary or decimal is accepted exactly when its positional value fits in 16 bits, and the assembled operand is that value, whatever the number of digits or leading zeros; a bigger value is refused with 'value of literal exceeds 2 bytes'.",
  "every digit string in every base, of any length, followed by any delimiter",
  "There are unboundedly many digit strings; tests pick a dozen. The code accumulates in a 64-bit integer, so the claim fails only for very long literals that no test tries.",
  ["src/lexer.c:lex_literal","src/lexer.c:hex_digit_to_int","src/lexer.c:bin_digit_to_int","src/lexer.c:dec_digit_to_int"])
p("C02","A malformed literal is refused at the offending character",
  "A literal whose digits are followed by a character that is neither a digit of its base nor a token delimiter is refused as an illegal character, and the diagnostic points at exactly that character; '$' and '%' without digits are refused too.",
  "every literal prefix, every following byte",
  "Quantifies over all byte strings after the prefix.",
  ["src/lexer.c:lex_literal","src/lexer.c:is_end_of_token"])
p("C03","Names of up to 63 characters are kept whole, longer ones are refused",
  "A label, mnemonic or register name of n valid characters is read in full (upper-cased) when n <= 63 and refused with 'label exceeds 63 characters' when n >= 64; two labels that differ anywhere in those 63 characters are different symbols. No name is ever truncated.",
  "every name of every length and every following text",
  "The boundary must hold for all names and contexts; a truncation or off-by-one shows only at specific lengths.",
  ["src/lexer.c:lex_text","src/lexer.c:token_strncpy","src/lexer.c:token_strcpy"])
p("C04","Assembly is case-insensitive",
  "Changing the case of any letters anywhere in a source file changes neither the exit status, the binary produced, nor the reported byte and symbol counts; if gaia fails, it complains about the same line in the same words with the arrow at the same column, so that everything printed is the same up to case.",
  "all source files, all re-casings of them",
  "Universally quantified over programs and over re-casings.",
  ["README.md","src/lexer.c:token_strncpy","src/lexer.c:hex_digit_to_int"])
p("C05","Comments, blanks and line endings carry no meaning",
  "Text from ';' to the end of a line, blanks and tabs between tokens, and the choice between LF, CRLF and no final newline do not affect the binary, the exit status or the counts (for lines that fit the line buffer); if gaia fails, it complains about the same lexeme of the same line in the same words.",
  "all source lines, all comments and blank runs",
  "Quantifies over arbitrary comment text and layout.",
  ["src/lexer.c:lex_line","src/lexer.c:end_line_lexing"])
p("C06","Tokenisation loses nothing and invents nothing",
  "When a line is accepted by the lexer, the line is exactly: blanks, token text, blanks, ... up to a terminator; each recorded token denotes the text at its recorded position (a literal: its value modulo 2^64); a line is accepted iff it can be cut this way into at most 8 tokens.",
  "all lines",
  "Requires a declarative specification of the token language compared with the scanner on all strings.",
  ["src/lexer.c:lex","src/lexer.c:lex_line","src/lexer.c:add_token"])
p("C07","The lexer always makes progress and terminates",
  "Scanning any line terminates after at most one step per character, reads no byte past the line's terminating NUL, and never writes past the 64-byte token text or the 8-token sequence.",
  "all byte strings, including ones with NUL, 0xFF and non-ASCII bytes",
  "Termination and memory safety for all inputs.",
  ["src/lexer.c:lex_line","src/lexer.c:lex_text","src/lexer.c:lex_directive","src/lexer.c:add_token"])
p("C08","Lines do not influence each other through the scratch structures",
  "The tokens and instruction obtained for a line depend on that line only, not on what the reused lexer, running token and instruction structures contained before.",
  "all lines, all prior contents of the scratch structures",
  "Stale-state bugs depend on the history; there are unboundedly many histories.",
  ["src/lexer.c:reset_lexer","src/lexer.c:reset_token","src/opcode.c:reset_instruction","src/lexer.c:lex_line"])
p("C09","Exactly the 56 documented mnemonics are instructions",
  "A word is treated as an instruction iff, ignoring case, it is one of the 56 6502 mnemonics, and it is then assembled as that very mnemonic; X, Y and A are registers; every other word is a label.",
  "all words",
  "All strings; tests sample.",
  ["src/opcode.c:str_to_mnemonic","src/lexer.c:lex_text","src/lexer.c:lex_instruction"])
p("C10","Only documented line shapes are accepted",
  "A line is accepted syntactically iff its token sequence is one of the shapes in the grammar of parser.h (plus the accumulator operand 'A').",
  "all token sequences the lexer can produce",
  "All sequences of up to 8 tokens out of 16 kinds: far more than tests enumerate; the code in fact also accepts anything after 'operand,X' / 'operand,Y'.",
  ["src/parser.h","src/parser.c:parse_line","src/parser.c:parse_instr_tree","src/parser.c:parse_label_tree","src/parser.c:parse_directive_tree","src/parser.c:parse_base_tree","src/parser.c:parse_indirect_operand_tree"])
p("C11","Parsing never reads outside the token sequence",
  "Syntax analysis and operand search never access a token slot beyond the 8 slots, for any token sequence.",
  "all token sequences of the lexer",
  "Memory safety over all sequences.",
  ["src/parser.c:parse_line","src/parser.c:find_operand","src/parser.c:apply_masks"])
p("C12","The addressing mode is the one the syntax and operand size ask for",
  "For an instruction whose operand value is known, the mode assembled is the unique mode given by the written form (none, A, #, plain, ',X', ',Y', '( )', '( ,X)', '( ),Y') and by whether the value fits in one byte (jumps always absolute/indirect, branches always relative); the line is accepted iff the 6502 has that mnemonic in that mode, else 'illegal addressing mode'.",
  "all mnemonics, operand forms and operand values",
  "56 mnemonics x 9 forms x 65536 values.",
  ["src/parser.c:parse_addr_mode","src/parser.c:apply_masks","src/addressing_modes.h","src/bitfields.h"])
p("C13","Opcode selection agrees with the published 6502 opcode table",
  "For every mnemonic and mode the opcode byte is the one in opcodes/6502ops.csv, the mode is allowed iff the table lists it, and distinct (mnemonic, mode) pairs get distinct opcodes.",
  "all (mnemonic, mode) pairs",
  "Unit tests are generated from the same script as the code; the theorem compares code with the table for every pair, including the rejected ones.",
  ["src/assemble.c","src/opcode.c:get_opcode","src/opcode.c:get_addr_bitfield","src/bitfields.h","opcodes/6502ops.csv"])
p("C14","Only legal opcodes are ever emitted",
  "In a successful assembly every instruction's first byte is a documented 6502 opcode for its mnemonic.",
  "all source programs",
  "Whole-program property over all sources; it fails for 'JMP label,X' with a forward label (opcode byte 0xF3), which no test contains.",
  ["src/main.c:main","src/parser.c:parse_forward_ref_addr_mode","src/generator.c:generate_code","src/generator.c:resolve_forward_ref"])
p("C15","Instruction length and operand bytes follow the table, little-endian",
  "Each assembled instruction occupies exactly the number of bytes the opcode table gives for its mode: the opcode, then the operand value as one byte or as low byte, high byte; decoding those bytes with the table gives back the mnemonic, mode and operand.",
  "all instructions accepted, all operand values",
  "All operand values and instructions.",
  ["src/generator.c:generate_code","src/generator.c:resolve_label_ref","src/generator.c:resolve_forward_ref"])
p("C16","No operand is silently truncated",
  "If a line is accepted, the operand bytes written determine the operand value that was written in the source (a value too wide for the operand field is refused).",
  "all instructions and operand values",
  "Needs all values; fails for branches with a literal above 0xFF and for jump targets above 0xFFFF.",
  ["src/parser.c:parse_addr_mode","src/generator.c:generate_code"])
p("C17","The symbol table is a finite map for any insertion history",
  "After inserting any sequence of distinct labels, looking up a label returns exactly the value it was inserted with, and any other label is reported not found - across any number of growths, any hash collisions and any wrap-around.",
  "all sequences of insertions, all labels",
  "Collisions, wrap-around and resizes depend on the history; tests use one fixed list of 180 labels.",
  ["src/symbol_table.c:insert_symbol","src/symbol_table.c:search_symbol","src/symbol_table.c:resize_symbols","src/symbol_table.c:djb2_hash"])
p("C18","Symbol lookup and insertion always terminate",
  "In every reachable table at least half of the slots are (almost) free: the number of symbols is exactly the number of insertions, the size is prime and probing always reaches a free slot or the label.",
  "all insertion histories",
  "Linear probing loops forever in a full table; termination is an invariant over histories.",
  ["src/symbol_table.c:insert_symbol","src/symbol_table.c:search_symbol"])
p("C19","next_prime returns the least larger prime",
  "next_prime(x) is prime, greater than x, and no number strictly between is prime; the search terminates without overflow for every x below INT_MAX.",
  "all x",
  "All integers.",
  ["src/prime.c:next_prime","src/prime.c:is_prime"])
p("C20","A label keeps its first and only value",
  "A second definition of a label by any of the forms (address label, '=', .EQU, .DEFINE) makes the assembly fail with 'no redefinition of labels'; in a successful assembly every label has exactly one definition and every use, earlier or later, sees that value.",
  "all source programs",
  "Quantifies over all programs and all pairs of definitions.",
  ["src/parser.c:parse_label_declaration","src/main.c:main"])
p("C21","Labels denote the right addresses and constants",
  "An address label denotes the address at which the next instruction is assembled (the last origin plus the lengths of the instructions since); a constant label denotes its literal; '=', .EQU and .DEFINE are interchangeable, and so are .ORG and '*='.",
  "all source programs",
  "Whole-program address bookkeeping for all programs.",
  ["src/parser.c:parse_label_declaration","src/main.c:main","src/parser.c:parse_directive_tree","src/parser.c:parse_base_tree"])
p("C22","Branch offsets are correct or refused",
  "A branch to a label is accepted iff the target is between 126 bytes before and 129 bytes after the branch; then address + 2 + signed offset byte = target. Otherwise 'branch offset too far away'.",
  "all branch addresses and targets",
  "All address pairs including both boundaries on both sides.",
  ["src/generator.c:calc_branch_offset","src/generator.c:resolve_label_ref","src/generator.c:resolve_forward_ref"])
p("C23","Forward references are patched with the final value, or assembly fails",
  "In a successful assembly each branch or jump to a label defined later contains the same bytes as if the label had been known; if some referenced label is never defined the assembly fails with 'label definition was not found'.",
  "all programs, any number and order of forward references",
  "The pending list grows with the program; all interleavings of references and definitions.",
  ["src/main.c:main","src/forward_reference.c","src/generator.c:resolve_forward_ref"])
p("C24","Pending forward references are never lost, reordered or overrun",
  "However many forward references are recorded, the list holds all of them in order, an unused NULL slot always remains at the end, growth preserves the contents, and clean-up visits each reference exactly once without reading past the array.",
  "all sequences of additions",
  "Invariant over unbounded histories and resizes.",
  ["src/forward_reference.c:add_forward_ref","src/forward_reference.c:resize_unresolved","src/forward_reference.c:destroy_unresolved"])
p("C25","Forward references only in branches and jumps",
  "A non-branch, non-jump instruction whose operand label is not yet defined makes the assembly fail with 'illegal forward reference', even if the label is defined later.",
  "all programs",
  "All programs and positions.",
  ["README.md","src/parser.c:parse_label_operand"])
p("C26","One pass gives the same result as a textbook two-pass assembler",
  "For every syntactically valid program, gaia succeeds iff a two-pass assembler (pass 1: addresses and symbols, pass 2: encoding with the complete symbol table) does, and the binary is the same image.",
  "all programs (addresses ascending; documented deviations excluded)",
  "Refinement between two algorithms over all programs.",
  ["src/main.c:main"])
p("C27","Assembling an instruction never damages bytes assembled elsewhere",
  "Assembling one instruction changes no byte of the binary outside that instruction's own addresses (other than zero-filling a gap).",
  "all programs, all origins",
  "Depends on the interplay of file position and origin over the whole history; fails when a forward reference follows an origin change.",
  ["src/main.c:main","src/generator.c:generate_code"])
p("C28","The binary is exactly the image up to the last assembled byte",
  "In a successful assembly with ascending addresses the file length is the end address of the last instruction, every address not covered by an instruction holds zero, and an instruction at address a is at file offset a.",
  "all programs",
  "All programs and origin patterns.",
  ["src/main.c:main","src/generator.c:generate_code"])
p("C29","Reported totals are right",
  "On success the printed byte count is the sum of the lengths of all instructions assembled and the printed symbol count is the number of labels defined.",
  "all programs",
  "All programs.",
  ["src/main.c:main"])
p("C30",".END stops assembly",
  "Nothing after a line consisting of .END influences the result, whatever it contains.",
  "all programs, all trailing text",
  "Arbitrary trailing bytes.",
  ["src/main.c:main","src/parser.c:parse_directive_tree"])
p("C31","Exit status tells the truth",
  "gaia exits with status 0 iff it printed 'Assembly successful.' and every line up to the end was accepted and every reference resolved; otherwise it exits with status 1.",
  "all source files",
  "All inputs.",
  ["src/main.c:main"])
p("C32","Every failure prints one diagnostic",
  "Whenever assembly fails exactly one error message for the failing line is printed.",
  "all source files",
  "All failure causes; a line with more than 8 tokens fails silently, which no test checks.",
  ["src/main.c:main","src/lexer.c:lex_line","src/error.c:print_error"])
p("C33","Diagnostics point at the right line and column",
  "The message carries the number of the failing line, and the arrow is printed in the display column (tab stops every 8) of the offending token or character, also for forward references reported at the end.",
  "all failing lines, any mixture of tabs",
  "All tab/character mixtures.",
  ["src/error.c:print_error","src/forward_reference.c:create_forward_ref"])
p("C34","Line length does not change meaning",
  "Splitting the input into lines follows the newline characters: a line is processed as a whole whatever its length.",
  "all source files",
  "Needs lines of arbitrary length; fails for lines longer than 127 characters, whose tail is assembled as a separate line.",
  ["src/main.c:main"])
p("C35","No undefined behaviour on any source file",
  "Assembling any source file of fewer than 21474836 lines performs no out-of-bounds access, no use of a null pointer, no signed overflow and no non-terminating loop in the modelled code. Up to 2^28 lines, the only thing that can go wrong is that a new symbol is defined when 21474836 exist already: then, and only then, the behaviour is undefined.",
  "all source files of fewer than 21474836 lines; for the exact limit, all of at most 2^28 lines",
  "Memory safety over all inputs.",
  ["src/main.c:main","src/lexer.c:lex_line","src/parser.c:parse_line","src/parser.c:parse_label_declaration","src/symbol_table.c:resize_symbols","src/symbol_table.c:insert_symbol","src/forward_reference.c:create_forward_ref","src/generator.c:resolve_forward_ref","src/error.c:error"])
p("C36","A file that cannot be opened or created leaves the file system untouched",
  "If the source cannot be opened, no file is modified and the exit status is 1; if the output cannot be created, no file is modified and the exit status is 1.",
  "all file system states",
  "All file system states.",
  ["src/main.c:main"])
p("C37","The source file is never modified",
  "gaia never changes its source file.",
  "all file systems and command lines",
  "Depends on aliasing of the two names; fails when the output name is the source name.",
  ["src/main.c:main"])
p("C38","Failed allocation leaves the symbol table intact",
  "If memory runs out during an insertion, the insertion reports failure and every lookup still answers as before.",
  "all tables, all allocation failure points",
  "All crash points of an insertion.",
  ["src/symbol_table.c:insert_symbol","src/symbol_table.c:resize_symbols"])
p("C39","A label on its own line or before an instruction means the same",
  "Writing 'L' on a line of its own followed by a line 'INSTR' gives the same binary, symbols and status as writing 'L INSTR' on one line, and an optional colon after the label changes nothing. If gaia fails, it leaves the same output file and gives the same message: to the byte for the lines above, with the line number shifted by one for those below, and pointing to the same lexeme for the lines concerned.",
  "all labels and instructions, all programs around them",
  "All programs around the label.",
  ["src/main.c:main","src/parser.c:parse_label_tree","src/lexer.c:lex_line"])
p("C40","Literal notation is irrelevant",
  "Replacing a literal by another literal of the same value in another base leaves exit status, binary and counts unchanged; if gaia fails, it complains about the same lexeme of the same line in the same words.",
  "all programs, all literals",
  "All programs and values.",
  ["src/lexer.c:lex_literal"])
p("C41","The output file is exactly the assembler's writes, in order",
  "For every program, whatever its addresses and however its instructions overlap, the output file is what a stated sequence of writes to an empty file gives: each instruction when its line is reached, dummy zeros before a forward reference where the file stands, and each forward reference again at the end with the final value of its label.",
  "all programs, all orders of addresses",
  "All programs; the order of writes only matters when addresses overlap or go backwards.",
  ["src/main.c:main","src/generator.c:generate_code","src/generator.c:resolve_forward_ref"])
p("C42","All memory and files are released",
  "If no request for memory is refused, then at the end of every run, successful or not, every block obtained from malloc, calloc or realloc has been freed exactly once and both files have been closed.",
  "all source files of fewer than 21474836 lines, all names and file systems, all ways the run can end",
  "All exit paths with all contents of the growing tables.",
  ["src/main.c:abort_gaia","src/main.c:main","src/lexer.c:destroy_lexer","src/symbol_table.c:destroy_symbol_table","src/forward_reference.c:destroy_unresolved"])
p("C43","Running out of memory never crashes and never passes for success",
  "Whichever requests for memory are refused, the run has no undefined behaviour (no double free, no use of NULL), closes its files, changes no file but the output, and exits with status 1 if any request it made was refused; if one of the 25 initial requests is refused it prints the memory message and touches no file.",
  "all subsets of refused requests, all source files of fewer than 21474836 lines, all names and file systems",
  "Exponentially many allocation failure patterns over all sources.",
  ["src/main.c:main","src/main.c:abort_gaia","src/symbol_table.c:insert_symbol","src/forward_reference.c:create_forward_ref","src/forward_reference.c:add_forward_ref"])
p("C44","Memory is released even after a refused request",
  "At the end of every run, even if requests for memory were refused, no block is left allocated.",
  "all subsets of refused requests, all source files",
  "Allocation failure points; fails for init_*, init_symbol, create_forward_ref and resize_unresolved, which drop what they have.",
  ["src/lexer.c:init_token","src/symbol_table.c:init_symbol","src/forward_reference.c:create_forward_ref","src/forward_reference.c:resize_unresolved"])
p("C45","The command line selects source and output, in any order",
  "With exactly one argument that file is assembled, into the file named by the last -o/--output option or into a.out if there is none, wherever the options stand; with no argument or more than one, gaia prints its usage and touches no file.",
  "all command lines of -o/--output options, arguments and --",
  "All orders and numbers of words.",
  ["src/main.c:parse_opt","src/main.c:main"])
p("C46","A run depends on the source text only",
  "Exit status, printed text and output file are determined by the contents of the source file and by whether the output file can be created; an older output file or other files play no role. The output file's name plays no role; the source file's name only appears in messages.",
  "all file systems, names and source files of fewer than 21474836 lines",
  "All file system states.",
  ["src/main.c:main"])
p("C47","The names of labels carry no meaning",
  "Consistently renaming the labels and constants of a source so that different names stay different gives the same exit status and output file, and on success the same report; if gaia fails, it complains about the same lexeme of the same line in the same words.",
  "all source files (lines up to 126 characters), all renamings",
  "All programs and renamings; hash collisions depend on the names.",
  ["src/symbol_table.c:djb2_hash","src/symbol_table.c:insert_symbol","src/symbol_table.c:search_symbol","src/forward_reference.c:create_forward_ref"])
p("C48","Symbols nobody uses and blank lines change nothing",
  "Adding a line that only defines a label or constant mentioned nowhere else gives the same exit status and output file, and on success a report with one more symbol; adding a blank or comment line gives the same exit status, output file and, on success, report; if gaia fails, the message is the same but for the line number, which counts the added line.",
  "all source files (lines up to 126 characters), all places before .END",
  "All programs around the added line; the extra symbol may trigger a resize of the table.",
  ["src/main.c:main","src/symbol_table.c:insert_symbol","src/symbol_table.c:resize_symbols"])
p("C49","A constant means its value",
  "In an instruction that is not a branch, replacing a constant defined on an earlier line by a literal for its value gives the same exit status, the same output file and the same report or message, to the byte; only if gaia refuses this very line do the two messages differ, in the line they quote and the column of the arrow. The same holds for every name that is known where the line is assembled (a label of a line above, or of the line itself).",
  "all source files, all known names, instructions and operand forms",
  "All programs around the instruction.",
  ["src/parser.c:parse_operand","src/parser.c:parse_addr_mode","src/generator.c:generate_code","src/generator.c:resolve_label_ref"])
p("C50","The output disassembles to the program",
  "If gaia succeeds on a program that never sets the origin, decoding the output file one 6502 instruction after the other gives exactly the program's instructions, in order, each with its mnemonic, an addressing mode its operand text stands for and the operand's value. If the program sets origins (ascending), any stretch of lines between two origin lines can be read back in the same way from its address on, and with a single origin line at the start the file is zero up to the origin.",
  "all programs (ascending addresses if there are origin lines), all their stretches between origin lines, all outputs",
  "All programs; opcode confusion or a lost byte shifts every later instruction.",
  ["src/generator.c:generate_code","src/generator.c:resolve_forward_ref","src/parser.c:parse_addr_mode"])
p("C51","Which machine instructions can be written",
  "Every 6502 instruction except absolute (and absolute,X/,Y) accesses to page zero where a zero-page form is chosen instead can be written: printing any list of such instructions as text and assembling it gives exactly their bytes, and gaia's output never contains other instructions, so disassembling and assembling again reproduces the output.",
  "all lists of machine instructions; all programs without .ORG whose operands fit",
  "All instruction sequences and operand values.",
  ["src/parser.c:parse_addr_mode","src/generator.c:generate_code","src/lexer.c:lex_line"])
p("C52","What a failed run leaves in the output file",
  "After an error at line k the output file holds exactly what the instructions of the lines before k wrote, with zeros for forward references; after an error in a forward reference it holds the whole program, with exactly the references before the bad one filled in.",
  "all programs with an error, of every kind and at every line",
  "All failure points of all programs.",
  ["src/main.c:main","src/generator.c:generate_code","src/generator.c:resolve_forward_ref"])
p("C53","The output cannot explode",
  "Whatever the source, the output file is at most 65535 bytes longer than the source, whether the run succeeds or not; on success the reported numbers of bytes and symbols are at most the length of the source.",
  "all source files of fewer than 21474836 lines, legal or not",
  "All sources; depends on every path that writes or seeks.",
  ["src/main.c:main","src/generator.c:generate_code","src/generator.c:resolve_forward_ref"])
p("C54","Reading and writing errors",
  "gaia never notices that reading the source or writing the output failed. Whatever the output device does with its requests, gaia makes the same requests, exits with the same status and prints the same text as on a healthy disk (so it reports success on a full disk). A read error is taken for the end of the file: gaia assembles the complete lines delivered so far.",
  "all sources, all behaviours of the output device, all points at which reading fails",
  "All I/O failures at all points; fault injection can only try a few.",
  ["src/main.c:main","src/generator.c:generate_code","src/generator.c:resolve_forward_ref"])
p("C55","A killed run",
  "If gaia is killed at any moment, running it again does exactly what it would have done without the killed run. If the addresses ascend, the output file left behind is not longer than the right binary and each byte is the right one or 0; without forward references it is a prefix of the right binary.",
  "all programs, all crash points (any number of the requests to the output file carried out)",
  "All crash points of all programs.",
  ["src/main.c:main","src/generator.c:generate_code","src/generator.c:resolve_forward_ref"])
p("C56","No access through stale or wild pointers",
  "Whatever the source (of fewer than 21474836 lines), whatever requests for memory are refused and whatever uninitialised memory (the line buffer, fresh arrays of pointers) holds, gaia never reads or writes through NULL, through a pointer to freed memory or outside the bounds of an array, never reads a string that lacks its terminator and frees nothing twice; keeping tokens, symbols, forward references and their texts behind shared pointers gives the same result as keeping them as separate values.",
  "all sources, names and file systems, all patterns of refused allocations, all initial contents of the line buffer and of fresh arrays",
  "Sanitizer runs cover single executions; aliasing and lifetime errors depend on the history of lines and on which allocation fails.",
  ["src/main.c:main","src/lexer.c:lex_line","src/lexer.c:add_token","src/parser.c:parse_operand","src/symbol_table.c:resize_symbols","src/symbol_table.c:insert_symbol","src/forward_reference.c:create_forward_ref","src/forward_reference.c:resize_unresolved","src/generator.c:resolve_forward_ref"])
p("C57","Complete behaviour on every source",
  "For every source text, well-formed or not, gaia's exit status, everything it prints and every byte of the output file are those of one small reference assembler: lines cut after 127 bytes, the language's lexemes and statements, one pass that writes instructions and remembers references to unknown labels, then the references in order. The places where gaia departs from its documentation (literals modulo 2^64, a silent stop at a ninth lexeme, lexemes after an indexed operand, operands cut to their field, indexed forward jumps, zeros written where the file stands) are explicit clauses. Success and failure, the message and its position, and what a failed run leaves behind follow for every source.",
  "all source texts of fewer than 21474836 lines and all file systems with a readable source and a creatable, different output file",
  "No finite test set covers all byte sequences; equivalence with a reference must hold for each of them, including mixtures of errors.",
  ["src/main.c:main","src/lexer.c:lex_line","src/parser.c:parse_line","src/parser.c:parse_addr_mode","src/generator.c:generate_code","src/generator.c:resolve_forward_ref","src/forward_reference.c:create_forward_ref","src/error.c:error"])
p("C58","Code can be put anywhere",
  "Take any text without an origin line in which no branch leads to a constant, and put before it a line that sets the origin to some x of at least 256. Whether gaia accepts it does not depend on x. If it does, the output is x zeros followed by the same bytes for every x, except for the low and high bytes of addresses inside the code, which are those of x plus a fixed offset; number of bytes and of symbols are the same. If it does not, the message is the same. If only branches use the names of addresses, the code is the same bytes for every x.",
  "every byte sequence as body, every origin from 256 on, every way to write the origin line, every file system with the files in place",
  "Tests can compare a few programs at a few origins; that nothing but the addresses depends on the origin must hold for all programs and all origins.",
  ["src/main.c:main","src/parser.c:parse_addr_mode","src/generator.c:generate_code","src/generator.c:resolve_forward_ref","src/forward_reference.c:create_forward_ref","src/lexer.c:lex_line"])
p("C59","Appended source appends code",
  "Let a be complete lines of which at most the first sets the origin, and b any text that does not set it. If gaia assembles a, to at least one byte, then for a followed by b it either fails, or writes the bytes of a followed by further bytes and reports as many bytes more; symbols are never fewer. If gaia refuses a for another reason than an undefined label, it refuses a followed by any text.",
  "every pair of byte sequences a, b with these conditions, every file system with the files in place",
  "Tests can try a few continuations of a few programs; that no continuation whatsoever changes what was already assembled, or repairs an error, is a statement about all of them.",
  ["src/main.c:main","src/generator.c:generate_code","src/generator.c:resolve_forward_ref","src/forward_reference.c:create_forward_ref","src/symbol_table.c:insert_symbol"])
p("C60","Texts that share no names are assembled independently",
  "Let a be complete lines without .END, of which at most the first sets the origin, which gaia assembles to at least one byte, and b any text that does not set the origin and neither defines nor uses a name of a. Assemble b alone, behind a line that sets the origin to the first address after a. If gaia accepts that, it accepts a followed by b and writes the binary of a followed by exactly the code b has alone, and the numbers of bytes and symbols are the sums. If it does not, it refuses a followed by b too, with the same message but for the line number.",
  "every pair of byte sequences a, b with these conditions, every way to write the origin line, every file system with the files in place",
  "Interference between parts of a program (through the symbol table, its growth, the pending references, the file position) depends on both texts; no finite set of pairs excludes it.",
  ["src/main.c:main","src/symbol_table.c:insert_symbol","src/symbol_table.c:search_symbol","src/forward_reference.c:add_forward_ref","src/generator.c:generate_code","src/generator.c:resolve_forward_ref"])
p("C61","Memory use is linear in the source",
  "A run that ends has made at most 25 requests for memory and 8 more for each line of the source, whatever the source contains (any bytes, any number of lines) and whichever requests were refused. After n lines the symbol table has at most max(17, 8n) slots and the array of forward references at most max(8, 2n).",
  "every source, every file system, every pattern of refused allocations; every state of the main loop",
  "Tests measure single runs; a bound that holds for every source needs an argument about each step.",
  ["src/main.c:main","src/symbol_table.c:resize_symbols","src/symbol_table.c:insert_symbol","src/forward_reference.c:create_forward_ref","src/forward_reference.c:resize_unresolved"])
p("C62","A constant can be defined earlier",
  "If gaia assembles a program of the documented language with ascending addresses, then moving a line that defines a constant up, past any lines but .END, changes neither the binary nor the numbers of bytes and symbols; whatever the addresses, the program is still accepted with the same numbers. (Down it cannot be moved in general.)",
  "every program, every constant line in it, every place further up, every file system with the files in place",
  "Known and unknown names take different paths through the assembler (direct code against placeholder and patch); that they always lead to the same bytes is a statement about all programs.",
  ["src/main.c:main","src/parser.c:parse_label_declaration","src/generator.c:generate_code","src/generator.c:resolve_forward_ref","src/symbol_table.c:insert_symbol"])
p("C63","Origin lines that do nothing",
  "A line that sets the origin to the address at which assembly stands anyway can be replaced by an empty line, in any text and whatever follows: exit status, text printed and output file are the same. In particular *=0 in the first line, and *=n after lines that assemble to n bytes (with at most the first setting the origin). The same holds for an origin line after which neither a label nor an instruction comes before the next origin line or the end: of several in a row the last one counts.",
  "every byte sequence before and after the line, every spelling of the line, every file system with the files in place",
  "Tests try a few texts; that an origin line has no effect but on the location counter must hold in every context, valid or not.",
  ["src/main.c:main","src/parser.c:parse_line","src/parser.c:parse_base_tree","src/generator.c:generate_code"])
p("C64","Names of equal value are interchangeable",
  "If gaia assembles a program of the documented language with ascending addresses in which two names have the same value, then the one can be written in place of the other as operand of any branch or jump, and of any other instruction after its definition: binary and totals are the same.",
  "every program, every instruction with a name as operand, every other name of that value",
  "Whether a name is a label or a constant, known or not yet known, decides which code path assembles the operand; equality of results must hold for all combinations.",
  ["src/generator.c:generate_code","src/generator.c:resolve_forward_ref","src/parser.c:parse_label_operand","src/symbol_table.c:search_symbol"])
p("C65","Return codes are never misread",
  "Every function reports to its caller through one plain int: an error code, or a count, an operand status, an offset, a symbol's value, a set of addressing mode flags. No caller ever takes one for the other: a program that keeps successes and errors apart by construction exits with the same status, the same text on stdout and the same files as the program in which every caller applies its own test to an int. All error codes are distinct and negative; the syntax check returns 1, -10 or -20, an operand 1 to 5, -12 or -9, the addressing mode a non-empty set of the 13 flags, 0xFFFF (for forward references only) or -13, a branch offset 0 to 255 or -15, generated bytes are 1, 2 or 3, a digit is below its base or -3.",
  "every source text, every file system with the files in place; for the functions, every argument",
  "A number that means two things shows up only for the one value at which the ranges meet: no finite set of inputs covers all values of all functions.",
  ["src/main.c:IS_ERROR","src/main.c:main","src/lexer.c:lex_line","src/parser.c:parse_addr_mode","src/parser.c:parse_operand","src/generator.c:calc_branch_offset","src/symbol_table.c:search_symbol","src/error.h"])
p("C66","The forms of a statement are interchangeable",
  ".DEFINE NAME value, NAME .EQU value and NAME = value mean the same wherever they stand, and so do .ORG value and * = value: writing one for the other in any lines of any source, valid or not, gives success with the same output file and report, or failure with the same output file and the same message for the same line. There are no other forms of these statements.",
  "every pair of source texts whose lines are pairwise equal or the same statement, every file system with the files in place",
  "The forms are parsed by different code and stored through different token positions; tests try each once, in valid programs.",
  ["src/parser.c:parse_label_tree","src/parser.c:parse_directive_tree","src/parser.c:parse_base_tree","src/parser.c:parse_label_declaration","src/main.c:main"])
p("C67","Nothing in a line is skipped",
  "If gaia succeeds, every line up to .END consists, outside its comment, of letters, digits, blanks, tabs and the characters _ # ( ) , = * $ % . : only. A source with any other character there (an expression with + or -, a quoted string, < or >, an accented letter, a control character) is refused with exit status 1, never read as if the character were not there.",
  "every source text, every line of it before .END, every byte, every file system with the files in place",
  "256 bytes at every position of every line: tests try a few characters at a few positions.",
  ["src/lexer.c:lex_line","src/lexer.c:lex","src/lexer.c:lex_text","src/lexer.c:lex_literal","src/lexer.c:lex_directive","README.md"])
p("C68","The lines up to the first error decide",
  "If gaia refuses some complete lines with a message that is not about a reference (label missing or too far), then whatever text follows them it prints the same and leaves the same output file; and if it refuses a source with such a message for line k, it does the same for the first k lines alone. If gaia accepts a source, then it accepts every beginning of it made of complete lines, or complains of a label that is not defined, quoting a line that is there. Line number and kind of error can be read back from every message.",
  "every pair of byte sequences, the first made of complete lines; every file system with the files in place",
  "Tests have one ending per beginning; the claim is about all texts that can follow an error, and all prefixes of all accepted sources.",
  ["src/main.c:main","src/error.c:print_error","src/generator.c:resolve_forward_ref","src/forward_reference.c:create_forward_ref"])
p('C69', 'The processor executes the program as it is written',
  "Load the output file of a successful assembly (ascending addresses, at most 65536 bytes) at address 0 of any processor with the 6502's instruction format, whatever its instructions do. As long as the bytes of the program are not overwritten, the processor, fetching and decoding bytes, goes through the same states as one that executes the source text: at the address of each instruction this instruction with its mnemonic, addressing mode and the value of its operand, after it the next one in the source, after a jump or branch to a label the instruction written at the label.",
  'all programs of the documented language with ascending addresses, all processors and initial states, runs of any length',
  'A test can run one program on one emulator for some steps; that every program behaves as written needs an argument about every instruction, operand and label.',
  ['src/generator.c:generate_code', 'src/generator.c:resolve_forward_ref', 'src/generator.c:calc_branch_offset', 'src/opcode.c:get_opcode'])
p('C70', 'Editing an instruction changes its own bytes only',
  "If gaia assembles a program and the instruction in one line is replaced by another instruction of the same length (with the same label in front of it, if any), gaia assembles the new program to a file of the same length with the same totals that differs from the old one in the bytes of this instruction only, or it refuses the new program with a message about this very line. The one exception: if exactly one of the two instructions refers to a label defined later and an origin line stands between it and the instruction before it, the bytes behind that instruction before it can be cleared (see C27).",
  'all texts that gaia accepts, all lines of them, all instructions of the same length put there',
  'A test compares two outputs for one edit; that no edit anywhere can reach other bytes (through the symbol table, the reference list or the file position) is a statement about all pairs of programs.',
  ['src/main.c:main', 'src/generator.c:generate_code', 'src/generator.c:resolve_forward_ref', 'src/forward_reference.c:create_forward_ref'])
p('C71', 'In an instruction a name is nothing but its value',
  "If gaia assembles a program of the documented language with ascending addresses, then in any instruction that is not a branch a name (label or constant, defined before or after it) can be replaced by a literal for its final value, and a literal by a name of that value (defined before, or after it in a jump): binary and totals are the same. For branches this is not so: a literal there is the offset itself.",
  'all programs, all instructions but branches, all names and values',
  'The one-pass assembler handles known labels, later labels and literals in three different ways; that they never differ in the output needs an argument about all of them.',
  ['src/parser.c:parse_operand', 'src/parser.c:parse_label_operand', 'src/generator.c:resolve_forward_ref', 'src/generator.c:resolve_label_ref'])
p('C72', 'What follows a line does not change the code before it',
  'If two source files begin with the same lines and gaia assembles both, the code of these lines is the same in both outputs, byte by byte, except for operands of branches and jumps to labels that are defined further down, with different values in the two files. (If origin lines are used: provided none further down goes back, and with the exception of C27.)',
  'all pairs of texts that gaia accepts and that begin with the same lines, all bytes of the code of these lines',
  'A test compares two outputs; that no continuation of a text, however long, reaches back into the code before it is a statement about all pairs of texts.',
  ['src/main.c:main', 'src/generator.c:generate_code', 'src/generator.c:resolve_forward_ref'])

p('C73', 'The time an assembly takes is bounded by the size of the source',
  "Whatever the source contains and however the run ends (success, error or a missing source file), the loops of gaia taken together run at most 198*n^2 + 4368*n + 2446 times, where n is the number of lines (below 21474836; a line of more than 127 bytes counts as several). When the run succeeds and reports k symbols they run at most n*(3544+6k) + 192*k^2 + 824*k + 33 times: with few symbols the time grows in proportion to the lines. Looking up a label, present or not, inspects no more symbols than there are, even when all of them collide in the hash table; the table never has more than 8 slots per symbol (beyond the first 17).",
  'every byte sequence as source, every file system, every sequence of labels put into the table',
  'Timing tests sample a few sources; a hash table with linear probing and growth can degrade on inputs nobody tried, and a loop can fail to make progress on one input in a million.',
  ['src/main.c:main', 'src/lexer.c:lex_line', 'src/symbol_table.c:insert_symbol', 'src/symbol_table.c:search_symbol', 'src/symbol_table.c:resize_symbols', 'src/prime.c:next_prime', 'src/forward_reference.c:add_forward_ref', 'src/error.c:print_error'])

p('C74', 'The platform does not matter: signed and unsigned char give the same result',
  "C leaves open whether `char` is signed. Compiled either way, gaia ends with the same exit status, prints the same text and writes the same file for every source that does not contain the byte 0xFF, in particular for every UTF-8 text. For sources with 0xFF: what is accepted where `char` is unsigned is accepted, with the same result, where it is signed. The converse is not so: where `char` is signed, 0xFF ends a line.",
  'every source without the byte 0xFF (first part), every source (second part), every file system',
  'A test runs on one platform; whether the hash function, the comparisons with EOF and the trimming of lines agree on another one for all texts cannot be settled by it.',
  ['src/lexer.c:is_end_of_token', 'src/lexer.c:end_line_lexing', 'src/error.c:print_error', 'src/symbol_table.c:djb2_hash'])

p('C75', 'The hash function cannot be observed',
  "Put any function in the place of the symbol table's hash function (one that sends all labels to the same slot, one with 32-bit arithmetic as on platforms where unsigned long has 32 bits): for every source gaia ends with the same exit status, prints the same text and writes the same file. The table itself, with any hash function, holds any number (below 21474836) of different labels, finds each with its value and finds no other.",
  'all hash functions, all sources, all file systems; all sequences of insertions',
  'A test fixes one hash function and a few labels; collisions, wrap-around and rehashing depend on all labels inserted before, and the arithmetic on the platform.',
  ['src/symbol_table.c:djb2_hash', 'src/symbol_table.c:insert_symbol', 'src/symbol_table.c:search_symbol', 'src/symbol_table.c:resize_symbols', 'src/main.c:main'])

p('C76', 'gaia processes that run at the same time do not disturb each other',
  "Run any number of gaia processes at the same time, such that none writes a file another one reads or writes (they may share sources). However their steps are interleaved, in whatever blocks sources are read and outputs written, and whichever processes are killed: a process that has exited has the exit status, the printed text and the output file of gaia run alone; no other file changes; when all have exited everything is the same whatever the order was; a killed process has left its output untouched or as an interrupted run alone would, and running it again repairs it; no process waits for another, and each ends after at most 6 steps and 2 per byte of source.",
  'all sets of processes, all file systems, all schedules (interleavings, block sizes, moments at which buffers are emptied, processes killed)',
  'The schedules are unboundedly many and not under the control of a test; a test sees the few that happen on its machine.',
  ['src/main.c:main', 'src/main.c:abort_gaia', 'src/generator.c:generate_code', 'src/generator.c:resolve_forward_ref'])

p('C77', 'A source that changes while gaia reads it',
  "Let other programs overwrite the source (or any other file but the output) at any moments while gaia runs. gaia's exit status, printed text and output are those for one fixed text, put together from the versions of the source: every byte is from its place in one of them, in the order in which they followed each other, and the text ends where gaia found the end (or what follows makes no difference). There is no undefined behaviour if no version is longer than 21474836 bytes. If the source is only appended to, the result is that for one of its versions. Programs that change other files do not matter.",
  'all sources, all sequences of changes by other programs, all moments, all block sizes in which the source is read',
  'When a change falls between two reads is up to the scheduler and the size of the buffer.',
  ['src/main.c:main'])

p('C78', 'gaia knows exactly the documented options',
  "On every command line and whatever the memory of the process holds, the option parser knows the option -o FILE (--output=FILE), those argp adds itself, and no other.",
  'all contents of the memory next to the table of options',
  'What lies behind the table depends on compiler, linker and flags; a test sees the one layout it was built with, where the bytes are often zero by chance.',
  ['src/main.c:options', 'src/main.c:main'])

p('C79', 'Sections of code at different addresses can be put in any order',
  "Take any number of sections, each behind a line that sets the origin, that gaia assembles alone, that have no name and no address in common, and whose first instruction is no forward reference. However they are put one behind the other, gaia succeeds; the output holds the code of each section at its origin, zeros elsewhere and nothing behind the last byte of code; bytes and symbols are the sums. So the order of the sections cannot be told from the output. For documented programs the sections may also use names of each other in branches and jumps, as long as no two instructions overlap: every order gives the same output, or every order fails.",
  'all lists of sections (any number, any length), all orders',
  'The number of orders grows with the factorial of the number of sections, and forward references are patched across section boundaries in a file that is written back and forth.',
  ['src/main.c:main', 'src/generator.c:generate_code', 'src/generator.c:resolve_forward_ref', 'src/parser.c:parse_base_tree'])

p('C80', 'Instructions put into a program, taken out or exchanged move the rest and change nothing else',
  "Take a program gaia assembles (an origin and then code, not on page zero or with the labels behind the place used in branches and jumps only) and put instructions without names at any place. gaia then succeeds exactly if every branch across the place still reaches its target. The output has the new code at that place; the other bytes are the same, but the addresses behind the place grow by the length of the new code, and the offsets of branches across it grow or shrink by it. The byte count grows by that length, the symbol count stays. The same holds for taking such instructions out of a program and for exchanging them for others.",
  'all programs of the documented language of that form, all places, all inserted and all replaced instructions (any number)',
  'The relation is between infinitely many pairs of programs; all references, forward and backward, have to be followed across the place.',
  ['src/main.c:main', 'src/generator.c:generate_code', 'src/generator.c:resolve_forward_ref', 'src/parser.c:parse_label_declaration', 'src/parser.c:parse_label_operand'])

p('C81', 'gaia can make every file that begins with an opcode, and no other',
  "For every file (up to 65537 bytes) whose first byte is the opcode of an instruction not longer than the file there is a source that gaia makes exactly this file of, whatever the other bytes are. The output of a program of the documented language is always such a file (or empty). Other sources can only make files besides that begin with $F3 (and have three bytes), and all of them can be made. Instructions written at any addresses, in any order and overlapping, are put there, each over what the ones before it have left.",
  'all files; all sources; all lists of instructions with addresses',
  'The existence of a source has to be shown for every file, and the impossibility of one for every source.',
  ['src/main.c:main', 'src/generator.c:generate_code', 'src/generator.c:resolve_forward_ref', 'src/parser.c:parse_base_tree'])

p('C82', 'A constant with another value changes the operands that use it and nothing else',
  "Take any source gaia assembles, and put another value for a constant, on the same side of the end of page zero, in any of the forms for it. gaia then succeeds exactly if the branches to the constant still reach it. The output is the same, but for the low bytes, the high bytes and the offsets of branches made of the value, which are those of the new value; length, byte count and symbol count stay. Without branches to the constant gaia always succeeds.",
  'all sources gaia assembles, all constant definitions in them, all other values on the same side of $100, all forms of the definition',
  'The relation is between infinitely many pairs of sources; every use of the constant, before and after the definition, has to be followed.',
  ['src/main.c:main', 'src/parser.c:parse_label_declaration', 'src/parser.c:parse_label_operand', 'src/generator.c:generate_code', 'src/generator.c:resolve_forward_ref'])

p('C83', 'Different programs are assembled to different files',
  "Two programs that do not set the origin (or set it in the first line, to the same address) have the same output exactly if they ask for the same instructions in the same order, in the same addressing modes and with the same numbers in the operand fields (the values of names, the distances of branches). The output of one begins with the output of the other exactly if its instructions begin with the instructions of the other.",
  'all pairs of programs of the documented language that do not set the origin, or only in the first line',
  'The relation is between all pairs of programs; tests compare the output of single programs.',
  ['src/main.c:main', 'src/generator.c:generate_code', 'src/generator.c:resolve_forward_ref', 'src/opcode.c:get_opcode'])

with open(os.path.join(os.path.dirname(__file__),"..","properties.jsonl"),"w") as f:
    for x in P: f.write(json.dumps(x)+"\n")
print(len(P))

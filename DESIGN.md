# Formal model of andi-spajk/gaia (single-pass 6502 assembler, C) in Lean 4

## 1. What is modelled

The whole program `gaia SOURCE -o OUT` as executable, total Lean functions, one per C function, from the command line and the bytes
of the source file to the exit status, the bytes printed on stdout and the bytes of the output file. Every definition under
`lean/Verif/Model/` cites the file and lines it models.

| module | models |
|---|---|
| `Model/Base.lean` | bytes, C strings, the result type (`ok` / reported error / undefined behaviour), `error.h` codes, ctype |
| `Model/Prime.lean` | `prime.c` |
| `Model/SymTab.lean` | `symbol_table.c` (hash, linear probing, growth) |
| `Model/Opcode.lean` | `opcode.h`, `opcode.c`, `assemble.c`, `bitfields.h`, `addressing_modes.h` |
| `Model/Error.lean` | `error.c` (`print_error`, byte-exact output) |
| `Model/Lexer.lean` | `lexer.c` |
| `Model/Parser.lean` | `parser.c` |
| `Model/ForwardRef.lean` | `forward_reference.c` |
| `Model/Generator.lean` | `generator.c`, the output `FILE` (`log` is a history variable: the writes done so far) |
| `Model/Main.lean` | `main.c` (fgets line splitting, main loop, patching, file handling); memory and I/O never fail |
| `Model/Memory.lean` | every `malloc`/`calloc`/`realloc`/`free`/`fopen`/`fclose` of `src/`; any request may be refused |
| `Model/Pointers.lean` | all of `src/` except `prime.c`, again, with every structure an object in a heap block, read and written through pointers |
| `Model/CommandLine.lean` | `main.c:25-88`, 145-150: options, `parse_opt`; `argp_parse` as its manual describes it |
| `Model/Links.lean` | `main.c` again, on a file system where several names may lead to one file (C37) |
| `Model/Codes.lean` | all of `src/` except `prime.c`, again, with the plain `int` return values of C, the callers' own tests on them, and messages printed as the functions run (C65) |
| `Model/Steps.lean` | every function of `src/` with a loop, or that calls one, again, with the number of loop iterations beside the result (C73) |
| `Model/Unsigned.lean` | the 45 functions of `src/` in which the signedness of `char` shows, or that call one, again, with an unsigned `char` (C74) |
| `Model/Hash.lean` | the 18 functions of `src/` that use the hash function, directly or not, again, with an arbitrary one (C75) |
| `Model/Process.lean` | `main.c:143-291` as a machine of small steps (open, create, read a block, handle a line, empty the output buffer, close, be killed) on a file system shared with other gaia processes (C76) and other programs (C77) |
| `Model/Options.lean` | `main.c:25-28`: the table of options as an array, and the loop with which argp looks for its end (C78) |
| `Model/IO.lean` | `main.c` and `generator.c` again, over an arbitrary output device and with read errors |

Undefined behaviour is a distinct outcome (`C.ub kind`; in the memory models also `badFree`, `badClose`, `badAccess`): out-of-bounds slot access, text
buffer overflow, reads past the end of a line, underrun of the backwards scans, use of NULL, signed `int` overflow, loops that do not
terminate (fuel exhausted), freeing what is not allocated. Theorems show it unreachable (C35, C43, C56) instead of assuming it away.

The specifications in `lean/Verif/Spec/` are independent of the model: opcode table (generated from `opcodes/6502ops.csv` by
`tools/gen_opcode.py`), lexemes and lines (`Syntax`, `Cut`, `LexFault`, `SynFault`), statements and a two-pass assembler (`Assembler`), its
checks (`Check`), truncating variant (`Truncate`), diagnostics (`Diagnostic`), sequence of writes (`WriteLog`, `Crash`), disassembler
(`Disassemble`), relations between sources (`Equivalence`, `Rename`), "this source is this program" and "gaia succeeds / fails like
this" (`Program`). They use of the model only the basic types (bytes, mnemonics, lexemes' names) and, in `Program`, `WriteLog`,
`Equivalence` and `Crash`, the top-level function `gaia` (or `IO.gaia`) whose observable result they talk about.

How the main theorems are proved: `lexLine`/`parseLine` are shown equal to declarative lexing and parsing (`Proofs/Lex*`, `Syn*`,
`LineFacts`); the main loop over C structures is simulated by a pure one-pass machine over finite maps (`Proofs/OnePass`, `Sim*`), the
machine by the two-pass specification (`Proofs/Program*`, `TwoPass`, `Final`, `Whole`); the memory model follows the model without
memory step by step (`Proofs/Memory*`), the model with pointers follows the memory model (`Proofs/Low*`); the device model is natural in the device (`Proofs/IO`).

## 2. Trusted base

* Lean's kernel (every theorem is checked by it; `vcheck` replays all modules). No axioms of our own. `AXIOMS.md` lists, for each theorem
  in `MANIFEST.json`, the axioms it depends on: at most `propext`, `Classical.choice`, `Quot.sound`. No `native_decide`, no `bv_decide`.
* That the model says what the C code says. Evidence: every definition cites its lines (`tools/checkcites.py`
  checks that the cited ranges are those of the named C functions, and that every C function of `src/` is modelled); `Props/Conformance.lean` evaluates in the kernel
  the expectations of the project's own unit tests (prime, symbol table, parser, error, generator ROMs), `Props/Conformance2.lean`
  (generated by `tools/gen_conform2.py`) replays the unit tests of the lexer, opcode, assemble, parser, forward-reference, error and generator
  modules statement by statement on the model with the C return codes (2065 assertions translated; the 203 others are non-null checks,
  NULL arguments, the field `error_tk`, and values the code leaves in a token that nothing reads again), and `Props/Shipped.lean` evaluates
  all seven programs of `example/`; these are tests of the model, not proofs of properties.
* That the specifications say what the English says.

## 3. What is not modelled

* `argp_parse` itself (option abbreviations, `--help`, `--usage`, `--version`, unknown options). `options[]` in `main.c:25-28` has no
  terminating zero entry, which argp requires: see C78; the rest of the model takes the table as it was meant. `Model/CommandLine.lean` models `parse_opt` exactly and argp as documented.
* Layout of structs and sizes in bytes (`Model/Pointers.lean` counts characters and pointers). Uninitialised memory: the line buffer and
  the cells of arrays from `malloc` and `realloc` hold arbitrary contents; a struct from `malloc` is filled in by one assignment (every
  field of every struct is assigned by its `init_` function, except `line_num` of the lexer, which is modelled as undefined).
* What happens to the output when another program changes it. (Other gaia processes: `Model/Process.lean`. Links and other aliasing of path names are modelled in `Model/Links.lean` only: by
  `C37_links` they make no difference as long as the two names lead to different files; the other theorems speak of names.)
* ctype functions are glibc's C-locale tables: bytes >= 0x80 are neither letters nor digits (ISO C calls passing a negative `char`
  undefined; glibc defines it). `char` is signed (C74: an unsigned `char` makes no difference without the byte 0xFF), 8 bits; `int` 32; `long` 64 (C75: the width of `long` cannot be observed).
* `sqrt` of math.h is taken to be correctly rounded (IEEE 754); that `floor(sqrt((double)x))` then is the integer square root is proved
  (`C19_loop_bound`).
* Writes to stdout succeed.

## 4. Plan per property

See `MANIFEST.json` for the theorem names and for what is missing in the partial ones.

* C01, C02: induction over the digit loop of the literal scanner; value as a fold; C01 is false for literals >= 2^64 (the accumulator
  wraps): negation witness + `_partial` + exact behaviour.
* C03, C09: scan loop lemma, 63/64 boundary; C06: declarative relation between a line and its lexemes, both directions.
* C04, C05, C39, C40, C46-C49: congruence theorems "the outcome depends only on …", then lexer lemmas. For the messages of C47, C48 a
  simulation of two runs that differ in line numbers and columns (`Spec/Messages.lean`, `Proofs/Messages`, `Messages2`-`4`). The messages of C39 (`C39_any_text`) and C49 (`C49_any_text`) come from two runs of the
  reference assembler of C57 in step (`Proofs/Twin.lean`).
* C07, C11, C35: no `ub` outcome, by invariants.
* C08: `lex_line` and a step of the main loop are independent of the previous scratch state.
* C10: acceptance iff grammar (with the junk-after-index deviation): exact iff + negation witness + `_partial`.
* C12, C13, C15: finite tables lifted to all operand values and all reachable states. `Props/C12_Runs.lean` puts C12, C20, C22 and C25 as
  statements about whole runs: which line is reported with which message.
* C14, C16, C26, C27, C32, C34, C37, C44: false of the code; negation witnesses proved, exact behaviour where possible,
  `_partial` theorems for the rest.
* C17, C18, C38: linear-probing invariant, refinement to a finite map by induction over insertions.
* C19: Bertrand's postulate from Mathlib for termination, trial division correctness.
* C20-C23, C25, C26, C28, C29: simulation of the main loop by a two-pass specification.
* C24: array invariant by induction over additions.
* C35: `Sized` bounds the lines; `Reference.overflows` says exactly when the symbol counter overflows, with proofs on both sides.
* C30, C31, C36: direct reasoning on the main function for all inputs.
* C33: column computation equals tab-stop expansion by induction; soundness and completeness of diagnostics from the simulation.
* C41, C52: the writes of the run as a list, by the simulation; C28 and C23 for non-ascending addresses from it.
* C42-C44: the memory model follows the plain model under every oracle; the blocks in use are exactly those of the structures.
* C45: induction over the calls of `parse_opt`.
* C50, C51: decoding the image instruction by instruction; printing instructions and lexing the text again.
* C53: an invariant bounding location counter, file length and position by the text consumed.
* C54: naturality of the run in the output device; `fgets` with a read error.
* C56: a forward simulation between the model with pointers and the memory model (`Proofs/Low*.lean`): each structure's blocks hold what the
  value says, distinct structures occupy distinct blocks, each function changes only the blocks it may; the simulation is closed under
  every function, including the partial failures of the constructors, and the destructors free exactly those blocks.
* C57: `Spec/Reference.lean` is a complete executable specification of the behaviour on any bytes; `Proofs/Reference*.lean` proves it equal
  to the pure machine line by line (lexemes, statements with and without trailing lexemes, modes by a finite check over mnemonic and shape,
  writes, references), and the pure machine is the model (`assemble_sim`).
* C58: the reference assembler of C57 run symbolically: a state whose addresses are offsets from an unknown origin, whose instance for
  each origin is the state of the run at that origin (`Proofs/Relocate.lean`).
* C59: the run of the reference assembler as a sequence of elementary steps that only add writes, references and symbols; without origins
  they add above the location counter (`Proofs/Append.lean`).
* C60: a simulation between the run of the second text behind the first and alone (`Proofs/Modules.lean`): same location counter, symbols
  and references but for those of the first text, same writes but for zeros of a forward reference that opens the second text.
* C61: a bound on the requests of each function of the memory model, whatever is granted (`Proofs/MemoryCost.lean`); sizes by the invariants of
  C18 and C24.
* C62, C64: the first pass of the two-pass assembler run on both programs in step (states that differ in one known constant, or in the operand
  name of one instruction); equal addresses and bytes then give equal binaries by C26 (`same_code`).
* C63: the reference assembler of C57 from states that differ in the location counter only.
* C65: a simulation between each function of `Model/Codes.lean` and its counterpart in the main model (`Proofs/Codes1.lean`-`Codes3.lean`):
  same state and text, and a return value that stands for the outcome. Allocations succeed there; `error_tk` of the lexer is not a field but
  an argument of `print_error`; nothing is claimed of runs the main model leaves undefined.
* C66: the reference assembler of C57 from states that differ in the quoted text of pending references only.
* C67: induction over the lexemes of a line in the reference assembler.
* C68: the reference assembler on a text and on its beginning; messages are taken apart again (line number, kind of error).
* C69: each instruction's bytes are in the image (C28) and decode to it (C50); fetching at its address in any memory that holds these
  bytes gives the instruction; induction over the steps. The processor is a parameter (`Spec/Machine.lean`).
* C70: simulation of two runs of the reference assembler whose states differ in the bytes of one window and in at most one pending reference each;
  the references of the window are resolved into the window.
* C71: as C64: both first passes give the same addresses and modes, both second passes the same bytes.
* C72: what the rest of the text writes lies above the address (invariant of the reference assembler), and so do its references.
* C73: `Model/Steps.lean` repeats the program with counters; `Proofs/Steps.lean` proves that the results are the same. Probing passes only occupied
  slots, each once (the rotation of the slots); growing the table and the reference array is paid for by a potential (three times the square of
  the number of slots, plus the slots of the reference array); a line costs a constant plus five look-ups. Library functions (`fgets`, `strcmp`,
  `memcpy`, `printf`, `calloc`, ...) are not counted: each works on a line, a token, a message, or an array that the counted loops fill.
* C74: `Model/Unsigned.lean` repeats the program with an unsigned `char`. A source without 0xFF: every comparison with `EOF` fails in both versions, and
  every text that is hashed is the text of a token, hence ASCII, where the two hashes agree; by induction over the lines, with the invariant that the
  symbol table and the saved references hold ASCII labels and lines without 0xFF. A source that is accepted with an unsigned `char`: 0xFF is illegal
  wherever the lexer looks at it, so the lexer never got to one.
* C75: `Model/Hash.lean` repeats the program with a hash function as a parameter. Linear probing is a finite map whatever the hash function is
  (`Proofs/Hash.lean`, the invariant of C17 with a parameter); the number of slots depends on the number of symbols only. A run with `hash` and one
  with `djb2` stay in states that differ in the arrangement of the table only (`Proofs/HashRun.lean`); that a label is not found (-2) means that it is
  not there needs that all values are non-negative, hence bounds on the location and on literals.
* C76: `Model/Process.lean` splits a run into steps (system calls and lines) that other processes can come between. Invariant of a process in the main loop:
  finishing the loop on the bytes it has read and those it has not read yet gives the result of the whole run, and its output file holds the result of
  some of the first writes of the whole run. Sources cannot change because they are nobody's output. Lines use `lineStep` and `resolveAll` of
  `Model/Main.lean`, as they touch memory of the process only; the bytes they write are in a buffer of which any part may reach the file at any time. A
  process that does something undefined in C stops, in the model; in reality it may do anything, so the other theorems speak of runs without that (see
  C35).
* C77: the same machine, with events "another program overwrites a file" between the steps. Invariant: the bytes read so far are spliced from the versions
  so far, and, as long as the end has not been found, the run on these bytes followed by anything is the rest of the loop on the unused bytes followed by
  the same. A version is what the file holds between two writes of other programs; removal and renaming of the source are not modelled (an open file does
  not notice them).
* C78: false of the code. The table is a list, what lies behind it in memory another one; the loop of argp that looks for the end is modelled from
  glibc's documentation of `struct argp_option`. Induction over the entries before the first that looks like an end.
* C79: over the reference assembler (C57). The run of a section behind others is related to its run alone (as for C60), after showing that the file
  position at its beginning does not matter if its first instruction is no forward reference. Induction over the sections; the invariant says which
  bytes each section so far owns after the pending patches. For sections that refer to each other the proof goes over the two-pass assembler instead
  (C26): pass 1 of a section does not depend on the names defined before, the symbols and items of the orders are permutations of each other, and
  without overlap the quirks of the patching (C27) are harmless and the image does not depend on the order of the items.
* C80: over the two-pass assembler of C26. The first pass over the code behind the place is related for any two lengths of inserted code (same items,
  moved addresses); the second pass gives a slot for every byte; straight code has no gaps, so the image is the concatenation of the bytes.
* C81: the source writes every byte from the last to the second as the operand of an instruction, each over the opcode of the one before, and then the first
  instruction (a zero as high byte by a BRK). That the output is right is the image of C28 over the two-pass assembler of C26; that nothing else can be made is
  an invariant of the reference assembler of C57: every write begins with an opcode and is as long as its instruction.
* C82: over the reference assembler (C57), so for any source. A state of the assembler as a function of the value (writes with spots instead of bytes, an
  environment with a hole) is carried through the lines; every step gives the same for all values or a branch that has to reach.
* C83: from the disassembly of C50: the disassembler inverts the bytes of a list of instructions, and what it finds is determined by the first pass.
* C55: prefixes of the history variable `log` of the output file.

## 5. Findings about the code (each is a theorem or an example unless marked *)

1. Literals wrap modulo 2^64: `LDA #18446744073709551617` assembles as `LDA #1` (`C01_wraps`).
2. Anything after an indexed operand is accepted (`C10_junk_accepted`), and may change the meaning: `LDA $10,X ADC` assembles ADC,
   `LDA $10,Y X` is `,X`, `LDA $10,X (` is `($10,X)`.
3. `JMP later,X` writes opcode 0xF3 = (char)-13 (`C14_illegal_opcode`).
4. `BNE $1234` writes 0x34 as offset, unchecked; labels above 0xFFFF are cut (`C16_branch_cut`, `C16_label_cut_reached`).
5. Dummy bytes of a forward reference are written where the file stands, not at the address: `*=` backwards then a forward reference
   damages or extends the output (`C27_damage`, `C26_damage`).
6. A line of more than eight tokens stops gaia with status 1 and no message (`C32_silent`).
7. Lines over 126 characters are processed in pieces, and count as several lines (`C34_long_line`).
8. `gaia x -o x` destroys its source (`C37_overwritten`), and so does any other name of it (`C37_links_overwritten`).
9. On a refused allocation blocks leak; in `resize_unresolved` the only pointer to the array is overwritten with NULL
   (`C44_*`); most such failures print no message (`C43_refused_later`).
10. Errors of `fgets`, `fputc`, `fseek`, `fclose` are ignored: success is reported on a full disk (`C54_full_disk`).
11. Page-zero addresses cannot be accessed with absolute modes that have a zero-page form (`C51_not_writable`).
12. After a failed run a partial binary stays in place (`C52_*`).
13. `LABEL=$10` without a blank before `=` is an illegal character (a label ends at a blank, colon, comma …); the location counter is
    not limited to 16 bits; text after a carriage return is ignored.
14. The 21474837th symbol overflows an `int` in `(count + 1) * 100` (symbol_table.c:171): undefined behaviour, for a source of 21474837
    labels (`C35_limit_reached`), and for no smaller reason (`C35_defined_iff`). Theorems about whole runs therefore ask for fewer than
    21474836 lines (`Sized`).
15. * `options[]` is not terminated (undefined behaviour in argp).

## 6. Testing the theorems against wrong programs

`seeded/LOG.jsonl`: one line per attempt (definition, edit, claim broken, theorems that failed, theorems tightened). `tools/mutate.py`
applies an edit to a scratch copy, rebuilds and records which theorems no longer hold; `seeded/mutations*.py` are the edits;
`seeded/Corpus.txt` holds sources used to see whether an edit changes the observable behaviour at all. `tools/mklog.py` writes the log.

Four kinds of attempts are logged. (a) `tools/mutate.py`: edits of the model by hand, rebuilt in dependency order; the theorems that fail first
are recorded, and those that still prove without them. (b) `tools/automut.py`: one mechanical edit per constant, comparison, constructor and
branch of the model files; an edit that nothing notices is either equivalent (said so in the log) or led to a tightened theorem. (c)
`tools/mutref.py`: bugs in the *program as a whole*. The linking lemmas (model = reference interpreter) are assumed there, the bug is put into
the reference `Spec/Reference.lean`, and every theorem about whole runs whose proof goes through the reference is tried again: so a theorem that
survives a bug which its English claim forbids is found even if, in (a), a lemma far below it had failed first. (d) `tools/mutprop.py`: edits of the
model as in (a), for single property modules (C73 on): proofs that fail are taken out until the rest builds, then the theorems that rest on them are listed.

Vacuity. Next to each theorem stands a case, and `Props/Cases.lean` and `Props/Cases2.lean` apply to concrete sources, lines and states every
theorem with hypotheses that is not applied in its own file: all hypotheses are discharged there.

## 7. Tools

`tools/mkroot.py` (Verif.lean), `mkprops.py` (properties.jsonl), `mkmanifest.py` (MANIFEST.json), `mkaxioms.py` (AXIOMS.md), `gen_opcode.py`,
`gen_shipped.py`, `gen_conform.py` (generated modules; the output is committed).

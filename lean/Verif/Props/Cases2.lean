import Verif.Props.C17_SymbolTable
import Verif.Props.C37_Links
import Verif.Props.C39_LabelLines
import Verif.Props.C39_Messages
import Verif.Props.C41_WriteLog
import Verif.Props.C42_Memory
import Verif.Props.C45_CommandLine
import Verif.Props.C46_Locality
import Verif.Props.C48_Messages
import Verif.Props.C49_AnyText
import Verif.Props.C50_Sections
import Verif.Props.C51_Writable
import Verif.Props.C52_Leftover
import Verif.Props.C53_Size
import Verif.Props.C55_Crash
import Verif.Props.C56_Pointers
import Verif.Props.C60_Modules
import Verif.Props.C61_Cost
import Verif.Props.C62_Constants
import Verif.Props.C63_Origins
import Verif.Props.C65_Codes
import Verif.Props.C68_Prefix
import Verif.Props.C69_Execution
import Verif.Props.C70_Edit
import Verif.Props.C71_Addresses
import Verif.Props.C72_Before

/-!
Applications, continued from `Cases.lean`: theorems of C37 to C72 with hypotheses that are not applied to a concrete case in their
own file.
-/
namespace Gaia
open Spec Reference
namespace Cases

/-- C37. -/
example := C37_source_kept_partial (demo (b! " NOP\n")) (b! "p.asm") (b! "p.bin") (demo_small (by decide)) (by decide)
example : ∃ text w', gaia (b! "p.asm") (b! "p.asm") { demo (b! " NOP\n") with creatable := fun _ => true } = .exited ⟨0, text, w'⟩ ∧
    w'.files (b! "p.asm") = some [] :=
  C37_overwritten _ (b! "p.asm") (b! " NOP\n") (by decide) rfl
example := C37_kept_iff linked (b! "p.asm") (b! "p.bin") (by
  intro src h
  have : linked.data (linked.leads (b! "p.asm")) = some (b! " NOP\n") := by decide
  rw [this] at h
  obtain rfl := Option.some.inj h
  decide)

/-- C38: the growth is refused, the symbol is not. -/
example := C38_failed_allocation_harmless sampleHistory (by unfold DistinctLabels; decide +kernel) (by decide +kernel) false true (b! "ZZ") 7 (by decide +kernel)

/-- C39. -/
theorem spell_word (t : Str) (x : Lexeme) (c : Byte) (r : Str) (h : t = c :: r) (h1 : isAlpha c = true) (h2 : ∀ x ∈ r, wordChar x = true)
    (h3 : (c :: r).length ≤ 63) (h4 : wordLexeme ((c :: r).map toUpper) = x) : Spell t x := by
  subst h h4; exact .word c r h1 h2 h3
example : SameLexemes (b! "L NOP") (b! "L: NOP") :=
  C39_colon (t := b! "L") (bl := b! " ") (s := b! "NOP") (ind := []) (l := b! "L") (ls := [(2, .mnem .NOP)])
    (spell_word _ _ 76 [] rfl (by decide +kernel) (by decide +kernel) (by decide +kernel) (by decide +kernel))
    (by decide +kernel) (by decide +kernel) (by decide +kernel) (by decide +kernel) (by decide +kernel) (by decide +kernel)
    (.cons false 2 (b! "NOP") [] [] (.mnem .NOP) [] (spell_word _ _ 78 (b! "OP") rfl (by decide +kernel) (by decide +kernel) (by decide +kernel) (by decide +kernel))
      (.inr (by decide +kernel)) (by decide +kernel) (by decide +kernel) (.done false 5))
example := C39_any_text (demo_setup (b! " NOP\nL\n JMP M\n BNE L\n")) (demo_setup (b! " NOP\nL: JMP M\n BNE L\n")) (by decide) (by decide)
  C39_conditions.1 C39_conditions.2.1 C39_conditions.2.2.1 C39_conditions.2.2.2.1 C39_conditions.2.2.2.2.1 C39_conditions.2.2.2.2.2.1
  C39_conditions.2.2.2.2.2.2.1 C39_conditions.2.2.2.2.2.2.2.1

/-- C40: `$10` and `16`, in a line that fails. -/
theorem isLiteral_eval (pre ds t : Str) (b v : Nat) (hp : LitStart pre b) (ht : t = pre ++ ds) (hne : ds ≠ []) (hd : ∀ x ∈ ds, IsDigitOf b x)
    (hv : positional b ds = v) (h2 : v ≤ 65535) : IsLiteral t v := by
  subst ht hv; exact ⟨pre, ds, b, hp, rfl, hne, hd, rfl, h2⟩
example : SameOutcome (b! "p.asm") (b! "p.bin") (demo (b! " LDA #$10 X\n")) (demo (b! " LDA #16 X\n")) (b! " LDA #$10 X\n") (b! " LDA #16 X\n") := by
  refine C40_messages (demo_setup _) (demo_setup _) (by decide) (by decide) (by decide +kernel) (by decide +kernel) ?_
  have e1 : lines (b! " LDA #$10 X\n") = [b! " LDA #$10 X"] := by decide +kernel
  have e2 : lines (b! " LDA #16 X\n") = [b! " LDA #16 X"] := by decide +kernel
  rw [e1, e2]
  exact .cons (.inr ⟨[(1, .mnem .LDA), (5, .hash)], 6, b! "$10", b! "16", b! " X", 16, lineBegins_eval 2 (by decide +kernel), lineBegins_eval 2 (by decide +kernel), by decide,
    isLiteral_eval _ (b! "10") _ _ _ .hex rfl (by decide) (by decide +kernel) (by decide +kernel) (by decide),
    isLiteral_eval _ (b! "16") _ _ _ .dec rfl (by decide) (by decide +kernel) (by decide +kernel) (by decide), by decide +kernel⟩) .nil

/-- C41. -/
example := C41_output (demo_setup c41Src) c41_isProgram c41_succeeds

/-- C43, C44, C61: a request refused at the start, and one refused later. -/
example := C43_refused_at_start (fun n => n != 2) (demo c42Src) (b! "p.asm") (b! "p.bin") (demo_small (by decide +kernel)) ⟨2, by decide, by decide⟩
theorem memRun_exited {o : Memory.Oracle} {src : List Byte} {P : Nat × Str × Option (List Byte) × List Nat × List Nat × Nat → Bool}
    (h : (memRun o src).any P = true) : ∃ e heap, Memory.gaia o (b! "p.asm") (b! "p.bin") (demo src) = .exited e heap ∧
      P (e.status, e.stdout, e.world.files (b! "p.bin"), heap.live, heap.files, heap.asked) = true := by
  unfold memRun at h
  split at h
  · rename_i e heap hg
    exact ⟨e, heap, hg, by simpa using h⟩
  · cases h
example : ∃ e heap bytes, Memory.gaia (fun n => n != 40) (b! "p.asm") (b! "p.bin") (demo c42Src) = .exited e heap ∧
    e = ⟨1, [], (demo c42Src).write (b! "p.bin") bytes⟩ ∧ heap.asked ≤ 25 + 8 * 11 ∧ heap.live.length ≤ 4 * 12 + 2 := by
  obtain ⟨e, heap, h, hp⟩ := memRun_exited (o := fun n => n != 40) (src := c42Src) (P := fun r => r.2.2.2.2.2 == 41) (by decide +kernel)
  simp only [beq_iff_eq] at hp
  have h25 : ∀ n, n < 25 → (fun n => n != 40 : Memory.Oracle) n = true := by
    intro n hn
    simp; omega
  obtain ⟨bytes, hb⟩ := C43_refused_later (fun n => n != 40) (demo c42Src) (b! "p.asm") (b! "p.bin") (demo_small (by decide +kernel)) h25 e heap h
    ⟨40, by omega, rfl⟩
  have h1 := C61_requests (fun n => n != 40) (demo c42Src) (b! "p.asm") (b! "p.bin") e heap h
  rw [show ((demo c42Src).files (b! "p.asm")).map (fun content => (pieces content).length) = some 11 by decide +kernel] at h1
  refine ⟨e, heap, bytes, h, hb, h1, ?_⟩
  rcases (C44_leak_bound (fun n => n != 40) (demo c42Src) (b! "p.asm") (b! "p.bin") (demo_small (by decide +kernel)) e heap h).2 h25 with h2 | ⟨content, n, h2, h3, h4⟩
  · omega
  · rw [show (demo c42Src).files (b! "p.asm") = some c42Src by decide +kernel] at h2
    obtain rfl := Option.some.inj h2
    rw [show (chunks c42Src).length = 11 by decide +kernel] at h3
    omega
/-- C44: all requests made are granted, and the assembly fails. -/
example : ∃ e heap, Memory.gaia (fun n => n < 60) (b! "p.asm") (b! "p.bin") (demo (b! "JMP L\nLDA #$10000\n")) = .exited e heap ∧ e.status = 1 ∧
    heap.live = [] := by
  obtain ⟨e, heap, h, hp⟩ := memRun_exited (o := fun n => n < 60) (src := b! "JMP L\nLDA #$10000\n") (P := fun r => r.1 == 1 && r.2.2.2.2.2 == 29) (by decide +kernel)
  simp only [Bool.and_eq_true, beq_iff_eq] at hp
  exact ⟨e, heap, h, hp.1, C44_no_leak_partial _ _ _ _ (demo_small (by decide +kernel)) e heap h (fun n hn => by simp; omega)⟩
example : ∃ st, Reached (b! "p.asm") [b! "L JMP M\n", b! " NOP\n"] st ∧ st.symtab.count ≤ 2 ∧ st.unres.curr ≤ 2 := by
  obtain ⟨st, h, _⟩ := reach_eval (fn := b! "p.asm") (raws := [b! "L JMP M\n", b! " NOP\n"]) (fun st => st.pc = 4) (by decide) (by decide +kernel)
  exact ⟨st, h, (C61_arrays h).1, (C61_arrays h).2.2.1⟩

/-- C45. -/
example : CommandLine.deliver ([.output (b! "o"), .arg (b! "p.asm")] ++ [.endOfArgs]) 0 .init = some ⟨some (b! "p.asm"), b! "o"⟩ :=
  C45_parse_opt (by simp)

/-- C46. -/
example := C46_output_name (w := { demo (b! "NOP\n LDA\n") with creatable := fun _ => true }) (srcName := b! "p.asm") (outName := b! "p.bin")
  (outName' := b! "q.bin") (src := b! "NOP\n LDA\n") ⟨by decide, by decide, by decide⟩ ⟨by decide, by decide, by decide⟩ (by decide)

/-- C47. -/
example := C47_messages (fun n => 90 :: n) (demo_setup (b! "V =$10\n LDA W\n")) (demo_setup (b! "zV =$10\n lda zW\n")) (by decide) (by decide) (by decide +kernel) (by decide +kernel)
    (fun m n _ _ h => (List.cons.inj h).2)
    (.cons (renamed_eval (xs := [(0, .name (b! "V")), (2, .eq), (3, .lit 16)]) (xs' := [(0, .name (b! "ZV")), (3, .eq), (4, .lit 16)])
        (by decide +kernel) (by decide +kernel) rfl)
      (.cons (renamed_eval (xs := [(1, .mnem .LDA), (5, .name (b! "W"))])
          (xs' := [(1, .mnem .LDA), (5, .name (b! "ZW"))]) (by decide +kernel) (by decide +kernel) rfl) .nil))

/-- C48. -/
example := C48_blank_messages (pre := b! "NOP\n") (l := b! "  ; nothing") (rest := b! "LDA N\n") (.inr ⟨b! "NOP", rfl⟩) (by decide +kernel) (by decide)
    (lexes_eval (by decide +kernel) (by decide +kernel)) (demo_setup _) (demo_setup _) (by decide)

/-- C49: a label in front of the line itself. -/
example := C49_known_name (demo_setup (b! " NOP\nL STA L\n JMP M\n")) (demo_setup (b! " NOP\nL STA 1\n JMP M\n")) (by decide +kernel) (by decide +kernel)
    (pre := [b! " NOP\n"]) (post := [b! " JMP M\n"]) (p := b! "L STA L\n") (p' := b! "L STA 1\n")
    (by decide +kernel) (by decide +kernel) (ls := [(0, .name (b! "L")), (2, .mnem .STA), (6, .name (b! "L"))])
    (ls' := [(0, .name (b! "L")), (2, .mnem .STA), (6, .lit 1)]) (by decide +kernel) (by decide +kernel)
    (lab := some (b! "L")) (m := .STA) (a := .plain (.sym (b! "L")))
    (odd := false) (L := b! "L") (v := 1) (by decide +kernel) (by decide +kernel) rfl (by decide) (s := ⟨1, 2, [], 1, 1, [(0, [0xEA])], []⟩) (by rfl) (by decide +kernel)

/-- C50: the second stretch of a program with two origins; a program with one. -/
example := C50_stretch (demo_setup c50oSrc) (p1 := c50oProg.take 4) (p2 := c50oProg.drop 4) (p3 := [])
  (isProgram_eval (by decide +kernel) (by decide +kernel) (by decide +kernel) (by decide +kernel)) (ascendingProgram_eval (by decide +kernel)) (by decide +kernel)
  (fun v hv => by simp [c50oProg] at hv)
  (bin := [0, 0, 0, 0, 0xA5, 0x10, 0xD0, 0xFC, 0, 0, 0x4C, 13, 0, 0x60]) (total := 8) (symbols := 2) (demo_succeeds (by decide +kernel))
example := C50_origin (demo_setup (b! " .ORG $4\nL LDA $10\n BNE L\n")) (v := 4)
  (p := [.instr (some (b! "L")) .LDA (.plain (.lit 0x10)), .instr none .BNE (.plain (.sym (b! "L")))])
  (isProgram_eval (by decide +kernel) (by decide +kernel) (by decide +kernel) (by decide +kernel)) (fun v hv => by simp at hv)
  (bin := [0, 0, 0, 0, 0xA5, 0x10, 0xD0, 0xFC]) (total := 4) (symbols := 1) (demo_succeeds (by decide +kernel))

/-- C51. -/
example : Succeeds (demo ([⟨.JMP, .abs, 4⟩, ⟨.NOP, .imp, 0⟩, ⟨.BNE, .rel, 0xFE⟩].flatMap Insn.text)) (b! "p.asm") (b! "p.bin") [0x4C, 4, 0, 0xEA, 0xD0, 0xFE] 6 0 := by
  have hp : IsProgram (b! " JMP L\n NOP\nL BNE L\n") [.instr none .JMP (.plain (.sym (b! "L"))), .instr none .NOP .none, .instr (some (b! "L")) .BNE (.plain (.sym (b! "L")))] :=
    isProgram_eval (by decide +kernel) (by decide +kernel) (by decide +kernel) (by decide +kernel)
  have hr : ∃ r, assemble [.instr none .JMP (.plain (.sym (b! "L"))), .instr none .NOP .none, .instr (some (b! "L")) .BNE (.plain (.sym (b! "L")))] = some r :=
    Option.isSome_iff_exists.1 (by decide +kernel)
  exact C51_round_trip (demo_setup (b! " JMP L\n NOP\nL BNE L\n")) hp (fun v hv => by simp at hv) (assemble_inRange hr.choose_spec)
    (bin := [0x4C, 4, 0, 0xEA, 0xD0, 0xFE]) (total := 6) (symbols := 1) (demo_succeeds (by decide +kernel)) (by decide +kernel) (demo_setup _) (by decide +kernel)

/-- C52: an error in the third statement, a label that is not defined, and a line that is none. -/
example := C52_statement_error (demo_setup (b! " JMP L\n RTS\n LDA N\nL NOP\n")) (p := [.instr none .JMP (.plain (.sym (b! "L"))), .instr none .RTS .none,
      .instr none .LDA (.plain (.sym (b! "N"))), .instr (some (b! "L")) .NOP .none])
  (isProgram_eval (by decide +kernel) (by decide +kernel) (by decide +kernel) (by decide +kernel)) (k := 3) (e := .illegalForwardReference) (by decide +kernel)
example := C52_reference_error (demo_setup (b! " JMP L\n JMP N\nL NOP\n")) (p := [.instr none .JMP (.plain (.sym (b! "L"))), .instr none .JMP (.plain (.sym (b! "N"))),
      .instr (some (b! "L")) .NOP .none])
  (isProgram_eval (by decide +kernel) (by decide +kernel) (by decide +kernel) (by decide +kernel)) (by decide +kernel) (k := 2) (e := .missingLabelDefinition) (by decide +kernel)
example := C52_bad_line (demo_setup (b! "L: NOP\n LDA #$1G,Y\n")) (p := [.instr (some (b! "L")) .NOP .none]) (l := b! " LDA #$1G,Y") (rest := [])
  ⟨by decide, by decide +kernel, ⟨[b! "L: NOP"], by decide +kernel, reads_eval (by decide +kernel)⟩, by decide, noForward_of (by decide)⟩ (by decide +kernel)

/-- C53. -/
example : movedBin.length ≤ 65535 + movedSrc.length ∧ 7 ≤ movedSrc.length ∧ 2 ≤ movedSrc.length :=
  C53_success (demo_setup movedSrc) (by decide) moved_succeeds

/-- C55. -/
example := C55_rerun (demo_setup (b! " LDA #$12\n STA $10\n")) (left := [0xA9, 0x12, 0x85])
  (crash_eval (ops := [.seek 0, .putc 0xA9, .putc 0x12, .seek 2, .putc 0x85, .putc 0x10]) 5 (by decide +kernel) (by decide +kernel))

/-- C56: memory that holds different things at first. -/
example := C56_uninitialised (fun n => n != 40) (List.replicate 128 0xFF) (List.replicate 128 0) (fun n => some n) (fun _ => none) (demo c42Src) (b! "p.asm") (b! "p.bin")
  (demo_small (by decide +kernel)) List.length_replicate List.length_replicate (by decide)

/-- C56: the memory suffices for the 83 requests the source needs, and no more. -/
example : ∃ e heap, Low.gaia (fun n => n < 83) (List.replicate 128 0xFF) (fun n => some n) (b! "p.asm") (b! "p.bin") (demo c42Src) = .exited e heap ∧
    e.status = 0 ∧ gaia (b! "p.asm") (b! "p.bin") (demo c42Src) = .exited e := by
  obtain ⟨e, heap, h1, h2, _⟩ := C56_no_bad_access (fun n => n < 83) (List.replicate 128 0xFF) (fun n => some n) (demo c42Src) (b! "p.asm") (b! "p.bin")
    (demo_small (by decide +kernel)) List.length_replicate (by decide)
  obtain ⟨e', heap', h3, hp⟩ := memRun_exited (o := fun n => n < 83) (src := c42Src) (P := fun r => r.1 == 0) (by decide +kernel)
  rw [h2] at h3
  injection h3 with q1 q2
  subst q1 q2
  have hs : e.status = 0 := by simpa using hp
  exact ⟨e, heap, h1, hs, C56_success_is_real _ _ _ _ _ _ (demo_small (by decide +kernel)) List.length_replicate (by decide) e heap h1 hs⟩

/-- C58. -/
example := C58_relocatable (body := movable) (by decide +kernel) (by decide +kernel) (b! "p.asm") (b! "p.bin")
example := C58_position_independent (body := b! "L: LDA #1\n BNE L\n BEQ M\nM: RTS\n") (by decide +kernel) (by decide +kernel) (by decide +kernel) (b! "p.asm") (b! "p.bin")

/-- C59, C60. -/
theorem firstPart_whole : WholeLines firstPart := .inr ⟨firstPart.dropLast, by decide +kernel⟩
theorem firstPart_succeeds : Succeeds (demo firstPart) (b! "p.asm") (b! "p.bin") (placedAt 0x300 [0xA2, 5, 0xCA, 0xD0, 0xFD, 0xF0, 3, 0x20, 0, 3, 0x60]) 11 3 :=
  demo_succeeds (by decide +kernel)
example := C59_append (b := secondPart) firstPart_whole (by decide +kernel) (by decide +kernel) (by decide +kernel) (demo_setup _) (demo_setup _) firstPart_succeeds (by decide +kernel)
example := C60_modules (b := stranger) (line := b! "*=$30b\n") firstPart_whole (by decide +kernel) (by decide +kernel) (by decide +kernel) (by decide +kernel) (by decide +kernel) (by decide +kernel)
  (demo_setup _) (demo_setup _) (demo_setup _) firstPart_succeeds (by decide +kernel) ⟨by decide +kernel, by decide +kernel, by decide +kernel⟩
theorem bad_fails : FailsLeaving (demo (b! " LDA #1\n LDA #256\n")) (b! "p.asm") (b! "p.bin") (diag (b! " LDA #256\n") .illegalAddressingMode none (b! "p.asm") 2) [0xA9, 1] := by
  have hr : Reference.run (b! "p.asm") (b! " LDA #1\n LDA #256\n") =
      ⟨1, diag (b! " LDA #256\n") .illegalAddressingMode none (b! "p.asm") 2, [0xA9, 1]⟩ := by decide +kernel
  have h0 := C57_reference (demo_setup (b! " LDA #1\n LDA #256\n")) (by decide +kernel)
  rw [hr] at h0
  exact h0
example (b : List Byte) (hs : Sized (b! " LDA #1\n LDA #256\n" ++ b)) : ∃ text, FailsPrinting (demo (b! " LDA #1\n LDA #256\n" ++ b)) (b! "p.asm") (b! "p.bin") text :=
  C59_no_repair (.inr ⟨(b! " LDA #1\n LDA #256\n").dropLast, by decide +kernel⟩) hs (demo_setup _) (demo_setup _) ⟨_, bad_fails⟩ (by
    rintro ⟨line, pos, number, h⟩
    have := (C33_unambiguous (e := .illegalAddressingMode) (e' := .missingLabelDefinition) (by decide) (by decide) h).2
    cases this)

/-- C62. -/
example : ∃ bin', Succeeds (demo movedSrc') (b! "p.asm") (b! "p.bin") bin' 7 2 :=
  C62_accepted (demo_setup _) (demo_setup _) moved_isProgram (by decide +kernel) (la := []) (lb := (lines movedSrc).take 3) (k := b! "K =$20")
    (lc := [b! " LDA K"]) (by decide +kernel) rfl (by decide +kernel) (by decide +kernel) moved_succeeds

/-- C63. -/
example : SameRun (b! "p.asm") (b! "p.bin") (demo (b! "*=%0\n" ++ b! "X JMP X\n")) (demo (10 :: b! "X JMP X\n")) :=
  C63_zero ⟨by decide +kernel, by decide +kernel, by decide +kernel⟩ (demo_setup _) (demo_setup _) (by decide +kernel)
example : SameRun (b! "p.asm") (b! "p.bin") (demo (firstPart ++ (b! "*=$200\n" ++ b! "K =3\n\n*=$400\nL NOP\n"))) (demo (firstPart ++ 10 :: b! "K =3\n\n*=$400\nL NOP\n")) :=
  C63_overridden (x := 0x200) firstPart_whole ⟨by decide +kernel, by decide +kernel, by decide +kernel⟩ (by decide +kernel) (demo_setup _) (demo_setup _) (by decide +kernel)

/-- C65. -/
example := C65_exits (b! "p.asm") (b! "p.bin") (demo firstPart) (demo_small (by decide +kernel))

/-- C68. -/
example : FailsLeaving (demo (b! " LDA #1\n LDA #256\n")) (b! "p.asm") (b! "p.bin") (diag (b! " LDA #256\n") .illegalAddressingMode none (b! "p.asm") 2) [0xA9, 1] := by
  have hr : Reference.run (b! "p.asm") (b! " LDA #1\n LDA #256\n" ++ b! "???") =
      ⟨1, diag (b! " LDA #256\n") .illegalAddressingMode none (b! "p.asm") 2, [0xA9, 1]⟩ := by decide +kernel
  have h0 := C57_reference (demo_setup (b! " LDA #1\n LDA #256\n" ++ b! "???")) (by decide +kernel)
  rw [hr] at h0
  exact C68_up_to_error (.inr ⟨(b! " LDA #1\n LDA #256\n").dropLast, by decide +kernel⟩) (by decide +kernel) (demo_setup _) (demo_setup _) h0 (by decide +kernel) (by decide)
example := C68_beginning (a := b! " JMP L\n") (b := b! " NOP\nL RTS\n") (.inr ⟨b! " JMP L", rfl⟩) (by decide) (demo_setup _) (demo_setup _)
  (bin' := [0x4C, 4, 0, 0xEA, 0x60]) (total' := 5) (symbols' := 1) (demo_succeeds (by decide +kernel))

/-- C69. -/
example : ∃ t, small.sourceStep loopProg ⟨0, 0x205, loaded loopBin⟩ = some t := by
  obtain ⟨asm, h⟩ := Option.isSome_iff_exists.1 (show (pass1 loopProg .init).isSome = true by decide +kernel)
  refine C69_progress (demo_setup _) loop_isProgram (ascendingProgram_eval (by decide +kernel)) loop_succeeds (by decide +kernel) small h ?_
  have : (pass1 loopProg .init).any (fun asm => asm.items.any fun it => it.addr == 0x205) = true := by decide +kernel
  rw [h] at this
  have h2 : ∃ it ∈ asm.items, it.addr = 0x205 := by simpa using this
  exact h2
example := fun asm => C69_next (p := loopProg) (pre := loopProg.take 2) (mid := []) (post := loopProg.drop 4) (lab := some (b! "L")) (m := .STX)
  (a := .plain (.lit 0x1000)) (lab' := none) (m' := .DEX) (a' := .none) rfl (by decide +kernel) (by simp) (asm := asm)
example := C69_label (demo_setup _) loop_isProgram (ascendingProgram_eval (by decide +kernel)) loop_succeeds (by decide +kernel) (l := b! "E") (m := .NOP) (arg := .none)
  ⟨loopProg.take 7, [], [], some (b! "E"), rfl, by decide +kernel, by simp, .inl rfl⟩ small

/-- C70. -/
example := C70_local (demo_setup (b! " LDA #$01\nL STA $0200\n BNE E\n JMP L\nE RTS\n")) (demo_setup (b! " LDA #$01\nL JMP E\n BNE E\n JMP L\nE RTS\n")) (by decide) (by decide)
  C70_conditions.1 C70_conditions.2.1 C70_conditions.2.2.1 C70_conditions.2.2.2.1 C70_conditions.2.2.2.2.1 C70_conditions.2.2.2.2.2.1
  C70_conditions.2.2.2.2.2.2.1 C70_conditions.2.2.2.2.2.2.2.1

/-- C71: the label of the second line for its address in the first. -/
example : Succeeds (demo namesSrc) (b! "p.asm") (b! "p.bin") namesBin 6 3 :=
  C71_name_for_value (a := .plain (.lit 3)) (l := b! "M") (v := 3) rfl (by decide +kernel) (demo_setup addrSrc') (demo_setup namesSrc)
    addr_isProgram (names_isProgram (b! "M") (by decide +kernel) (by decide +kernel) (by decide +kernel))
    (ascendingProgram_eval (by decide +kernel)) (by decide +kernel)
    (s := ⟨6, [(b! "K", 3), (b! "N", 4), (b! "M", 3)], [⟨0, .JMP, .abs, some (.lit 3)⟩, ⟨3, .NOP, .imp, none⟩, ⟨4, .LDA, .zp, some (.sym (b! "M"))⟩]⟩)
    (by decide +kernel) (by decide +kernel) (.inl (by decide)) (demo_succeeds (by decide +kernel))

/-- C72: the second byte of the branch in the second line. -/
example : ([0xA9, 1, 0xD0, 3, 0x4C, 8, 0, 0xEA, 0x60] : List Byte).getD 3 0 = ([0xA9, 1, 0xD0, 3, 0x4C, 11, 0, 0xEA, 0x20, 0, 0, 0x60] : List Byte).getD 3 0 := by
  obtain ⟨h1, h2, h3, h4, ⟨s, h5, h6, h7⟩, ⟨u, h8, h9⟩, ⟨u', h10, h11⟩, h12, h13⟩ := C72_conditions
  refine C72_no_origins (demo_setup _) (demo_setup _) (by decide) (by decide) h1 h2 h3 h4 h5 h8 h10 h12 h13 (by omega) ?_
  intro r hr k1 k2
  rw [h9, h11]
  have hm : (r.label, r.addr) ∈ [(b! "E", 2), (b! "T", 4)] := by rw [← h7]; exact List.mem_map_of_mem hr
  simp only [List.mem_cons, List.not_mem_nil, or_false, Prod.mk.injEq] at hm
  rcases hm with ⟨h, _⟩ | ⟨h, ha⟩
  · rw [h]; decide +kernel
  · omega

end Cases
end Gaia

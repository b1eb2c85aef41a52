import Verif.Proofs.Reference4
import Verif.Props.Example
import Verif.Proofs.Result
import Verif.Props.C52_Leftover

/-! C57: what gaia does with every source text whatsoever. -/
set_option maxRecDepth 20000
namespace Gaia
open Spec

/-- **C57.** For every source text, of the documented language or not: gaia exits with the status, prints the text and leaves
the output file that the reference assembler of `Spec/Reference.lean` computes, and changes no other file. (The source is
fewer than 21474836 lines long; the files are in place.) -/
theorem C57_reference {w : World} {srcName outName : Str} {src : List Byte} (hw : Setup w srcName outName src)
    (hs : Sized src) :
    gaia srcName outName w = .exited ⟨(Reference.run srcName src).status, (Reference.run srcName src).text,
      { w with files := fun n => if n = outName then some (Reference.run srcName src).file else w.files n }⟩ :=
  reference_eq hw hs

/-- The reference assembler's test for "beginning of a statement" is what it says: some continuation is a statement. -/
theorem C57_viable (ls : List Lexeme) : Reference.viable ls = true ↔ ∃ more, (parse (ls ++ more)).isSome = true :=
  viable_iff ls

/-- **C57, success.** gaia succeeds exactly when every piece of the source, in order up to `.END`, can be assembled and every
reference can be resolved; then the output file is the image of all writes. -/
theorem C57_success {w : World} {srcName outName : Str} {src : List Byte} (hw : Setup w srcName outName src)
    (hs : Sized src) (binary : List Byte) (total symbols : Nat) :
    Succeeds w srcName outName binary total symbols ↔
    ∃ s W, Reference.runPieces srcName (pieces src) .init = .ok s ∧
      Reference.resolve srcName s.env s.pending s.writes = .ok W ∧ binary = image W ∧
      total = s.total ∧ symbols = s.env.length := by
  have key : ∀ s W, Reference.runPieces srcName (pieces src) .init = .ok s →
      Reference.resolve srcName s.env s.pending s.writes = .ok W → Succeeds w srcName outName (image W) s.total s.env.length := by
    intro s W h1 h2
    have := C57_reference hw hs
    unfold Reference.run at this
    rw [h1] at this
    simp only [h2] at this
    exact this
  constructor
  · intro h
    have h0 := C57_reference hw hs
    unfold Reference.run at h0
    cases h1 : Reference.runPieces srcName (pieces src) .init with
    | error f =>
      rw [h1] at h0
      unfold Succeeds at h
      rw [h0] at h
      simp [Reference.Failure.result] at h
    | ok s =>
      rw [h1] at h0
      simp only at h0
      cases h2 : Reference.resolve srcName s.env s.pending s.writes with
      | error f =>
        rw [h2] at h0
        unfold Succeeds at h
        rw [h0] at h
        simp [Reference.Failure.result] at h
      | ok W =>
        obtain ⟨k1, k2, k3⟩ := Succeeds.unique h (key s W h1 h2)
        exact ⟨s, W, rfl, h2, k1, k2, k3⟩
  · rintro ⟨s, W, h1, h2, rfl, rfl, rfl⟩
    exact key s W h1 h2

/-- **C57, failure.** gaia fails exactly when a piece cannot be assembled or a reference cannot be resolved; it prints the
message of the first such piece or reference, and leaves what was written up to there. -/
theorem C57_failure {w : World} {srcName outName : Str} {src : List Byte} (hw : Setup w srcName outName src)
    (hs : Sized src) (text : Str) (out : List Byte) :
    FailsLeaving w srcName outName text out ↔
    ∃ W, out = image W ∧ (Reference.runPieces srcName (pieces src) .init = .error (text, W) ∨
      ∃ s, Reference.runPieces srcName (pieces src) .init = .ok s ∧
        Reference.resolve srcName s.env s.pending s.writes = .error (text, W)) := by
  have h0 := C57_reference hw hs
  have inj : ∀ {a b : List Byte}, ({ w with files := fun n => if n = outName then some a else w.files n } : World) =
      { w with files := fun n => if n = outName then some b else w.files n } → a = b := by
    intro a b h
    have := congrFun (congrArg World.files h) outName
    simpa using this
  unfold FailsLeaving
  rw [h0]
  unfold Reference.run
  cases h1 : Reference.runPieces srcName (pieces src) .init with
  | error f =>
    obtain ⟨t, W⟩ := f
    simp only [Reference.Failure.result, Outcome.exited.injEq, Exit.mk.injEq, true_and, Except.error.injEq, Prod.mk.injEq,
      reduceCtorEq, false_and, exists_false, or_false]
    constructor
    · rintro ⟨rfl, h⟩; exact ⟨W, (inj h).symm, rfl, rfl⟩
    · rintro ⟨_, rfl, rfl, rfl⟩; exact ⟨rfl, rfl⟩
  | ok s =>
    simp only [Except.ok.injEq, reduceCtorEq, false_or, exists_eq_left']
    cases h2 : Reference.resolve srcName s.env s.pending s.writes with
    | error f =>
      obtain ⟨t, W⟩ := f
      simp only [Reference.Failure.result, Outcome.exited.injEq, Exit.mk.injEq, true_and, Except.error.injEq, Prod.mk.injEq]
      constructor
      · rintro ⟨rfl, h⟩; exact ⟨W, (inj h).symm, rfl, rfl⟩
      · rintro ⟨_, rfl, rfl, rfl⟩; exact ⟨rfl, rfl⟩
    | ok W => simp

/-! Concrete cases: sources far from the documented language. -/

/-- A wrapped literal, lexemes after an indexed operand that change the mnemonic and the mode, an indexed forward jump. -/
def oddSource : List Byte :=
  b! "*=$2\nV =18446744073709551617\nL: LDA V,X STA (\nJMP M,Y\nBEQ M\nJSR $10\nM: STA $1234\n"

example : Reference.run (b! "p.asm") oddSource =
    ⟨0, b! "Assembly successful.\n13 (0x000d) bytes assembled.\n3 symbols.\n",
      [0, 0, 0x81, 1, 0xF3, 12, 0, 0xF0, 3, 0x20, 0x10, 0, 0x8D, 0x34, 0x12]⟩ := by decide +kernel

example : Succeeds (demo oddSource) (b! "p.asm") (b! "p.bin")
    [0, 0, 0x81, 1, 0xF3, 12, 0, 0xF0, 3, 0x20, 0x10, 0, 0x8D, 0x34, 0x12] 13 3 := by
  have h := C57_reference (demo_setup oddSource) (by decide +kernel)
  have e : Reference.run (b! "p.asm") oddSource =
    ⟨0, b! "Assembly successful.\n13 (0x000d) bytes assembled.\n3 symbols.\n",
      [0, 0, 0x81, 1, 0xF3, 12, 0, 0xF0, 3, 0x20, 0x10, 0, 0x8D, 0x34, 0x12]⟩ := by decide +kernel
  rw [e] at h
  have t : b! "Assembly successful.\n" ++ decimal 13 ++ b! " (0x" ++ hex04 13 ++ b! ") bytes assembled.\n" ++
      decimal 3 ++ b! " symbols.\n" = b! "Assembly successful.\n13 (0x000d) bytes assembled.\n3 symbols.\n" := by
    decide +kernel
  unfold Succeeds
  rw [t]
  exact h

/-- A contradictory addressing mode in line 3; what lines 1 and 2 wrote stays. -/
example : Reference.run (b! "p.asm") (b! "LDX $12,Y\nJMP M,X\nL BEQ M,X A\nM: RTS\n") =
    ⟨1, b! "p.asm:3: ERROR: illegal addressing mode\nL BEQ M,X A\n\n", [0xB6, 0x12, 0xF3, 0, 0]⟩ := by decide +kernel

/-- A ninth lexeme ends the run without a word. -/
example : Reference.run (b! "p.asm") (b! "RTS\nLDA $1,X A A A A A\n") = ⟨1, [], [0x60]⟩ := by decide +kernel

/-- A reference that is never resolved. -/
example : Reference.run (b! "p.asm") (b! "JMP\tM\n") =
    ⟨1, b! "p.asm:1: ERROR: label definition was not found\nJMP\tM\n        ^~~~~~\n\n", [0x4C, 0, 0]⟩ := by
  decide +kernel

end Gaia

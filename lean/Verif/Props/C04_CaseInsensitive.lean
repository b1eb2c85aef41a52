import Verif.Props.Example

/-! C04: upper and lower case are interchangeable. -/
namespace Gaia
open Spec

/-- **C04.** Two source files (of any content, fewer than 21474836 lines) that differ only in the case of letters give the same exit
status and the same output file, and on success the same report. -/
theorem C04_case_insensitive {w w' : World} {srcName outName : Str} {src src' : List Byte}
    (hw : Setup w srcName outName src) (hw' : Setup w' srcName outName src') (hs : Sized src)
    (h : List.Forall₂ Recased src src') : SameResult srcName outName w w' :=
  run_recased hw hw' hs h

theorem recased_of (src src' : List Byte) (h : src.length = src'.length ∧ (src.zip src').all (fun p =>
    decide (p.2 = p.1) || (decide (97 ≤ p.1.toNat ∧ p.1.toNat ≤ 122) && decide (p.2 = p.1 - 32)) ||
      (decide (65 ≤ p.1.toNat ∧ p.1.toNat ≤ 90) && decide (p.2 = p.1 + 32))) = true) :
    List.Forall₂ Recased src src' := by
  rw [List.forall₂_iff_zip]
  refine ⟨h.1, fun {a b} hab => ?_⟩
  have := List.all_eq_true.1 h.2 (a, b) hab
  simp only [Bool.or_eq_true, Bool.and_eq_true, decide_eq_true_eq] at this
  rcases this with (h | h) | h
  · exact .inl h
  · exact .inr (.inl ⟨h.1.1, h.1.2, h.2⟩)
  · exact .inr (.inr ⟨h.1.1, h.1.2, h.2⟩)

/-- Non-vacuity: a program with a label, a directive, hexadecimal digits and a comment, rewritten in the other case. -/
example : SameResult (b! "p.asm") (b! "p.bin")
    (demo (b! ".org $0c\nLoop: lda #$fe ; Load\n bne LOOP\n")) (demo (b! ".ORG $0C\nloop: LDA #$FE ; lOAD\n BNE Loop\n")) :=
  C04_case_insensitive (demo_setup _) (demo_setup _) (by decide) (recased_of _ _ (by decide +kernel))

/-- … and that program assembles. -/
example : demoRun (b! ".org $0c\nLoop: lda #$fe ; Load\n bne LOOP\n") =
    some (0, b! "Assembly successful.\n4 (0x0004) bytes assembled.\n1 symbols.\n",
      some (List.replicate 12 0 ++ [0xA9, 0xFE, 0xD0, 0xFC])) := by decide +kernel

end Gaia

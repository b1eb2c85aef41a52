import Verif.Props.C26_TwoPass
import Verif.Props.C51_Writable

/-!
The example programs shipped in /repo/example meet the hypotheses of the whole-program theorems: they are programs of the
documented language with ascending addresses and operands that fit, and a two-pass assembler accepts them; so gaia assembles them
to exactly the image the two-pass assembler makes. Generated by tools/gen_shipped.py from the files.
-/
set_option maxRecDepth 100000
set_option maxHeartbeats 4000000
namespace Gaia.Shipped
open Gaia Spec

/-- The hypotheses of C26 and C51, and the outcome. -/
def Fine (src : List Byte) : Prop := ∃ p r, IsProgram src p ∧ AscendingProgram p ∧ InRange p ∧ assemble p = some r ∧
  Succeeds (demo src) (b! "p.asm") (b! "p.bin") (image r.chunks) (totalBytes r.chunks) r.env.length

def ascendingCheck (p : List Stmt) : Bool := match pass1 p .init with | some s => decide (Ascending s.items) | none => true

/-- All of it, by evaluation. -/
def fineCheck (src : List Byte) : Bool :=
  decide (Sized src) && (lines src).all (fun l => decide (l.length ≤ 126)) &&
  match linesStmts (lines src) with
  | none => false
  | some p => p.all (fun st => decide (¬ IndexedJump st)) && ascendingCheck p && (assemble p).isSome

theorem fine_of {src : List Byte} (h : fineCheck src = true) : Fine src := by
  unfold fineCheck at h
  simp only [Bool.and_eq_true] at h
  obtain ⟨⟨h1, h2⟩, h3⟩ := h
  cases hp : linesStmts (lines src) with
  | none => rw [hp] at h3; cases h3
  | some p =>
    rw [hp] at h3
    simp only [Bool.and_eq_true] at h3
    obtain ⟨⟨h4, h5⟩, h6⟩ := h3
    have hprog : IsProgram src p := isProgram_eval (of_decide_eq_true h1)
      (fun l hl => of_decide_eq_true (List.all_eq_true.1 h2 l hl)) hp
      (fun st hst => of_decide_eq_true (List.all_eq_true.1 h4 st hst))
    obtain ⟨r, hr⟩ := Option.isSome_iff_exists.1 h6
    have ha : AscendingProgram p := ascendingProgram_eval h5
    exact ⟨p, r, hprog, ha, assemble_inRange hr, hr, C26_assembles (demo_setup _) hprog ha hr⟩

/-- /repo/example/address_line_test.asm, 3474 bytes -/
def address_line_test : List Byte := [
  32, 32, 32, 32, 32, 32, 32, 32, 32, 32, 46, 79, 82, 71, 32, 36, 69, 48, 48, 48, 13, 10, 13, 10, 59, 87, 82, 84, 68, 65, 84, 65,
  58, 32, 70, 105, 108, 108, 32, 102, 105, 102, 116, 101, 101, 110, 32, 109, 101, 109, 111, 114, 121, 32, 108, 111, 99, 97, 116, 105, 111, 110, 115, 32,
  119, 105, 116, 104, 32, 117, 110, 105, 113, 117, 101, 44, 32, 105, 110, 99, 114, 101, 109, 101, 110, 116, 97, 108, 13, 10, 59, 118, 97, 108, 117, 101,
  115, 44, 32, 119, 104, 101, 114, 101, 32, 101, 97, 99, 104, 32, 97, 100, 100, 114, 101, 115, 115, 32, 117, 115, 101, 115, 32, 97, 32, 117, 110, 105,
  113, 117, 101, 32, 97, 100, 100, 114, 101, 115, 115, 32, 108, 105, 110, 101, 46, 13, 10, 87, 82, 84, 68, 65, 84, 65, 32, 32, 32, 76, 68, 88,
  32, 35, 36, 48, 70, 13, 10, 32, 32, 32, 32, 32, 32, 32, 32, 32, 32, 83, 84, 88, 32, 36, 52, 48, 48, 48, 32, 32, 32, 32, 32, 59,
  36, 52, 48, 48, 48, 32, 61, 32, 35, 36, 48, 70, 32, 32, 40, 102, 111, 114, 32, 116, 101, 115, 116, 32, 111, 102, 32, 65, 49, 52, 41, 13,
  10, 32, 32, 32, 32, 32, 32, 32, 32, 32, 32, 68, 69, 88, 13, 10, 32, 32, 32, 32, 32, 32, 32, 32, 32, 32, 83, 84, 88, 32, 36, 50,
  48, 48, 48, 32, 32, 32, 32, 32, 59, 36, 50, 48, 48, 48, 32, 61, 32, 35, 36, 48, 69, 32, 32, 40, 102, 111, 114, 32, 116, 101, 115, 116,
  32, 111, 102, 32, 65, 49, 51, 41, 13, 10, 32, 32, 32, 32, 32, 32, 32, 32, 32, 32, 68, 69, 88, 13, 10, 32, 32, 32, 32, 32, 32, 32,
  32, 32, 32, 83, 84, 88, 32, 36, 49, 48, 48, 48, 32, 32, 32, 32, 32, 59, 36, 49, 48, 48, 48, 32, 61, 32, 35, 36, 48, 68, 32, 32,
  40, 102, 111, 114, 32, 116, 101, 115, 116, 32, 111, 102, 32, 65, 49, 50, 41, 13, 10, 32, 32, 32, 32, 32, 32, 32, 32, 32, 32, 68, 69, 88,
  13, 10, 32, 32, 32, 32, 32, 32, 32, 32, 32, 32, 83, 84, 88, 32, 36, 48, 56, 48, 48, 32, 32, 32, 32, 32, 59, 36, 48, 56, 48, 48,
  32, 61, 32, 35, 36, 48, 67, 32, 32, 40, 102, 111, 114, 32, 116, 101, 115, 116, 32, 111, 102, 32, 65, 49, 49, 41, 13, 10, 32, 32, 32, 32,
  32, 32, 32, 32, 32, 32, 68, 69, 88, 13, 10, 32, 32, 32, 32, 32, 32, 32, 32, 32, 32, 83, 84, 88, 32, 36, 48, 52, 48, 48, 32, 32,
  32, 32, 32, 59, 36, 48, 52, 48, 48, 32, 61, 32, 35, 36, 48, 66, 32, 32, 40, 102, 111, 114, 32, 116, 101, 115, 116, 32, 111, 102, 32, 65,
  49, 48, 41, 13, 10, 32, 32, 32, 32, 32, 32, 32, 32, 32, 32, 68, 69, 88, 13, 10, 32, 32, 32, 32, 32, 32, 32, 32, 32, 32, 83, 84,
  88, 32, 36, 48, 50, 48, 48, 32, 32, 32, 32, 32, 59, 36, 48, 50, 48, 48, 32, 61, 32, 35, 36, 48, 65, 32, 32, 40, 102, 111, 114, 32,
  116, 101, 115, 116, 32, 111, 102, 32, 65, 57, 41, 13, 10, 32, 32, 32, 32, 32, 32, 32, 32, 32, 32, 68, 69, 88, 13, 10, 32, 32, 32, 32,
  32, 32, 32, 32, 32, 32, 83, 84, 88, 32, 36, 48, 49, 48, 48, 32, 32, 32, 32, 32, 59, 36, 48, 49, 48, 48, 32, 61, 32, 35, 36, 48,
  57, 32, 32, 40, 102, 111, 114, 32, 116, 101, 115, 116, 32, 111, 102, 32, 65, 56, 41, 13, 10, 32, 32, 32, 32, 32, 32, 32, 32, 32, 32, 68,
  69, 88, 13, 10, 32, 32, 32, 32, 32, 32, 32, 32, 32, 32, 83, 84, 88, 32, 36, 48, 48, 56, 48, 32, 32, 32, 32, 32, 59, 36, 48, 48,
  56, 48, 32, 61, 32, 35, 36, 48, 56, 32, 32, 40, 102, 111, 114, 32, 116, 101, 115, 116, 32, 111, 102, 32, 65, 55, 41, 13, 10, 32, 32, 32,
  32, 32, 32, 32, 32, 32, 32, 68, 69, 88, 13, 10, 32, 32, 32, 32, 32, 32, 32, 32, 32, 32, 83, 84, 88, 32, 36, 48, 48, 52, 48, 32,
  32, 32, 32, 32, 59, 36, 48, 48, 52, 48, 32, 61, 32, 35, 36, 48, 55, 32, 32, 40, 102, 111, 114, 32, 116, 101, 115, 116, 32, 111, 102, 32,
  65, 54, 41, 13, 10, 32, 32, 32, 32, 32, 32, 32, 32, 32, 32, 68, 69, 88, 13, 10, 32, 32, 32, 32, 32, 32, 32, 32, 32, 32, 83, 84,
  88, 32, 36, 48, 48, 50, 48, 32, 32, 32, 32, 32, 59, 36, 48, 48, 50, 48, 32, 61, 32, 35, 36, 48, 54, 32, 32, 40, 102, 111, 114, 32,
  116, 101, 115, 116, 32, 111, 102, 32, 65, 53, 41, 13, 10, 32, 32, 32, 32, 32, 32, 32, 32, 32, 32, 68, 69, 88, 13, 10, 32, 32, 32, 32,
  32, 32, 32, 32, 32, 32, 83, 84, 88, 32, 36, 48, 48, 49, 48, 32, 32, 32, 32, 32, 59, 36, 48, 48, 49, 48, 32, 61, 32, 35, 36, 48,
  53, 32, 32, 40, 102, 111, 114, 32, 116, 101, 115, 116, 32, 111, 102, 32, 65, 52, 41, 13, 10, 32, 32, 32, 32, 32, 32, 32, 32, 32, 32, 68,
  69, 88, 13, 10, 32, 32, 32, 32, 32, 32, 32, 32, 32, 32, 83, 84, 88, 32, 36, 48, 48, 48, 56, 32, 32, 32, 32, 32, 59, 36, 48, 48,
  48, 56, 32, 61, 32, 35, 36, 48, 52, 32, 32, 40, 102, 111, 114, 32, 116, 101, 115, 116, 32, 111, 102, 32, 65, 51, 41, 13, 10, 32, 32, 32,
  32, 32, 32, 32, 32, 32, 32, 68, 69, 88, 13, 10, 32, 32, 32, 32, 32, 32, 32, 32, 32, 32, 83, 84, 88, 32, 36, 48, 48, 48, 52, 32,
  32, 32, 32, 32, 59, 36, 48, 48, 48, 52, 32, 61, 32, 35, 36, 48, 51, 32, 32, 40, 102, 111, 114, 32, 116, 101, 115, 116, 32, 111, 102, 32,
  65, 50, 41, 13, 10, 32, 32, 32, 32, 32, 32, 32, 32, 32, 32, 68, 69, 88, 13, 10, 32, 32, 32, 32, 32, 32, 32, 32, 32, 32, 83, 84,
  88, 32, 36, 48, 48, 48, 50, 32, 32, 32, 32, 32, 59, 36, 48, 48, 48, 50, 32, 61, 32, 35, 36, 48, 50, 32, 32, 40, 102, 111, 114, 32,
  116, 101, 115, 116, 32, 111, 102, 32, 65, 49, 41, 13, 10, 32, 32, 32, 32, 32, 32, 32, 32, 32, 32, 68, 69, 88, 13, 10, 32, 32, 32, 32,
  32, 32, 32, 32, 32, 32, 83, 84, 88, 32, 36, 48, 48, 48, 49, 32, 32, 32, 32, 32, 59, 36, 48, 48, 48, 49, 32, 61, 32, 35, 36, 48,
  49, 32, 32, 40, 102, 111, 114, 32, 116, 101, 115, 116, 32, 111, 102, 32, 65, 48, 41, 13, 10, 13, 10, 59, 82, 65, 77, 84, 69, 83, 84, 49,
  32, 32, 67, 104, 101, 99, 107, 32, 97, 100, 100, 114, 101, 115, 115, 32, 108, 105, 110, 101, 115, 32, 65, 48, 45, 65, 55, 46, 13, 10, 59, 82,
  111, 117, 116, 105, 110, 101, 32, 105, 115, 32, 98, 114, 111, 107, 101, 110, 32, 105, 110, 116, 111, 32, 82, 65, 77, 84, 69, 83, 84, 49, 32, 97,
  110, 100, 32, 82, 65, 77, 84, 69, 83, 84, 50, 32, 100, 117, 101, 32, 116, 111, 32, 116, 104, 101, 32, 108, 105, 109, 105, 116, 101, 100, 32, 114,
  97, 110, 103, 101, 13, 10, 59, 111, 102, 32, 116, 104, 101, 32, 114, 101, 108, 97, 116, 105, 118, 101, 32, 98, 114, 97, 110, 99, 104, 32, 105, 110,
  115, 116, 114, 117, 99, 116, 105, 111, 110, 32, 66, 78, 69, 46, 13, 10, 82, 65, 77, 84, 69, 83, 84, 49, 32, 32, 67, 80, 88, 32, 36, 48,
  48, 48, 49, 13, 10, 32, 32, 32, 32, 32, 32, 32, 32, 32, 32, 66, 78, 69, 32, 70, 79, 85, 78, 68, 66, 65, 68, 32, 32, 59, 65, 48,
  32, 98, 97, 100, 32, 40, 110, 111, 116, 32, 61, 32, 35, 36, 48, 49, 41, 63, 13, 10, 32, 32, 32, 32, 32, 32, 32, 32, 32, 32, 73, 78,
  88, 13, 10, 32, 32, 32, 32, 32, 32, 32, 32, 32, 32, 67, 80, 88, 32, 36, 48, 48, 48, 50, 13, 10, 32, 32, 32, 32, 32, 32, 32, 32,
  32, 32, 66, 78, 69, 32, 70, 79, 85, 78, 68, 66, 65, 68, 32, 32, 59, 65, 49, 32, 98, 97, 100, 32, 40, 110, 111, 116, 32, 61, 32, 35,
  36, 48, 50, 41, 63, 13, 10, 32, 32, 32, 32, 32, 32, 32, 32, 32, 32, 73, 78, 88, 13, 10, 32, 32, 32, 32, 32, 32, 32, 32, 32, 32,
  67, 80, 88, 32, 36, 48, 48, 48, 52, 13, 10, 32, 32, 32, 32, 32, 32, 32, 32, 32, 32, 66, 78, 69, 32, 70, 79, 85, 78, 68, 66, 65,
  68, 32, 32, 59, 65, 50, 32, 98, 97, 100, 32, 40, 110, 111, 116, 32, 61, 32, 35, 36, 48, 51, 41, 63, 13, 10, 32, 32, 32, 32, 32, 32,
  32, 32, 32, 32, 73, 78, 88, 13, 10, 32, 32, 32, 32, 32, 32, 32, 32, 32, 32, 67, 80, 88, 32, 36, 48, 48, 48, 56, 13, 10, 32, 32,
  32, 32, 32, 32, 32, 32, 32, 32, 66, 78, 69, 32, 70, 79, 85, 78, 68, 66, 65, 68, 32, 32, 59, 65, 51, 32, 98, 97, 100, 32, 40, 110,
  111, 116, 32, 61, 32, 35, 36, 48, 52, 41, 63, 13, 10, 32, 32, 32, 32, 32, 32, 32, 32, 32, 32, 73, 78, 88, 13, 10, 32, 32, 32, 32,
  32, 32, 32, 32, 32, 32, 67, 80, 88, 32, 36, 48, 48, 49, 48, 13, 10, 32, 32, 32, 32, 32, 32, 32, 32, 32, 32, 66, 78, 69, 32, 70,
  79, 85, 78, 68, 66, 65, 68, 32, 32, 59, 65, 52, 32, 98, 97, 100, 32, 40, 110, 111, 116, 32, 61, 32, 35, 36, 48, 53, 41, 63, 13, 10,
  32, 32, 32, 32, 32, 32, 32, 32, 32, 32, 73, 78, 88, 13, 10, 32, 32, 32, 32, 32, 32, 32, 32, 32, 32, 67, 80, 88, 32, 36, 48, 48,
  50, 48, 13, 10, 32, 32, 32, 32, 32, 32, 32, 32, 32, 32, 66, 78, 69, 32, 70, 79, 85, 78, 68, 66, 65, 68, 32, 32, 59, 65, 53, 32,
  98, 97, 100, 32, 40, 110, 111, 116, 32, 61, 32, 35, 36, 48, 54, 41, 63, 13, 10, 32, 32, 32, 32, 32, 32, 32, 32, 32, 32, 73, 78, 88,
  13, 10, 32, 32, 32, 32, 32, 32, 32, 32, 32, 32, 67, 80, 88, 32, 36, 48, 48, 52, 48, 13, 10, 32, 32, 32, 32, 32, 32, 32, 32, 32,
  32, 66, 78, 69, 32, 70, 79, 85, 78, 68, 66, 65, 68, 32, 32, 59, 65, 54, 32, 98, 97, 100, 32, 40, 110, 111, 116, 32, 61, 32, 35, 36,
  48, 55, 41, 63, 13, 10, 32, 32, 32, 32, 32, 32, 32, 32, 32, 32, 73, 78, 88, 13, 10, 32, 32, 32, 32, 32, 32, 32, 32, 32, 32, 67,
  80, 88, 32, 36, 48, 48, 56, 48, 32, 32, 32, 32, 32, 59, 65, 55, 32, 98, 97, 100, 32, 40, 110, 111, 116, 32, 61, 32, 35, 36, 48, 56,
  41, 63, 13, 10, 32, 32, 32, 32, 32, 32, 32, 32, 32, 32, 66, 78, 69, 32, 70, 79, 85, 78, 68, 66, 65, 68, 13, 10, 32, 32, 32, 32,
  32, 32, 32, 32, 32, 32, 74, 77, 80, 32, 82, 65, 77, 84, 69, 83, 84, 50, 13, 10, 13, 10, 59, 70, 79, 85, 78, 68, 66, 65, 68, 32,
  32, 67, 97, 108, 108, 101, 100, 32, 98, 121, 32, 101, 105, 116, 104, 101, 114, 32, 82, 65, 77, 84, 69, 83, 84, 49, 32, 111, 114, 32, 82, 65,
  77, 84, 69, 83, 84, 50, 32, 105, 102, 13, 10, 59, 97, 110, 32, 101, 114, 114, 111, 114, 32, 119, 97, 115, 32, 100, 101, 116, 101, 99, 116, 101,
  100, 46, 32, 32, 84, 104, 105, 115, 32, 105, 115, 32, 116, 104, 101, 32, 106, 117, 109, 112, 32, 116, 111, 32, 116, 104, 101, 32, 101, 114, 114, 111,
  114, 32, 104, 97, 110, 100, 108, 101, 114, 46, 13, 10, 70, 79, 85, 78, 68, 66, 65, 68, 32, 32, 74, 77, 80, 32, 70, 65, 73, 76, 85, 82,
  69, 13, 10, 13, 10, 59, 82, 65, 77, 84, 69, 83, 84, 50, 32, 32, 84, 101, 115, 116, 115, 32, 97, 100, 100, 114, 101, 115, 115, 32, 108, 105,
  110, 101, 115, 32, 65, 56, 45, 65, 49, 52, 13, 10, 82, 65, 77, 84, 69, 83, 84, 50, 32, 32, 73, 78, 88, 13, 10, 32, 32, 32, 32, 32,
  32, 32, 32, 32, 32, 67, 80, 88, 32, 36, 48, 49, 48, 48, 13, 10, 32, 32, 32, 32, 32, 32, 32, 32, 32, 32, 66, 78, 69, 32, 70, 79,
  85, 78, 68, 66, 65, 68, 32, 32, 59, 65, 56, 32, 98, 97, 100, 32, 40, 110, 111, 116, 32, 61, 32, 35, 36, 48, 57, 41, 63, 13, 10, 32,
  32, 32, 32, 32, 32, 32, 32, 32, 32, 73, 78, 88, 13, 10, 32, 32, 32, 32, 32, 32, 32, 32, 32, 32, 67, 80, 88, 32, 36, 48, 50, 48,
  48, 13, 10, 32, 32, 32, 32, 32, 32, 32, 32, 32, 32, 66, 78, 69, 32, 70, 79, 85, 78, 68, 66, 65, 68, 32, 32, 59, 65, 57, 32, 98,
  97, 100, 32, 40, 110, 111, 116, 32, 61, 32, 35, 36, 48, 65, 41, 63, 13, 10, 32, 32, 32, 32, 32, 32, 32, 32, 32, 32, 73, 78, 88, 13,
  10, 32, 32, 32, 32, 32, 32, 32, 32, 32, 32, 67, 80, 88, 32, 36, 48, 52, 48, 48, 13, 10, 32, 32, 32, 32, 32, 32, 32, 32, 32, 32,
  66, 78, 69, 32, 70, 79, 85, 78, 68, 66, 65, 68, 32, 32, 59, 65, 49, 48, 32, 98, 97, 100, 32, 40, 110, 111, 116, 32, 61, 32, 35, 36,
  48, 66, 41, 63, 13, 10, 32, 32, 32, 32, 32, 32, 32, 32, 32, 32, 73, 78, 88, 13, 10, 32, 32, 32, 32, 32, 32, 32, 32, 32, 32, 67,
  80, 88, 32, 36, 48, 56, 48, 48, 13, 10, 32, 32, 32, 32, 32, 32, 32, 32, 32, 32, 66, 78, 69, 32, 70, 79, 85, 78, 68, 66, 65, 68,
  32, 32, 59, 65, 49, 49, 32, 98, 97, 100, 32, 40, 110, 111, 116, 32, 61, 32, 35, 36, 48, 67, 41, 63, 13, 10, 32, 32, 32, 32, 32, 32,
  32, 32, 32, 32, 73, 78, 88, 13, 10, 32, 32, 32, 32, 32, 32, 32, 32, 32, 32, 67, 80, 88, 32, 36, 49, 48, 48, 48, 13, 10, 32, 32,
  32, 32, 32, 32, 32, 32, 32, 32, 66, 78, 69, 32, 70, 79, 85, 78, 68, 66, 65, 68, 32, 32, 59, 65, 49, 50, 32, 98, 97, 100, 32, 40,
  110, 111, 116, 32, 61, 32, 35, 36, 48, 68, 41, 63, 13, 10, 32, 32, 32, 32, 32, 32, 32, 32, 32, 32, 73, 78, 88, 13, 10, 32, 32, 32,
  32, 32, 32, 32, 32, 32, 32, 67, 80, 88, 32, 36, 50, 48, 48, 48, 13, 10, 32, 32, 32, 32, 32, 32, 32, 32, 32, 32, 66, 78, 69, 32,
  70, 79, 85, 78, 68, 66, 65, 68, 32, 32, 59, 65, 49, 51, 32, 98, 97, 100, 32, 40, 110, 111, 116, 32, 61, 32, 35, 36, 48, 69, 41, 63,
  13, 10, 32, 32, 32, 32, 32, 32, 32, 32, 32, 32, 73, 78, 88, 13, 10, 32, 32, 32, 32, 32, 32, 32, 32, 32, 32, 67, 80, 88, 32, 36,
  52, 48, 48, 48, 13, 10, 32, 32, 32, 32, 32, 32, 32, 32, 32, 32, 66, 78, 69, 32, 70, 79, 85, 78, 68, 66, 65, 68, 32, 32, 59, 65,
  49, 52, 32, 98, 97, 100, 32, 40, 110, 111, 116, 32, 61, 32, 35, 36, 48, 69, 41, 63, 13, 10, 13, 10, 59, 83, 85, 67, 67, 69, 83, 83,
  32, 32, 80, 114, 111, 103, 114, 97, 109, 32, 99, 111, 109, 112, 108, 101, 116, 101, 100, 32, 119, 105, 116, 104, 32, 110, 111, 32, 101, 114, 114, 111,
  114, 115, 32, 100, 101, 116, 101, 99, 116, 101, 100, 46, 13, 10, 59, 13, 10, 83, 85, 67, 67, 69, 83, 83, 32, 32, 32, 76, 68, 88, 32, 35,
  36, 48, 48, 32, 32, 32, 32, 32, 32, 59, 79, 112, 116, 105, 111, 110, 97, 108, 58, 32, 67, 108, 101, 97, 110, 32, 117, 112, 32, 116, 104, 101,
  32, 116, 101, 115, 116, 32, 98, 121, 116, 101, 115, 32, 98, 121, 32, 102, 105, 108, 108, 105, 110, 103, 13, 10, 32, 32, 32, 32, 32, 32, 32, 32,
  32, 32, 83, 84, 88, 32, 36, 48, 49, 32, 32, 32, 32, 32, 32, 32, 59, 119, 105, 116, 104, 32, 35, 36, 48, 48, 46, 13, 10, 32, 32, 32,
  32, 32, 32, 32, 32, 32, 32, 83, 84, 88, 32, 36, 48, 50, 13, 10, 32, 32, 32, 32, 32, 32, 32, 32, 32, 32, 83, 84, 88, 32, 36, 48,
  52, 13, 10, 32, 32, 32, 32, 32, 32, 32, 32, 32, 32, 83, 84, 88, 32, 36, 48, 56, 13, 10, 32, 32, 32, 32, 32, 32, 32, 32, 32, 32,
  83, 84, 88, 32, 36, 49, 48, 13, 10, 32, 32, 32, 32, 32, 32, 32, 32, 32, 32, 83, 84, 88, 32, 36, 50, 48, 13, 10, 32, 32, 32, 32,
  32, 32, 32, 32, 32, 32, 83, 84, 88, 32, 36, 52, 48, 13, 10, 32, 32, 32, 32, 32, 32, 32, 32, 32, 32, 83, 84, 88, 32, 36, 56, 48,
  13, 10, 32, 32, 32, 32, 32, 32, 32, 32, 32, 32, 83, 84, 88, 32, 36, 48, 49, 48, 48, 13, 10, 32, 32, 32, 32, 32, 32, 32, 32, 32,
  32, 83, 84, 88, 32, 36, 48, 50, 48, 48, 13, 10, 32, 32, 32, 32, 32, 32, 32, 32, 32, 32, 83, 84, 88, 32, 36, 48, 52, 48, 48, 13,
  10, 32, 32, 32, 32, 32, 32, 32, 32, 32, 32, 83, 84, 88, 32, 36, 48, 56, 48, 48, 13, 10, 32, 32, 32, 32, 32, 32, 32, 32, 32, 32,
  83, 84, 88, 32, 36, 49, 48, 48, 48, 13, 10, 32, 32, 32, 32, 32, 32, 32, 32, 32, 32, 83, 84, 88, 32, 36, 50, 48, 48, 48, 13, 10,
  32, 32, 32, 32, 32, 32, 32, 32, 32, 32, 83, 84, 88, 32, 36, 52, 48, 48, 48, 13, 10, 32, 32, 32, 32, 32, 32, 32, 32, 32, 32, 82,
  84, 83, 13, 10, 13, 10, 70, 65, 73, 76, 85, 82, 69, 32, 32, 32, 68, 69, 88, 32, 32, 32, 32, 32, 32, 32, 32, 32, 32, 32, 59, 65,
  110, 32, 101, 114, 114, 111, 114, 32, 119, 97, 115, 32, 100, 101, 116, 101, 99, 116, 101, 100, 46, 13, 10, 59, 9, 32, 32, 32, 46, 13, 10, 59,
  9, 32, 32, 32, 46, 32, 32, 32, 32, 32, 32, 32, 32, 32, 32, 32, 32, 84, 104, 101, 32, 97, 100, 100, 114, 101, 115, 115, 32, 108, 105, 110,
  101, 32, 117, 110, 100, 101, 114, 32, 116, 101, 115, 116, 32, 40, 65, 120, 120, 41, 32, 97, 116, 32, 116, 104, 101, 13, 10, 59, 9, 32, 32, 32,
  46, 32, 32, 32, 32, 32, 32, 32, 32, 32, 32, 32, 32, 116, 105, 109, 101, 32, 111, 102, 32, 102, 97, 105, 108, 117, 114, 101, 32, 105, 115, 32,
  105, 110, 32, 116, 104, 101, 32, 88, 32, 114, 101, 103, 105, 115, 116, 101, 114, 46]

example : Fine address_line_test := fine_of (by decide +kernel)

/-- /repo/example/bubble16.asm, 1452 bytes -/
def bubble16 : List Byte := [
  59, 84, 72, 73, 83, 32, 83, 85, 66, 82, 79, 85, 84, 73, 78, 69, 32, 65, 82, 82, 65, 78, 71, 69, 83, 32, 84, 72, 69, 32, 49, 54,
  45, 66, 73, 84, 32, 69, 76, 69, 77, 69, 78, 84, 83, 32, 79, 70, 32, 65, 32, 76, 73, 83, 84, 32, 73, 78, 13, 10, 59, 65, 83, 67,
  69, 78, 68, 73, 78, 71, 32, 79, 82, 68, 69, 82, 46, 32, 32, 84, 72, 69, 32, 83, 84, 65, 82, 84, 73, 78, 71, 32, 65, 68, 68, 82,
  69, 83, 83, 32, 79, 70, 32, 84, 72, 69, 32, 76, 73, 83, 84, 32, 73, 83, 32, 73, 78, 32, 76, 79, 67, 65, 84, 73, 79, 78, 83, 13,
  10, 59, 36, 51, 48, 32, 65, 78, 68, 32, 36, 51, 49, 46, 32, 32, 84, 72, 69, 32, 76, 69, 78, 71, 84, 72, 32, 79, 70, 32, 84, 72,
  69, 32, 76, 73, 83, 84, 32, 73, 83, 32, 73, 78, 32, 84, 72, 69, 32, 70, 73, 82, 83, 84, 32, 66, 89, 84, 69, 32, 79, 70, 32, 84,
  72, 69, 32, 76, 73, 83, 84, 46, 13, 10, 59, 76, 79, 67, 65, 84, 73, 79, 78, 32, 36, 51, 50, 32, 73, 83, 32, 85, 83, 69, 68, 32,
  84, 79, 32, 72, 79, 76, 68, 32, 65, 78, 32, 69, 88, 67, 72, 65, 78, 71, 69, 32, 70, 76, 65, 71, 46, 13, 10, 13, 10, 83, 79, 82,
  84, 49, 54, 9, 76, 68, 89, 32, 35, 36, 48, 48, 9, 59, 84, 85, 82, 78, 32, 69, 88, 67, 72, 65, 78, 71, 69, 32, 70, 76, 65, 71,
  32, 79, 70, 70, 32, 40, 61, 32, 48, 41, 13, 10, 9, 83, 84, 89, 32, 36, 51, 50, 13, 10, 9, 76, 68, 65, 32, 40, 36, 51, 48, 41,
  44, 89, 9, 59, 70, 69, 84, 67, 72, 32, 69, 76, 69, 77, 69, 78, 84, 32, 67, 79, 85, 78, 84, 13, 10, 9, 84, 65, 89, 9, 9, 59,
  32, 32, 65, 78, 68, 32, 85, 83, 69, 32, 73, 84, 32, 84, 79, 32, 73, 78, 68, 69, 88, 32, 76, 65, 83, 84, 32, 69, 76, 69, 77, 69,
  78, 84, 13, 10, 78, 88, 84, 69, 76, 9, 76, 68, 65, 32, 40, 36, 51, 48, 41, 44, 89, 9, 59, 70, 69, 84, 67, 72, 32, 77, 83, 66,
  89, 13, 10, 9, 80, 72, 65, 9, 9, 59, 32, 32, 65, 78, 68, 32, 80, 85, 83, 72, 32, 73, 84, 32, 79, 78, 84, 79, 32, 83, 84, 65,
  67, 75, 13, 10, 9, 68, 69, 89, 13, 10, 9, 76, 68, 65, 32, 40, 36, 51, 48, 41, 44, 89, 9, 59, 70, 69, 84, 67, 72, 32, 76, 83,
  66, 89, 13, 10, 9, 83, 69, 67, 13, 10, 9, 68, 69, 89, 13, 10, 9, 68, 69, 89, 13, 10, 9, 83, 66, 67, 32, 40, 36, 51, 48, 41,
  44, 89, 9, 59, 32, 65, 78, 68, 32, 83, 85, 66, 84, 82, 65, 67, 84, 32, 76, 83, 66, 89, 32, 79, 70, 32, 80, 82, 69, 67, 69, 68,
  73, 78, 71, 32, 69, 76, 69, 77, 69, 78, 84, 13, 10, 9, 80, 76, 65, 13, 10, 9, 73, 78, 89, 13, 10, 9, 83, 66, 67, 32, 40, 36,
  51, 48, 41, 44, 89, 9, 59, 32, 65, 78, 68, 32, 83, 85, 66, 84, 82, 65, 67, 84, 32, 77, 83, 66, 89, 32, 79, 70, 32, 80, 82, 69,
  67, 69, 68, 73, 78, 71, 32, 69, 76, 69, 77, 69, 78, 84, 13, 10, 9, 66, 67, 67, 32, 83, 87, 65, 80, 9, 59, 65, 82, 69, 32, 84,
  72, 69, 83, 69, 32, 69, 76, 69, 77, 69, 78, 84, 83, 32, 79, 85, 84, 32, 79, 70, 32, 79, 82, 68, 69, 82, 63, 13, 10, 9, 67, 80,
  89, 32, 35, 36, 48, 50, 9, 59, 78, 79, 46, 32, 76, 79, 79, 80, 32, 85, 78, 84, 73, 76, 32, 65, 76, 76, 32, 69, 76, 69, 77, 69,
  78, 84, 83, 32, 67, 79, 77, 80, 65, 82, 69, 68, 13, 10, 9, 66, 78, 69, 32, 78, 88, 84, 69, 76, 13, 10, 9, 66, 73, 84, 32, 36,
  51, 50, 9, 9, 59, 69, 88, 67, 72, 65, 78, 71, 69, 32, 70, 76, 65, 71, 32, 83, 84, 73, 76, 76, 32, 79, 70, 70, 63, 13, 10, 9,
  66, 77, 73, 32, 83, 79, 82, 84, 49, 54, 9, 59, 78, 79, 46, 32, 71, 79, 32, 84, 72, 82, 79, 85, 71, 72, 32, 76, 73, 83, 84, 32,
  65, 71, 65, 73, 78, 13, 10, 9, 82, 84, 83, 13, 10, 13, 10, 59, 84, 72, 73, 83, 32, 82, 79, 85, 84, 73, 78, 69, 32, 66, 69, 76,
  79, 87, 32, 69, 88, 67, 72, 65, 78, 71, 69, 83, 32, 84, 87, 79, 32, 49, 54, 45, 66, 73, 84, 32, 69, 76, 69, 77, 69, 78, 84, 83,
  32, 73, 78, 32, 77, 69, 77, 79, 82, 89, 13, 10, 13, 10, 83, 87, 65, 80, 9, 76, 68, 65, 32, 40, 36, 51, 48, 41, 44, 89, 9, 59,
  83, 65, 86, 69, 32, 77, 83, 66, 89, 49, 32, 79, 78, 32, 83, 84, 65, 67, 75, 13, 10, 9, 80, 72, 65, 13, 10, 9, 68, 69, 89, 13,
  10, 9, 76, 68, 65, 32, 40, 36, 51, 48, 41, 44, 89, 9, 59, 83, 65, 86, 69, 32, 76, 83, 66, 89, 49, 32, 79, 78, 32, 83, 84, 65,
  67, 75, 13, 10, 9, 80, 72, 65, 13, 10, 9, 73, 78, 89, 13, 10, 9, 73, 78, 89, 13, 10, 9, 73, 78, 89, 13, 10, 9, 76, 68, 65,
  32, 40, 36, 51, 48, 41, 44, 89, 9, 59, 83, 65, 86, 69, 32, 77, 83, 66, 89, 50, 32, 79, 78, 32, 83, 84, 65, 67, 75, 13, 10, 9,
  80, 72, 65, 13, 10, 9, 68, 69, 89, 13, 10, 9, 76, 68, 65, 32, 40, 36, 51, 48, 41, 44, 89, 9, 59, 76, 79, 65, 68, 32, 76, 83,
  66, 89, 50, 32, 73, 78, 84, 79, 32, 65, 67, 67, 85, 77, 85, 76, 65, 84, 79, 82, 13, 10, 9, 68, 69, 89, 13, 10, 9, 68, 69, 89,
  13, 10, 9, 83, 84, 65, 32, 40, 36, 51, 48, 41, 44, 89, 9, 59, 32, 65, 78, 68, 32, 83, 84, 79, 82, 69, 32, 73, 84, 32, 65, 84,
  32, 76, 83, 66, 89, 49, 32, 80, 79, 83, 73, 84, 73, 79, 78, 13, 10, 9, 76, 68, 88, 32, 35, 36, 48, 51, 13, 10, 83, 76, 79, 79,
  80, 9, 73, 78, 89, 9, 9, 59, 83, 84, 79, 82, 69, 32, 84, 72, 69, 32, 79, 84, 72, 69, 82, 32, 84, 72, 82, 69, 69, 32, 66, 89,
  84, 69, 83, 13, 10, 9, 80, 76, 65, 13, 10, 9, 83, 84, 65, 32, 40, 36, 51, 48, 41, 44, 89, 13, 10, 9, 68, 69, 88, 13, 10, 9,
  66, 78, 69, 32, 83, 76, 79, 79, 80, 9, 59, 76, 79, 79, 80, 32, 85, 78, 84, 73, 76, 32, 84, 72, 82, 69, 69, 32, 66, 89, 84, 69,
  32, 83, 84, 79, 82, 69, 68, 13, 10, 9, 76, 68, 65, 32, 35, 36, 70, 70, 9, 59, 84, 85, 82, 78, 32, 69, 88, 67, 72, 65, 78, 71,
  69, 32, 70, 76, 65, 71, 32, 79, 78, 32, 40, 61, 32, 45, 49, 41, 13, 10, 9, 83, 84, 65, 32, 36, 51, 50, 13, 10, 9, 67, 80, 89,
  32, 35, 48, 52, 9, 9, 59, 87, 65, 83, 32, 69, 88, 67, 72, 65, 78, 71, 69, 32, 68, 79, 78, 69, 32, 65, 84, 32, 83, 84, 65, 82,
  84, 32, 79, 70, 32, 76, 73, 83, 84, 63, 13, 10, 9, 66, 69, 81, 32, 83, 79, 82, 84, 49, 54, 9, 59, 89, 69, 83, 46, 32, 71, 79,
  32, 84, 72, 82, 79, 85, 71, 72, 32, 76, 73, 83, 84, 32, 65, 71, 65, 73, 78, 46, 13, 10, 9, 68, 69, 89, 9, 9, 59, 78, 79, 46,
  32, 67, 79, 77, 80, 65, 82, 69, 32, 78, 69, 88, 84, 32, 69, 76, 69, 77, 69, 78, 84, 32, 80, 65, 73, 82, 13, 10, 9, 68, 69, 89,
  13, 10, 9, 74, 77, 80, 32, 78, 88, 84, 69, 76]

example : Fine bubble16 := fine_of (by decide +kernel)

/-- /repo/example/bubble8.asm, 1040 bytes -/
def bubble8 : List Byte := [
  59, 84, 72, 73, 83, 32, 83, 85, 66, 82, 79, 85, 84, 73, 78, 69, 32, 65, 82, 82, 65, 78, 71, 69, 83, 32, 84, 72, 69, 32, 56, 45,
  66, 73, 84, 32, 69, 76, 69, 77, 69, 78, 84, 83, 32, 79, 70, 32, 65, 32, 76, 73, 83, 84, 32, 73, 78, 32, 65, 83, 67, 69, 78, 68,
  73, 78, 71, 13, 10, 59, 79, 82, 68, 69, 82, 46, 32, 32, 84, 72, 69, 32, 83, 84, 65, 82, 84, 73, 78, 71, 32, 65, 68, 68, 82, 69,
  83, 83, 32, 79, 70, 32, 84, 72, 69, 32, 76, 73, 83, 84, 32, 73, 83, 32, 73, 78, 32, 76, 79, 67, 65, 84, 73, 79, 78, 83, 32, 36,
  51, 48, 32, 65, 78, 68, 13, 10, 59, 36, 51, 49, 46, 32, 32, 84, 72, 69, 32, 76, 69, 78, 71, 84, 72, 32, 79, 70, 32, 84, 72, 69,
  32, 76, 73, 83, 84, 32, 73, 83, 32, 73, 78, 32, 84, 72, 69, 32, 70, 73, 82, 83, 84, 32, 66, 89, 84, 69, 32, 79, 70, 32, 84, 72,
  69, 32, 76, 73, 83, 84, 46, 32, 32, 76, 79, 67, 65, 84, 73, 79, 78, 13, 10, 59, 36, 51, 50, 32, 73, 83, 32, 85, 83, 69, 68, 32,
  84, 79, 32, 72, 79, 76, 68, 32, 65, 78, 32, 69, 88, 67, 72, 65, 78, 71, 69, 32, 70, 76, 65, 71, 46, 13, 10, 13, 10, 83, 79, 82,
  84, 56, 9, 76, 68, 89, 32, 35, 36, 48, 48, 9, 59, 84, 85, 82, 78, 32, 69, 88, 67, 72, 65, 78, 71, 69, 32, 70, 76, 65, 71, 32,
  79, 70, 70, 32, 40, 61, 32, 48, 41, 13, 10, 9, 83, 84, 89, 32, 36, 51, 50, 13, 10, 9, 76, 68, 65, 32, 40, 36, 51, 48, 41, 44,
  89, 9, 59, 70, 69, 84, 67, 72, 32, 69, 76, 69, 77, 69, 78, 84, 32, 67, 79, 85, 78, 84, 13, 10, 9, 84, 65, 88, 9, 9, 59, 32,
  65, 78, 68, 32, 80, 85, 84, 32, 73, 84, 32, 73, 78, 84, 79, 32, 88, 13, 10, 9, 73, 78, 89, 9, 9, 59, 80, 79, 73, 78, 84, 32,
  84, 79, 32, 70, 73, 82, 83, 84, 32, 69, 76, 69, 77, 69, 78, 84, 32, 73, 78, 32, 76, 73, 83, 84, 13, 10, 9, 68, 69, 88, 9, 9,
  59, 68, 69, 67, 82, 69, 77, 69, 78, 84, 32, 69, 76, 69, 77, 69, 78, 84, 32, 67, 79, 85, 78, 84, 13, 10, 9, 59, 46, 69, 78, 68,
  13, 10, 78, 88, 84, 69, 76, 9, 76, 68, 65, 32, 40, 36, 51, 48, 41, 44, 89, 9, 59, 70, 69, 84, 67, 72, 32, 69, 76, 69, 77, 69,
  78, 84, 13, 10, 9, 73, 78, 89, 13, 10, 9, 67, 77, 80, 32, 40, 36, 51, 48, 41, 44, 89, 9, 59, 73, 83, 32, 73, 84, 32, 76, 65,
  82, 71, 69, 82, 32, 84, 72, 65, 78, 32, 84, 72, 69, 32, 78, 69, 88, 84, 32, 69, 76, 69, 77, 69, 78, 84, 63, 13, 10, 9, 66, 67,
  67, 32, 67, 72, 75, 69, 78, 68, 13, 10, 9, 66, 69, 81, 32, 67, 72, 75, 69, 78, 68, 13, 10, 9, 9, 9, 59, 89, 69, 83, 46, 32,
  69, 88, 67, 72, 65, 78, 71, 69, 32, 69, 76, 69, 77, 69, 78, 84, 83, 32, 73, 78, 32, 77, 69, 77, 79, 82, 89, 13, 10, 9, 80, 72,
  65, 9, 9, 59, 32, 66, 89, 32, 83, 65, 86, 73, 78, 71, 32, 76, 79, 87, 32, 66, 89, 84, 69, 32, 79, 78, 32, 83, 84, 65, 67, 75,
  46, 13, 10, 9, 76, 68, 65, 32, 40, 36, 51, 48, 41, 44, 89, 9, 59, 32, 84, 72, 69, 78, 32, 71, 69, 84, 32, 72, 73, 71, 72, 32,
  66, 89, 84, 69, 32, 65, 78, 68, 13, 10, 9, 68, 69, 89, 9, 9, 59, 32, 83, 84, 79, 82, 69, 32, 73, 84, 32, 65, 84, 32, 76, 79,
  87, 32, 65, 68, 68, 82, 69, 83, 83, 13, 10, 9, 83, 84, 65, 32, 40, 36, 51, 48, 41, 44, 89, 13, 10, 9, 80, 76, 65, 9, 9, 59,
  80, 85, 76, 76, 32, 76, 79, 87, 32, 66, 89, 84, 69, 32, 70, 82, 79, 77, 32, 83, 84, 65, 67, 75, 13, 10, 9, 73, 78, 89, 9, 9,
  59, 32, 65, 78, 68, 32, 83, 84, 79, 82, 69, 32, 73, 84, 32, 65, 84, 32, 72, 73, 71, 72, 32, 65, 68, 68, 82, 69, 83, 83, 13, 10,
  9, 83, 84, 65, 32, 40, 36, 51, 48, 41, 44, 89, 13, 10, 9, 76, 68, 65, 32, 35, 36, 70, 70, 9, 59, 84, 85, 82, 78, 32, 69, 88,
  67, 72, 65, 78, 71, 69, 32, 70, 76, 65, 71, 32, 79, 78, 32, 40, 61, 32, 45, 49, 41, 13, 10, 9, 83, 84, 65, 32, 36, 51, 50, 13,
  10, 67, 72, 75, 69, 78, 68, 9, 68, 69, 88, 9, 9, 59, 69, 78, 68, 32, 79, 70, 32, 76, 73, 83, 84, 63, 13, 10, 9, 66, 78, 69,
  32, 78, 88, 84, 69, 76, 9, 59, 78, 79, 46, 32, 70, 69, 84, 67, 72, 32, 78, 69, 88, 84, 32, 69, 76, 69, 77, 69, 78, 84, 13, 10,
  9, 66, 73, 84, 32, 36, 51, 50, 9, 9, 59, 89, 69, 83, 46, 32, 69, 88, 67, 72, 65, 78, 71, 69, 32, 70, 76, 65, 71, 32, 83, 84,
  73, 76, 76, 32, 79, 70, 70, 63, 13, 10, 9, 66, 77, 73, 32, 83, 79, 82, 84, 56, 9, 59, 78, 79, 46, 32, 71, 79, 32, 84, 72, 82,
  79, 85, 71, 72, 32, 76, 73, 83, 84, 32, 65, 71, 65, 73, 78, 13, 10, 9, 82, 84, 83, 9, 9, 59, 89, 69, 83, 46, 32, 76, 73, 83,
  84, 32, 73, 83, 32, 78, 79, 87, 32, 79, 82, 68, 69, 82, 69, 68]

example : Fine bubble8 := fine_of (by decide +kernel)

/-- /repo/example/exhaustive.asm, 1504 bytes -/
def exhaustive : List Byte := [
  65, 68, 68, 82, 69, 83, 83, 9, 9, 61, 9, 36, 65, 66, 67, 68, 13, 10, 67, 79, 78, 83, 84, 56, 9, 9, 61, 9, 36, 55, 70, 9,
  59, 32, 109, 97, 115, 115, 119, 101, 114, 107, 32, 97, 115, 115, 101, 109, 98, 108, 101, 114, 32, 111, 110, 108, 121, 32, 108, 111, 111, 107, 115, 32,
  97, 116, 32, 56, 32, 99, 104, 97, 114, 115, 32, 105, 110, 32, 108, 97, 98, 101, 108, 115, 13, 10, 67, 79, 78, 83, 84, 49, 54, 9, 9, 61,
  9, 36, 49, 49, 49, 49, 13, 10, 13, 10, 59, 32, 105, 110, 32, 109, 97, 115, 115, 119, 101, 114, 107, 44, 32, 82, 69, 77, 79, 86, 69, 32,
  84, 72, 69, 32, 80, 69, 82, 73, 79, 68, 83, 33, 32, 103, 97, 105, 97, 32, 97, 108, 108, 111, 119, 115, 32, 116, 104, 101, 109, 13, 10, 68,
  73, 82, 49, 9, 9, 46, 69, 81, 85, 9, 36, 52, 48, 48, 48, 13, 10, 68, 73, 82, 50, 9, 9, 46, 69, 81, 85, 9, 36, 56, 48, 48,
  48, 13, 10, 59, 46, 68, 69, 70, 73, 78, 69, 9, 9, 68, 73, 82, 50, 9, 36, 56, 48, 48, 48, 9, 59, 32, 109, 97, 115, 115, 119, 101,
  114, 107, 32, 100, 111, 101, 115, 32, 110, 111, 116, 32, 97, 99, 99, 101, 112, 116, 32, 116, 104, 105, 115, 32, 100, 105, 114, 101, 99, 116, 105, 118,
  101, 13, 10, 13, 10, 9, 9, 59, 46, 79, 82, 71, 9, 36, 49, 48, 48, 48, 13, 10, 9, 9, 59, 42, 61, 36, 50, 48, 48, 9, 9, 59,
  32, 109, 97, 115, 115, 119, 101, 114, 107, 32, 100, 111, 101, 115, 32, 110, 111, 116, 32, 112, 97, 100, 32, 116, 104, 101, 32, 98, 105, 110, 97, 114,
  121, 32, 102, 105, 108, 101, 32, 119, 105, 116, 104, 32, 122, 101, 114, 111, 13, 10, 9, 9, 9, 9, 59, 32, 98, 121, 116, 101, 115, 32, 116, 111,
  32, 114, 101, 97, 99, 104, 32, 116, 104, 101, 32, 115, 116, 97, 116, 101, 100, 32, 112, 99, 44, 32, 98, 117, 116, 32, 103, 97, 105, 97, 32, 100,
  111, 101, 115, 13, 10, 76, 65, 66, 69, 76, 49, 13, 10, 9, 9, 73, 78, 88, 13, 10, 9, 9, 82, 79, 76, 9, 65, 13, 10, 9, 9, 79,
  82, 65, 9, 36, 65, 65, 13, 10, 9, 9, 65, 83, 76, 9, 67, 79, 78, 83, 84, 56, 13, 10, 9, 9, 76, 68, 65, 9, 36, 49, 50, 51,
  52, 13, 10, 9, 9, 67, 80, 89, 9, 76, 65, 66, 69, 76, 49, 13, 10, 9, 9, 83, 66, 67, 9, 36, 66, 66, 44, 88, 13, 10, 9, 9,
  82, 79, 82, 9, 67, 79, 78, 83, 84, 56, 44, 88, 13, 10, 9, 9, 73, 78, 67, 9, 36, 49, 48, 48, 48, 44, 88, 13, 10, 9, 9, 67,
  77, 80, 9, 67, 79, 78, 83, 84, 49, 54, 44, 88, 13, 10, 9, 9, 83, 84, 88, 9, 36, 67, 67, 44, 89, 13, 10, 9, 9, 76, 68, 88,
  9, 67, 79, 78, 83, 84, 56, 44, 89, 13, 10, 9, 9, 83, 84, 65, 9, 36, 68, 69, 65, 68, 44, 89, 13, 10, 9, 9, 65, 78, 68, 9,
  65, 68, 68, 82, 69, 83, 83, 44, 89, 13, 10, 9, 9, 74, 77, 80, 9, 40, 36, 70, 65, 67, 69, 41, 13, 10, 9, 9, 74, 77, 80, 9,
  40, 65, 68, 68, 82, 69, 83, 83, 41, 13, 10, 9, 9, 69, 79, 82, 9, 35, 36, 68, 68, 13, 10, 9, 9, 76, 68, 89, 9, 35, 67, 79,
  78, 83, 84, 56, 13, 10, 59, 32, 105, 110, 100, 105, 114, 101, 99, 116, 32, 97, 100, 100, 114, 101, 115, 115, 105, 110, 103, 32, 105, 115, 32, 97,
  108, 119, 97, 121, 115, 32, 122, 101, 114, 111, 32, 112, 97, 103, 101, 13, 10, 9, 9, 65, 68, 67, 9, 40, 36, 69, 69, 44, 88, 41, 13, 10,
  9, 9, 76, 68, 65, 9, 40, 67, 79, 78, 83, 84, 56, 44, 88, 41, 13, 10, 9, 9, 83, 84, 65, 9, 40, 36, 70, 70, 41, 44, 89, 13,
  10, 9, 9, 83, 66, 67, 9, 40, 67, 79, 78, 83, 84, 56, 41, 44, 89, 13, 10, 13, 10, 9, 9, 66, 77, 73, 9, 76, 65, 66, 69, 76,
  49, 9, 9, 59, 32, 98, 114, 97, 110, 99, 104, 13, 10, 9, 9, 66, 86, 83, 9, 76, 49, 9, 9, 59, 32, 98, 114, 97, 110, 99, 104, 32,
  102, 111, 114, 119, 97, 114, 100, 32, 114, 101, 102, 13, 10, 9, 9, 74, 77, 80, 9, 76, 65, 66, 69, 76, 49, 9, 9, 59, 32, 106, 117, 109,
  112, 13, 10, 9, 9, 74, 83, 82, 9, 76, 51, 9, 9, 59, 32, 106, 117, 109, 112, 32, 102, 111, 114, 119, 97, 114, 100, 32, 114, 101, 102, 13,
  10, 76, 65, 66, 69, 76, 50, 9, 9, 66, 67, 67, 9, 76, 65, 66, 69, 76, 49, 9, 9, 59, 32, 108, 97, 98, 101, 108, 32, 98, 114, 97,
  110, 99, 104, 13, 10, 70, 79, 82, 82, 69, 70, 49, 9, 9, 66, 86, 67, 9, 76, 49, 57, 9, 9, 59, 32, 108, 97, 98, 101, 108, 32, 98,
  114, 97, 110, 99, 104, 32, 102, 111, 114, 119, 97, 114, 100, 32, 114, 101, 102, 13, 10, 76, 65, 66, 69, 76, 51, 9, 9, 74, 83, 82, 9, 76,
  65, 66, 69, 76, 50, 9, 9, 59, 32, 108, 97, 98, 101, 108, 32, 106, 117, 109, 112, 13, 10, 70, 79, 82, 82, 69, 70, 50, 9, 9, 74, 77,
  80, 9, 76, 50, 49, 9, 9, 59, 32, 108, 97, 98, 101, 108, 32, 106, 117, 109, 112, 32, 102, 111, 114, 119, 97, 114, 100, 32, 114, 101, 102, 13,
  10, 9, 9, 74, 77, 80, 9, 40, 87, 72, 69, 82, 69, 41, 9, 9, 59, 32, 105, 110, 100, 105, 114, 101, 99, 116, 32, 102, 111, 114, 119, 97,
  114, 100, 32, 114, 101, 102, 13, 10, 70, 79, 82, 82, 69, 70, 51, 9, 9, 74, 77, 80, 9, 40, 87, 72, 69, 82, 69, 41, 9, 9, 59, 32,
  108, 97, 98, 101, 108, 32, 105, 110, 100, 105, 114, 101, 99, 116, 32, 102, 111, 114, 119, 97, 114, 100, 32, 114, 101, 102, 13, 10, 13, 10, 76, 49,
  9, 9, 68, 69, 89, 13, 10, 76, 50, 9, 9, 65, 83, 76, 9, 65, 13, 10, 76, 51, 9, 9, 83, 84, 89, 9, 36, 65, 65, 13, 10, 76,
  52, 9, 9, 82, 79, 76, 9, 67, 79, 78, 83, 84, 56, 13, 10, 76, 53, 9, 9, 76, 83, 82, 9, 36, 49, 50, 51, 52, 13, 10, 76, 54,
  9, 9, 82, 79, 82, 9, 65, 68, 68, 82, 69, 83, 83, 13, 10, 76, 55, 9, 9, 76, 68, 89, 9, 36, 66, 66, 44, 88, 13, 10, 76, 56,
  9, 9, 68, 69, 67, 9, 67, 79, 78, 83, 84, 56, 44, 88, 13, 10, 76, 57, 9, 9, 73, 78, 67, 9, 36, 49, 48, 48, 48, 44, 88, 13,
  10, 76, 49, 48, 9, 9, 67, 77, 80, 9, 67, 79, 78, 83, 84, 49, 54, 44, 88, 13, 10, 76, 49, 49, 9, 9, 83, 84, 88, 9, 36, 67,
  67, 44, 89, 13, 10, 76, 49, 50, 9, 9, 76, 68, 88, 9, 67, 79, 78, 83, 84, 56, 44, 89, 13, 10, 76, 49, 51, 9, 9, 83, 84, 65,
  9, 36, 66, 48, 48, 66, 44, 89, 13, 10, 76, 49, 52, 9, 9, 65, 78, 68, 9, 65, 68, 68, 82, 69, 83, 83, 44, 89, 13, 10, 76, 49,
  53, 9, 9, 74, 77, 80, 9, 40, 36, 67, 65, 70, 69, 41, 13, 10, 76, 49, 54, 9, 9, 74, 77, 80, 9, 40, 67, 79, 78, 83, 84, 49,
  54, 41, 13, 10, 76, 49, 55, 9, 9, 67, 80, 88, 9, 35, 36, 68, 68, 13, 10, 76, 49, 56, 9, 9, 76, 68, 89, 9, 35, 67, 79, 78,
  83, 84, 56, 13, 10, 76, 49, 57, 9, 9, 65, 68, 67, 9, 40, 36, 69, 69, 44, 88, 41, 13, 10, 76, 50, 48, 9, 9, 76, 68, 65, 9,
  40, 67, 79, 78, 83, 84, 56, 44, 88, 41, 13, 10, 76, 50, 49, 9, 9, 83, 84, 65, 9, 40, 36, 70, 70, 41, 44, 89, 13, 10, 76, 50,
  50, 9, 9, 83, 66, 67, 9, 40, 67, 79, 78, 83, 84, 56, 41, 44, 89, 13, 10, 87, 72, 69, 82, 69, 13, 10, 9, 9, 46, 69, 78, 68]

example : Fine exhaustive := fine_of (by decide +kernel)

/-- /repo/example/patmatch.asm, 1730 bytes -/
def patmatch : List Byte := [
  59, 32, 73, 110, 112, 117, 116, 58, 32, 32, 65, 32, 78, 85, 76, 45, 116, 101, 114, 109, 105, 110, 97, 116, 101, 100, 44, 32, 60, 50, 53, 53,
  45, 108, 101, 110, 103, 116, 104, 32, 112, 97, 116, 116, 101, 114, 110, 32, 97, 116, 32, 97, 100, 100, 114, 101, 115, 115, 32, 80, 65, 84, 84, 69,
  82, 78, 46, 13, 10, 59, 32, 32, 32, 32, 32, 32, 32, 32, 32, 65, 32, 78, 85, 76, 45, 116, 101, 114, 109, 105, 110, 97, 116, 101, 100, 44,
  32, 60, 50, 53, 53, 45, 108, 101, 110, 103, 116, 104, 32, 115, 116, 114, 105, 110, 103, 32, 112, 111, 105, 110, 116, 101, 100, 32, 116, 111, 32, 98,
  121, 32, 83, 84, 82, 46, 13, 10, 59, 13, 10, 59, 32, 79, 117, 116, 112, 117, 116, 58, 32, 67, 97, 114, 114, 121, 32, 98, 105, 116, 32, 61,
  32, 49, 32, 105, 102, 32, 116, 104, 101, 32, 115, 116, 114, 105, 110, 103, 32, 109, 97, 116, 99, 104, 101, 115, 32, 116, 104, 101, 32, 112, 97, 116,
  116, 101, 114, 110, 44, 32, 61, 32, 48, 32, 105, 102, 32, 110, 111, 116, 46, 13, 10, 59, 13, 10, 59, 32, 78, 111, 116, 101, 115, 58, 32, 32,
  67, 108, 111, 98, 98, 101, 114, 115, 32, 65, 44, 32, 88, 44, 32, 89, 46, 32, 69, 97, 99, 104, 32, 42, 32, 105, 110, 32, 116, 104, 101, 32,
  112, 97, 116, 116, 101, 114, 110, 32, 117, 115, 101, 115, 32, 52, 32, 98, 121, 116, 101, 115, 32, 111, 102, 32, 115, 116, 97, 99, 107, 46, 13, 10,
  59, 13, 10, 13, 10, 77, 65, 84, 67, 72, 49, 9, 9, 46, 69, 81, 85, 32, 36, 51, 70, 9, 59, 32, 77, 97, 116, 99, 104, 101, 115, 32,
  101, 120, 97, 99, 116, 108, 121, 32, 49, 32, 99, 104, 97, 114, 97, 99, 116, 101, 114, 13, 10, 77, 65, 84, 67, 72, 78, 9, 9, 46, 69, 81,
  85, 32, 36, 50, 65, 9, 59, 32, 77, 97, 116, 99, 104, 101, 115, 32, 97, 110, 121, 32, 115, 116, 114, 105, 110, 103, 32, 40, 105, 110, 99, 108,
  117, 100, 105, 110, 103, 32, 34, 34, 41, 13, 10, 80, 65, 84, 84, 69, 82, 78, 9, 9, 46, 69, 81, 85, 32, 36, 50, 48, 48, 48, 9, 59,
  32, 65, 100, 100, 114, 101, 115, 115, 32, 111, 102, 32, 112, 97, 116, 116, 101, 114, 110, 13, 10, 83, 84, 82, 9, 9, 46, 69, 81, 85, 32, 36,
  54, 9, 9, 59, 32, 80, 111, 105, 110, 116, 101, 114, 32, 116, 111, 32, 115, 116, 114, 105, 110, 103, 32, 116, 111, 32, 109, 97, 116, 99, 104, 13,
  10, 13, 10, 80, 65, 84, 84, 69, 82, 78, 77, 65, 84, 67, 72, 58, 13, 10, 9, 9, 76, 68, 88, 32, 35, 36, 48, 48, 9, 59, 32, 88,
  32, 105, 115, 32, 97, 110, 32, 105, 110, 100, 101, 120, 32, 105, 110, 32, 116, 104, 101, 32, 112, 97, 116, 116, 101, 114, 110, 13, 10, 9, 9, 76,
  68, 89, 32, 35, 36, 70, 70, 9, 59, 32, 89, 32, 105, 115, 32, 97, 110, 32, 105, 110, 100, 101, 120, 32, 105, 110, 32, 116, 104, 101, 32, 115,
  116, 114, 105, 110, 103, 13, 10, 78, 69, 88, 84, 9, 9, 76, 68, 65, 32, 80, 65, 84, 84, 69, 82, 78, 44, 88, 9, 59, 32, 76, 111, 111,
  107, 32, 97, 116, 32, 110, 101, 120, 116, 32, 112, 97, 116, 116, 101, 114, 110, 32, 99, 104, 97, 114, 97, 99, 116, 101, 114, 13, 10, 9, 9, 67,
  77, 80, 32, 35, 77, 65, 84, 67, 72, 78, 9, 59, 32, 73, 115, 32, 105, 116, 32, 97, 32, 115, 116, 97, 114, 63, 13, 10, 9, 9, 66, 69,
  81, 32, 83, 84, 65, 82, 9, 59, 32, 89, 101, 115, 44, 32, 100, 111, 32, 116, 104, 101, 32, 99, 111, 109, 112, 108, 105, 99, 97, 116, 101, 100,
  32, 115, 116, 117, 102, 102, 13, 10, 9, 9, 73, 78, 89, 9, 9, 59, 32, 78, 111, 44, 32, 108, 101, 116, 39, 115, 32, 108, 111, 111, 107, 32,
  97, 116, 32, 116, 104, 101, 32, 115, 116, 114, 105, 110, 103, 13, 10, 9, 9, 67, 77, 80, 32, 35, 77, 65, 84, 67, 72, 49, 9, 59, 32, 73,
  115, 32, 116, 104, 101, 32, 112, 97, 116, 116, 101, 114, 110, 32, 99, 97, 114, 97, 99, 116, 101, 114, 32, 97, 32, 113, 117, 101, 115, 63, 13, 10,
  9, 9, 66, 78, 69, 32, 82, 69, 71, 9, 9, 59, 32, 78, 111, 44, 32, 105, 116, 39, 115, 32, 97, 32, 114, 101, 103, 117, 108, 97, 114, 32,
  99, 104, 97, 114, 97, 99, 116, 101, 114, 13, 10, 9, 9, 76, 68, 65, 32, 40, 83, 84, 82, 41, 44, 89, 9, 59, 32, 89, 101, 115, 44, 32,
  115, 111, 32, 105, 116, 32, 119, 105, 108, 108, 32, 109, 97, 116, 99, 104, 32, 97, 110, 121, 116, 104, 105, 110, 103, 13, 10, 9, 9, 66, 69, 81,
  32, 70, 65, 73, 76, 9, 59, 32, 32, 101, 120, 99, 101, 112, 116, 32, 116, 104, 101, 32, 101, 110, 100, 32, 111, 102, 32, 115, 116, 114, 105, 110,
  103, 13, 10, 82, 69, 71, 9, 9, 67, 77, 80, 32, 40, 83, 84, 82, 41, 44, 89, 9, 59, 32, 65, 114, 101, 32, 98, 111, 116, 104, 32, 99,
  104, 97, 114, 97, 99, 116, 101, 114, 115, 32, 116, 104, 101, 32, 115, 97, 109, 101, 63, 13, 10, 9, 9, 66, 78, 69, 32, 70, 65, 73, 76, 9,
  59, 32, 78, 111, 44, 32, 115, 111, 32, 110, 111, 32, 109, 97, 116, 99, 104, 13, 10, 9, 9, 73, 78, 88, 9, 9, 59, 32, 89, 101, 115, 44,
  32, 107, 101, 101, 112, 32, 99, 104, 101, 99, 107, 105, 110, 103, 13, 10, 9, 9, 67, 77, 80, 32, 35, 48, 9, 9, 59, 32, 65, 114, 101, 32,
  119, 101, 32, 97, 116, 32, 101, 110, 100, 32, 111, 102, 32, 115, 116, 114, 105, 110, 103, 63, 13, 10, 9, 9, 66, 78, 69, 32, 78, 69, 88, 84,
  9, 59, 32, 78, 111, 116, 32, 121, 101, 116, 44, 32, 108, 111, 111, 112, 13, 10, 70, 79, 85, 78, 68, 9, 9, 82, 84, 83, 9, 9, 59, 32,
  83, 117, 99, 99, 101, 115, 115, 44, 32, 114, 101, 116, 117, 114, 110, 32, 119, 105, 116, 104, 32, 67, 61, 49, 13, 10, 13, 10, 83, 84, 65, 82,
  9, 9, 73, 78, 88, 9, 9, 59, 32, 83, 107, 105, 112, 32, 115, 116, 97, 114, 32, 105, 110, 32, 112, 97, 116, 116, 101, 114, 110, 13, 10, 9,
  9, 67, 77, 80, 32, 80, 65, 84, 84, 69, 82, 78, 44, 88, 9, 59, 32, 83, 116, 114, 105, 110, 103, 32, 111, 102, 32, 115, 116, 97, 114, 115,
  32, 101, 113, 117, 97, 108, 115, 32, 111, 110, 101, 32, 115, 116, 97, 114, 13, 10, 9, 9, 66, 69, 81, 32, 83, 84, 65, 82, 9, 59, 32, 32,
  115, 111, 32, 115, 107, 105, 112, 32, 116, 104, 101, 109, 32, 97, 108, 115, 111, 13, 10, 83, 84, 76, 79, 79, 80, 9, 9, 84, 88, 65, 9, 9,
  59, 32, 87, 101, 32, 102, 105, 114, 115, 116, 32, 116, 114, 121, 32, 116, 111, 32, 109, 97, 116, 99, 104, 32, 119, 105, 116, 104, 32, 42, 32, 61,
  32, 34, 34, 13, 10, 9, 9, 80, 72, 65, 9, 9, 59, 32, 32, 97, 110, 100, 32, 103, 114, 111, 119, 32, 105, 116, 32, 98, 121, 32, 49, 32,
  99, 104, 97, 114, 97, 99, 116, 101, 114, 32, 101, 118, 101, 114, 121, 13, 10, 9, 9, 84, 89, 65, 9, 9, 59, 32, 32, 116, 105, 109, 101, 32,
  119, 101, 32, 108, 111, 111, 112, 13, 10, 9, 9, 80, 72, 65, 9, 9, 59, 32, 83, 97, 118, 101, 32, 88, 32, 97, 110, 100, 32, 89, 32, 111,
  110, 32, 115, 116, 97, 99, 107, 13, 10, 9, 9, 74, 83, 82, 32, 78, 69, 88, 84, 9, 59, 32, 82, 101, 99, 117, 114, 115, 105, 118, 101, 32,
  99, 97, 108, 108, 13, 10, 9, 9, 80, 76, 65, 9, 9, 59, 32, 82, 101, 115, 116, 111, 114, 101, 32, 88, 32, 97, 110, 100, 32, 89, 13, 10,
  9, 9, 84, 65, 89, 13, 10, 9, 9, 80, 76, 65, 13, 10, 9, 9, 84, 65, 88, 13, 10, 9, 9, 66, 67, 83, 32, 70, 79, 85, 78, 68,
  9, 59, 32, 87, 101, 32, 102, 111, 117, 110, 100, 32, 97, 32, 109, 97, 116, 99, 104, 44, 32, 114, 101, 116, 117, 114, 110, 32, 119, 105, 116, 104,
  32, 67, 61, 49, 13, 10, 9, 9, 73, 78, 89, 9, 9, 59, 32, 78, 111, 32, 109, 97, 116, 99, 104, 32, 121, 101, 116, 44, 32, 116, 114, 121,
  32, 116, 111, 32, 103, 114, 111, 119, 32, 42, 32, 115, 116, 114, 105, 110, 103, 13, 10, 9, 9, 76, 68, 65, 32, 40, 83, 84, 82, 41, 44, 89,
  9, 59, 32, 65, 114, 101, 32, 119, 101, 32, 97, 116, 32, 116, 104, 101, 32, 101, 110, 100, 32, 111, 102, 32, 115, 116, 114, 105, 110, 103, 63, 13,
  10, 9, 9, 66, 78, 69, 32, 83, 84, 76, 79, 79, 80, 9, 59, 32, 78, 111, 116, 32, 121, 101, 116, 44, 32, 97, 100, 100, 32, 97, 32, 99,
  104, 97, 114, 97, 99, 116, 101, 114, 13, 10, 70, 65, 73, 76, 9, 9, 67, 76, 67, 9, 9, 59, 32, 89, 101, 115, 44, 32, 110, 111, 32, 109,
  97, 116, 99, 104, 32, 102, 111, 117, 110, 100, 44, 32, 114, 101, 116, 117, 114, 110, 32, 119, 105, 116, 104, 32, 67, 61, 48, 13, 10, 9, 9, 82,
  84, 83]

example : Fine patmatch := fine_of (by decide +kernel)

/-- /repo/example/strcmp.asm, 842 bytes -/
def strcmp : List Byte := [
  83, 84, 82, 69, 81, 85, 58, 9, 9, 76, 68, 89, 32, 35, 36, 48, 48, 9, 59, 67, 111, 109, 112, 97, 114, 101, 32, 115, 116, 114, 105, 110,
  103, 115, 44, 32, 99, 97, 115, 101, 45, 115, 101, 110, 115, 105, 116, 105, 118, 101, 13, 10, 9, 9, 76, 68, 65, 32, 40, 36, 70, 65, 41, 44,
  89, 9, 59, 78, 97, 116, 117, 114, 97, 108, 108, 121, 44, 32, 116, 104, 101, 32, 122, 101, 114, 111, 32, 102, 108, 97, 103, 32, 105, 115, 32, 117,
  115, 101, 100, 32, 116, 111, 32, 114, 101, 116, 117, 114, 110, 32, 105, 102, 32, 116, 104, 101, 32, 115, 116, 114, 105, 110, 103, 115, 32, 97, 114, 101,
  32, 101, 113, 117, 97, 108, 13, 10, 9, 9, 67, 77, 80, 32, 40, 36, 70, 67, 41, 44, 89, 13, 10, 9, 9, 66, 69, 81, 32, 83, 84, 82,
  69, 81, 85, 49, 13, 10, 9, 9, 82, 84, 83, 13, 10, 83, 84, 82, 69, 81, 85, 49, 58, 9, 84, 65, 89, 13, 10, 83, 84, 82, 69, 81,
  85, 76, 80, 58, 9, 76, 68, 65, 32, 40, 36, 70, 67, 41, 44, 89, 13, 10, 9, 9, 65, 78, 68, 32, 35, 36, 55, 70, 13, 10, 9, 9,
  83, 84, 65, 32, 36, 70, 70, 13, 10, 9, 9, 76, 68, 65, 32, 40, 36, 70, 65, 41, 44, 89, 13, 10, 9, 9, 65, 78, 68, 32, 35, 36,
  55, 70, 13, 10, 9, 9, 67, 77, 80, 32, 36, 70, 70, 13, 10, 9, 9, 66, 78, 69, 32, 83, 84, 82, 69, 81, 85, 69, 88, 13, 10, 9,
  9, 68, 69, 89, 13, 10, 9, 9, 66, 78, 69, 32, 83, 84, 82, 69, 81, 85, 76, 80, 13, 10, 83, 84, 82, 69, 81, 85, 69, 88, 58, 9,
  82, 84, 83, 13, 10, 13, 10, 59, 67, 111, 109, 112, 97, 114, 105, 110, 103, 32, 83, 116, 114, 105, 110, 103, 115, 32, 40, 67, 97, 115, 101, 45,
  73, 110, 115, 101, 110, 115, 105, 116, 105, 118, 101, 41, 58, 13, 10, 13, 10, 83, 84, 82, 69, 81, 73, 58, 9, 9, 76, 68, 89, 32, 35, 36,
  48, 48, 9, 59, 67, 111, 109, 112, 97, 114, 101, 32, 115, 116, 114, 105, 110, 103, 115, 44, 32, 99, 97, 115, 101, 45, 105, 110, 115, 101, 110, 115,
  105, 116, 105, 118, 101, 13, 10, 9, 9, 76, 68, 65, 32, 40, 36, 70, 65, 41, 44, 89, 9, 59, 78, 97, 116, 117, 114, 97, 108, 108, 121, 44,
  32, 116, 104, 101, 32, 122, 101, 114, 111, 32, 102, 108, 97, 103, 32, 105, 115, 32, 117, 115, 101, 100, 32, 116, 111, 32, 114, 101, 116, 117, 114, 110,
  32, 105, 102, 32, 116, 104, 101, 32, 115, 116, 114, 105, 110, 103, 115, 32, 97, 114, 101, 32, 101, 113, 117, 97, 108, 13, 10, 9, 9, 67, 77, 80,
  32, 40, 36, 70, 67, 41, 44, 89, 13, 10, 9, 9, 66, 69, 81, 32, 83, 84, 82, 69, 81, 73, 49, 13, 10, 9, 9, 82, 84, 83, 13, 10,
  83, 84, 82, 69, 81, 73, 49, 58, 9, 84, 65, 89, 13, 10, 83, 84, 82, 69, 81, 73, 76, 80, 58, 9, 76, 68, 65, 32, 40, 36, 70, 67,
  41, 44, 89, 13, 10, 9, 9, 65, 78, 68, 32, 35, 36, 55, 70, 13, 10, 9, 9, 67, 77, 80, 32, 35, 36, 55, 66, 13, 10, 9, 9, 66,
  67, 83, 32, 83, 84, 82, 69, 81, 73, 50, 13, 10, 9, 9, 67, 77, 80, 32, 35, 36, 54, 49, 13, 10, 9, 9, 66, 67, 67, 32, 83, 84,
  82, 69, 81, 73, 50, 13, 10, 9, 9, 83, 66, 67, 32, 35, 36, 50, 48, 13, 10, 83, 84, 82, 69, 81, 73, 50, 58, 9, 83, 84, 65, 32,
  36, 70, 70, 13, 10, 9, 9, 76, 68, 65, 32, 40, 36, 70, 65, 41, 44, 89, 13, 10, 9, 9, 65, 78, 68, 32, 35, 36, 55, 70, 13, 10,
  9, 9, 67, 77, 80, 32, 35, 36, 55, 66, 13, 10, 9, 9, 66, 67, 83, 32, 83, 84, 82, 69, 81, 73, 51, 13, 10, 9, 9, 67, 77, 80,
  32, 35, 36, 54, 49, 13, 10, 9, 9, 66, 67, 67, 32, 83, 84, 82, 69, 81, 73, 51, 13, 10, 9, 9, 83, 66, 67, 32, 35, 36, 50, 48,
  13, 10, 83, 84, 82, 69, 81, 73, 51, 58, 9, 67, 77, 80, 32, 36, 70, 70, 13, 10, 9, 9, 66, 78, 69, 32, 83, 84, 82, 69, 81, 73,
  69, 88, 13, 10, 9, 9, 68, 69, 89, 13, 10, 9, 9, 66, 78, 69, 32, 83, 84, 82, 69, 81, 73, 76, 80, 13, 10, 83, 84, 82, 69, 81,
  73, 69, 88, 58, 9, 82, 84, 83, 13, 10]

example : Fine strcmp := fine_of (by decide +kernel)

/-- /repo/example/tolower.asm, 1362 bytes -/
def tolower : List Byte := [
  59, 32, 84, 79, 76, 79, 87, 69, 82, 58, 13, 10, 59, 13, 10, 59, 32, 32, 32, 67, 111, 110, 118, 101, 114, 116, 32, 97, 32, 110, 117, 108,
  108, 45, 116, 101, 114, 109, 105, 110, 97, 116, 101, 100, 32, 99, 104, 97, 114, 97, 99, 116, 101, 114, 32, 115, 116, 114, 105, 110, 103, 32, 116, 111,
  32, 97, 108, 108, 32, 108, 111, 119, 101, 114, 32, 99, 97, 115, 101, 46, 13, 10, 59, 32, 32, 32, 77, 97, 120, 105, 109, 117, 109, 32, 115, 116,
  114, 105, 110, 103, 32, 108, 101, 110, 103, 116, 104, 32, 105, 115, 32, 50, 53, 53, 32, 99, 104, 97, 114, 97, 99, 116, 101, 114, 115, 44, 32, 112,
  108, 117, 115, 32, 116, 104, 101, 32, 110, 117, 108, 108, 32, 116, 101, 114, 109, 45, 13, 10, 59, 32, 32, 32, 105, 110, 97, 116, 111, 114, 46, 13,
  10, 59, 13, 10, 59, 32, 80, 97, 114, 97, 109, 101, 116, 101, 114, 115, 58, 13, 10, 59, 13, 10, 59, 32, 32, 32, 83, 82, 67, 32, 226, 128,
  147, 32, 83, 111, 117, 114, 99, 101, 32, 115, 116, 114, 105, 110, 103, 32, 97, 100, 100, 114, 101, 115, 115, 13, 10, 59, 32, 32, 32, 68, 83, 84,
  32, 226, 128, 147, 32, 68, 101, 115, 116, 105, 110, 97, 116, 105, 111, 110, 32, 115, 116, 114, 105, 110, 103, 32, 97, 100, 100, 114, 101, 115, 115, 13,
  10, 59, 13, 10, 83, 82, 67, 32, 32, 32, 32, 32, 61, 32, 36, 48, 48, 56, 48, 32, 32, 32, 32, 32, 59, 115, 111, 117, 114, 99, 101, 32,
  115, 116, 114, 105, 110, 103, 32, 112, 111, 105, 110, 116, 101, 114, 13, 10, 68, 83, 84, 32, 32, 32, 32, 32, 61, 32, 36, 48, 48, 56, 50, 32,
  32, 32, 32, 32, 59, 100, 101, 115, 116, 105, 110, 97, 116, 105, 111, 110, 32, 115, 116, 114, 105, 110, 103, 32, 112, 111, 105, 110, 116, 101, 114, 13,
  10, 59, 13, 10, 32, 32, 32, 32, 32, 32, 32, 32, 46, 79, 82, 71, 32, 36, 48, 54, 48, 48, 32, 32, 32, 32, 32, 32, 32, 59, 101, 120,
  101, 99, 117, 116, 105, 111, 110, 32, 115, 116, 97, 114, 116, 32, 97, 100, 100, 114, 101, 115, 115, 13, 10, 59, 13, 10, 84, 79, 76, 79, 87, 69,
  82, 32, 76, 68, 89, 32, 35, 36, 48, 48, 32, 32, 32, 32, 32, 32, 32, 32, 59, 115, 116, 97, 114, 116, 105, 110, 103, 32, 105, 110, 100, 101,
  120, 13, 10, 59, 13, 10, 76, 79, 79, 80, 32, 32, 32, 32, 76, 68, 65, 32, 40, 83, 82, 67, 41, 44, 89, 32, 32, 32, 32, 32, 59, 103,
  101, 116, 32, 102, 114, 111, 109, 32, 115, 111, 117, 114, 99, 101, 32, 115, 116, 114, 105, 110, 103, 13, 10, 32, 32, 32, 32, 32, 32, 32, 32, 66,
  69, 81, 32, 68, 79, 78, 69, 32, 32, 32, 32, 32, 32, 32, 32, 59, 101, 110, 100, 32, 111, 102, 32, 115, 116, 114, 105, 110, 103, 13, 10, 59,
  13, 10, 32, 32, 32, 32, 32, 32, 32, 32, 67, 77, 80, 32, 35, 54, 53, 32, 32, 32, 32, 32, 32, 32, 32, 32, 59, 105, 102, 32, 108, 111,
  119, 101, 114, 32, 116, 104, 97, 110, 32, 85, 67, 32, 97, 108, 112, 104, 97, 98, 101, 116, 46, 46, 46, 13, 10, 32, 32, 32, 32, 32, 32, 32,
  32, 66, 67, 67, 32, 83, 75, 73, 80, 32, 32, 32, 32, 32, 32, 32, 32, 59, 99, 111, 112, 121, 32, 117, 110, 99, 104, 97, 110, 103, 101, 100,
  13, 10, 59, 13, 10, 32, 32, 32, 32, 32, 32, 32, 32, 67, 77, 80, 32, 35, 57, 49, 32, 32, 32, 32, 32, 32, 32, 32, 32, 59, 105, 102,
  32, 103, 114, 101, 97, 116, 101, 114, 32, 116, 104, 97, 110, 32, 85, 67, 32, 97, 108, 112, 104, 97, 98, 101, 116, 46, 46, 46, 32, 40, 57, 49,
  61, 39, 90, 39, 43, 49, 41, 13, 10, 32, 32, 32, 32, 32, 32, 32, 32, 66, 67, 83, 32, 83, 75, 73, 80, 32, 32, 32, 32, 32, 32, 32,
  32, 59, 99, 111, 112, 121, 32, 117, 110, 99, 104, 97, 110, 103, 101, 100, 13, 10, 59, 13, 10, 32, 32, 32, 32, 32, 32, 32, 32, 79, 82, 65,
  32, 35, 37, 48, 48, 49, 48, 48, 48, 48, 48, 32, 32, 59, 99, 111, 110, 118, 101, 114, 116, 32, 116, 111, 32, 108, 111, 119, 101, 114, 32, 99,
  97, 115, 101, 13, 10, 59, 13, 10, 83, 75, 73, 80, 32, 32, 32, 32, 83, 84, 65, 32, 40, 68, 83, 84, 41, 44, 89, 32, 32, 32, 32, 32,
  59, 115, 116, 111, 114, 101, 32, 116, 111, 32, 100, 101, 115, 116, 105, 110, 97, 116, 105, 111, 110, 32, 115, 116, 114, 105, 110, 103, 13, 10, 32, 32,
  32, 32, 32, 32, 32, 32, 73, 78, 89, 32, 32, 32, 32, 32, 32, 32, 32, 32, 32, 32, 32, 32, 59, 98, 117, 109, 112, 32, 105, 110, 100, 101,
  120, 13, 10, 32, 32, 32, 32, 32, 32, 32, 32, 66, 78, 69, 32, 76, 79, 79, 80, 32, 32, 32, 32, 32, 32, 32, 32, 59, 110, 101, 120, 116,
  32, 99, 104, 97, 114, 97, 99, 116, 101, 114, 13, 10, 59, 13, 10, 59, 32, 78, 79, 84, 69, 58, 32, 73, 102, 32, 89, 32, 119, 114, 97, 112,
  115, 32, 116, 104, 101, 32, 100, 101, 115, 116, 105, 110, 97, 116, 105, 111, 110, 32, 115, 116, 114, 105, 110, 103, 32, 119, 105, 108, 108, 32, 98, 101,
  32, 108, 101, 102, 116, 32, 105, 110, 32, 97, 110, 32, 117, 110, 100, 101, 102, 105, 110, 101, 100, 13, 10, 59, 32, 32, 115, 116, 97, 116, 101, 46,
  32, 87, 101, 32, 115, 101, 116, 32, 99, 97, 114, 114, 121, 32, 116, 111, 32, 105, 110, 100, 105, 99, 97, 116, 101, 32, 116, 104, 105, 115, 32, 116,
  111, 32, 116, 104, 101, 32, 99, 97, 108, 108, 105, 110, 103, 32, 102, 117, 110, 99, 116, 105, 111, 110, 46, 13, 10, 59, 13, 10, 32, 32, 32, 32,
  32, 32, 32, 32, 83, 69, 67, 32, 32, 32, 32, 32, 32, 32, 32, 32, 32, 32, 32, 32, 59, 114, 101, 112, 111, 114, 116, 32, 115, 116, 114, 105,
  110, 103, 32, 116, 111, 111, 32, 108, 111, 110, 103, 32, 101, 114, 114, 111, 114, 32, 38, 46, 46, 46, 13, 10, 32, 32, 32, 32, 32, 32, 32, 32,
  82, 84, 83, 32, 32, 32, 32, 32, 32, 32, 32, 32, 32, 32, 32, 32, 59, 114, 101, 116, 117, 114, 110, 32, 116, 111, 32, 99, 97, 108, 108, 101,
  114, 13, 10, 59, 13, 10, 68, 79, 78, 69, 32, 32, 32, 32, 83, 84, 65, 32, 40, 68, 83, 84, 41, 44, 89, 32, 32, 32, 32, 32, 59, 116,
  101, 114, 109, 105, 110, 97, 116, 101, 32, 100, 101, 115, 116, 105, 110, 97, 116, 105, 111, 110, 32, 115, 116, 114, 105, 110, 103, 13, 10, 32, 32, 32,
  32, 32, 32, 32, 32, 67, 76, 67, 32, 32, 32, 32, 32, 32, 32, 32, 32, 32, 32, 32, 32, 59, 114, 101, 112, 111, 114, 116, 32, 99, 111, 110,
  118, 101, 114, 115, 105, 111, 110, 32, 99, 111, 109, 112, 108, 101, 116, 101, 100, 32, 38, 46, 46, 46, 13, 10, 32, 32, 32, 32, 32, 32, 32, 32,
  82, 84, 83, 32, 32, 32, 32, 32, 32, 32, 32, 32, 32, 32, 32, 32, 59, 114, 101, 116, 117, 114, 110, 32, 116, 111, 32, 99, 97, 108, 108, 101,
  114, 13, 10, 59, 13, 10, 32, 32, 32, 32, 32, 32, 32, 32, 46, 69, 78, 68]

example : Fine tolower := fine_of (by decide +kernel)

end Gaia.Shipped

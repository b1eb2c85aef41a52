import Verif.Props.Example

/-! C30: nothing after `.END` matters. -/
set_option maxRecDepth 10000
namespace Gaia
open Spec

/-- **C30.** If a source contains, after any complete lines `pre` (errors included), a line that consists of `.END`
(with blanks and a comment at will), then what follows that line, whatever it is, has no influence at all: same exit
status, same text printed, same output file. -/
theorem C30_end {w w' : World} {srcName outName : Str} {pre l rest rest' : List Byte} {k : Nat} (hpre : WholeLines pre)
    (hl : ∀ c ∈ l, c ≠ 10) (hn : l.length ≤ 126) (h : Lexes l [(k, .stop)])
    (hw : Setup w srcName outName (pre ++ l ++ 10 :: rest)) (hw' : Setup w' srcName outName (pre ++ l ++ 10 :: rest'))
    (hs : Sized (pre ++ l ++ 10 :: rest)) (hs' : Sized (pre ++ l ++ 10 :: rest')) :
    SameRun srcName outName w w' :=
  run_end hpre hl hn h hw hw' hs hs'

/-- The same against a source that ends with the `.END` line, without a newline. -/
theorem C30_end_last {w w' : World} {srcName outName : Str} {pre l rest : List Byte} {k : Nat} (hpre : WholeLines pre)
    (hl : ∀ c ∈ l, c ≠ 10) (hn : l.length ≤ 126) (h : Lexes l [(k, .stop)])
    (hw : Setup w srcName outName (pre ++ l ++ 10 :: rest)) (hw' : Setup w' srcName outName (pre ++ l))
    (hs : Sized (pre ++ l ++ 10 :: rest)) : SameRun srcName outName w w' := by
  have hne : l ≠ [] := by
    rintro rfl
    have := lexemes_complete h
    have h0 : lexemes [] = .ok [] := rfl
    rw [h0] at this
    simp at this
  refine sameRun_of hw hw' hs (sized_sublist (List.sublist_append_left _ _) hs) ?_
  rw [List.append_assoc, chunks_whole hpre, chunks_whole hpre, chunks_cut hl hn, chunks_cons (s := l) hne,
    fgets_last 127 l hl (by omega), runLines_append, runLines_append]
  cases runOn srcName (chunks pre) A.init with
  | error e => rfl
  | ok r =>
    obtain ⟨b, a⟩ := r
    cases b
    · simp only [runLines, line_end (l := l) (.inr rfl) h, line_end (l := l) (.inl rfl) h]
    · rfl

/-- Non-vacuity: garbage after `.END`. -/
example : SameRun (b! "p.asm") (b! "p.bin") (demo (b! "NOP\n .end ; stop\n?!garbage\nNOP\n")) (demo (b! "NOP\n .end ; stop\n")) := by
  have h : Lexes (b! " .end ; stop") [(1, .stop)] := lexes_eval (by decide +kernel) (by decide +kernel)
  exact C30_end (pre := b! "NOP\n") (l := b! " .end ; stop") (rest := b! "?!garbage\nNOP\n") (rest' := []) (.inr ⟨b! "NOP", rfl⟩)
    (by decide +kernel) (by decide) h (demo_setup _) (demo_setup _) (by decide) (by decide)

example : demoRun (b! "NOP\n .end ; stop\n?!garbage\nNOP\n") =
    some (0, b! "Assembly successful.\n1 (0x0001) bytes assembled.\n0 symbols.\n", some [0xEA]) := by decide +kernel
/-- Without `.END` that garbage is an error. -/
example : (demoRun (b! "NOP\n?!garbage\nNOP\n")).map (·.1) = some 1 := by decide +kernel

end Gaia

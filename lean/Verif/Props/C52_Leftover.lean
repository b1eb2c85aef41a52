import Verif.Props.C41_WriteLog
import Verif.Proofs.BadLine
import Mathlib.Data.List.TakeWhile

/-! C52: what a failing run leaves in the output file. -/
set_option maxRecDepth 10000
namespace Gaia
open Spec

theorem failsLeaving_of {w : World} {srcName outName : Str} {src : List Byte} (h : Setup w srcName outName src) {a : Abort}
    (ha : assembleBytes srcName src = .err a) : FailsLeaving w srcName outName a.fail.out a.out.bytes := by
  unfold FailsLeaving
  rw [gaia_eq h, ha]
  rfl

theorem firstFault_take : ∀ (p : List Stmt) (n : Nat) (s : Pass1) {k : Nat} {e : Err}, firstFault p n s = some (k, e) →
    firstFault (p.take (k - n)) n s = none
  | [], _, _, _, _, h => by simp [firstFault] at h
  | st :: p, n, s, k, e, h => by
    have hnk := firstFault_line _ _ _ h
    by_cases hst : st = .stop
    · subst hst; simp [firstFault] at h
    · rw [firstFault_cons hst] at h
      cases hf : stmtFault s st with
      | some e' =>
        rw [hf] at h
        obtain ⟨rfl, _⟩ : n = k ∧ _ := by simpa using h
        simp [firstFault]
      | none =>
        rw [hf] at h
        have hnk' := firstFault_line _ _ _ h
        rw [show k - n = (k - (n + 1)) + 1 by omega, List.take_succ_cons, firstFault_cons hst, hf]
        exact firstFault_take p (n + 1) _ h

theorem writeLog_of {p : List Stmt} (h : firstFault p 1 .init = none) :
    writesFrom 0 (placed p 1 .init) = writeLog 0 (placed p 1 .init) := by
  obtain ⟨s, h1, h2⟩ := (firstFault_none_iff p 1 .init).1 h
  obtain ⟨_, g2⟩ := placed_made p 1 h1
  exact writeLog_eq _ _ fun e he => ⟨(g2 e he).1, h2 e he⟩

/-- The run of a faulty program, with its output. -/
theorem run_error_out {w : World} {srcName outName : Str} {src : List Byte} {p : List Stmt} (hw : Setup w srcName outName src)
    (hp : IsProgram src p) {k : Nat} {e : Err} (he : check p = some (k, e)) :
    ∃ l x out, (lines src)[k - 1]? = some l ∧ Lexes l x ∧
      FailsLeaving w srcName outName (diag (l.takeWhile (· != 0)) e (faultPos x e) srcName k) out ∧
      (firstFault p 1 .init ≠ none → out = image (writesFrom 0 (placed (p.take (k - 1)) 1 .init))) ∧
      (firstFault p 1 .init = none → ∃ s, pass1 p .init = some s ∧ out = image (writesFrom 0 (placed p 1 .init) ++
        patches s.env ((placed p 1 .init).takeWhile fun e => (Placed.fault s.env e).isNone))) := by
  obtain ⟨raw, ls, out, h1, h2, h3, h4, h5⟩ := (assembleA_spec_out srcName src p hp.short hp.reads hp.noForwardJump).1 k e he
  obtain ⟨l, k1, k2⟩ := forall₂_get (chunks_lines src hp.short) h1
  have hs := assemble_sim srcName src hp.size
  rw [h3] at hs
  have hl := (k2.lexes ls).1 h2
  simp only at hs
  rw [diag_buffers k2 _ _ _ _ (fun q hq => by
    obtain ⟨x, hx⟩ := faultPos_mem hq
    exact Lexes_offset hl _ hx)] at hs
  refine ⟨l, ls, out.bytes, k1, hl, failsLeaving_of hw hs, fun h => (h4 h).bytes, fun h => ?_⟩
  obtain ⟨s, g1, g2⟩ := h5 h
  exact ⟨s, g1, g2.bytes⟩

/-- **C52.** If a statement of the program is in error (the first fault is in line `k`), gaia stops there: it reports it, and the
output file holds exactly what the lines before it wrote, as in `Spec/WriteLog.lean` (references to labels not yet defined
are still zero). -/
theorem C52_statement_error {w : World} {srcName outName : Str} {src : List Byte} {p : List Stmt} (hw : Setup w srcName outName src)
    (hp : IsProgram src p) {k : Nat} {e : Err} (he : firstFault p 1 .init = some (k, e)) :
    ∃ l x, (lines src)[k - 1]? = some l ∧ Lexes l x ∧
      FailsLeaving w srcName outName (diag (l.takeWhile (· != 0)) e (faultPos x e) srcName k)
        (image (writeLog 0 (placed (p.take (k - 1)) 1 .init))) := by
  have hc : check p = some (k, e) := by unfold check; rw [he]
  obtain ⟨l, x, out, h1, h2, h3, h4, _⟩ := run_error_out hw hp hc
  refine ⟨l, x, h1, h2, ?_⟩
  rwa [h4 (by rw [he]; simp), writeLog_of (firstFault_take p 1 .init he)] at h3

/-- **C52.** If the statements are fine but a reference is not (label never defined, or branch too far), gaia has written the
whole program, and the references before the bad one have been filled in; the bad one and those after it are still zero. -/
theorem C52_reference_error {w : World} {srcName outName : Str} {src : List Byte} {p : List Stmt} (hw : Setup w srcName outName src)
    (hp : IsProgram src p) (hf : firstFault p 1 .init = none) {k : Nat} {e : Err} (he : check p = some (k, e)) :
    ∃ s l x, pass1 p .init = some s ∧ (lines src)[k - 1]? = some l ∧ Lexes l x ∧
      FailsLeaving w srcName outName (diag (l.takeWhile (· != 0)) e (faultPos x e) srcName k)
        (image (writeLog 0 (placed p 1 .init) ++
          patchLog s.env ((placed p 1 .init).takeWhile fun e => (Placed.fault s.env e).isNone))) := by
  obtain ⟨l, x, out, h1, h2, h3, _, h5⟩ := run_error_out hw hp he
  obtain ⟨s, g1, g2⟩ := h5 hf
  refine ⟨s, l, x, g1, h1, h2, ?_⟩
  have hp2 : patches s.env ((placed p 1 .init).takeWhile fun e => (Placed.fault s.env e).isNone) =
      patchLog s.env ((placed p 1 .init).takeWhile fun e => (Placed.fault s.env e).isNone) := by
    obtain ⟨_, m2⟩ := placed_made p 1 g1
    obtain ⟨s', i1, i2⟩ := (firstFault_none_iff p 1 .init).1 hf
    apply patchLog_eq
    intro d hd
    have hm := (List.takeWhile_prefix _).subset hd
    have hn := List.mem_takeWhile_imp hd
    exact (encodeLow_iff (m2 d hm).1 (m2 d hm).2).1 ⟨i2 d hm, by simpa using hn⟩
  rwa [g2, writeLog_of hf, hp2] at h3

/-- **C52.** If a line cannot be read as a statement, and no line before it is in error, the output file holds exactly what the
lines before it wrote. -/
theorem C52_bad_line {w : World} {srcName outName : Str} {src : List Byte} {p : List Stmt} {l : List Byte} {rest : List (List Byte)}
    (hw : Setup w srcName outName src) (h : Continues src p l rest) (he : firstFault p 1 .init = none) :
    (∀ e pos, BadLine l e pos → (e = .tooBigLiteral → HugeFree l) →
      FailsLeaving w srcName outName (diag (l.takeWhile (· != 0)) e pos srcName (p.length + 1))
        (image (writeLog 0 (placed p 1 .init)))) ∧
    (TooMany l → FailsLeaving w srcName outName [] (image (writeLog 0 (placed p 1 .init)))) := by
  obtain ⟨raw, tail, s, a, h1, h2, h3, h4⟩ := (assembleA_continues h srcName).2 he
  have hb := h3.out.bytes
  rw [writeLog_of he] at hb
  rw [← hb]
  have hs := assemble_sim srcName src h.size
  constructor
  · intro e pos hbad hh
    have hl := line_bad h1 hh hbad srcName a
    rw [h3.line] at hl
    have hA : assembleA srcName src = .error ⟨⟨e, diag (cstr l) e pos srcName (p.length + 1)⟩, a.out⟩ := by
      unfold assembleA
      rw [h4, runLines, hl]
    rw [hA] at hs
    exact failsLeaving_of hw hs
  · intro ht
    have hA : assembleA srcName src = .error ⟨⟨.tooManyTokens, []⟩, a.out⟩ := by
      unfold assembleA
      rw [h4, runLines]
      unfold line
      rw [lexemes_buffers h1, tooMany_complete ht]
    rw [hA] at hs
    exact failsLeaving_of hw hs

/-- The third line is in error; the first two are in the output, the forward jump with zeros. -/
example : IsProgram (b! " JMP L\n RTS\n LDA N\nL NOP\n") [.instr none .JMP (.plain (.sym (b! "L"))), .instr none .RTS .none,
      .instr none .LDA (.plain (.sym (b! "N"))), .instr (some (b! "L")) .NOP .none] ∧
    firstFault [.instr none .JMP (.plain (.sym (b! "L"))), .instr none .RTS .none,
      .instr none .LDA (.plain (.sym (b! "N"))), .instr (some (b! "L")) .NOP .none] 1 .init = some (3, .illegalForwardReference) ∧
    image (writeLog 0 (placed [.instr none .JMP (.plain (.sym (b! "L"))), .instr none .RTS .none] 1 .init)) = [0x4C, 0, 0, 0x60] :=
  ⟨isProgram_eval (by decide +kernel) (by decide +kernel) (by decide +kernel) (by decide +kernel), by decide +kernel, by decide +kernel⟩

/-- The second jump has no label; the first has been filled in. -/
example : firstFault [.instr none .JMP (.plain (.sym (b! "L"))), .instr none .JMP (.plain (.sym (b! "N"))),
      .instr (some (b! "L")) .NOP .none] 1 .init = none ∧
    check [.instr none .JMP (.plain (.sym (b! "L"))), .instr none .JMP (.plain (.sym (b! "N"))),
      .instr (some (b! "L")) .NOP .none] = some (2, .missingLabelDefinition) ∧
    (demoRun (b! " JMP L\n JMP N\nL NOP\n")).map (fun r => (r.1, r.2.2)) = some (1, some [0x4C, 6, 0, 0x4C, 0, 0, 0xEA]) :=
  ⟨by decide +kernel, by decide +kernel, by decide +kernel⟩

end Gaia

import Verif.Props.C71_Addresses
import Verif.Props.C70_Edit
import Verif.Spec.Equivalence
import Verif.Spec.Messages

/-!
C49 for every text, with the messages: a name that is known means its value, whatever else is wrong with the source.
-/
namespace Gaia
open Spec Spec.Reference

namespace Inline

/-- The same instruction with a known name, and with its value. -/
theorem instruction_eq {text text' : Str} {ls ls' : List (Nat × Lexeme)} {m : Mnemonic} {a : Arg} {L : Str} {v : Nat} {odd : Bool} {s : State}
    (ho : a.opd = some (.sym L)) (hb : Spec.isBranch m = false) (hv : s.env.lookup L = some v) :
    (∃ u, instruction text ls m a odd s = .ok u ∧ instruction text' ls' m (a.inline L v) odd s = .ok u) ∨
    (instruction text ls m a odd s = .error (.illegalAddressingMode, none) ∧
      instruction text' ls' m (a.inline L v) odd s = .error (.illegalAddressingMode, none)) := by
  have ho' : (a.inline L v).opd = some (.lit v) := by
    cases a <;> simp [Arg.opd] at ho <;> subst ho <;> simp [Arg.inline, Arg.opd, Opd.inline]
  have hm : modeFor m (a.inline L v) v = modeFor m a v := by cases a <;> rfl
  unfold instruction
  rw [ho, ho']
  simp only [sizingValue, unknown, hv, Option.isSome_some, if_true, hm]
  cases h : (if odd then none else modeFor m a v) with
  | none => exact .inr ⟨rfl, rfl⟩
  | some md =>
    have hmd : modeFor m a v = some md := by
      split_ifs at h
      exact h
    have he := encode_same (env := s.env) (o := .sym L) (o' := .lit v) hb (by simp [opdValue, hv]) (pc := s.pc) hmd
    dsimp only
    rw [he]
    cases h1 : encodeLow s.env ⟨s.pc, m, md, some (.sym L)⟩ with
    | some bs => exact .inl ⟨_, rfl, rfl⟩
    | none =>
      exfalso
      have hr := modeFor_not_rel hb hmd
      obtain ⟨op, hop⟩ := (modeFor_some hmd).2
      unfold encodeLow operandBytesLow at h1
      simp only [hop] at h1
      cases md <;> simp [Mode.bytes, opdValue, hv] at h1 hr

/-- What is known stays known. -/
theorem execute_keeps {text : Str} {ls : List (Nat × Lexeme)} {odd : Bool} {st : Stmt} {s u : State} (h : execute text ls odd s st = .ok u)
    {L : Str} {v : Nat} (hv : s.env.lookup L = some v) : u.env.lookup L = some v := by
  have key : ∀ {l x} {s s' : State}, s.env.lookup L = some v → defineLabel ls l x s = .ok s' → s'.env.lookup L = some v := by
    intro l x s s' hv h
    obtain ⟨h1, h2⟩ := App.define_env h
    rw [h1, List.lookup_cons, beq_false_of_ne]
    · exact hv
    · rintro rfl; rw [h2] at hv; cases hv
  cases st with
  | empty => cases h; exact hv
  | stop => cases h; exact hv
  | label l => exact key hv h
  | const l x => exact key hv h
  | org x => cases h; exact hv
  | instr lab m a =>
    cases lab with
    | none => rw [App.instruction_env h]; exact hv
    | some l =>
      unfold execute at h
      dsimp only at h
      cases hd : defineLabel ls l s.pc s with
      | error f => rw [hd] at h; cases h
      | ok s1 =>
        rw [hd] at h
        rw [App.instruction_env h]
        exact key hv hd

theorem runPieces_keeps {fn : Str} {L : Str} {v : Nat} : ∀ {P : List (List Byte)} {s u : State}, runPieces fn P s = .ok u →
    s.env.lookup L = some v → u.env.lookup L = some v
  | [], s, u, h, hv => by cases h; exact hv
  | p :: P, s, u, h, hv => by
    rw [Org.runPieces_cons] at h
    cases h1 : lexemesOf p with
    | error f => rw [h1] at h; cases f <;> cases h
    | ok ls =>
      rw [h1] at h
      dsimp only at h
      cases h2 : statement (ls.map (·.2)) with
      | error f => rw [h2] at h; cases h
      | ok x =>
        obtain ⟨st, odd⟩ := x
        rw [h2] at h
        dsimp only at h
        cases h3 : execute (p.takeWhile (· != 0)) ls odd s st with
        | error f => rw [h3] at h; cases h
        | ok t =>
          rw [h3] at h
          have ht := execute_keeps h3 hv
          dsimp only at h
          split_ifs at h with hst
          · cases h; exact ht
          · exact runPieces_keeps h ht

/-- After the lines above were assembled, not ended by `.END`, the constants defined in them are known. -/
theorem runPieces_const {fn : Str} {L : Str} {v : Nat} : ∀ {P : List (List Byte)} {s u : State}, runPieces fn P s = .ok u →
    (∃ q ∈ P, stmtOf q = some (.const L v)) → (∀ Q, runPieces fn (P ++ Q) s = .ok u) ∨ u.env.lookup L = some v
  | [], s, u, _, hq => by obtain ⟨q, hq, _⟩ := hq; cases hq
  | p :: P, s, u, h, hq => by
    rw [Org.runPieces_cons] at h
    simp only [List.cons_append, Org.runPieces_cons]
    cases h1 : lexemesOf p with
    | error f => rw [h1] at h; cases f <;> cases h
    | ok ls =>
      rw [h1] at h
      dsimp only at h ⊢
      cases h2 : statement (ls.map (·.2)) with
      | error f => rw [h2] at h; cases h
      | ok x =>
        obtain ⟨st, odd⟩ := x
        rw [h2] at h
        dsimp only at h ⊢
        cases h3 : execute (p.takeWhile (· != 0)) ls odd s st with
        | error f => rw [h3] at h; cases h
        | ok t =>
          rw [h3] at h
          dsimp only at h ⊢
          split_ifs at h ⊢ with hst
          · cases h; exact .inl fun _ => rfl
          · obtain ⟨q, hq, hqs⟩ := hq
            rcases List.mem_cons.1 hq with rfl | hq
            · refine .inr (runPieces_keeps h ?_)
              have : stmtOf q = some st := by unfold stmtOf; rw [h1]; simp only [h2]
              rw [this] at hqs
              cases hqs
              obtain ⟨k1, _⟩ := App.define_env (l := L) (v := v) h3
              simp only [k1, List.lookup_cons, BEq.rfl]
            · exact runPieces_const h ⟨q, hq, hqs⟩

/-- The two complaints about the line: the first name of the line is defined already, or the addressing mode does not exist. -/
inductive Refused (ls ls' : List (Nat × Lexeme)) : Err → Option Nat → Option Nat → Prop
  | twice : Refused ls ls' .labelRedefinition (nameOffsets ls).head? (nameOffsets ls').head?
  | mode : Refused ls ls' .illegalAddressingMode none none

theorem line_eq {fn : Str} {p p' : List Byte} {ls ls' : List (Nat × Lexeme)} {lab : Option Str} {m : Mnemonic} {a : Arg} {odd : Bool}
    {L : Str} {v : Nat} {s : State} (h1 : lexemesOf p = .ok ls) (h1' : lexemesOf p' = .ok ls')
    (h2 : statement (ls.map (·.2)) = .ok (.instr lab m a, odd)) (h2' : statement (ls'.map (·.2)) = .ok (.instr lab m (a.inline L v), odd))
    (ho : a.opd = some (.sym L)) (hb : Spec.isBranch m = false) (hv : (knownAt s lab).lookup L = some v) (post : List (List Byte)) :
    runPieces fn (p :: post) s = runPieces fn (p' :: post) s ∨
    ∃ e pos pos', Refused ls ls' e pos pos' ∧ runPieces fn (p :: post) s = .error (diag (shown p) e pos fn s.line, s.writes) ∧
      runPieces fn (p' :: post) s = .error (diag (shown p') e pos' fn s.line, s.writes) := by
  rw [Org.runPieces_cons, Org.runPieces_cons, h1, h1']
  simp only [h2, h2']
  cases lab with
  | none =>
    simp only [execute]
    rcases instruction_eq (text := p.takeWhile (· != 0)) (text' := p'.takeWhile (· != 0)) (ls := ls) (ls' := ls') (odd := odd) ho hb hv with
      ⟨u, k, k'⟩ | ⟨k, k'⟩
    · rw [k, k']; exact .inl rfl
    · rw [k, k']; exact .inr ⟨_, _, _, .mode, rfl, rfl⟩
  | some l =>
    simp only [execute, defineLabel]
    by_cases hl : (s.env.lookup l).isSome = true
    · rw [if_pos hl, if_pos hl]; exact .inr ⟨_, _, _, .twice, rfl, rfl⟩
    · rw [if_neg hl, if_neg hl]
      dsimp only
      rcases instruction_eq (text := p.takeWhile (· != 0)) (text' := p'.takeWhile (· != 0)) (ls := ls) (ls' := ls') (odd := odd)
        (s := { s with env := (l, s.pc) :: s.env }) ho hb hv with ⟨u, k, k'⟩ | ⟨k, k'⟩
      · rw [k, k']; exact .inl rfl
      · rw [k, k']; exact .inr ⟨_, _, _, .mode, rfl, rfl⟩

end Inline

/-- gaia does exactly the same on both sources, or it refuses both at line `k`, leaving the same output file, with the same message, each
quoting its own line `p`, `p'`; and then either the label of the line is a redefinition, with the arrow at the label, or the addressing mode
does not exist. -/
def SameButForLine (srcName outName : Str) (w w' : World) (k : Nat) (p p' : List Byte) (ls ls' : List (Nat × Lexeme)) : Prop :=
  SameRun srcName outName w w' ∨ ∃ e pos pos' bin, Inline.Refused ls ls' e pos pos' ∧
    FailsLeaving w srcName outName (diag (shown p) e pos srcName k) bin ∧ FailsLeaving w' srcName outName (diag (shown p') e pos' srcName k) bin

namespace Inline

theorem sameRun {w w' : World} {srcName outName : Str} {src src' : List Byte} (hw : Setup w srcName outName src)
    (hw' : Setup w' srcName outName src') (hs : Sized src) (hs' : Sized src')
    (h : runPieces srcName (pieces src) .init = runPieces srcName (pieces src') .init) : SameRun srcName outName w w' := by
  have e : Reference.run srcName src' = Reference.run srcName src := by rw [Org.run_finish, Org.run_finish, h]
  have h1 := C57_reference hw hs
  have h2 := C57_reference hw' hs'
  rw [e] at h2
  refine ⟨_, _, _, h1, h2, ?_⟩
  unfold Reference.run
  split
  · exact .inr rfl
  · split
    · exact .inr rfl
    · exact .inl rfl

theorem both {w w' : World} {srcName outName : Str} {src src' : List Byte} (hw : Setup w srcName outName src)
    (hw' : Setup w' srcName outName src') (hs : Sized src) (hs' : Sized src') {pre post : List (List Byte)} {p p' : List Byte}
    (hsrc : pieces src = pre ++ p :: post) (hsrc' : pieces src' = pre ++ p' :: post)
    {ls ls' : List (Nat × Lexeme)} {lab : Option Str} {m : Mnemonic} {a : Arg} {odd : Bool} {L : Str} {v : Nat}
    (h1 : lexemesOf p = .ok ls) (h1' : lexemesOf p' = .ok ls')
    (h2 : statement (ls.map (·.2)) = .ok (.instr lab m a, odd)) (h2' : statement (ls'.map (·.2)) = .ok (.instr lab m (a.inline L v), odd))
    (ho : a.opd = some (.sym L)) (hb : Spec.isBranch m = false)
    (hv : ∀ s, runPieces srcName pre .init = .ok s → (∀ Q, runPieces srcName (pre ++ Q) .init = .ok s) ∨ (knownAt s lab).lookup L = some v) :
    SameButForLine srcName outName w w' (pre.length + 1) p p' ls ls' := by
  cases hpre : runPieces srcName pre .init with
  | error f => exact .inl (sameRun hw hw' hs hs' (by rw [hsrc, hsrc', App.runPieces_error _ hpre, App.runPieces_error _ hpre]))
  | ok s =>
    rcases hv s hpre with g | hv
    · exact .inl (sameRun hw hw' hs hs' (by rw [hsrc, hsrc', g, g]))
    · rcases Edit.runPieces_split hpre with g | ⟨g1, g2⟩
      · exact .inl (sameRun hw hw' hs hs' (by rw [hsrc, hsrc', g, g]))
      · have hline : s.line = pre.length + 1 := by rw [g1]; simp only [State.init]; omega
        rcases line_eq (fn := srcName) h1 h1' h2 h2' ho hb hv post with k | ⟨e, pos, pos', hr, k, k'⟩
        · exact .inl (sameRun hw hw' hs hs' (by rw [hsrc, hsrc', g2, g2, k]))
        · rw [hline] at k k'
          exact .inr ⟨e, pos, pos', image s.writes, hr, (C57_failure hw hs _ _).2 ⟨s.writes, rfl, .inl (by rw [hsrc, g2, k])⟩,
            (C57_failure hw' hs' _ _).2 ⟨s.writes, rfl, .inl (by rw [hsrc', g2, k'])⟩⟩

end Inline

/-- **C49, any text.** Let some piece of the source define the constant `L` with the value `v`, and let a piece after it be an instruction,
not a branch, with `L` in its operand. If `L` is replaced by a literal for `v` there, gaia does exactly the same: same exit status, same
output file, same report or message to the byte; unless it is this very line that it refuses, which it then does in both sources, with the
same message and the same output file, each message quoting its own line. Nothing is asked of the rest of the source. -/
theorem C49_any_text {w w' : World} {srcName outName : Str} {src src' : List Byte} (hw : Setup w srcName outName src)
    (hw' : Setup w' srcName outName src') (hs : Sized src) (hs' : Sized src') {pre post : List (List Byte)} {p p' : List Byte}
    (hsrc : pieces src = pre ++ p :: post) (hsrc' : pieces src' = pre ++ p' :: post)
    {ls ls' : List (Nat × Lexeme)} {lab : Option Str} {m : Mnemonic} {a : Arg} {odd : Bool} {L : Str} {v : Nat}
    (h1 : lexemesOf p = .ok ls) (h1' : lexemesOf p' = .ok ls')
    (h2 : statement (ls.map (·.2)) = .ok (.instr lab m a, odd)) (h2' : statement (ls'.map (·.2)) = .ok (.instr lab m (a.inline L v), odd))
    (ho : a.opd = some (.sym L)) (hb : Spec.isBranch m = false) (hdef : ∃ q ∈ pre, stmtOf q = some (.const L v)) :
    SameButForLine srcName outName w w' (pre.length + 1) p p' ls ls' := by
  by_cases hl : lab = some L
  · -- the label of the line is `L` itself: a redefinition
    subst hl
    cases hpre : runPieces srcName pre .init with
    | error f => exact .inl (Inline.sameRun hw hw' hs hs' (by rw [hsrc, hsrc', App.runPieces_error _ hpre, App.runPieces_error _ hpre]))
    | ok s =>
      rcases Inline.runPieces_const hpre hdef with g | hv
      · exact .inl (Inline.sameRun hw hw' hs hs' (by rw [hsrc, hsrc', g, g]))
      · rcases Edit.runPieces_split hpre with g | ⟨g1, g2⟩
        · exact .inl (Inline.sameRun hw hw' hs hs' (by rw [hsrc, hsrc', g, g]))
        · have hline : s.line = pre.length + 1 := by rw [g1]; simp only [State.init]; omega
          refine .inr ⟨.labelRedefinition, _, _, image s.writes, .twice, (C57_failure hw hs _ _).2 ⟨s.writes, rfl, .inl ?_⟩,
            (C57_failure hw' hs' _ _).2 ⟨s.writes, rfl, .inl ?_⟩⟩
          · rw [hsrc, g2, Org.runPieces_cons, h1]
            simp only [h2, execute, defineLabel, hv, Option.isSome_some, if_true, hline, shown]
          · rw [hsrc', g2, Org.runPieces_cons, h1']
            simp only [h2', execute, defineLabel, hv, Option.isSome_some, if_true, hline, shown]
  · refine Inline.both hw hw' hs hs' hsrc hsrc' h1 h1' h2 h2' ho hb fun s hpre => ?_
    rcases Inline.runPieces_const hpre hdef with g | hv
    · exact .inl g
    · refine .inr ?_
      cases lab with
      | none => exact hv
      | some l =>
        simp only [knownAt, List.lookup_cons]
        rw [beq_false_of_ne (by rintro rfl; exact hl rfl)]
        exact hv

/-- **C49, addresses.** The same for any name that is known where the line is assembled, with the value it has there: a constant, a label
of a line above, or the label of the line itself. -/
theorem C49_known_name {w w' : World} {srcName outName : Str} {src src' : List Byte} (hw : Setup w srcName outName src)
    (hw' : Setup w' srcName outName src') (hs : Sized src) (hs' : Sized src') {pre post : List (List Byte)} {p p' : List Byte}
    (hsrc : pieces src = pre ++ p :: post) (hsrc' : pieces src' = pre ++ p' :: post)
    {ls ls' : List (Nat × Lexeme)} {lab : Option Str} {m : Mnemonic} {a : Arg} {odd : Bool} {L : Str} {v : Nat}
    (h1 : lexemesOf p = .ok ls) (h1' : lexemesOf p' = .ok ls')
    (h2 : statement (ls.map (·.2)) = .ok (.instr lab m a, odd)) (h2' : statement (ls'.map (·.2)) = .ok (.instr lab m (a.inline L v), odd))
    (ho : a.opd = some (.sym L)) (hb : Spec.isBranch m = false)
    {s : State} (hpre : runPieces srcName pre .init = .ok s) (hv : (knownAt s lab).lookup L = some v) :
    SameButForLine srcName outName w w' (pre.length + 1) p p' ls ls' :=
  Inline.both hw hw' hs hs' hsrc hsrc' h1 h1' h2 h2' ho hb fun t ht => by
    rw [hpre] at ht
    cases ht
    exact .inr hv

/-! ### Cases -/

/-- All conditions hold in a source that fails later on: the message is the same to the byte. -/
example : SameButForLine (b! "p.asm") (b! "p.bin") (demo (b! "V = 16\nL LDA V,X\n JMP M\n")) (demo (b! "V = 16\nL LDA $10,X\n JMP M\n")) 2
    (b! "L LDA V,X\n") (b! "L LDA $10,X\n")
    [(0, .name (b! "L")), (2, .mnem .LDA), (6, .name (b! "V")), (7, .comma), (8, .regX)]
    [(0, .name (b! "L")), (2, .mnem .LDA), (6, .lit 16), (9, .comma), (10, .regX)] :=
  C49_any_text (demo_setup _) (demo_setup _) (by decide +kernel) (by decide +kernel) (pre := [b! "V = 16\n"]) (post := [b! " JMP M\n"])
    (by decide +kernel) (by decide +kernel) (by decide +kernel) (by decide +kernel) (lab := some (b! "L")) (m := .LDA) (a := .idxX (.sym (b! "V")))
    (odd := false) (L := b! "V") (v := 16) (by decide +kernel) (by decide +kernel) rfl (by decide) ⟨_, List.mem_singleton.2 rfl, by decide +kernel⟩

/-- … and it is this one. -/
theorem C49_fails_later : ∀ src ∈ [b! "V = 16\nL LDA V,X\n JMP M\n", b! "V = 16\nL LDA $10,X\n JMP M\n"],
    FailsLeaving (demo src) (b! "p.asm") (b! "p.bin") (diag (b! " JMP M\n") .missingLabelDefinition (some 5) (b! "p.asm") 3) [0xB5, 16, 0x4C, 0, 0] := by
  intro src hsrc
  have hr : ∀ src ∈ [b! "V = 16\nL LDA V,X\n JMP M\n", b! "V = 16\nL LDA $10,X\n JMP M\n"], Reference.run (b! "p.asm") src =
      ⟨1, diag (b! " JMP M\n") .missingLabelDefinition (some 5) (b! "p.asm") 3, [0xB5, 16, 0x4C, 0, 0]⟩ ∧ Sized src := by decide +kernel
  have h0 := C57_reference (demo_setup src) (hr src hsrc).2
  rw [(hr src hsrc).1] at h0
  exact h0

/-- The other case occurs: `STA #V`, with the constant and with its value. -/
theorem C49_refused :
    FailsLeaving (demo (b! "V = 16\n STA #V\n")) (b! "p.asm") (b! "p.bin") (diag (b! " STA #V\n") .illegalAddressingMode none (b! "p.asm") 2) [] ∧
    FailsLeaving (demo (b! "V = 16\n STA #16\n")) (b! "p.asm") (b! "p.bin") (diag (b! " STA #16\n") .illegalAddressingMode none (b! "p.asm") 2) [] := by
  have hr : Reference.run (b! "p.asm") (b! "V = 16\n STA #V\n") = ⟨1, diag (b! " STA #V\n") .illegalAddressingMode none (b! "p.asm") 2, []⟩ ∧
      Reference.run (b! "p.asm") (b! "V = 16\n STA #16\n") = ⟨1, diag (b! " STA #16\n") .illegalAddressingMode none (b! "p.asm") 2, []⟩ := by decide +kernel
  have h0 := C57_reference (demo_setup (b! "V = 16\n STA #V\n")) (by decide +kernel)
  have h1 := C57_reference (demo_setup (b! "V = 16\n STA #16\n")) (by decide +kernel)
  rw [hr.1] at h0
  rw [hr.2] at h1
  exact ⟨h0, h1⟩

/-- Only names that are known: with a label defined later the instruction is longer. -/
theorem C49_not_later : Succeeds (demo (b! " JMP L\nL NOP\n")) (b! "p.asm") (b! "p.bin") [0x4C, 3, 0, 0xEA] 4 1 ∧
    ∃ e pos bin, FailsLeaving (demo (b! " LDA V\nV = 16\n")) (b! "p.asm") (b! "p.bin") (diag (b! " LDA V\n") e pos (b! "p.asm") 1) bin ∧
    Succeeds (demo (b! " LDA 16\nV = 16\n")) (b! "p.asm") (b! "p.bin") [0xA5, 16] 2 1 := by
  refine ⟨demo_succeeds (by decide +kernel), .illegalForwardReference, some 5, [], ?_, demo_succeeds (by decide +kernel)⟩
  have hr : Reference.run (b! "p.asm") (b! " LDA V\nV = 16\n") = ⟨1, diag (b! " LDA V\n") .illegalForwardReference (some 5) (b! "p.asm") 1, []⟩ := by decide +kernel
  have h0 := C57_reference (demo_setup (b! " LDA V\nV = 16\n")) (by decide +kernel)
  rw [hr] at h0
  exact h0

end Gaia

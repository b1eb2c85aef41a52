import Verif.Props.C47_Renaming

/-! C49: a constant means its value. -/
namespace Gaia
open Spec

theorem isBranch_eq_of {m : Mnemonic} (h : Spec.isBranch m = false) : Gaia.isBranch m = false := by
  revert h; cases m <;> decide

theorem inline_facts {L : Str} {v : Nat} {a : Arg} : argShape (a.inline L v) = argShape a ∧
    (argLexeme (a.inline L v) = argLexeme a ∨ argLexeme a = some (.name L) ∧ argLexeme (a.inline L v) = some (.lit v)) := by
  have ho : ∀ o : Opd, opdLexeme (o.inline L v) = opdLexeme o ∨ opdLexeme o = .name L ∧ opdLexeme (o.inline L v) = .lit v := by
    intro o
    cases o with
    | lit _ => exact .inl rfl
    | sym l =>
      simp only [Opd.inline]
      split_ifs with h
      · exact .inr ⟨by rw [h]; rfl, rfl⟩
      · exact .inl rfl
  cases a <;> refine ⟨rfl, ?_⟩ <;> first | exact .inl rfl | (simp only [argLexeme, Arg.inline, Option.some.injEq]; exact ho _)

/-- An instruction with a constant, and with its value. -/
theorem line_inline {fn : Str} {raw raw' : List Byte} {ls ls' : List (Nat × Lexeme)} {lab : Option Str} {m : Mnemonic} {arg : Arg}
    {L : Str} {v : Nat} (hm : Spec.isBranch m = false) (hl : Lexes raw ls) (hl' : Lexes raw' ls')
    (hp : parse (ls.map (·.2)) = some (.instr lab m arg)) (hp' : parse (ls'.map (·.2)) = some (.instr lab m (arg.inline L v)))
    {a : A} (hv : a.env.lookup L = some v) : lineOut (line fn raw a) = lineOut (line fn raw' a) := by
  by_cases hlab : ∃ l w, lab = some l ∧ a.env.lookup l = some w
  · obtain ⟨l, w, rfl, h⟩ := hlab
    rw [line_instr_dup hl hp h, line_instr_dup hl' hp' h]
    rfl
  · have hlab' : ∀ l, lab = some l → a.env.lookup l = none := by
      intro l h
      cases e : a.env.lookup l with
      | none => rfl
      | some w => exact absurd ⟨l, w, h, e⟩ hlab
    rw [line_new_instr hl hp hlab', line_new_instr hl' hp' hlab']
    have hv' : (labelled lab a).env.lookup L = some v := by
      cases lab with
      | none => exact hv
      | some l =>
        simp only [labelled, List.lookup_cons]
        have : l ≠ L := by rintro rfl; rw [hlab' l rfl] at hv; cases hv
        rw [beq_false_of_ne (Ne.symm this)]
        exact hv
    have hb := isBranch_eq_of hm
    obtain ⟨f1, _, f3, _⟩ := instr_facts hp
    obtain ⟨g1, _, g3, _⟩ := instr_facts hp'
    have key : skelF (instrStep (cstr raw) ls m (labelled lab a)) = skelF (instrStep (cstr raw') ls' m (labelled lab a)) := by
      obtain ⟨i1, i2⟩ := inline_facts (L := L) (v := v) (a := arg)
      rcases i2 with i2 | ⟨i2, i3⟩
      · exact instrStep_congr' (by rw [f1, g1, i1]) (by rw [f3, g3, i2]) rfl m
      · rw [i2] at f3
        rw [i3] at g3
        obtain ⟨⟨p, x⟩, h1, rfl⟩ := Option.map_eq_some_iff.1 f3
        obtain ⟨⟨p', x'⟩, h2, h2'⟩ := Option.map_eq_some_iff.1 g3
        simp only at h2'
        subst h2'
        unfold instrStep
        rw [h1, h2, f1, g1, i1]
        simp only [hv', hb, Bool.false_eq_true, if_false]
    rcases skelF_ok key with ⟨b, b', e1, e2, hb⟩ | ⟨f, g, e1, e2, hf⟩
    · rw [e1, e2]; simp only [lineOut, hb]
    · rw [e1, e2]; rfl

/-- Symbols stay. -/
theorem line_env_mono {fn : Str} {raw : List Byte} {a a' : A} {s : Bool} (h : line fn raw a = .ok (s, a')) {L : Str} {v : Nat}
    (hv : a.env.lookup L = some v) : a'.env.lookup L = some v := by
  obtain ⟨ls, _, ⟨p, l, w, _, g2, g3⟩ | ⟨_, g3⟩⟩ := line_env h
  · rw [g3, List.lookup_cons]
    have : L ≠ l := by rintro rfl; rw [g2] at hv; cases hv
    rw [beq_false_of_ne this]
    exact hv
  · rw [g3]; exact hv

theorem runOn_mono {fn : Str} : ∀ {cs : List (List Byte)} {a : A} {r : Bool × A}, runOn fn cs a = .ok r → ∀ {L : Str} {v : Nat},
    a.env.lookup L = some v → r.2.env.lookup L = some v := by
  intro cs
  induction cs with
  | nil => intro a r h L v hv; cases h; exact hv
  | cons c cs ih =>
    intro a r h L v hv
    unfold runOn at h
    cases e : line fn c a with
    | error f => rw [e] at h; cases h
    | ok q =>
      rw [e] at h
      obtain ⟨b, a1⟩ := q
      have h1 := line_env_mono e hv
      cases b with
      | true => cases h; exact h1
      | false => exact ih h h1

theorem declared_const {pc : Nat} {x : List (Nat × Lexeme)} {L : Str} {v : Nat} (h : parse (x.map (·.2)) = some (.const L v)) :
    ∃ p, declared pc x = some (p, L, v) := by
  have : declaredK pc (x.map (·.2)) = some (L, v) := by
    generalize x.map (·.2) = y at h
    unfold parse at h
    split at h <;> try cases h
    · rfl
    · rfl
    · rfl
    all_goals (rename_i h; simp [Option.map_eq_some_iff] at h)
  rw [← declared_map] at this
  obtain ⟨⟨p, q⟩, h1, rfl⟩ := Option.map_eq_some_iff.1 this
  exact ⟨p, h1⟩

/-- After a line that defines a constant, the constant is known. -/
theorem runOn_const {fn : Str} {L : Str} {v : Nat} : ∀ {cs ls : List (List Byte)} {a : A} {r : Bool × A}, List.Forall₂ Buffers cs ls →
    runOn fn cs a = .ok r → r.1 = false → (∃ l ∈ ls, ∃ x, Lexes l x ∧ parse (x.map (·.2)) = some (.const L v)) →
    r.2.env.lookup L = some v := by
  intro cs
  induction cs with
  | nil => intro ls a r hb _ _ hd; cases hb; obtain ⟨l, hl, _⟩ := hd; simp at hl
  | cons c cs ih =>
    intro ls a r hb h hr hd
    cases hb with
    | @cons _ l0 _ ls hb hbs =>
      unfold runOn at h
      cases e : line fn c a with
      | error f => rw [e] at h; cases h
      | ok q =>
        rw [e] at h
        obtain ⟨b, a1⟩ := q
        cases b with
        | true => cases h; cases hr
        | false =>
          simp only at h
          obtain ⟨l, hl, x, hx, hp⟩ := hd
          rcases List.mem_cons.1 hl with rfl | hl
          · have h1 : a1.env.lookup L = some v := by
              obtain ⟨xs, hxs, hc⟩ := line_env e
              rw [lexemes_buffers hb, (stmt_lexemes hx hp).1] at hxs
              cases hxs
              obtain ⟨p, hq⟩ := declared_const (pc := a.pc) hp
              rcases hc with ⟨p', l', v', g1, _, g3⟩ | ⟨g1, _⟩
              · rw [hq] at g1
                cases g1
                rw [g3]; simp
              · rw [hq] at g1; cases g1
            exact runOn_mono h h1
          · exact ih hbs h hr ⟨l, hl, x, hx, hp⟩

/-- **C49.** Let the constant `L` be defined with value `v` by a line of `pre` (with `=`, `.EQU` or `.DEFINE`), and let the line `x` be an
instruction, not a branch. Replacing `L` by a literal for `v` in the operand of `x` changes nothing: same exit status, same output
file, on success the same report. The rest of the source is arbitrary, errors included. (For a branch, a label is a target and
a literal an offset.) -/
theorem C49_constant_inlined {w w' : World} {srcName outName : Str} {pre x y rest : List Byte} {L : Str} {v : Nat} (hpre : WholeLines pre)
    (hshort : ∀ l ∈ lines pre, l.length ≤ 126)
    (hdef : ∃ l ∈ lines pre, ∃ z, Lexes l z ∧ parse (z.map (·.2)) = some (.const L v))
    (hx : ∀ c ∈ x, c ≠ 10) (hy : ∀ c ∈ y, c ≠ 10) (hxl : x.length ≤ 126) (hyl : y.length ≤ 126)
    {xs ys : List (Nat × Lexeme)} (lx : Lexes x xs) (ly : Lexes y ys) {lab : Option Str} {m : Mnemonic} {arg : Arg}
    (px : parse (xs.map (·.2)) = some (.instr lab m arg)) (py : parse (ys.map (·.2)) = some (.instr lab m (arg.inline L v)))
    (hm : Spec.isBranch m = false)
    (hw : Setup w srcName outName (pre ++ (x ++ 10 :: rest))) (hw' : Setup w' srcName outName (pre ++ (y ++ 10 :: rest)))
    (hs : Sized (pre ++ (x ++ 10 :: rest))) (hs' : Sized (pre ++ (y ++ 10 :: rest))) :
    SameResult srcName outName w w' := by
  refine sameResult_of_outcome hw hw' hs hs' ?_
  rw [chunks_whole hpre, chunks_whole hpre, chunks_cut hx hxl, chunks_cut hy hyl, runLines_append, runLines_append]
  cases e : runOn srcName (chunks pre) A.init with
  | error f => rfl
  | ok r =>
    obtain ⟨b, a⟩ := r
    cases b with
    | true => rfl
    | false =>
      simp only
      have hv : a.env.lookup L = some v := runOn_const (chunks_lines pre hshort) e rfl hdef
      have lx' : Lexes (x ++ [10]) xs := by unfold Lexes at lx ⊢; rw [code_newline]; exact lx
      have ly' : Lexes (y ++ [10]) ys := by unfold Lexes at ly ⊢; rw [code_newline]; exact ly
      exact outcome_line (line_inline hm lx' ly' px py hv)

/-- Concrete case: `LDA V,X` with `V` = $10. -/
example : SameResult (b! "p.asm") (b! "p.bin") (demo (b! "NOP\nV = 16\nL LDA V,X\n JMP L\n")) (demo (b! "NOP\nV = 16\nL LDA $10,X\n JMP L\n")) :=
  C49_constant_inlined (pre := b! "NOP\nV = 16\n") (x := b! "L LDA V,X") (y := b! "L LDA $10,X") (rest := b! " JMP L\n") (L := b! "V")
    (v := 16) (.inr ⟨b! "NOP\nV = 16", rfl⟩) (by decide +kernel)
    ⟨b! "V = 16", by decide +kernel, [(0, .name (b! "V")), (2, .eq), (4, .lit 16)], lexes_eval (by decide +kernel) (by decide +kernel), rfl⟩
    (by decide +kernel) (by decide +kernel) (by decide) (by decide)
    (xs := [(0, .name (b! "L")), (2, .mnem .LDA), (6, .name (b! "V")), (7, .comma), (8, .regX)])
    (ys := [(0, .name (b! "L")), (2, .mnem .LDA), (6, .lit 16), (9, .comma), (10, .regX)])
    (lexes_eval (by decide +kernel) (by decide +kernel)) (lexes_eval (by decide +kernel) (by decide +kernel))
    (lab := some (b! "L")) (m := .LDA) (arg := .idxX (.sym (b! "V"))) rfl rfl (by decide) (demo_setup _) (demo_setup _) (by decide) (by decide)

/-- For branches it does not hold: `BNE V` with `V` = $10 at address 0 is a branch to address 16, `BNE $10` one by 16 bytes. -/
theorem C49_not_for_branches : demoRun (b! "V = $10\nBNE V\n") ≠ demoRun (b! "V = $10\nBNE $10\n") := by decide +kernel

end Gaia

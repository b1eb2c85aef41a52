import Verif.Props.C64_EqualNames

/-!
C71: in an instruction that is not a branch, a name is nothing but its value.
-/
namespace Gaia
open Gaia.Spec

/-- Operands that give the same mode and the same bytes are interchangeable. -/
theorem operand_exchanged {w w' : World} {srcName outName srcName' outName' : Str} {src src' : List Byte} {pre post : List Stmt}
    {lab : Option Str} {m : Mnemonic} {a : Arg} {o o' : Opd} (ho : a.opd = some o)
    (hw : Setup w srcName outName src) (hw' : Setup w' srcName' outName' src')
    (hp : IsProgram src (pre ++ .instr lab m a :: post)) (hp' : IsProgram src' (pre ++ .instr lab m (a.withOpd o') :: post))
    (ha : AscendingProgram (pre ++ .instr lab m a :: post)) (hs : .stop ∉ pre)
    {s : Pass1} (h1 : pass1 (pre ++ .instr lab m a :: post) .init = some s)
    (hmode : ∀ {t y : Pass1} {v : Nat} {md : Mode}, pass1 pre .init = some t →
      (match lab with | none => some t | some x => Spec.define t x t.pc) = some y → (∀ l z, y.env.lookup l = some z → s.env.lookup l = some z) →
      sizingValue y.env m (some o) = some v → modeFor m a v = some md → ∃ v', sizingValue y.env m (some o') = some v' ∧ modeFor m a v' = some md)
    (hsame : ∀ {pc : Nat} {md : Mode} {v : Nat}, modeFor m a v = some md → encodeLow s.env ⟨pc, m, md, some o'⟩ = encodeLow s.env ⟨pc, m, md, some o⟩)
    {bin : List Byte} {total symbols : Nat} (hr : Succeeds w srcName outName bin total symbols) :
    Succeeds w' srcName' outName' bin total symbols := by
  obtain ⟨t, g1, g2⟩ := pass1_append pre _ hs h1
  rw [pass1_cons (by simp)] at g2
  obtain ⟨u, g3, g4⟩ := Option.bind_eq_some_iff.1 g2
  obtain ⟨y, k1, k2⟩ := instr_step g3
  obtain ⟨v, md, e1, e2, rfl⟩ := place_some k2
  have hext := (pass1_extends post g4).1
  have ho' : (a.withOpd o').opd = some o' := by
    cases a <;> first | rfl | cases ho
  rw [ho] at e1
  obtain ⟨v', e3, e4⟩ := hmode g1 k1 hext e1 e2
  have hplace : Spec.place y m (a.withOpd o') = some ⟨y.pc + md.bytes, y.env, y.items ++ [⟨y.pc, m, md, some o'⟩]⟩ := by
    unfold Spec.place
    rw [ho', e3]
    simp [modeFor_withOpd, e4]
  have hf : Front (y.items ++ [⟨y.pc, m, md, some o⟩]) (y.items ++ [⟨y.pc, m, md, some o'⟩])
      ⟨y.pc + md.bytes, y.env, y.items ++ [⟨y.pc, m, md, a.opd⟩]⟩ ⟨y.pc + md.bytes, y.env, y.items ++ [⟨y.pc, m, md, some o'⟩]⟩ :=
    ⟨rfl, rfl, [], by simp [ho], by simp⟩
  obtain ⟨s', g5, g6⟩ := hf.pass1 post g4
  have h2 : pass1 (pre ++ .instr lab m (a.withOpd o') :: post) .init = some s' := by
    refine pass1_append_some pre _ hs g1 ?_
    rw [pass1_cons (by simp), step_instr k1 hplace]
    exact g5
  obtain ⟨new, n1, n2⟩ := g6.items
  have := same_code hw hw' hp hp' ha hr h1 h2 (by
    rw [n1, n2, g6.env]
    refine List.rel_append (List.rel_append (List.forall₂_same.2 fun it _ => ⟨rfl, rfl, rfl⟩) (.cons ⟨rfl, rfl, hsame e2⟩ .nil))
      (List.forall₂_same.2 fun it _ => ⟨rfl, rfl, rfl⟩))
  obtain ⟨_, q1, q2⟩ := check_assembleLow.1 (succeeds_check hw hp hr)
  rw [h1] at q1
  cases q1
  have hn := (hr.unique ((C26_low hw hp ha).1 _ q2)).2.2
  rw [g6.env, hn] at this
  rw [hn]
  simpa using this

/-- Only branches have relative addressing. -/
theorem modeFor_not_rel {m : Mnemonic} {a : Arg} {v : Nat} {md : Mode} (hb : Spec.isBranch m = false) (h : modeFor m a v = some md) : md ≠ .rel := by
  rintro rfl
  obtain ⟨op, hop⟩ := (modeFor_some h).2
  have key : ∀ m : Mnemonic, Spec.isBranch m = false → opcode? m .rel = none := by intro m; cases m <;> decide
  rw [key m hb] at hop
  cases hop

theorem encode_same {env : Env} {m : Mnemonic} {a : Arg} {o o' : Opd} (hb : Spec.isBranch m = false) (hv : opdValue env o' = opdValue env o)
    {pc : Nat} {md : Mode} {v : Nat} (h : modeFor m a v = some md) : encodeLow env ⟨pc, m, md, some o'⟩ = encodeLow env ⟨pc, m, md, some o⟩ := by
  have hr := modeFor_not_rel hb h
  unfold encodeLow operandBytesLow
  cases md <;> simp [Mode.bytes, hv] at hr ⊢

/-- **C71, the address for the name.** Let gaia assemble a program (documented language, ascending addresses) in which an instruction that is
not a branch uses the name `l`, defined before or after it, as a label or a constant. The program with the final value `v` of the name
written in its place has the same binary and the same totals. -/
theorem C71_value_for_name {w w' : World} {srcName outName srcName' outName' : Str} {src src' : List Byte} {pre post : List Stmt}
    {lab : Option Str} {m : Mnemonic} {a : Arg} {l : Str} {v : Nat} (ho : a.opd = some (.sym l)) (hb : Spec.isBranch m = false)
    (hw : Setup w srcName outName src) (hw' : Setup w' srcName' outName' src')
    (hp : IsProgram src (pre ++ .instr lab m a :: post)) (hp' : IsProgram src' (pre ++ .instr lab m (a.withOpd (.lit v)) :: post))
    (ha : AscendingProgram (pre ++ .instr lab m a :: post)) (hs : .stop ∉ pre)
    {s : Pass1} (h1 : pass1 (pre ++ .instr lab m a :: post) .init = some s) (hv : s.env.lookup l = some v)
    {bin : List Byte} {total symbols : Nat} (hr : Succeeds w srcName outName bin total symbols) :
    Succeeds w' srcName' outName' bin total symbols := by
  refine operand_exchanged ho hw hw' hp hp' ha hs h1 ?_ (encode_same hb (by simp [opdValue, hv])) hr
  intro t y z md _ _ hext e1 e2
  refine ⟨v, rfl, ?_⟩
  unfold sizingValue at e1
  cases hq : y.env.lookup l with
  | none =>
    simp only [hq] at e1
    split at e1
    · rename_i hbj
      rw [modeFor_flow hbj a v z]
      exact e2
    · cases e1
  | some k =>
    simp only [hq, Option.some.injEq] at e1
    have := hext l k hq
    rw [hv] at this
    cases this
    rw [e1]
    exact e2

/-- **C71, the name for the address.** Conversely a literal can be replaced by a name `l` that has its value in the program, if the
instruction is a jump or the name is defined before it. -/
theorem C71_name_for_value {w w' : World} {srcName outName srcName' outName' : Str} {src src' : List Byte} {pre post : List Stmt}
    {lab : Option Str} {m : Mnemonic} {a : Arg} {l : Str} {v : Nat} (ho : a.opd = some (.lit v)) (hb : Spec.isBranch m = false)
    (hw : Setup w srcName outName src) (hw' : Setup w' srcName' outName' src')
    (hp : IsProgram src (pre ++ .instr lab m a :: post)) (hp' : IsProgram src' (pre ++ .instr lab m (a.withOpd (.sym l)) :: post))
    (ha : AscendingProgram (pre ++ .instr lab m a :: post)) (hs : .stop ∉ pre)
    {s : Pass1} (h1 : pass1 (pre ++ .instr lab m a :: post) .init = some s) (hv : s.env.lookup l = some v)
    (hm : Spec.isJump m = true ∨ lab = some l ∨ ∃ d ∈ pre, d.defines = some l)
    {bin : List Byte} {total symbols : Nat} (hr : Succeeds w srcName outName bin total symbols) :
    Succeeds w' srcName' outName' bin total symbols := by
  refine operand_exchanged ho hw hw' hp hp' ha hs h1 ?_ (encode_same hb (by simp [opdValue, hv])) hr
  intro t y z md g1 k1 hext e1 e2
  have hz : v = z := by simpa [sizingValue] using e1
  subst hz
  unfold sizingValue
  cases hq : y.env.lookup l with
  | some k =>
    have := hext l k hq
    rw [hv] at this
    cases this
    exact ⟨v, by simp only [hq], e2⟩
  | none =>
    have hj : Spec.isJump m = true := by
      rcases hm with hm | hm | ⟨d, hd, hd'⟩
      · exact hm
      · subst hm
        obtain ⟨_, rfl⟩ := define_some k1
        simp at hq
      · have := known_of_defined pre hs g1 d hd l hd'
        cases hq' : t.env.lookup l with
        | none => rw [hq'] at this; cases this
        | some z =>
          cases lab with
          | none => cases k1; rw [hq'] at hq; cases hq
          | some x => rw [(define_extends k1).1 l z hq'] at hq; cases hq
    have hbj : (Spec.isBranch m || Spec.isJump m) = true := by simp [hj]
    refine ⟨0, by simp only [hq, hbj, if_true], ?_⟩
    rw [modeFor_flow hbj a 0 v]
    exact e2

/-! ### A case: a jump forward, the same with the address; a branch is different -/

def addrSrc' : List Byte := b! " JMP $3\nM NOP\nN LDA M\nK =3\n"

theorem addr_isProgram : IsProgram addrSrc' ([] ++ .instr none .JMP (.plain (.lit 3)) :: namesPost) :=
  isProgram_eval (by decide +kernel) (by decide +kernel) (by decide +kernel) (by
    intro st hst h
    simp only [namesPost, List.nil_append, List.mem_cons, List.not_mem_nil, or_false] at hst
    rcases hst with rfl | rfl | rfl | rfl <;> simp [IndexedJump, Stmt.jumpsIndexed] at h)

example : Succeeds (demo addrSrc') (b! "p.asm") (b! "p.bin") namesBin 6 3 :=
  C71_value_for_name (a := .plain (.sym (b! "M"))) (l := b! "M") (v := 3) rfl (by decide +kernel) (demo_setup namesSrc) (demo_setup addrSrc')
    (names_isProgram (b! "M") (by decide +kernel) (by decide +kernel) (by decide +kernel)) addr_isProgram
    (ascendingProgram_eval (by decide +kernel)) (by decide +kernel)
    (s := ⟨6, [(b! "K", 3), (b! "N", 4), (b! "M", 3)], [⟨0, .JMP, .abs, some (.sym (b! "M"))⟩, ⟨3, .NOP, .imp, none⟩, ⟨4, .LDA, .zp, some (.sym (b! "M"))⟩]⟩)
    (by decide +kernel) (by decide +kernel) (demo_succeeds (by decide +kernel))

/-- The operand of a branch is a label or the offset itself, so the address is not the same. -/
theorem C71_not_for_branches : Succeeds (demo (b! "L NOP\n BNE L\n")) (b! "p.asm") (b! "p.bin") [0xEA, 0xD0, 0xFD] 3 1 ∧
    Succeeds (demo (b! "L NOP\n BNE $0\n")) (b! "p.asm") (b! "p.bin") [0xEA, 0xD0, 0] 3 1 :=
  ⟨demo_succeeds (by decide +kernel), demo_succeeds (by decide +kernel)⟩

end Gaia

import Verif.Props.C12_Modes
import Verif.Props.C20_Labels
import Verif.Props.C23_Forward
import Verif.Proofs.BadLine
import Verif.Proofs.LexUnique

/-!
C12, C20, C22, C25 for whole runs: which message a source gets whose lines are in order up to some line. The state in which that line
is reached is the one of the specification's first pass over the lines before it.
-/
namespace Gaia
open Gaia.Spec

/-- The symbols known to the operand of a line that starts with the label `lab`. -/
def symbolsAt (s : Pass1) : Option Str → Env
  | none => s.env
  | some l => (l, s.pc) :: s.env

/-- The operand has the value `v` (0 if there is none), by the symbols `env`. -/
def ValueIn (env : Env) : Option Opd → Nat → Prop
  | none, v => v = 0
  | some (.lit n), v => v = n
  | some (.sym l), v => env.lookup l = some v

theorem firstFault_snoc : ∀ (p : List Stmt) {n : Nat} {s s' : Pass1} {st : Stmt} {e : Err}, .stop ∉ p → firstFault p n s = none →
    pass1 p s = some s' → st ≠ .stop → stmtFault s' st = some e → firstFault (p ++ [st]) n s = some (n + p.length, e)
  | [], n, s, s', st, e, _, _, h1, hst, he => by
    have : s = s' := by simpa [pass1] using h1
    subst this
    cases st with
    | stop => exact absurd rfl hst
    | _ => simp only [List.nil_append, firstFault, he]; rfl
  | x :: p, n, s, s', st, e, hn, hf, h1, hst, he => by
    have hx : x ≠ .stop := fun h => hn (by simp [h])
    have hp : (.stop : Stmt) ∉ p := fun h => hn (by simp [h])
    have e1 : pass1 (x :: p) s = (pass1Stmt s x).bind (pass1 p) := by cases x <;> first | exact absurd rfl hx | rfl
    have e2 : ∀ q, firstFault (x :: q) n s = match stmtFault s x with
        | some e => some (n, e)
        | none => firstFault q (n + 1) ((pass1Stmt s x).getD s) := by
      intro q; cases x <;> first | exact absurd rfl hx | rfl
    rw [e2] at hf
    rw [List.cons_append, e2]
    cases hx' : stmtFault s x with
    | some e => rw [hx'] at hf; simp at hf
    | none =>
      rw [hx'] at hf
      simp only at hf ⊢
      rw [e1] at h1
      cases hs : pass1Stmt s x with
      | none => rw [hs] at h1; simp at h1
      | some s1 =>
        rw [hs] at h1 hf
        simp only [Option.bind_some] at h1
        simp only [Option.getD_some] at hf ⊢
        rw [firstFault_snoc p hp hf h1 hst he, List.length_cons]
        congr 2; omega

theorem Reads_snoc {ls : List (List Byte)} {p : List Stmt} (h : Reads ls p) (hs : .stop ∉ p) {l : List Byte} {x : List (Nat × Lexeme)} {st : Stmt}
    (hl : Lexes l x) (hp : parse (x.map (·.2)) = some st) (hst : st ≠ .stop) : Reads (ls ++ [l]) (p ++ [st]) := by
  induction h with
  | nil => exact .cons _ _ _ _ _ hl hp hst .nil
  | stop => simp at hs
  | cons l' rest x' st' p' h1 h2 h3 hr ih => exact .cons _ _ _ _ _ h1 h2 h3 (ih fun h => hs (by simp [h]))

theorem noForwardJump_snoc {p : List Stmt} (h : NoForwardIndexedJump p) {st : Stmt}
    (hj : ∀ l, st.jumpsIndexed = some l → ∃ d ∈ p ++ [st], d.defines = some l) : NoForwardIndexedJump (p ++ [st]) := by
  intro before x after l e hx
  rcases List.eq_nil_or_concat after with rfl | ⟨as, a, rfl⟩
  · have := List.append_inj' e rfl
    obtain ⟨rfl, e2⟩ := this
    cases e2
    exact hj l hx
  · have e' : p ++ [st] = (before ++ x :: as) ++ [a] := by rw [e]; simp
    obtain ⟨e1, _⟩ := List.append_inj' e' rfl
    exact h before x as l e1 hx

/-- A faulty statement after faultless ones is what is reported, whatever follows. -/
theorem run_fault {w : World} {srcName outName : Str} {src : List Byte} {p : List Stmt} {l : List Byte} {rest : List (List Byte)}
    (hw : Setup w srcName outName src) (h : Continues src p l rest) (he : firstFault p 1 .init = none) {s : Pass1} (h1 : pass1 p .init = some s)
    {x : List (Nat × Lexeme)} (hl : Lexes l x) {st : Stmt} (hp : parse (x.map (·.2)) = some st) {e : Err} (hf : stmtFault s st = some e)
    (hj : ∀ l, st.jumpsIndexed = some l → ∃ d ∈ p ++ [st], d.defines = some l) :
    FailsAt w srcName outName src (p.length + 1) e (faultPos x e) := by
  have hst : st ≠ .stop := by rintro rfl; simp [stmtFault] at hf
  have hff := firstFault_snoc p h.noStop he h1 hst hf
  rw [Nat.add_comm] at hff
  obtain ⟨pre, hsp, hr⟩ := h.splits
  have hr' := Reads_snoc hr h.noStop hl hp hst
  have hnf := noForwardJump_snoc h.noForwardJump hj
  have key : ∃ l' x', (lines src)[p.length + 1 - 1]? = some l' ∧ Lexes l' x' ∧ FailsAt w srcName outName src (p.length + 1) e (faultPos x' e) := by
    cases rest with
    | nil =>
      refine run_error hw ⟨h.size, h.short, by rw [hsp]; exact hr', hnf⟩ (p := p ++ [st]) (k := p.length + 1) (e := e) ?_
      unfold check
      rw [hff]
    | cons l2 rest =>
      exact run_first_fault hw (p := p ++ [st]) (l := l2) (rest := rest) ⟨h.size, h.short, ⟨pre ++ [l], by rw [hsp]; simp, hr'⟩, by
        intro hm
        rcases List.mem_append.1 hm with hm | hm
        · exact h.noStop hm
        · exact hst (List.mem_singleton.1 hm).symm, hnf⟩ hff
  obtain ⟨l', x', k1, k2, k3⟩ := key
  have : l' = l := by
    rw [hsp, Nat.add_sub_cancel, ← Reads_length hr h.noStop] at k1
    simpa using k1.symm
  subst this
  rw [Lexes_unique hl k2]
  exact k3


/-- What is wrong with an instruction with a new label (or none). -/
theorem stmtFault_instr {s : Pass1} {lab : Option Str} (hlab : ∀ l, lab = some l → s.env.lookup l = none) (m : Mnemonic) (arg : Arg) :
    stmtFault s (.instr lab m arg) = instrFault s.pc (symbolsAt s lab) m arg := by
  cases lab with
  | none => rfl
  | some l => simp [stmtFault, labelFault, hlab l rfl, symbolsAt]

theorem sizingValue_known {env : Env} {m : Mnemonic} {o : Option Opd} {v : Nat} (hv : ValueIn env o v) : sizingValue env m o = some v := by
  match o, hv with
  | none, hv => simp only [ValueIn] at hv; simp [sizingValue, hv]
  | some (.lit n), hv => simp only [ValueIn] at hv; simp [sizingValue, hv]
  | some (.sym l), hv => simp only [ValueIn] at hv; simp [sizingValue, hv]

theorem indexed_known {p : List Stmt} {s : Pass1} (h1 : pass1 p .init = some s) {lab : Option Str} {m : Mnemonic} {arg : Arg} {v : Nat}
    (hv : ValueIn (symbolsAt s lab) arg.opd v) : ∀ l, (Stmt.instr lab m arg).jumpsIndexed = some l →
    ∃ d ∈ p ++ [Stmt.instr lab m arg], d.defines = some l := by
  intro l hl
  have ho : arg.opd = some (.sym l) := by
    unfold Stmt.jumpsIndexed at hl
    split at hl <;> simp_all [Arg.opd]
  rw [ho] at hv
  simp only [ValueIn] at hv
  by_cases hlab : lab = some l
  · subst hlab
    exact ⟨.instr (some l) m arg, by simp, rfl⟩
  · have hs : s.env.lookup l = some v := by
      cases lab with
      | none => exact hv
      | some k =>
        simp only [symbolsAt, List.lookup_cons] at hv
        have : l ≠ k := fun h => hlab (by rw [h])
        rw [beq_false_of_ne this] at hv
        exact hv
    have hm : l ∈ definitions p := by
      rw [← List.mem_reverse, ← pass1_definitions h1]
      have : (l, v) ∈ s.env := by
        have := List.lookup_eq_some_iff.1 hs
        obtain ⟨a, b, e, _⟩ := this
        rw [e]; simp
      exact List.mem_map_of_mem this
    obtain ⟨d, hd, hd'⟩ : ∃ d ∈ p, d.defines = some l := by
      obtain ⟨d, hd, hd'⟩ := List.mem_filterMap.1 hm
      refine ⟨d, List.takeWhile_subset _ hd, ?_⟩
      cases d with
      | instr k m a => cases k <;> simp_all [Stmt.defined, Stmt.defines]
      | _ => simp_all [Stmt.defined, Stmt.defines]
    exact ⟨d, by simp [hd], hd'⟩


theorem takeWhile_self {α : Type} {f : α → Bool} : ∀ {l : List α}, (∀ y ∈ l, f y = true) → l.takeWhile f = l
  | [], _ => rfl
  | a :: l, h => by rw [List.takeWhile_cons, if_pos (h a (by simp)), takeWhile_self fun y hy => h y (by simp [hy])]

/-- **C12, whole runs: refusal.** In a source whose lines are in order up to a line with an instruction whose operand value is known there:
if the 6502 does not have the mnemonic in the mode that form and value ask for, gaia stops at that line with 'illegal addressing mode',
whatever follows. -/
theorem C12_run_refused {w : World} {srcName outName : Str} {src : List Byte} {p : List Stmt} {l : List Byte} {rest : List (List Byte)}
    (hw : Setup w srcName outName src) (h : Continues src p l rest) (he : firstFault p 1 .init = none) {s : Pass1} (h1 : pass1 p .init = some s)
    {x : List (Nat × Lexeme)} (hl : Lexes l x) {lab : Option Str} {m : Mnemonic} {arg : Arg} (hp : parse (x.map (·.2)) = some (.instr lab m arg))
    (hlab : ∀ k, lab = some k → s.env.lookup k = none) {v : Nat} (hv : ValueIn (symbolsAt s lab) arg.opd v)
    (hm : ∀ md op, wantedMode m arg v = some md → opcode? m md ≠ some op) :
    FailsAt w srcName outName src (p.length + 1) .illegalAddressingMode none := by
  refine run_fault hw h he h1 hl hp (e := .illegalAddressingMode) ?_ (indexed_known h1 hv)
  rw [stmtFault_instr hlab, instrFault, sizingValue_known hv]
  have : modeFor m arg v = none := by
    unfold modeFor
    cases hw' : wantedMode m arg v with
    | none => rfl
    | some md =>
      rw [Option.filter_some_neg]
      cases ho : opcode? m md with
      | none => rfl
      | some op => exact absurd ho (hm md op hw')
  simp only [this]

/-- **C20, whole runs.** In a source whose lines are in order up to a line that defines a name (by whatever form) that an earlier line
has defined already, gaia stops at that line with 'no redefinition of labels' and points at the name, whatever follows. -/
theorem C20_run_refused {w : World} {srcName outName : Str} {src : List Byte} {p : List Stmt} {l : List Byte} {rest : List (List Byte)}
    (hw : Setup w srcName outName src) (h : Continues src p l rest) (he : firstFault p 1 .init = none)
    {x : List (Nat × Lexeme)} (hl : Lexes l x) {st : Stmt} (hp : parse (x.map (·.2)) = some st) {name : Str}
    (hd : st.defines = some name) (hd' : ∃ d ∈ p, d.defines = some name) (hj : ∀ l, st.jumpsIndexed = some l → ∃ d ∈ p ++ [st], d.defines = some l) :
    FailsAt w srcName outName src (p.length + 1) .labelRedefinition (nameOffsets x).head? := by
  obtain ⟨raw, tail, s, a, _, h1, _⟩ := (assembleA_continues h srcName).2 he
  refine run_fault hw h he h1 hl hp (e := .labelRedefinition) ?_ hj
  have hk : (s.env.lookup name).isSome = true := by
    have hm : name ∈ s.env.map (·.1) := by
      rw [pass1_definitions h1, List.mem_reverse]
      obtain ⟨d, hd1, hd2⟩ := hd'
      refine List.mem_filterMap.2 ⟨d, ?_, ?_⟩
      · rw [takeWhile_self (fun y hy => by
          have : y ≠ .stop := fun e => h.noStop (e ▸ hy)
          simpa using this)]
        exact hd1
      · cases d with
        | instr k m a => cases k <;> simp_all [Stmt.defined, Stmt.defines]
        | _ => simp_all [Stmt.defined, Stmt.defines]
    cases hl : s.env.lookup name with
    | some _ => rfl
    | none =>
      obtain ⟨q, hq, rfl⟩ := List.mem_map.1 hm
      have := List.lookup_eq_none_iff.1 hl q hq
      simp at this
  cases st with
  | label k => simp only [Stmt.defines, Option.some.injEq] at hd; subst hd; simp [stmtFault, labelFault, hk]
  | const k _ => simp only [Stmt.defines, Option.some.injEq] at hd; subst hd; simp [stmtFault, labelFault, hk]
  | instr k m a =>
    cases k with
    | none => simp [Stmt.defines] at hd
    | some k => simp only [Stmt.defines, Option.some.injEq] at hd; subst hd; simp [stmtFault, labelFault, hk]
  | _ => simp [Stmt.defines] at hd

/-- **C22, whole runs, targets known.** In a source whose lines are in order up to a branch to a label with the value `t`: if `t` is more
than 126 bytes before the branch or more than 129 after it, gaia stops there with 'branch offset too far away', pointing at the label. -/
theorem C22_run_refused {w : World} {srcName outName : Str} {src : List Byte} {p : List Stmt} {l : List Byte} {rest : List (List Byte)}
    (hw : Setup w srcName outName src) (h : Continues src p l rest) (he : firstFault p 1 .init = none) {s : Pass1} (h1 : pass1 p .init = some s)
    {x : List (Nat × Lexeme)} (hl : Lexes l x) {lab : Option Str} {m : Mnemonic} {target : Str}
    (hp : parse (x.map (·.2)) = some (.instr lab m (.plain (.sym target)))) (hlab : ∀ k, lab = some k → s.env.lookup k = none)
    (hb : Spec.isBranch m = true) {t : Nat} (ht : (symbolsAt s lab).lookup target = some t) (hfar : ¬ (s.pc ≤ t + 126 ∧ t ≤ s.pc + 129)) :
    FailsAt w srcName outName src (p.length + 1) .tooBigOffset (nameOffsets x).getLast? := by
  refine run_fault hw h he h1 hl hp (e := .tooBigOffset) ?_ (indexed_known (v := t) h1 ht)
  rw [stmtFault_instr hlab, instrFault, sizingValue_known (v := t) (o := (Arg.plain (.sym target)).opd) ht]
  have hmode : modeFor m (.plain (.sym target)) t = some .rel := by
    unfold modeFor wantedMode
    simp only [hb, if_true]
    revert hb
    cases m <;> decide
  simp only [hmode, Arg.opd, ht, hb, branchByte_none.2 hfar, and_self, if_true]

/-- **C25, whole runs.** In a source whose lines are in order up to an instruction that is neither a branch nor a jump and whose operand is
a name no earlier line (nor the line itself) defines, gaia stops at that line with 'illegal forward reference', pointing at the name, even if
the name is defined later. -/
theorem C25_run_refused {w : World} {srcName outName : Str} {src : List Byte} {p : List Stmt} {l : List Byte} {rest : List (List Byte)}
    (hw : Setup w srcName outName src) (h : Continues src p l rest) (he : firstFault p 1 .init = none)
    {x : List (Nat × Lexeme)} (hl : Lexes l x) {lab : Option Str} {m : Mnemonic} {arg : Arg} (hp : parse (x.map (·.2)) = some (.instr lab m arg))
    (hlab : ∀ k, lab = some k → ∀ d ∈ p, d.defines ≠ some k) {name : Str} (ho : arg.opd = some (.sym name)) (hn : lab ≠ some name)
    (hu : ∀ d ∈ p, d.defines ≠ some name) (hb : Spec.isBranch m = false) (hj : Spec.isJump m = false) :
    FailsAt w srcName outName src (p.length + 1) .illegalForwardReference (nameOffsets x).getLast? := by
  obtain ⟨raw, tail, s, a, _, h1, _⟩ := (assembleA_continues h srcName).2 he
  have none_of : ∀ k, (∀ d ∈ p, d.defines ≠ some k) → s.env.lookup k = none := by
    intro k hk
    cases hl : s.env.lookup k with
    | none => rfl
    | some v =>
      exfalso
      have hm : k ∈ definitions p := by
        rw [← List.mem_reverse, ← pass1_definitions h1]
        obtain ⟨a, b, e, _⟩ := List.lookup_eq_some_iff.1 hl
        exact List.mem_map_of_mem (a := (k, v)) (by rw [e]; simp)
      obtain ⟨d, hd, hd'⟩ := List.mem_filterMap.1 hm
      refine hk d (List.takeWhile_subset _ hd) ?_
      cases d with
      | instr k m a => cases k <;> simp_all [Stmt.defined, Stmt.defines]
      | _ => simp_all [Stmt.defined, Stmt.defines]
  refine run_fault hw h he h1 hl hp (e := .illegalForwardReference) ?_ ?_
  · rw [stmtFault_instr (fun k hk => none_of k (hlab k hk)), instrFault, ho]
    have : (symbolsAt s lab).lookup name = none := by
      cases lab with
      | none => exact none_of name hu
      | some k =>
        have hk : name ≠ k := fun h => hn (by rw [h])
        simp only [symbolsAt, List.lookup_cons, beq_false_of_ne hk]
        exact none_of name hu
    simp [sizingValue, this, hb, hj]
  · intro k hk
    exfalso
    unfold Stmt.jumpsIndexed at hk
    split at hk <;> simp_all [Spec.isJump]

/-- **C22, whole runs, targets defined later.** If all statements are in order in themselves, and the first forward reference with a fault is
a branch to a label with the value `t` that is out of reach, gaia stops with 'branch offset too far away', for the line of the branch and
pointing at the label. -/
theorem C22_forward_refused {w : World} {srcName outName : Str} {src : List Byte} {p : List Stmt} (hw : Setup w srcName outName src)
    (hp : IsProgram src p) (hf : firstFault p 1 .init = none) {s : Pass1} (h1 : pass1 p .init = some s) {pre post : List Placed}
    {d : Placed} (hd : placed p 1 .init = pre ++ d :: post) (hpre : ∀ e ∈ pre, Placed.fault s.env e = none) {l : Str} {t : Nat}
    (hl : d.forward = some l) (hb : Spec.isBranch d.item.mnemonic = true) (ht : s.env.lookup l = some t)
    (hfar : ¬ (d.item.addr ≤ t + 126 ∧ t ≤ d.item.addr + 129)) :
    ∃ line x, (lines src)[d.line - 1]? = some line ∧ Lexes line x ∧
      FailsAt w srcName outName src d.line .tooBigOffset (nameOffsets x).getLast? := by
  have hc : check p = some (d.line, .tooBigOffset) := by
    unfold check
    rw [hf, h1]
    simp only [Option.getD_some]
    rw [hd, List.findSome?_append, List.findSome?_eq_none_iff.2 hpre, List.findSome?_cons]
    have : Placed.fault s.env d = some (d.line, .tooBigOffset) := by
      unfold Placed.fault
      rw [hl]
      simp only [ht, hb, branchByte_none.2 hfar, and_self, if_true]
    rw [this]
    rfl
  obtain ⟨line, x, k1, k2, k3⟩ := run_error hw hp hc
  exact ⟨line, x, k1, k2, k3⟩


/-! Non-vacuity: each theorem on a source with lines before and after the faulty one (the last line is no statement at all). -/

theorem continues_eval {src : List Byte} {pre : List (List Byte)} {p : List Stmt} {l : List Byte} {rest : List (List Byte)} (h1 : Sized src)
    (h2 : ∀ l ∈ lines src, l.length ≤ 126) (h3 : lines src = pre ++ l :: rest) (h4 : linesStmts pre = some p) (h5 : .stop ∉ p)
    (h6 : ∀ st ∈ p, ¬ IndexedJump st) : Continues src p l rest :=
  ⟨h1, h2, ⟨pre, h3, reads_eval h4⟩, h5, noForward_of h6⟩

def faulty (l : Str) : List Byte := b! "V =$1234\nL: NOP\n" ++ l ++ b! "\nM: RTS\n???\n"

def faultyProg : List Stmt := [.const (b! "V") 0x1234, .instr (some (b! "L")) .NOP .none]

/-- STX has no absolute,Y mode. -/
example : FailsAt (demo (faulty (b! " STX V,Y"))) (b! "p.asm") (b! "p.bin") (faulty (b! " STX V,Y")) 3 .illegalAddressingMode none := by
  refine C12_run_refused (p := faultyProg) (l := b! " STX V,Y") (rest := [b! "M: RTS", b! "???"]) (v := 0x1234) (lab := none) (m := .STX) (arg := .idxY (.sym (b! "V")))
    (x := [(1, .mnem .STX), (5, .name (b! "V")), (6, .comma), (7, .regY)])
    (s := ⟨1, [(b! "L", 0), (b! "V", 0x1234)], [⟨0, .NOP, .imp, none⟩]⟩) (demo_setup _)
    (continues_eval (pre := [b! "V =$1234", b! "L: NOP"]) (by decide) (by decide +kernel) (by decide +kernel) (by decide +kernel) (by decide) (by decide))
    (by decide +kernel) (by decide +kernel) (lexes_eval (by decide +kernel) (by decide +kernel)) (by decide) (by simp) ?_ ?_
  · show List.lookup _ _ = _
    decide +kernel
  · intro md op h
    cases h
    rw [show opcode? .STX .absY = none by decide]
    simp

example : demoRun (faulty (b! " STX V,Y")) = some (1, b! "p.asm:3: ERROR: illegal addressing mode\n STX V,Y\n\n", some [0xEA]) := by decide +kernel

/-- `L` is an address already. -/
example : FailsAt (demo (faulty (b! ".DEFINE L $5"))) (b! "p.asm") (b! "p.bin") (faulty (b! ".DEFINE L $5")) 3 .labelRedefinition (some 8) :=
  C20_run_refused (p := faultyProg) (l := b! ".DEFINE L $5") (rest := [b! "M: RTS", b! "???"]) (st := .const (b! "L") 5) (name := b! "L")
    (x := [(0, .define), (8, .name (b! "L")), (10, .lit 5)]) (demo_setup _)
    (continues_eval (pre := [b! "V =$1234", b! "L: NOP"]) (by decide) (by decide +kernel) (by decide +kernel) (by decide +kernel) (by decide) (by decide))
    (by decide +kernel) (lexes_eval (by decide +kernel) (by decide +kernel)) (by decide) rfl ⟨.instr (some (b! "L")) .NOP .none, by decide, rfl⟩
    (fun l h => by simp [Stmt.jumpsIndexed] at h)

/-- `V` is 0x1234 and the branch is at 1. -/
example : FailsAt (demo (faulty (b! "K BNE V"))) (b! "p.asm") (b! "p.bin") (faulty (b! "K BNE V")) 3 .tooBigOffset (some 6) :=
  C22_run_refused (p := faultyProg) (l := b! "K BNE V") (rest := [b! "M: RTS", b! "???"]) (lab := some (b! "K")) (m := .BNE) (target := b! "V") (t := 0x1234)
    (x := [(0, .name (b! "K")), (2, .mnem .BNE), (6, .name (b! "V"))])
    (s := ⟨1, [(b! "L", 0), (b! "V", 0x1234)], [⟨0, .NOP, .imp, none⟩]⟩) (demo_setup _)
    (continues_eval (pre := [b! "V =$1234", b! "L: NOP"]) (by decide) (by decide +kernel) (by decide +kernel) (by decide +kernel) (by decide) (by decide))
    (by decide +kernel) (by decide +kernel) (lexes_eval (by decide +kernel) (by decide +kernel)) (by decide)
    (fun k h => by cases h; decide +kernel) (by decide) (by decide +kernel) (by decide)

/-- `M` is defined on the next line only. -/
example : FailsAt (demo (faulty (b! " LDA (M,X)"))) (b! "p.asm") (b! "p.bin") (faulty (b! " LDA (M,X)")) 3 .illegalForwardReference (some 6) :=
  C25_run_refused (p := faultyProg) (l := b! " LDA (M,X)") (rest := [b! "M: RTS", b! "???"]) (lab := none) (m := .LDA) (arg := .indX (.sym (b! "M")))
    (name := b! "M") (x := [(1, .mnem .LDA), (5, .lpar), (6, .name (b! "M")), (7, .comma), (8, .regX), (9, .rpar)]) (demo_setup _)
    (continues_eval (pre := [b! "V =$1234", b! "L: NOP"]) (by decide) (by decide +kernel) (by decide +kernel) (by decide +kernel) (by decide) (by decide))
    (by decide +kernel) (lexes_eval (by decide +kernel) (by decide +kernel)) (by decide) (by simp) rfl (by simp) (by decide +kernel) rfl rfl

def farSrc : List Byte := b! " JMP N\nB BNE F\nN: NOP\n*=$85\nF: RTS\n"
def farProg : List Stmt := [.instr none .JMP (.plain (.sym (b! "N"))), .instr (some (b! "B")) .BNE (.plain (.sym (b! "F"))), .instr (some (b! "N")) .NOP .none,
  .org 0x85, .instr (some (b! "F")) .RTS .none]

/-- `F` is 130 bytes after the branch. -/
example : ∃ line x, (lines farSrc)[2 - 1]? = some line ∧ Lexes line x ∧
    FailsAt (demo farSrc) (b! "p.asm") (b! "p.bin") farSrc 2 .tooBigOffset (nameOffsets x).getLast? := by
  have h : pass1 farProg .init = some ⟨0x86, [(b! "F", 0x85), (b! "N", 5), (b! "B", 3)], [⟨0, .JMP, .abs, some (.sym (b! "N"))⟩,
    ⟨3, .BNE, .rel, some (.sym (b! "F"))⟩, ⟨5, .NOP, .imp, none⟩, ⟨0x85, .RTS, .imp, none⟩]⟩ := by decide +kernel
  exact C22_forward_refused (l := b! "F") (t := 0x85) (demo_setup farSrc)
    (isProgram_eval (by decide) (by decide +kernel) (by decide +kernel) (by decide)) (by decide +kernel) h
    (pre := [⟨1, ⟨0, .JMP, .abs, some (.sym (b! "N"))⟩, []⟩])
    (d := ⟨2, ⟨3, .BNE, .rel, some (.sym (b! "F"))⟩, [(b! "B", 3)]⟩)
    (post := [⟨3, ⟨5, .NOP, .imp, none⟩, [(b! "N", 5), (b! "B", 3)]⟩, ⟨5, ⟨0x85, .RTS, .imp, none⟩, [(b! "F", 0x85), (b! "N", 5), (b! "B", 3)]⟩])
    (by decide +kernel) (by decide +kernel) (by decide +kernel) (by decide) (by decide +kernel) (by decide)

end Gaia

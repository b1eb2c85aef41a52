import Verif.Proofs.Truncate
import Verif.Props.Example

/-! C26: one pass with patching gives the same result as a textbook two-pass assembler. -/
set_option maxRecDepth 10000
namespace Gaia
open Spec

/-- The addresses of the program ascend. -/
def AscendingProgram (p : List Stmt) : Prop := ∀ s, pass1 p .init = some s → Ascending s.items

instance (items : List Item) : Decidable (Ascending items) := by unfold Ascending; infer_instance

theorem ascendingProgram_eval {p : List Stmt} (h : (match pass1 p .init with | some s => decide (Ascending s.items) | none => true) = true) :
    AscendingProgram p := by
  intro s hs
  rw [hs] at h
  simpa using h

/-- **C26** (what the two-pass assembler assembles, gaia assembles). For every source that is a program of the documented
language, with ascending addresses: if the two-pass assembler `assemble` has a result, gaia exits with status 0, the binary
is the memory image of that result and the printed totals are its number of bytes and of symbols. -/
theorem C26_assembles {w : World} {srcName outName : Str} {src : List Byte} {p : List Stmt} (hw : Setup w srcName outName src)
    (hp : IsProgram src p) (ha : AscendingProgram p) {r : Result} (hr : assemble p = some r) :
    Succeeds w srcName outName (image r.chunks) (totalBytes r.chunks) r.env.length := by
  obtain ⟨bin, h1, h2⟩ := run_assembled hw hp hr
  obtain ⟨s, h3, _, _⟩ := assemble_some hr
  rwa [h2 (ascending_harmless h3 (ha s h3))] at h1

/-- **C26** (what it refuses, gaia refuses), if operand values fit their fields: gaia exits with status 1 after one
diagnostic. -/
theorem C26_refuses {w : World} {srcName outName : Str} {src : List Byte} {p : List Stmt} (hw : Setup w srcName outName src)
    (hp : IsProgram src p) (hin : InRange p) (hr : assemble p = none) :
    ∃ k e pos, FailsAt w srcName outName src k e pos := by
  obtain ⟨k, e, l, x, _, _, _, h⟩ := run_refused hw hp hin hr
  exact ⟨k, e, _, h⟩

/-- When do all operands fit? If all labels are below 64 KiB and no branch has a literal offset above 0xFF. -/
theorem inRange_of {src : List Byte} {p : List Stmt} (hp : IsProgram src p)
    (hlab : ∀ s, pass1 p .init = some s → ∀ l v, s.env.lookup l = some v → v ≤ 0xFFFF)
    (hbr : ∀ s, pass1 p .init = some s → ∀ it ∈ s.items, it.mode = .rel → ∀ v, it.opd = some (.lit v) → v ≤ 0xFF) : InRange p := by
  intro s hs it hit
  refine ⟨fun v hv => ⟨fun _ => ?_, fun hr => hbr s hs it hit hr v hv⟩, fun l v _ hl _ => hlab s hs l v hl⟩
  exact pass1_small p (Reads_small hp.reads) hs (by simp [Pass1.init]) it hit v hv

/-- **C26.** gaia and the two-pass assembler agree on every program of the documented language: the one succeeds iff the
other does, with the same memory image as binary. Missing from the full property (hence `_partial`), and false of the code,
see the counterexamples below: programs whose operand values do not fit (`InRange`), which gaia assembles by cutting the
values (`C26_low` is the exact statement); programs with `JMP label,X` (excluded by `IsProgram`), see
`C14_illegal_opcode`; programs whose addresses do not ascend, see `C26_damage`. -/
theorem C26_two_pass_partial {w : World} {srcName outName : Str} {src : List Byte} {p : List Stmt} (hw : Setup w srcName outName src)
    (hp : IsProgram src p) (ha : AscendingProgram p) (hin : InRange p) :
    (∀ r, assemble p = some r → Succeeds w srcName outName (image r.chunks) (totalBytes r.chunks) r.env.length) ∧
    (assemble p = none → ∃ k e pos, FailsAt w srcName outName src k e pos) :=
  ⟨fun _ hr => C26_assembles hw hp ha hr, C26_refuses hw hp hin⟩

/-- **C26, exact.** Without any condition on operand values, gaia agrees with the two-pass assembler that cuts values to the
size of their field. -/
theorem C26_low {w : World} {srcName outName : Str} {src : List Byte} {p : List Stmt} (hw : Setup w srcName outName src)
    (hp : IsProgram src p) (ha : AscendingProgram p) :
    (∀ r, assembleLow p = some r → Succeeds w srcName outName (image r.chunks) (totalBytes r.chunks) r.env.length) ∧
    (assembleLow p = none → ∃ k e pos, FailsAt w srcName outName src k e pos) := by
  constructor
  · intro r hr
    obtain ⟨bin, h1, h2⟩ := run_assembledLow hw hp hr
    obtain ⟨_, s, h3, _⟩ := assembleLow_some hr
    rwa [h2 (ascending_harmless h3 (ha s h3))] at h1
  · intro hr
    cases hc : check p with
    | none =>
      obtain ⟨s, _, g2⟩ := check_assembleLow.1 hc
      rw [hr] at g2; cases g2
    | some f =>
      obtain ⟨k, e⟩ := f
      obtain ⟨l, x, h1, h2, h3⟩ := run_error hw hp hc
      exact ⟨k, e, _, h3⟩

/-- Whatever the addresses, the two agree on which programs are accepted and on the printed totals. -/
theorem C26_accepts {w : World} {srcName outName : Str} {src : List Byte} {p : List Stmt} (hw : Setup w srcName outName src)
    (hp : IsProgram src p) :
    (∀ r, assembleLow p = some r → ∃ bin, Succeeds w srcName outName bin (totalBytes r.chunks) r.env.length) ∧
    (assembleLow p = none → ∃ k e pos, FailsAt w srcName outName src k e pos) := by
  constructor
  · intro r hr
    obtain ⟨bin, h1, _⟩ := run_assembledLow hw hp hr
    exact ⟨bin, h1⟩
  · intro hr
    cases hc : check p with
    | none =>
      obtain ⟨s, _, g2⟩ := check_assembleLow.1 hc
      rw [hr] at g2; cases g2
    | some f =>
      obtain ⟨k, e⟩ := f
      obtain ⟨l, x, h1, h2, h3⟩ := run_error hw hp hc
      exact ⟨k, e, _, h3⟩

/-! Non-vacuity: a program with forward and backward references, a constant and a gap. -/

def c26Src : List Byte := b! "K = $12\n*=$10\nLOOP LDA K\n BNE DONE ; out\n JMP LOOP\n*=$20\nDONE: RTS\n"

def c26Prog : List Stmt :=
  [.const (b! "K") 0x12, .org 0x10, .instr (some (b! "LOOP")) .LDA (.plain (.sym (b! "K"))),
    .instr none .BNE (.plain (.sym (b! "DONE"))), .instr none .JMP (.plain (.sym (b! "LOOP"))), .org 0x20,
    .instr (some (b! "DONE")) .RTS .none]

theorem c26_isProgram : IsProgram c26Src c26Prog :=
  isProgram_eval (by decide) (by decide +kernel) (by decide +kernel) (by
    intro st hst h
    simp only [c26Prog, List.mem_cons, List.not_mem_nil, or_false] at hst
    rcases hst with rfl | rfl | rfl | rfl | rfl | rfl | rfl <;> simp [IndexedJump, Stmt.jumpsIndexed] at h)

example : ∃ r, assemble c26Prog = some r ∧ r.chunks.length = 4 ∧ AscendingProgram c26Prog ∧
    Succeeds (demo c26Src) (b! "p.asm") (b! "p.bin") (image r.chunks) (totalBytes r.chunks) r.env.length :=
  ⟨⟨[(0x10, [0xA5, 0x12]), (0x12, [0xD0, 0x0C]), (0x14, [0x4C, 0x10, 0x00]), (0x20, [0x60])],
      [(b! "DONE", 0x20), (b! "LOOP", 0x10), (b! "K", 0x12)]⟩, by decide +kernel, rfl, ascendingProgram_eval (by decide +kernel),
    C26_assembles (demo_setup _) c26_isProgram (ascendingProgram_eval (by decide +kernel)) (by decide +kernel)⟩

example : InRange c26Prog := assemble_inRange (r := ⟨[(0x10, [0xA5, 0x12]), (0x12, [0xD0, 0x0C]), (0x14, [0x4C, 0x10, 0x00]), (0x20, [0x60])],
      [(b! "DONE", 0x20), (b! "LOOP", 0x10), (b! "K", 0x12)]⟩) (by decide +kernel)

/-! Counterexamples to the full property. -/

/-- **Not true without `InRange`**: a label beyond 64 KiB. The two-pass assembler refuses `*=$FFFF`, `NOP`, `L JMP L`, as L is
0x10000; gaia succeeds and assembles a jump to 0. -/
theorem C26_label_counterexample : ∃ src p, Setup (demo src) (b! "p.asm") (b! "p.bin") src ∧ IsProgram src p ∧ AscendingProgram p ∧
    assemble p = none ∧ ∃ bin, Succeeds (demo src) (b! "p.asm") (b! "p.bin") bin 4 1 ∧
      bin = image [(0xFFFF, [0xEA]), (0x10000, [0x4C, 0, 0])] := by
  have hp : IsProgram (b! "*=$FFFF\nNOP\nL JMP L\n")
      [.org 0xFFFF, .instr none .NOP .none, .instr (some (b! "L")) .JMP (.plain (.sym (b! "L")))] :=
    isProgram_eval (by decide) (by decide +kernel) (by decide +kernel) (by
      intro st hst h
      simp only [List.mem_cons, List.not_mem_nil, or_false] at hst
      rcases hst with rfl | rfl | rfl <;> simp [IndexedJump, Stmt.jumpsIndexed] at h)
  have ha : AscendingProgram [.org 0xFFFF, .instr none .NOP .none, .instr (some (b! "L")) .JMP (.plain (.sym (b! "L")))] :=
    ascendingProgram_eval (by decide +kernel)
  refine ⟨_, _, demo_setup _, hp, ha, by decide +kernel, _, (C26_low (demo_setup _) hp ha).1
    ⟨[(0xFFFF, [0xEA]), (0x10000, [0x4C, 0, 0])], [(b! "L", 0x10000)]⟩ (by decide +kernel), rfl⟩

/-- **Not true for branch offsets written as literals above 0xFF**: `BNE $1234` is assembled with offset 0x34. -/
theorem C26_offset_counterexample : ∃ src p, Setup (demo src) (b! "p.asm") (b! "p.bin") src ∧ IsProgram src p ∧ AscendingProgram p ∧
    assemble p = none ∧ Succeeds (demo src) (b! "p.asm") (b! "p.bin") [0xD0, 0x34] 2 0 := by
  have hp : IsProgram (b! "BNE $1234") [.instr none .BNE (.plain (.lit 0x1234))] :=
    isProgram_eval (by decide) (by decide +kernel) (by decide +kernel) (by
      intro st hst h
      simp only [List.mem_cons, List.not_mem_nil, or_false] at hst
      subst hst; simp [IndexedJump, Stmt.jumpsIndexed] at h)
  exact ⟨_, _, demo_setup _, hp, ascendingProgram_eval (by decide +kernel), by decide +kernel, demo_succeeds (by decide +kernel)⟩

/-- **Not true without ascending addresses**, even if no two instructions overlap: in this program the dummy bytes of the
forward reference go to addresses 1 to 3, where gaia stood after the `NOP` at 0, and destroy the `NOP` at 3. -/
theorem C26_damage : ∃ src p r, Setup (demo src) (b! "p.asm") (b! "p.bin") src ∧ IsProgram src p ∧
    assemble p = some r ∧ byteAt r.chunks 3 = 0xEA ∧
    ∃ bin, Succeeds (demo src) (b! "p.asm") (b! "p.bin") bin (totalBytes r.chunks) r.env.length ∧ bin[3]? = some 0 := by
  have hp : IsProgram (b! "*=3\nNOP\n*=0\nNOP\n*=16\nJMP L\nL NOP\n") [.org 3, .instr none .NOP .none, .org 0, .instr none .NOP .none,
      .org 16, .instr none .JMP (.plain (.sym (b! "L"))), .instr (some (b! "L")) .NOP .none] :=
    isProgram_eval (by decide) (by decide +kernel) (by decide +kernel) (by
      intro st hst h
      simp only [List.mem_cons, List.not_mem_nil, or_false] at hst
      rcases hst with rfl | rfl | rfl | rfl | rfl | rfl | rfl <;> simp [IndexedJump, Stmt.jumpsIndexed] at h)
  refine ⟨_, _, ⟨[(3, [0xEA]), (0, [0xEA]), (16, [0x4C, 19, 0]), (19, [0xEA])], [(b! "L", 19)]⟩, demo_setup _, hp, by decide +kernel,
    by decide +kernel, [0xEA, 0, 0, 0, 0, 0, 0, 0, 0, 0, 0, 0, 0, 0, 0, 0, 0x4C, 19, 0, 0xEA], demo_succeeds (by decide +kernel), by decide⟩

end Gaia

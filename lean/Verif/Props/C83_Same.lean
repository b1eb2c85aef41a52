import Verif.Spec.Same
import Verif.Spec.Relocate
import Verif.Props.C50_Sections

/-!
C83: gaia assembles two programs to the same file exactly if they are the same instructions.
-/
set_option maxRecDepth 10000
namespace Gaia
open Spec
namespace Same

theorem disassemble_append : ∀ {is : List Insn}, (∀ i ∈ is, i.Valid) → ∀ rest, disassemble (is.flatMap Insn.bytes ++ rest) = (disassemble rest).map (is ++ ·)
  | [], _, rest => by cases h : disassemble rest <;> simp [h]
  | i :: is, h, rest => by
    rw [List.flatMap_cons, List.append_assoc, disassemble_bytes (h i (by simp)), disassemble_append (fun j hj => h j (by simp [hj])) rest]
    cases disassemble rest <;> rfl

theorem symbols_known {env : Env} {it : Item} {bs : List Byte} (h : encodeLow env it = some bs) (hb : it.mode.bytes ≠ 1) :
    ∀ l, it.opd = some (.sym l) → (env.lookup l).isSome := by
  intro l ho
  unfold encodeLow at h
  simp only [Option.bind_eq_bind, Option.bind_eq_some_iff, Option.some.injEq] at h
  obtain ⟨op, _, bs', h1, _⟩ := h
  unfold operandBytesLow at h1
  rcases mode_bytes_cases it.mode with e | e | e
  · exact absurd e hb
  all_goals
    simp only [e, ho, opdValue, Option.bind_eq_bind, Option.bind_eq_some_iff] at h1
    obtain ⟨v, h2, _⟩ := h1
    rw [h2]; rfl

/-- The machine instruction meant by an item. -/
theorem form_insn {env : Env} {it : Item} {i : Insn} {bs : List Byte} (h : MachineForm env it i) (hi : i.Valid) (he : encodeLow env it = some bs) :
    i = it.insn env := by
  obtain ⟨m, md, n⟩ := i
  obtain ⟨h1, h2, h3, h4, h5⟩ := h
  simp only at h1 h2 h3 h4 h5
  subst h1 h2
  have hn := hi.2
  simp only at hn
  unfold Item.insn
  congr 1
  unfold Item.field
  split
  · rename_i ho; exact h3 ho
  · rename_i v ho; exact h4 _ v ho rfl fun _ => ⟨_, rfl⟩
  · rename_i l ho
    by_cases hb : it.mode.bytes = 1
    · have hr : it.mode ≠ .rel := by rintro e; rw [e] at hb; cases hb
      rw [hb] at hn
      simp only [hr, if_false, hb]
      omega
    obtain ⟨v, hl⟩ := Option.isSome_iff_exists.1 (symbols_known he hb l ho)
    simp only [hl, Option.getD_some]
    split
    · rename_i hr
      have := h5 l v ho hl hr
      have hn : n < 256 := by
        rw [hr] at hn
        exact hn
      split at this <;> omega
    · rename_i hr
      exact h4 _ v ho hl fun h => absurd h hr

theorem forms_insns {env : Env} : ∀ {items : List Item} {is : List Insn}, List.Forall₂ (MachineForm env) items is → (∀ i ∈ is, i.Valid) →
    (∀ it ∈ items, ∃ bs, encodeLow env it = some bs) → is = items.map (Item.insn env)
  | _, _, .nil, _, _ => rfl
  | _, _, .cons h hs, hv, he => by
    obtain ⟨bs, hb⟩ := he _ (List.mem_cons_self ..)
    rw [List.map_cons, ← form_insn h (hv _ (by simp)) hb, ← forms_insns hs (fun i hi => hv i (by simp [hi])) fun it hi => he it (by simp [hi])]

end Same
open Same

/-- The output of a program without origins is its machine code: no byte comes from anything else. -/
theorem C83_code {w : World} {srcName outName : Str} {src : List Byte} {p : List Stmt} (hw : Setup w srcName outName src)
    (hp : IsProgram src p) (hno : NoOrigin p) {bin : List Byte} {total symbols : Nat} (hs : Succeeds w srcName outName bin total symbols) :
    ∃ is, machineCode p = some is ∧ (∀ i ∈ is, i.Valid) ∧ bin = is.flatMap Insn.bytes ∧ is.map (·.mnemonic) = mnemonics p := by
  obtain ⟨s, is, h1, _, h3, h4, h5, h6⟩ := C50_disassembly hw hp hno hs
  obtain ⟨s', g1, g2, _⟩ := C28_image hw hp (noOrigin_ascending hno) hs
  rw [h1] at g1
  cases g1
  refine ⟨is, ?_, h5, h6.symm, h3⟩
  unfold machineCode
  rw [h1, forms_insns h4 h5 fun it hi => (g2 it hi).imp fun _ h => h.1]
  rfl

/-- **C83.** Two programs without origins have the same output exactly if they ask for the same instructions in the same order, with the same addressing modes and the
same numbers in the operand fields. -/
theorem C83_exact {w w' : World} {srcName outName srcName' outName' : Str} {src src' : List Byte} {p p' : List Stmt}
    (hw : Setup w srcName outName src) (hw' : Setup w' srcName' outName' src') (hp : IsProgram src p) (hp' : IsProgram src' p')
    (hno : NoOrigin p) (hno' : NoOrigin p') {bin bin' : List Byte} {total symbols total' symbols' : Nat}
    (hs : Succeeds w srcName outName bin total symbols) (hs' : Succeeds w' srcName' outName' bin' total' symbols') :
    bin = bin' ↔ machineCode p = machineCode p' := by
  obtain ⟨is, h1, h2, h3, _⟩ := C83_code hw hp hno hs
  obtain ⟨is', g1, g2, g3, _⟩ := C83_code hw' hp' hno' hs'
  rw [h1, g1, h3, g3]
  constructor
  · intro h
    have := congrArg disassemble h
    rwa [disassemble_all h2, disassemble_all g2] at this
  · intro h
    cases h
    rfl

/-- **C83.** Nor can the end of one program be hidden in the other: the output of one begins with the output of the other exactly if its instructions begin with the
instructions of the other. -/
theorem C83_prefix {w w' : World} {srcName outName srcName' outName' : Str} {src src' : List Byte} {p p' : List Stmt}
    (hw : Setup w srcName outName src) (hw' : Setup w' srcName' outName' src') (hp : IsProgram src p) (hp' : IsProgram src' p')
    (hno : NoOrigin p) (hno' : NoOrigin p') {bin bin' : List Byte} {total symbols total' symbols' : Nat}
    (hs : Succeeds w srcName outName bin total symbols) (hs' : Succeeds w' srcName' outName' bin' total' symbols') :
    bin <+: bin' ↔ ∃ is more, machineCode p = some is ∧ machineCode p' = some (is ++ more) := by
  obtain ⟨is, h1, h2, h3, _⟩ := C83_code hw hp hno hs
  obtain ⟨is', g1, g2, g3, _⟩ := C83_code hw' hp' hno' hs'
  rw [h1, g1, h3, g3]
  constructor
  · rintro ⟨rest, h⟩
    have := disassemble_all g2
    rw [← h, disassemble_append h2] at this
    obtain ⟨more, _, rfl⟩ := Option.map_eq_some_iff.1 this
    exact ⟨is, more, rfl, rfl⟩
  · rintro ⟨js, more, e1, e2⟩
    cases e1
    cases e2
    exact ⟨more.flatMap Insn.bytes, by rw [List.flatMap_append]⟩

/-- **C83.** In particular programs with different mnemonics have different outputs. -/
theorem C83_mnemonics {w w' : World} {srcName outName srcName' outName' : Str} {src src' : List Byte} {p p' : List Stmt}
    (hw : Setup w srcName outName src) (hw' : Setup w' srcName' outName' src') (hp : IsProgram src p) (hp' : IsProgram src' p')
    (hno : NoOrigin p) (hno' : NoOrigin p') (hd : mnemonics p ≠ mnemonics p') {bin bin' : List Byte} {total symbols total' symbols' : Nat}
    (hs : Succeeds w srcName outName bin total symbols) (hs' : Succeeds w' srcName' outName' bin' total' symbols') : bin ≠ bin' := by
  obtain ⟨is, h1, _, _, h4⟩ := C83_code hw hp hno hs
  obtain ⟨is', g1, _, _, g4⟩ := C83_code hw' hp' hno' hs'
  intro h
  have := (C83_exact hw hw' hp hp' hno hno' hs hs').1 h
  rw [h1, g1] at this
  cases this
  exact hd (h4.symm.trans g4)

/-- A program behind an origin line: the machine code is put there. -/
theorem C83_origin_code {w : World} {srcName outName : Str} {src : List Byte} {x : Nat} {p : List Stmt} (hw : Setup w srcName outName src)
    (hp : IsProgram src (.org x :: p)) (hno : NoOrigin p) {bin : List Byte} {total symbols : Nat} (hs : Succeeds w srcName outName bin total symbols) :
    ∃ is, machineCode (.org x :: p) = some is ∧ (∀ i ∈ is, i.Valid) ∧ bin = placedAt x (is.flatMap Insn.bytes) ∧ is.map (·.mnemonic) = mnemonics p := by
  have ha : AscendingProgram (.org x :: p) := fun s h => by
    rw [pass1_cons (by simp)] at h
    obtain ⟨t, h1, h2⟩ := Option.bind_eq_some_iff.1 h
    obtain rfl : { Pass1.init with pc := x } = t := by simpa [pass1Stmt] using h1
    obtain ⟨J, j1, j2, _⟩ := Sections.pass1_section h2 hno
    rw [j1]
    exact j2.ascending.1
  obtain ⟨s, is, h1, h2, h3, h4, h5, h6, h7⟩ := C50_origin hw hp hno hs
  obtain ⟨s', g1, g2, _, g4, g5⟩ := C28_image hw hp ha hs
  rw [h1] at g1
  cases g1
  have he := forms_insns h6 h7 fun it hi => (g2 it hi).imp fun _ h => h.1
  refine ⟨is, by unfold machineCode; rw [h1, he]; rfl, h7, ?_, h5⟩
  unfold placedAt
  by_cases hi : is = []
  · subst hi
    have : s.items = [] := List.map_eq_nil_iff.1 he.symm
    rw [g5 this]
    rfl
  · have hne : bin.drop x ≠ [] := by
      rw [← h4]
      intro h
      obtain ⟨i, tl, rfl⟩ := List.exists_cons_of_ne_nil hi
      simp [Insn.bytes] at h
    rw [h4, if_neg hne]
    conv_lhs => rw [← List.take_append_drop x bin]
    congr 1
    rw [List.eq_replicate_iff]
    refine ⟨?_, h2⟩
    rw [List.length_take]
    have : ¬ bin.length ≤ x := fun h => hne (List.drop_eq_nil_of_le h)
    omega

/-- **C83, programs at the same address.** -/
theorem C83_origin_exact {w w' : World} {srcName outName srcName' outName' : Str} {src src' : List Byte} {x : Nat} {p p' : List Stmt}
    (hw : Setup w srcName outName src) (hw' : Setup w' srcName' outName' src') (hp : IsProgram src (.org x :: p)) (hp' : IsProgram src' (.org x :: p'))
    (hno : NoOrigin p) (hno' : NoOrigin p') {bin bin' : List Byte} {total symbols total' symbols' : Nat}
    (hs : Succeeds w srcName outName bin total symbols) (hs' : Succeeds w' srcName' outName' bin' total' symbols') :
    bin = bin' ↔ machineCode (.org x :: p) = machineCode (.org x :: p') := by
  obtain ⟨is, h1, h2, h3, _⟩ := C83_origin_code hw hp hno hs
  obtain ⟨is', g1, g2, g3, _⟩ := C83_origin_code hw' hp' hno' hs'
  rw [h1, g1, h3, g3]
  constructor
  · intro h
    have hd : ∀ code : List Byte, (placedAt x code).drop x = code := fun code => by
      unfold placedAt
      split
      · rename_i h; rw [h, List.drop_nil]
      · rw [List.drop_left' (by simp)]
    have := congrArg (fun b => disassemble (b.drop x)) h
    simp only [hd] at this
    rwa [disassemble_all h2, disassemble_all g2] at this
  · intro h
    cases h
    rfl

/-- With origins elsewhere it is different: gaia fills gaps with zeros, and zero is BRK. -/
theorem C83_origins : Succeeds (demo (b! " NOP\n*=$2\n NOP\n")) (b! "p.asm") (b! "p.bin") [0xEA, 0, 0xEA] 2 0 ∧
    Succeeds (demo (b! " NOP\n BRK\n NOP\n")) (b! "p.asm") (b! "p.bin") [0xEA, 0, 0xEA] 3 0 :=
  ⟨demo_succeeds (by decide +kernel), demo_succeeds (by decide +kernel)⟩

/-! Examples. -/

def c83Src : List Byte := b! "L LDA $10,X\n BNE L\n JMP 7\nF RTS\n"

def c83Prog : List Stmt := [.instr (some (b! "L")) .LDA (.idxX (.lit 0x10)), .instr none .BNE (.plain (.sym (b! "L"))),
  .instr none .JMP (.plain (.lit 7)), .instr (some (b! "F")) .RTS .none]

def c83Src' : List Byte := b! "V =16\nTOP LDA V,X\n BNE TOP\n JMP END ; later\nEND RTS\n"

def c83Prog' : List Stmt := [.const (b! "V") 16, .instr (some (b! "TOP")) .LDA (.idxX (.sym (b! "V"))), .instr none .BNE (.plain (.sym (b! "TOP"))),
  .instr none .JMP (.plain (.sym (b! "END"))), .instr (some (b! "END")) .RTS .none]

/-- Two programs for the same code. -/
example : IsProgram c83Src c83Prog ∧ IsProgram c83Src' c83Prog' ∧ NoOrigin c83Prog ∧ NoOrigin c83Prog' ∧
    machineCode c83Prog = some [⟨.LDA, .zpX, 16⟩, ⟨.BNE, .rel, 0xFC⟩, ⟨.JMP, .abs, 7⟩, ⟨.RTS, .imp, 0⟩] ∧ machineCode c83Prog = machineCode c83Prog' ∧
    Succeeds (demo c83Src) (b! "p.asm") (b! "p.bin") [0xB5, 16, 0xD0, 0xFC, 0x4C, 7, 0, 0x60] 8 2 ∧
    Succeeds (demo c83Src') (b! "p.asm") (b! "p.bin") [0xB5, 16, 0xD0, 0xFC, 0x4C, 7, 0, 0x60] 8 3 :=
  ⟨isProgram_eval (by decide +kernel) (by decide +kernel) (by decide +kernel) (by decide +kernel),
    isProgram_eval (by decide +kernel) (by decide +kernel) (by decide +kernel) (by decide +kernel),
    fun v hv => by simp [c83Prog] at hv, fun v hv => by simp [c83Prog'] at hv, by decide +kernel, by decide +kernel,
    demo_succeeds (by decide +kernel), demo_succeeds (by decide +kernel)⟩

/-- A zero-page operand and the same number as the first byte of an address are told apart by the opcode. -/
example : machineCode [.instr none .LDA (.plain (.lit 0x10)), .instr none .BRK .none] ≠ machineCode [.instr none .LDA (.plain (.lit 0x110))] := by decide +kernel

/-- The same behind an origin line. -/
example : IsProgram (b! "*=$0200\n JMP L\nL RTS\n") [.org 0x200, .instr none .JMP (.plain (.sym (b! "L"))), .instr (some (b! "L")) .RTS .none] ∧
    machineCode [.org 0x200, .instr none .JMP (.plain (.sym (b! "L"))), .instr (some (b! "L")) .RTS .none] = some [⟨.JMP, .abs, 0x203⟩, ⟨.RTS, .imp, 0⟩] ∧
    Succeeds (demo (b! "*=$0200\n JMP L\nL RTS\n")) (b! "p.asm") (b! "p.bin") (placedAt 0x200 [0x4C, 0x03, 0x02, 0x60]) 4 1 :=
  ⟨isProgram_eval (by decide +kernel) (by decide +kernel) (by decide +kernel) (by decide +kernel), by decide +kernel, demo_succeeds (by decide +kernel)⟩

end Gaia

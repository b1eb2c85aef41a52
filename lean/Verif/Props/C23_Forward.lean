import Verif.Props.C15_Encoding
import Verif.Props.C28_Image

/-! C23: forward references are patched with the final value, or the assembly fails. (And C22 for labels defined later.) -/
set_option maxRecDepth 10000
namespace Gaia
open Spec

/-- What a label-operand instruction of a successful program encodes to. -/
theorem encodeLow_sym {env : Env} {it : Item} {l : Str} (ho : it.opd = some (.sym l)) (h1 : it.mode.bytes ≠ 1) {bs : List Byte}
    (h : encodeLow env it = some bs) : ∃ op t, opcode? it.mnemonic it.mode = some op ∧ env.lookup l = some t ∧
      (it.mode = .rel → ∃ b, branchByte it.addr t = some b ∧ bs = [UInt8.ofNat op, b]) ∧
      (it.mode.bytes = 3 → bs = [UInt8.ofNat op, UInt8.ofNat (t % 256), UInt8.ofNat (t / 256 % 256)]) := by
  unfold encodeLow at h
  cases hop : opcode? it.mnemonic it.mode with
  | none => rw [hop] at h; simp at h
  | some op =>
    rw [hop, operandBytesLow_some ho h1] at h
    simp only [Option.bind_eq_bind, Option.bind_some, opdValue, Option.bind_eq_some_iff] at h
    obtain ⟨bs', ⟨t, ht, h2⟩, h3⟩ := h
    obtain rfl : UInt8.ofNat op :: bs' = bs := by simpa using h3
    refine ⟨op, t, rfl, ht, ?_, ?_⟩
    · intro hr
      rw [if_pos hr] at h2
      obtain ⟨b, hb, rfl⟩ := Option.map_eq_some_iff.1 h2
      exact ⟨b, hb, rfl⟩
    · intro h3
      have hr : it.mode ≠ .rel := fun hr => by rw [hr] at h3; simp [Mode.bytes] at h3
      rw [if_neg hr, if_neg (by omega)] at h2
      obtain rfl := Option.some.inj h2
      rfl

theorem drop_take_get {bin bs : List Byte} {a n j : Nat} {b : Byte} (h : (bin.drop a).take n = bs) (hb : bs[j]? = some b) :
    bin[a + j]? = some b := by
  subst h
  rw [List.getElem?_take] at hb
  split_ifs at hb with hj
  rwa [List.getElem?_drop] at hb

/-- **C23, jumps.** In a successful assembly (ascending addresses) every jump to a label, wherever the label is defined, before
or after, holds the opcode and then the final value `t` of the label, low byte first. (`s` is the result of the address
assignment: `it.addr` is the address of the jump and `s.env` gives each label its one value.) -/
theorem C23_jumps {w : World} {srcName outName : Str} {src : List Byte} {p : List Stmt} (hw : Setup w srcName outName src)
    (hp : IsProgram src p) (ha : AscendingProgram p) {bin : List Byte} {total symbols : Nat}
    (hs : Succeeds w srcName outName bin total symbols) :
    ∃ s, pass1 p .init = some s ∧ ∀ it ∈ s.items, Spec.isJump it.mnemonic = true → ∀ l, it.opd = some (.sym l) →
      ∃ op t, opcode? it.mnemonic it.mode = some op ∧ s.env.lookup l = some t ∧
        bin[it.addr]? = some (UInt8.ofNat op) ∧ bin[it.addr + 1]? = some (UInt8.ofNat (t % 256)) ∧
        bin[it.addr + 2]? = some (UInt8.ofNat (t / 256 % 256)) := by
  obtain ⟨s, h1, h2, _⟩ := C28_image hw hp ha hs
  refine ⟨s, h1, fun it hit hj l ho => ?_⟩
  obtain ⟨bs, k1, k2, k3⟩ := h2 it hit
  obtain ⟨e, he, rfl, _⟩ := item_encodes (succeeds_check hw hp hs) h1 hit
  have h3 : e.item.mode.bytes = 3 := jump_bytes (placed_ok h1 e he) hj
  obtain ⟨op, t, m1, m2, _, m4⟩ := encodeLow_sym ho (by omega) k1
  have := m4 h3
  subst this
  refine ⟨op, t, m1, m2, ?_, ?_, ?_⟩
  · exact drop_take_get (j := 0) k3 rfl
  · exact drop_take_get (j := 1) k3 rfl
  · exact drop_take_get (j := 2) k3 rfl

/-- **C23 and C22, branches.** In a successful assembly (ascending addresses) every branch to a label, wherever the label is
defined, holds the opcode and then an offset byte with: address of the branch + 2 + signed offset = final value of the label. In
particular the label is between 126 bytes before and 129 bytes after the branch. -/
theorem C23_branches {w : World} {srcName outName : Str} {src : List Byte} {p : List Stmt} (hw : Setup w srcName outName src)
    (hp : IsProgram src p) (ha : AscendingProgram p) {bin : List Byte} {total symbols : Nat}
    (hs : Succeeds w srcName outName bin total symbols) :
    ∃ s, pass1 p .init = some s ∧ ∀ it ∈ s.items, Spec.isBranch it.mnemonic = true → ∀ l, it.opd = some (.sym l) →
      ∃ op t b, opcode? it.mnemonic .rel = some op ∧ s.env.lookup l = some t ∧
        bin[it.addr]? = some (UInt8.ofNat op) ∧ bin[it.addr + 1]? = some b ∧ (it.addr : Int) + 2 + signed b = t ∧
        it.addr ≤ t + 126 ∧ t ≤ it.addr + 129 := by
  obtain ⟨s, h1, h2, _⟩ := C28_image hw hp ha hs
  refine ⟨s, h1, fun it hit hb l ho => ?_⟩
  obtain ⟨bs, k1, k2, k3⟩ := h2 it hit
  obtain ⟨e, he, rfl, _⟩ := item_encodes (succeeds_check hw hp hs) h1 hit
  have hr : e.item.mode = .rel := (placed_ok h1 e he).2.2.2 ⟨by rw [ho]; simp, hb⟩
  obtain ⟨op, t, m1, m2, m3, _⟩ := encodeLow_sym ho (by rw [hr]; decide) k1
  obtain ⟨b, hbb, rfl⟩ := m3 hr
  refine ⟨op, t, b, by rw [← hr]; exact m1, m2, drop_take_get (j := 0) k3 rfl, drop_take_get (j := 1) k3 rfl, branchByte_signed hbb, ?_⟩
  unfold branchByte at hbb
  simp only at hbb
  split_ifs at hbb with hd
  omega

/-! Labels that are never defined. -/

/-- If statements are in order, each instruction of the program is placed. -/
theorem placed_of_mem : ∀ (p : List Stmt) (n : Nat) {s s' : Pass1}, pass1 p s = some s' → ∀ lab m a,
    .instr lab m a ∈ p.takeWhile (· ≠ .stop) → ∃ e ∈ placed p n s, e.item.mnemonic = m ∧ e.item.opd = a.opd
  | [], n, s, s', h, lab, m, a, hm => by simp at hm
  | st :: p, n, s, s', h, lab, m, a, hm => by
    by_cases hst : st = .stop
    · subst hst; simp at hm
    · rw [List.takeWhile_cons, if_pos (by simpa using hst)] at hm
      rw [pass1_cons hst] at h
      obtain ⟨t, h1, h2⟩ := Option.bind_eq_some_iff.1 h
      rw [placed_cons hst h1]
      rcases List.mem_cons.1 hm with rfl | hm
      · have key : ∀ u : Pass1, u.items = s.items → place u m a = some t → ∃ e ∈ newPlaced n s t, e.item.mnemonic = m ∧ e.item.opd = a.opd := by
          intro u hu hpl
          obtain ⟨v, md, _, _, rfl⟩ := place_some hpl
          refine ⟨⟨n, ⟨u.pc, m, md, a.opd⟩, u.env⟩, ?_, rfl, rfl⟩
          unfold newPlaced
          simp [hu]
        have : ∃ e ∈ newPlaced n s t, e.item.mnemonic = m ∧ e.item.opd = a.opd := by
          cases lab with
          | none => exact key s rfl h1
          | some l =>
            simp only [pass1Stmt, Option.bind_eq_bind, Option.bind_eq_some_iff] at h1
            obtain ⟨u, hu, h1⟩ := h1
            obtain ⟨_, rfl⟩ := define_some hu
            exact key { s with env := (l, s.pc) :: s.env } rfl h1
        obtain ⟨e, he, h3⟩ := this
        exact ⟨e, List.mem_append_left _ he, h3⟩
      · obtain ⟨e, he, h3⟩ := placed_of_mem p (n + 1) h2 lab m a hm
        exact ⟨e, List.mem_append_right _ he, h3⟩

/-- **C23, undefined labels.** If an instruction of the program refers to a label that no statement before `.END` defines, the
assembly fails with a diagnostic. -/
theorem C23_undefined_fails {w : World} {srcName outName : Str} {src : List Byte} {p : List Stmt} (hw : Setup w srcName outName src)
    (hp : IsProgram src p) {lab : Option Str} {m : Mnemonic} {a : Arg} {l : Str} (hm : .instr lab m a ∈ p.takeWhile (· ≠ .stop))
    (ho : a.opd = some (.sym l)) (hl : l ∉ definitions p) : ∃ k e pos, FailsAt w srcName outName src k e pos := by
  cases hc : check p with
  | some f =>
    obtain ⟨k, e⟩ := f
    obtain ⟨l, x, h1, h2, h3⟩ := run_error hw hp hc
    exact ⟨k, e, _, h3⟩
  | none =>
    exfalso
    obtain ⟨s, h1, h2⟩ := check_assembleLow.1 hc
    obtain ⟨e, he, h3, h4⟩ := placed_of_mem p 1 h1 lab m a hm
    have hit : e.item ∈ s.items := by
      obtain ⟨g1, _⟩ := placed_made p 1 h1
      have g1 : s.items = (placed p 1 .init).map (·.item) := by simpa [Pass1.init] using g1
      rw [g1]; exact List.mem_map_of_mem he
    obtain ⟨e', he', h5, h6⟩ := item_encodes hc h1 hit
    have hok := placed_ok h1 e he
    have h1b : e.item.mode.bytes ≠ 1 := fun h => by
      have := hok.2.1.2 h
      rw [h4, ho] at this; cases this
    obtain ⟨_, t, _, ht, _⟩ := encodeLow_sym (h4.trans ho) h1b h6
    have hd := pass1_definitions h1
    apply hl
    rw [← List.mem_reverse, ← hd]
    have : ∃ q ∈ s.env, q.1 = l := by
      by_contra hne
      push_neg at hne
      rw [List.lookup_eq_none_iff.2 (fun q hq => by have := hne q hq; simpa using fun h => this h.symm)] at ht
      cases ht
    obtain ⟨q, hq, rfl⟩ := this
    exact List.mem_map_of_mem hq

/-- **C23, undefined labels: the message.** If all statements are in order in themselves, and the first forward reference with
a fault is one to a label that is never defined, then the message is 'label definition was not found', for the line of that
reference, and it points at the label. -/
theorem C23_undefined_message {w : World} {srcName outName : Str} {src : List Byte} {p : List Stmt} (hw : Setup w srcName outName src)
    (hp : IsProgram src p) (hf : firstFault p 1 .init = none) {s : Pass1} (h1 : pass1 p .init = some s) {pre post : List Placed}
    {d : Placed} (hd : placed p 1 .init = pre ++ d :: post) (hpre : ∀ e ∈ pre, Placed.fault s.env e = none) {l : Str}
    (hl : d.forward = some l) (hu : l ∉ definitions p) :
    ∃ line x, (lines src)[d.line - 1]? = some line ∧ Lexes line x ∧
      FailsAt w srcName outName src d.line .missingLabelDefinition (nameOffsets x).getLast? := by
  have hlook : s.env.lookup l = none := by
    rw [List.lookup_eq_none_iff]
    intro q hq
    by_contra hne
    apply hu
    rw [← List.mem_reverse, ← pass1_definitions h1]
    have : l = q.1 := by simpa using hne
    rw [this]
    exact List.mem_map_of_mem hq
  have hc : check p = some (d.line, .missingLabelDefinition) := by
    unfold check
    rw [hf, h1]
    simp only [Option.getD_some]
    rw [hd, List.findSome?_append, List.findSome?_eq_none_iff.2 hpre, List.findSome?_cons]
    have : Placed.fault s.env d = some (d.line, .missingLabelDefinition) := by
      unfold Placed.fault
      rw [hl]
      simp only [hlook]
    rw [this]
    rfl
  obtain ⟨line, x, k1, k2, k3⟩ := run_error hw hp hc
  exact ⟨line, x, k1, k2, k3⟩

/-! Non-vacuity. -/

/-- In the program of C26, `BNE DONE` at 0x12 is a forward reference and is patched with 0x0C: 0x12 + 2 + 0x0C = 0x20. -/
example : ∃ s, pass1 c26Prog .init = some s ∧ (⟨0x12, .BNE, .rel, some (.sym (b! "DONE"))⟩ : Item) ∈ s.items ∧
    s.env.lookup (b! "DONE") = some 0x20 ∧ (0x12 : Int) + 2 + signed 0x0C = 0x20 ∧ c26Bin[0x13]? = some 0x0C := by
  have h : (pass1 c26Prog .init).map (fun s => (decide ((⟨0x12, .BNE, .rel, some (.sym (b! "DONE"))⟩ : Item) ∈ s.items),
    s.env.lookup (b! "DONE"))) = some (true, some 0x20) := by decide +kernel
  cases hs : pass1 c26Prog .init with
  | none => rw [hs] at h; cases h
  | some s =>
    rw [hs] at h
    simp only [Option.map_some, Option.some.injEq, Prod.mk.injEq, decide_eq_true_eq] at h
    exact ⟨s, rfl, h.1, h.2, by decide, by decide⟩

example : ∃ s, pass1 c26Prog .init = some s ∧ ∀ it ∈ s.items, Spec.isBranch it.mnemonic = true → ∀ l, it.opd = some (.sym l) →
      ∃ op t b, opcode? it.mnemonic .rel = some op ∧ s.env.lookup l = some t ∧
        c26Bin[it.addr]? = some (UInt8.ofNat op) ∧ c26Bin[it.addr + 1]? = some b ∧ (it.addr : Int) + 2 + signed b = t ∧
        it.addr ≤ t + 126 ∧ t ≤ it.addr + 129 :=
  C23_branches (demo_setup _) c26_isProgram (ascendingProgram_eval (by decide +kernel)) c26_succeeds

def c23Src : List Byte := b! "L NOP\n JMP M\n JMP N\nM RTS\n"
def c23Prog : List Stmt := [.instr (some (b! "L")) .NOP .none, .instr none .JMP (.plain (.sym (b! "M"))),
  .instr none .JMP (.plain (.sym (b! "N"))), .instr (some (b! "M")) .RTS .none]

theorem c23_isProgram : IsProgram c23Src c23Prog :=
  isProgram_eval (by decide) (by decide +kernel) (by decide +kernel) (by
    intro st hst h
    simp only [c23Prog, List.mem_cons, List.not_mem_nil, or_false] at hst
    rcases hst with rfl | rfl | rfl | rfl <;> simp [IndexedJump, Stmt.jumpsIndexed] at h)

/-- `N` is not defined: the second jump is reported, not the first. -/
example : ∃ k e pos, FailsAt (demo c23Src) (b! "p.asm") (b! "p.bin") c23Src k e pos :=
  C23_undefined_fails (lab := none) (m := .JMP) (a := .plain (.sym (b! "N"))) (l := b! "N") (demo_setup _) c23_isProgram
    (by decide +kernel) rfl (by decide +kernel)

example : ∃ line x, (lines c23Src)[3 - 1]? = some line ∧ Lexes line x ∧
    FailsAt (demo c23Src) (b! "p.asm") (b! "p.bin") c23Src 3 .missingLabelDefinition (nameOffsets x).getLast? := by
  have h : pass1 c23Prog .init = some ⟨8, [(b! "M", 7), (b! "L", 0)], [⟨0, .NOP, .imp, none⟩, ⟨1, .JMP, .abs, some (.sym (b! "M"))⟩,
    ⟨4, .JMP, .abs, some (.sym (b! "N"))⟩, ⟨7, .RTS, .imp, none⟩]⟩ := by decide +kernel
  exact C23_undefined_message (l := b! "N") (demo_setup c23Src) c23_isProgram (by decide +kernel) h
    (pre := [⟨1, ⟨0, .NOP, .imp, none⟩, [(b! "L", 0)]⟩, ⟨2, ⟨1, .JMP, .abs, some (.sym (b! "M"))⟩, [(b! "L", 0)]⟩])
    (d := ⟨3, ⟨4, .JMP, .abs, some (.sym (b! "N"))⟩, [(b! "L", 0)]⟩)
    (post := [⟨4, ⟨7, .RTS, .imp, none⟩, [(b! "M", 7), (b! "L", 0)]⟩]) (by decide +kernel) (by decide +kernel) (by decide +kernel)
    (by decide +kernel)

example : demoRun c23Src = some (1, b! "p.asm:3: ERROR: label definition was not found\n JMP N\n     ^~~~~~\n\n",
    some [0xEA, 0x4C, 7, 0, 0x4C, 0, 0, 0x60]) := by decide +kernel

end Gaia

import Verif.Props.C12_Runs
import Verif.Props.C29_AnyText

/-!
C20: in a successful run every label has one definition, and every use of it, before or after the definition, has that one value.
-/
namespace Gaia
open Gaia.Spec

/-- The operand of the instruction `it` in the binary `bin` is the value `t`: a branch leads to `t`; the one operand byte of another
instruction is `t`, or its two operand bytes are those of `t` (modulo 65536), low byte first. -/
def OperandIs (bin : List Byte) (it : Item) (t : Nat) : Prop :=
  if Spec.isBranch it.mnemonic = true then ∃ b, bin[it.addr + 1]? = some b ∧ (it.addr : Int) + 2 + signed b = t
  else (it.mode.bytes = 2 ∧ t ≤ 0xFF ∧ bin[it.addr + 1]? = some (UInt8.ofNat t)) ∨
    (it.mode.bytes = 3 ∧ bin[it.addr + 1]? = some (UInt8.ofNat (t % 256)) ∧ bin[it.addr + 2]? = some (UInt8.ofNat (t / 256 % 256)))

/-- One-byte operands are small, but for those of branches. -/
theorem modeFor_two {m : Mnemonic} {a : Arg} {v : Nat} {md : Mode} (h : modeFor m a v = some md) (h2 : md.bytes = 2) (hr : md ≠ .rel) :
    v ≤ 0xFF := by
  unfold modeFor at h
  obtain ⟨h1, _⟩ := Option.filter_eq_some_iff.1 h
  unfold wantedMode at h1
  by_contra hc
  have hc' : decide (v ≤ 0xFF) = false := by simpa using hc
  simp only [hc'] at h1
  cases a <;> simp only [Bool.false_and, Bool.false_eq_true, if_false] at h1 <;> (try split_ifs at h1) <;>
    (try cases h1) <;> simp_all [Mode.bytes]

/-- **C20.** If gaia succeeds on a program (with ascending addresses), no label is defined twice in it; every label used as an operand
is defined; and there is an assignment `s.env` of one value to each defined label such that every use of a label, before or after its
definition, holds that value in the binary. -/
theorem C20_uses {w : World} {srcName outName : Str} {src : List Byte} {p : List Stmt} (hw : Setup w srcName outName src)
    (hp : IsProgram src p) (ha : AscendingProgram p) {bin : List Byte} {total symbols : Nat}
    (hs : Succeeds w srcName outName bin total symbols) :
    (definitions p).Nodup ∧ ∃ s, pass1 p .init = some s ∧ s.env.map (·.1) = (definitions p).reverse ∧
      ∀ it ∈ s.items, ∀ l, it.opd = some (.sym l) → l ∈ definitions p ∧ ∃ t, s.env.lookup l = some t ∧ OperandIs bin it t := by
  obtain ⟨s, h1, h2, _⟩ := C28_image hw hp ha hs
  have hd := pass1_definitions h1
  have hn : (definitions p).Nodup := by
    have := pass1_nodup p h1 (by simp [Pass1.init])
    rw [hd] at this
    exact List.nodup_reverse.1 this
  refine ⟨hn, s, h1, hd, fun it hit l ho => ?_⟩
  obtain ⟨bs, k1, k2, k3⟩ := h2 it hit
  obtain ⟨e, he, rfl, _⟩ := item_encodes (succeeds_check hw hp hs) h1 hit
  obtain ⟨hm, hk⟩ := (placed_made p 1 h1).2 e he
  have hok := hm.ok
  have h1b : e.item.mode.bytes ≠ 1 := fun hb => by rw [hok.2.1.2 hb] at ho; cases ho
  have hv : ∃ t, s.env.lookup l = some t := by
    obtain ⟨op, t, _, m2, _⟩ := encodeLow_sym ho h1b k1
    exact ⟨t, m2⟩
  obtain ⟨t, ht⟩ := hv
  have hmem : l ∈ definitions p := by
    rw [← List.mem_reverse, ← hd]
    obtain ⟨x, y, e1, _⟩ := List.lookup_eq_some_iff.1 ht
    rw [e1]; simp
  refine ⟨hmem, t, ht, ?_⟩
  unfold OperandIs
  split
  · rename_i hb
    have hr : e.item.mode = .rel := hok.2.2.2 ⟨by rw [ho]; simp, hb⟩
    obtain ⟨op, t', _, m2, m3, _⟩ := encodeLow_sym ho h1b k1
    obtain rfl : t' = t := by rw [ht] at m2; exact (Option.some.inj m2).symm
    obtain ⟨b, hbb, rfl⟩ := m3 hr
    exact ⟨b, drop_take_get (j := 1) k3 rfl, branchByte_signed hbb⟩
  · rename_i hb
    have hr : e.item.mode ≠ .rel := fun h => hb (hok.2.2.1 h).2
    rcases mode_bytes_cases e.item.mode with hc | hc | hc
    · exact absurd hc h1b
    · refine .inl ⟨hc, ?_⟩
      obtain ⟨a, v, q1, q2, q3⟩ := hm
      have hv := modeFor_two q3 hc hr
      have hj : Spec.isJump e.item.mnemonic = false := by
        cases hj : Spec.isJump e.item.mnemonic with
        | false => rfl
        | true => have := jump_bytes (placed_ok h1 e he) hj; omega
      have hb' : Spec.isBranch e.item.mnemonic = false := by simpa using hb
      rw [q1, ho] at q2
      simp only [sizingValue] at q2
      have ht' : v = t := by
        cases hl : e.known.lookup l with
        | none => rw [hl, hb', hj] at q2; simp at q2
        | some u =>
          rw [hl] at q2
          have := hk l u hl
          rw [ht] at this
          simp only [Option.some.injEq] at q2 this
          omega
      subst ht'
      refine ⟨hv, ?_⟩
      have hbs : ∃ op, bs = [op, UInt8.ofNat (v % 256)] := by
        unfold encodeLow at k1
        rw [operandBytesLow_some ho h1b] at k1
        simp only [opdValue, ht, Option.bind_eq_bind, Option.bind_some, if_neg hr, if_pos hc, Option.bind_eq_some_iff] at k1
        obtain ⟨op, _, k⟩ := k1
        exact ⟨_, (Option.some.inj k).symm⟩
      obtain ⟨op, rfl⟩ := hbs
      have := drop_take_get (j := 1) k3 (b := UInt8.ofNat (v % 256)) rfl
      rwa [Nat.mod_eq_of_lt (by omega)] at this
    · obtain ⟨op, t', _, m2, _, m4⟩ := encodeLow_sym ho h1b k1
      obtain rfl : t' = t := by rw [ht] at m2; exact (Option.some.inj m2).symm
      obtain rfl := m4 hc
      exact .inr ⟨hc, drop_take_get (j := 1) k3 rfl, drop_take_get (j := 2) k3 rfl⟩

/-- For any text whatsoever, of the documented language or not: if gaia succeeds, no name is defined twice up to `.END`. -/
theorem C20_one_definition {w : World} {srcName outName : Str} {src : List Byte} (hw : Setup w srcName outName src) (hs : Sized src)
    {binary : List Byte} {total symbols : Nat} (h : Succeeds w srcName outName binary total symbols) :
    ((upToEnd (stmtsOf src)).filterMap Reference.defined).Nodup := (C29_symbols_any hw hs h).2

/-! ### A case: a constant used as a zero-page address and as an absolute one, a jump and a branch forward, a branch back -/

def usesSrc : List Byte := b! "Z =$20\nW =$1234\nL: LDA Z\n JMP M\n STA W,X\nM BNE L\n BEQ N\nN RTS\n"
def usesProg : List Stmt := [.const (b! "Z") 0x20, .const (b! "W") 0x1234, .instr (some (b! "L")) .LDA (.plain (.sym (b! "Z"))),
  .instr none .JMP (.plain (.sym (b! "M"))), .instr none .STA (.idxX (.sym (b! "W"))), .instr (some (b! "M")) .BNE (.plain (.sym (b! "L"))),
  .instr none .BEQ (.plain (.sym (b! "N"))), .instr (some (b! "N")) .RTS .none]

theorem uses_isProgram : IsProgram usesSrc usesProg :=
  isProgram_eval (by decide) (by decide +kernel) (by decide +kernel) (by
    intro st hst h
    simp only [usesProg, List.mem_cons, List.not_mem_nil, or_false] at hst
    rcases hst with rfl | rfl | rfl | rfl | rfl | rfl | rfl | rfl <;> simp [IndexedJump, Stmt.jumpsIndexed] at h)

theorem uses_succeeds : Succeeds (demo usesSrc) (b! "p.asm") (b! "p.bin") [0xA5, 0x20, 0x4C, 8, 0, 0x9D, 0x34, 0x12, 0xD0, 0xF6, 0xF0, 0, 0x60] 13 5 :=
  demo_succeeds (by decide +kernel)

example : (definitions usesProg).Nodup ∧ ∃ s, pass1 usesProg .init = some s ∧ s.env.map (·.1) = (definitions usesProg).reverse ∧
    ∀ it ∈ s.items, ∀ l, it.opd = some (.sym l) → l ∈ definitions usesProg ∧ ∃ t, s.env.lookup l = some t ∧
      OperandIs [0xA5, 0x20, 0x4C, 8, 0, 0x9D, 0x34, 0x12, 0xD0, 0xF6, 0xF0, 0, 0x60] it t :=
  C20_uses (demo_setup _) uses_isProgram (ascendingProgram_eval (by decide +kernel)) uses_succeeds

/-- The five uses, with the addresses and values. -/
example : (pass1 usesProg .init).map (fun s => s.items.map fun it => (it.addr, it.opd.bind (opdValue s.env))) =
    some [(0, some 0x20), (2, some 8), (5, some 0x1234), (8, some 0), (10, some 12), (12, none)] := by decide +kernel

example : ((upToEnd (stmtsOf usesSrc)).filterMap Reference.defined).Nodup :=
  C20_one_definition (demo_setup usesSrc) (by decide +kernel) uses_succeeds

end Gaia

import Verif.Spec.Disassemble
import Verif.Props.C28_Image
import Verif.Props.C15_Encoding

/-! C50: disassembling the output gives the instructions of the source. -/
set_option maxRecDepth 10000
namespace Gaia
open Spec

theorem disassemble_bytes {i : Insn} (h : i.Valid) (rest : List Byte) :
    disassemble (i.bytes ++ rest) = (disassemble rest).map (i :: ·) := by
  obtain ⟨m, md, v⟩ := i
  obtain ⟨h1, h2⟩ := h
  simp only at h1 h2
  obtain ⟨op, hop⟩ := Option.isSome_iff_exists.1 h1
  obtain ⟨hlt, hdec⟩ := decode_opcode hop
  have h0 : (UInt8.ofNat op).toNat = op := ofNat_toNat (by omega)
  unfold Insn.bytes
  simp only [hop, Option.getD_some]
  rcases mode_bytes_cases md with hb | hb | hb <;> rw [hb] at h2 <;> simp only [hb, List.cons_append, List.nil_append]
  · rw [disassemble]
    simp only [h0, hdec, hb, if_true]
    obtain rfl : v = 0 := by omega
    rfl
  · rw [disassemble]
    simp only [h0, hdec, hb]
    simp only [ofNat_toNat (show v ≤ 0xFF by omega)]
    rfl
  · rw [disassemble]
    simp only [h0, hdec, hb]
    have : (UInt8.ofNat (v % 256)).toNat + 256 * (UInt8.ofNat (v / 256)).toNat = v := by
      rw [UInt8.toNat_ofNat', UInt8.toNat_ofNat']; omega
    simp only [this]
    rfl

theorem disassemble_all : ∀ {is : List Insn}, (∀ i ∈ is, i.Valid) → disassemble (is.flatMap Insn.bytes) = some is
  | [], _ => rfl
  | i :: is, h => by
    rw [List.flatMap_cons, disassemble_bytes (h i (by simp)), disassemble_all fun j hj => h j (by simp [hj])]
    rfl

theorem encodeLow_shows {env : Env} {it : Item} {bs : List Byte} (h : encodeLow env it = some bs) :
    ∃ i : Insn, i.Valid ∧ i.bytes = bs ∧ MachineForm env it i := by
  unfold encodeLow at h
  simp only [Option.bind_eq_bind, Option.bind_eq_some_iff, Option.some.injEq] at h
  obtain ⟨op, hop, bs', h1, rfl⟩ := h
  have hs : (opcode? it.mnemonic it.mode).isSome = true := by rw [hop]; rfl
  unfold operandBytesLow at h1
  rcases mode_bytes_cases it.mode with hb | hb | hb
  · simp only [hb] at h1
    obtain rfl : [] = bs' := by simpa using h1
    refine ⟨⟨it.mnemonic, it.mode, 0⟩, ⟨hs, by simp [hb]⟩, by simp [Insn.bytes, hb, hop], rfl, rfl, fun _ => rfl, ?_, ?_⟩
    · intro o v _ _ _; simp [hb, Nat.mod_one]
    · intro l v _ _ hr; rw [hr] at hb; cases hb
  · simp only [hb] at h1
    cases ho : it.opd with
    | none => rw [ho] at h1; simp at h1
    | some o =>
      rw [ho] at h1
      simp only [Option.bind_eq_bind, Option.bind_eq_some_iff] at h1
      obtain ⟨v, hv, h1⟩ := h1
      have hlow : bs' = [UInt8.ofNat (v % 256)] → (it.mode = .rel → ∃ n, o = .lit n) →
          ∃ i : Insn, i.Valid ∧ i.bytes = UInt8.ofNat op :: bs' ∧ MachineForm env it i := by
        rintro rfl hne
        refine ⟨⟨it.mnemonic, it.mode, v % 256⟩, ⟨hs, by simp only [hb]; omega⟩, by simp [Insn.bytes, hb, hop], rfl, rfl, ?_, ?_, ?_⟩
        · intro h; rw [ho] at h; cases h
        · intro o' v' h1 h2 _
          rw [ho] at h1
          obtain rfl := Option.some.inj h1
          rw [hv] at h2
          obtain rfl := Option.some.inj h2
          simp [hb]
        · intro l v' h1 _ h3
          rw [ho] at h1
          obtain rfl := Option.some.inj h1
          obtain ⟨n, hn⟩ := hne h3
          cases hn
      by_cases hr : it.mode = .rel
      · rw [if_pos hr] at h1
        cases o with
        | lit n =>
          obtain rfl : n = v := by simpa [opdValue] using hv
          exact hlow (by simpa using h1.symm) fun _ => ⟨_, rfl⟩
        | sym l =>
          obtain ⟨b, hbb, rfl⟩ := Option.map_eq_some_iff.1 h1
          refine ⟨⟨it.mnemonic, it.mode, b.toNat⟩, ⟨hs, by simp only [hb]; exact b.toNat_lt⟩, by simp [Insn.bytes, hb, hop], rfl, rfl, ?_, ?_, ?_⟩
          · intro h; rw [ho] at h; cases h
          · intro o' v' h1 h2 h3
            rw [ho] at h1
            obtain rfl := Option.some.inj h1
            obtain ⟨n, hn⟩ := h3 hr
            cases hn
          · intro l' v' h1 h2 _
            rw [ho] at h1
            obtain rfl : l = l' := by simpa using h1
            obtain rfl : v = v' := by
              have : env.lookup l = some v := hv
              rw [this] at h2; simpa using h2
            have := branchByte_signed hbb
            unfold signed at this
            exact this
      · rw [if_neg hr, if_pos trivial] at h1
        exact hlow (by simpa using h1.symm) fun h => absurd h hr
  · simp only [hb] at h1
    have hr : it.mode ≠ .rel := fun hr => by rw [hr] at hb; cases hb
    cases ho : it.opd with
    | none => rw [ho] at h1; simp at h1
    | some o =>
      rw [ho] at h1
      simp only [Option.bind_eq_bind, Option.bind_eq_some_iff, if_neg hr] at h1
      obtain ⟨v, hv, h1⟩ := h1
      obtain rfl : [UInt8.ofNat (v % 256), UInt8.ofNat (v / 256 % 256)] = bs' := by simpa using h1
      refine ⟨⟨it.mnemonic, it.mode, v % 65536⟩, ⟨hs, by simp only [hb]; omega⟩, ?_, rfl, rfl, ?_, ?_, ?_⟩
      · simp only [Insn.bytes, hb, hop, Option.getD_some]
        rw [show v % 65536 % 256 = v % 256 by omega, show v % 65536 / 256 = v / 256 % 256 by omega]
      · intro h; rw [ho] at h; cases h
      · intro o' v' h1 h2 _
        rw [ho] at h1
        obtain rfl := Option.some.inj h1
        rw [hv] at h2
        obtain rfl := Option.some.inj h2
        simp [hb]
      · intro l v' _ _ h3; exact absurd h3 hr

/-- Each instruction starts where the one before ends. -/
def Contiguous : Nat → List Item → Prop
  | _, [] => True
  | a, it :: items => it.addr = a ∧ Contiguous (a + it.mode.bytes) items

theorem Contiguous.append : ∀ {xs : List Item} {a : Nat} {it : Item}, Contiguous a xs →
    it.addr = a + (xs.map (·.mode.bytes)).sum → Contiguous a (xs ++ [it])
  | [], a, it, _, h => ⟨by simpa using h, trivial⟩
  | x :: xs, a, it, h, h' => ⟨h.1, Contiguous.append h.2 (by simp only [List.map_cons, List.sum_cons] at h'; omega)⟩

theorem pass1Stmt_contiguous {s s' : Pass1} {st : Stmt} (h : pass1Stmt s st = some s') (hst : ∀ v, st ≠ .org v)
    (hc : Contiguous 0 s.items) (hpc : s.pc = (s.items.map (·.mode.bytes)).sum) :
    Contiguous 0 s'.items ∧ s'.pc = (s'.items.map (·.mode.bytes)).sum := by
  have hplace : ∀ {t t' : Pass1} {m : Mnemonic} {a : Arg}, place t m a = some t' → Contiguous 0 t.items →
      t.pc = (t.items.map (·.mode.bytes)).sum → Contiguous 0 t'.items ∧ t'.pc = (t'.items.map (·.mode.bytes)).sum := by
    intro t t' m a h hc hpc
    obtain ⟨v, md, _, _, rfl⟩ := place_some h
    exact ⟨hc.append (by simpa using hpc), by simp [hpc]⟩
  cases st with
  | empty => obtain rfl : s = s' := by simpa [pass1Stmt] using h
             exact ⟨hc, hpc⟩
  | stop => obtain rfl : s = s' := by simpa [pass1Stmt] using h
            exact ⟨hc, hpc⟩
  | label l => obtain ⟨_, rfl⟩ := define_some (show define s l s.pc = some s' from h); exact ⟨hc, hpc⟩
  | const l v => obtain ⟨_, rfl⟩ := define_some (show define s l v = some s' from h); exact ⟨hc, hpc⟩
  | org v => exact absurd rfl (hst v)
  | instr lb m a =>
    cases lb with
    | none => exact hplace h hc hpc
    | some l =>
      simp only [pass1Stmt, Option.bind_eq_bind, Option.bind_eq_some_iff] at h
      obtain ⟨t, h1, h2⟩ := h
      obtain ⟨_, rfl⟩ := define_some h1
      exact hplace h2 hc hpc

theorem pass1_cons_some {st : Stmt} {p : List Stmt} {s s' : Pass1} (hst : st ≠ .stop) (h : pass1 (st :: p) s = some s') :
    ∃ t, pass1Stmt s st = some t ∧ pass1 p t = some s' := by
  cases st with
  | stop => exact absurd rfl hst
  | _ => simpa [pass1, Option.bind_eq_bind, Option.bind_eq_some_iff] using h

theorem pass1_contiguous : ∀ {p : List Stmt} {s s' : Pass1}, pass1 p s = some s' → NoOrigin p → Contiguous 0 s.items →
    s.pc = (s.items.map (·.mode.bytes)).sum → Contiguous 0 s'.items
  | [], s, s', h, _, hc, _ => by
    obtain rfl : s = s' := by simpa [pass1] using h
    exact hc
  | st :: p, s, s', h, hno, hc, hpc => by
    by_cases hst : st = .stop
    · subst hst
      obtain rfl : s = s' := by simpa [pass1] using h
      exact hc
    · obtain ⟨t, h1, h2⟩ := pass1_cons_some hst h
      obtain ⟨g1, g2⟩ := pass1Stmt_contiguous h1 (fun v hv => hno v (by simp [hv])) hc hpc
      exact pass1_contiguous h2 (fun v hv => hno v (by simp [hv])) g1 g2

theorem Contiguous.ascending : ∀ {items : List Item} {a : Nat}, Contiguous a items →
    Ascending items ∧ ∀ it ∈ items, a ≤ it.addr
  | [], a, _ => ⟨List.Pairwise.nil, by simp⟩
  | x :: xs, a, ⟨h1, h2⟩ => by
    obtain ⟨g1, g2⟩ := h2.ascending
    refine ⟨List.pairwise_cons.2 ⟨fun it hit => ?_, g1⟩, ?_⟩
    · have := g2 it hit; omega
    · intro it hit
      rcases List.mem_cons.1 hit with rfl | hit
      · omega
      · have := g2 it hit; omega

theorem noOrigin_ascending {p : List Stmt} (h : NoOrigin p) : AscendingProgram p := fun _ hs =>
  (pass1_contiguous hs h trivial rfl).ascending.1

theorem pass1_mnemonics : ∀ {p : List Stmt} {s s' : Pass1}, pass1 p s = some s' →
    s'.items.map (·.mnemonic) = s.items.map (·.mnemonic) ++ mnemonics p
  | [], s, s', h => by
    obtain rfl : s = s' := by simpa [pass1] using h
    simp [mnemonics]
  | st :: p, s, s', h => by
    by_cases hst : st = .stop
    · subst hst
      obtain rfl : s = s' := by simpa [pass1] using h
      simp [mnemonics]
    · obtain ⟨t, h1, h2⟩ := pass1_cons_some hst h
      rw [pass1_mnemonics h2]
      have hd : mnemonics (st :: p) = (match st with | .instr _ m _ => [m] | _ => []) ++ mnemonics p := by
        unfold mnemonics
        rw [List.takeWhile_cons_of_pos (by simpa using hst)]
        cases st <;> simp
      rw [hd, ← List.append_assoc]
      congr 1
      cases st with
      | stop => exact absurd rfl hst
      | empty => obtain rfl : s = t := by simpa [pass1Stmt] using h1
                 simp
      | label l => obtain ⟨_, rfl⟩ := define_some (show define s l s.pc = some t from h1); simp
      | const l v => obtain ⟨_, rfl⟩ := define_some (show define s l v = some t from h1); simp
      | org v => obtain rfl : { s with pc := v } = t := by simpa [pass1Stmt] using h1
                 simp
      | instr lb m a =>
        cases lb with
        | none => obtain ⟨v, md, _, _, rfl⟩ := place_some (show place s m a = some t from h1); simp
        | some l =>
          simp only [pass1Stmt, Option.bind_eq_bind, Option.bind_eq_some_iff] at h1
          obtain ⟨u, h1, h2⟩ := h1
          obtain ⟨_, rfl⟩ := define_some h1
          obtain ⟨v, md, _, _, rfl⟩ := place_some h2
          simp

theorem contiguous_insns {env : Env} {bin : List Byte} : ∀ {items : List Item} {a : Nat}, Contiguous a items →
    (∀ it ∈ items, ∃ bs, encodeLow env it = some bs ∧ bs.length = it.mode.bytes ∧ (bin.drop it.addr).take it.mode.bytes = bs) →
    (∀ it, items.getLast? = some it → bin.length = it.addr + it.mode.bytes) → (items = [] → bin.length = a) →
    ∃ is : List Insn, bin.drop a = is.flatMap Insn.bytes ∧ (∀ i ∈ is, i.Valid) ∧ List.Forall₂ (MachineForm env) items is
  | [], a, _, _, _, h => ⟨[], by simp [List.drop_eq_nil_iff, h rfl], by simp, .nil⟩
  | it :: items, a, ⟨hc1, hc2⟩, hb, hl, _ => by
    obtain ⟨bs, h1, h2, h3⟩ := hb it (by simp)
    obtain ⟨i, g1, g2, g3⟩ := encodeLow_shows h1
    obtain ⟨is, k1, k2, k3⟩ := contiguous_insns hc2 (fun x hx => hb x (by simp [hx]))
      (fun x hx => hl x (by
        cases items with
        | nil => simp at hx
        | cons y ys => rw [List.getLast?_cons_cons]; exact hx))
      (fun he => by subst he; have := hl it rfl; omega)
    refine ⟨i :: is, ?_, ?_, .cons g3 k3⟩
    · rw [List.flatMap_cons, g2, ← h3, hc1, ← k1, ← List.drop_drop, List.take_append_drop]
    · intro j hj
      rcases List.mem_cons.1 hj with rfl | hj
      · exact g1
      · exact k2 j hj

/-- **C50.** If gaia succeeds on a program that does not set the origin, disassembling the output with the published opcode
table, from its first byte to its last, gives exactly the instructions of the source, in order: the same mnemonics, and for
each instruction (`s.items`: the instructions with their addresses, from a textbook first pass) its mode and operand, with
branches leading to their labels. -/
theorem C50_disassembly {w : World} {srcName outName : Str} {src : List Byte} {p : List Stmt} (hw : Setup w srcName outName src)
    (hp : IsProgram src p) (hno : NoOrigin p) {bin : List Byte} {total symbols : Nat}
    (hs : Succeeds w srcName outName bin total symbols) :
    ∃ s is, pass1 p .init = some s ∧ disassemble bin = some is ∧ is.map (·.mnemonic) = mnemonics p ∧
      List.Forall₂ (MachineForm s.env) s.items is ∧ (∀ i ∈ is, i.Valid) ∧ is.flatMap Insn.bytes = bin := by
  obtain ⟨s, h1, h2, _, h4, h5⟩ := C28_image hw hp (noOrigin_ascending hno) hs
  obtain ⟨is, k1, k2, k3⟩ := contiguous_insns (pass1_contiguous h1 hno trivial rfl) h2 h4 (fun h => by rw [h5 h]; rfl)
  rw [List.drop_zero] at k1
  refine ⟨s, is, h1, by rw [k1]; exact disassemble_all k2, ?_, k3, k2, k1.symm⟩
  have hm := pass1_mnemonics h1
  have : is.map (·.mnemonic) = s.items.map (·.mnemonic) := by
    generalize s.items = xs at k3
    clear k1 k2
    induction k3 with
    | nil => rfl
    | cons h _ ih => simp [h.mnemonic, ih]
  rw [this, hm]
  simp [Pass1.init]

def c50Src : List Byte := b! "V =$10\nL LDA V,X\n BNE L\n JMP F\n ADC $1234,Y\nF RTS\n"

def c50Prog : List Stmt := [.const (b! "V") 0x10, .instr (some (b! "L")) .LDA (.idxX (.sym (b! "V"))),
  .instr none .BNE (.plain (.sym (b! "L"))), .instr none .JMP (.plain (.sym (b! "F"))),
  .instr none .ADC (.idxY (.lit 0x1234)), .instr (some (b! "F")) .RTS .none]

example : Setup (demo c50Src) (b! "p.asm") (b! "p.bin") c50Src ∧ IsProgram c50Src c50Prog ∧ NoOrigin c50Prog ∧
    Succeeds (demo c50Src) (b! "p.asm") (b! "p.bin") [0xB5, 0x10, 0xD0, 0xFC, 0x4C, 10, 0, 0x79, 0x34, 0x12, 0x60] 11 3 ∧
    disassemble [0xB5, 0x10, 0xD0, 0xFC, 0x4C, 10, 0, 0x79, 0x34, 0x12, 0x60] =
      some [⟨.LDA, .zpX, 0x10⟩, ⟨.BNE, .rel, 0xFC⟩, ⟨.JMP, .abs, 10⟩, ⟨.ADC, .absY, 0x1234⟩, ⟨.RTS, .imp, 0⟩] :=
  ⟨demo_setup _, isProgram_eval (by decide +kernel) (by decide +kernel) (by decide +kernel) (by decide +kernel),
    fun v hv => by simp [c50Prog] at hv, demo_succeeds (by decide +kernel), by decide +kernel⟩

end Gaia

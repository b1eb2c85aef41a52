import Verif.Spec.Machine
import Verif.Props.C50_Disassembly
import Verif.Props.C21_Runs

/-!
C69: a processor that runs the binary executes the program as it is written.
-/
set_option maxRecDepth 10000
namespace Gaia
open Spec

namespace Exec

theorem fetch_bytes {i : Insn} (h : i.Valid) {mem : Nat → Byte} {a : Nat} (ha : a + i.mode.bytes ≤ 65536)
    (hm : ∀ k b, i.bytes[k]? = some b → mem (a + k) = b) : fetch mem a = some i := by
  obtain ⟨m, md, v⟩ := i
  obtain ⟨h1, h2⟩ := h
  simp only at h1 h2 ha
  obtain ⟨op, hop⟩ := Option.isSome_iff_exists.1 h1
  obtain ⟨hlt, hdec⟩ := decode_opcode hop
  have h0 : (UInt8.ofNat op).toNat = op := ofNat_toNat (by omega)
  unfold Insn.bytes at hm
  simp only [hop, Option.getD_some] at hm
  have m0 : mem a = UInt8.ofNat op := hm 0 _ rfl
  rcases mode_bytes_cases md with hb | hb | hb <;> rw [hb] at h2 <;> simp only [hb] at hm
  · obtain rfl : v = 0 := by omega
    simp [fetch, m0, h0, hdec, hb]
  · have m1 : mem ((a + 1) % 65536) = UInt8.ofNat v := by rw [Nat.mod_eq_of_lt (by omega)]; exact hm 1 _ rfl
    simp only [fetch, m0, h0, hdec, hb, Option.map_some, m1, ofNat_toNat (show v ≤ 0xFF by omega)]
    rfl
  · have m1 : mem ((a + 1) % 65536) = UInt8.ofNat (v % 256) := by rw [Nat.mod_eq_of_lt (by omega)]; exact hm 1 _ rfl
    have m2 : mem ((a + 2) % 65536) = UInt8.ofNat (v / 256) := by rw [Nat.mod_eq_of_lt (by omega)]; exact hm 2 _ rfl
    have : (UInt8.ofNat (v % 256)).toNat + 256 * (UInt8.ofNat (v / 256)).toNat = v := by
      rw [UInt8.toNat_ofNat', UInt8.toNat_ofNat']; omega
    simp only [fetch, m0, h0, hdec, hb, Option.map_some, m1, m2, this]
    rfl

theorem meant_eq {env : Env} {it : Item} {bs : List Byte} (h : encodeLow env it = some bs) (h1 : it.mode.bytes = 1 → it.opd = none)
    {i : Insn} (hm : MachineForm env it i) : it.meant env = some (i.meant it.addr) := by
  unfold encodeLow at h
  simp only [Option.bind_eq_bind, Option.bind_eq_some_iff, Option.some.injEq] at h
  obtain ⟨op, hop, bs', h2, rfl⟩ := h
  unfold operandBytesLow at h2
  unfold Item.meant Insn.meant
  cases ho : it.opd with
  | none =>
    have : it.mode ≠ .rel := by
      intro hr
      rw [ho, hr] at h2
      simp [Mode.bytes] at h2
    rw [hm.mode, if_neg this, hm.nothing ho]
  | some o =>
    have hb : it.mode.bytes ≠ 1 := fun hb => by rw [h1 hb] at ho; cases ho
    rw [ho] at h2
    obtain ⟨v, hv⟩ : ∃ v, opdValue env o = some v := by
      cases hv : opdValue env o with
      | some v => exact ⟨v, rfl⟩
      | none => simp [hv] at h2
    simp only [hm.mode]
    by_cases hr : it.mode = .rel
    · simp only [if_pos hr]
      cases o with
      | lit n =>
        have := hm.value _ _ ho rfl fun _ => ⟨n, rfl⟩
        rw [this, hr]; rfl
      | sym l =>
        have hl : env.lookup l = some v := hv
        have := hm.branch l v ho hl hr
        simp only [hl, Option.map_some, branchTarget, this]
        congr 1
    · simp only [if_neg hr, hv, Option.map_some]
      rw [hm.value o v ho hv fun h => absurd h hr]

theorem items_nullary : ∀ {p : List Stmt} {s s' : Pass1}, (∀ it ∈ s.items, it.mode.bytes = 1 → it.opd = none) →
    pass1 p s = some s' → ∀ it ∈ s'.items, it.mode.bytes = 1 → it.opd = none := by
  have hplace : ∀ {t t' : Pass1} {m : Mnemonic} {a : Arg}, (∀ it ∈ t.items, it.mode.bytes = 1 → it.opd = none) →
      place t m a = some t' → ∀ it ∈ t'.items, it.mode.bytes = 1 → it.opd = none := by
    intro t t' m a h hp
    obtain ⟨v, md, _, hmd, rfl⟩ := place_some hp
    intro it hit
    rcases List.mem_append.1 hit with hit | hit
    · exact h it hit
    · obtain rfl := List.mem_singleton.1 hit
      intro hb
      obtain ⟨hw, _⟩ := Option.filter_eq_some_iff.1 hmd
      simp only at hb ⊢
      cases a <;> simp only [wantedMode] at hw <;> first | rfl | (exfalso; revert hw; cases md <;> first | (simp [Mode.bytes] at hb; done) | ((repeat' split) <;> simp))
  intro p
  induction p with
  | nil => intro s s' h hp; obtain rfl : s = s' := by simpa [pass1] using hp
           exact h
  | cons st p ih =>
    intro s s' h hp
    by_cases hst : st = .stop
    · subst hst
      obtain rfl : s = s' := by simpa [pass1] using hp
      exact h
    · rw [pass1_cons hst] at hp
      obtain ⟨t, h1, h2⟩ := Option.bind_eq_some_iff.1 hp
      refine ih ?_ h2
      cases st with
      | empty => obtain rfl : s = t := by simpa [pass1Stmt] using h1
                 exact h
      | stop => exact absurd rfl hst
      | label l => obtain ⟨_, rfl⟩ := define_some (show define s l s.pc = some t from h1); exact h
      | const l v => obtain ⟨_, rfl⟩ := define_some (show define s l v = some t from h1); exact h
      | org v => obtain rfl : { s with pc := v } = t := by simpa [pass1Stmt] using h1
                 exact h
      | instr lab m a =>
        cases lab with
        | none => exact hplace h h1
        | some x =>
          simp only [pass1Stmt, Option.bind_eq_bind, Option.bind_eq_some_iff] at h1
          obtain ⟨u, hu, h1⟩ := h1
          obtain ⟨_, rfl⟩ := define_some hu
          exact hplace (t := ⟨s.pc, (x, s.pc) :: s.env, s.items⟩) h h1

theorem bytes_at {bin bs : List Byte} {a n : Nat} (h : (bin.drop a).take n = bs) {k : Nat} {b : Byte} (hb : bs[k]? = some b) :
    bin[a + k]? = some b := by
  subst h
  rw [List.getElem?_take] at hb
  split at hb
  · rwa [List.getElem?_drop] at hb
  · cases hb

theorem find_item {items : List Item} (h : Ascending items) {it : Item} (hit : it ∈ items) :
    items.find? (fun x => x.addr == it.addr) = some it := by
  induction items with
  | nil => cases hit
  | cons x xs ih =>
    obtain ⟨h1, h2⟩ := List.pairwise_cons.1 h
    rcases List.mem_cons.1 hit with rfl | hit'
    · simp
    · have hb : 0 < x.mode.bytes := by rcases mode_bytes_cases x.mode with h | h | h <;> omega
      have := h1 it hit'
      rw [List.find?_cons_of_neg (by simp; omega)]
      exact ih h2 hit'

end Exec

/-- **C69, fetching.** Load the output file of a successful assembly (ascending addresses) and let the processor come to the address of any
instruction of the program, with the bytes of the program intact: it finds there exactly this instruction, with the mnemonic and the
addressing mode of the source and an operand that stands for what is written. -/
theorem C69_fetch {w : World} {srcName outName : Str} {src : List Byte} {p : List Stmt} (hw : Setup w srcName outName src)
    (hp : IsProgram src p) (ha : AscendingProgram p) {bin : List Byte} {total symbols : Nat}
    (hs : Succeeds w srcName outName bin total symbols) (hfit : bin.length ≤ 65536) {mem : Nat → Byte} (hm : Intact p bin mem) :
    ∃ asm, pass1 p .init = some asm ∧ ∀ it ∈ asm.items, ∃ i, fetch mem it.addr = some i ∧ i.mnemonic = it.mnemonic ∧
      i.mode = it.mode ∧ it.meant asm.env = some (i.meant it.addr) ∧ it.addr + it.mode.bytes ≤ 65536 := by
  obtain ⟨asm, h1, h2, _⟩ := C28_image hw hp ha hs
  refine ⟨asm, h1, fun it hit => ?_⟩
  obtain ⟨bs, e1, e2, e3⟩ := h2 it hit
  obtain ⟨i, i1, i2, i3⟩ := encodeLow_shows e1
  have hlen : it.addr + it.mode.bytes ≤ bin.length := by
    have := congrArg List.length e3
    simp only [List.length_take, List.length_drop] at this
    have hb : 0 < it.mode.bytes := by rcases mode_bytes_cases it.mode with h | h | h <;> omega
    omega
  refine ⟨i, Exec.fetch_bytes i1 (by rw [i3.mode]; omega) ?_, i3.mnemonic, i3.mode, ?_, by omega⟩
  · intro k b hk
    rw [i2] at hk
    have hkl : k < it.mode.bytes := by
      have := (List.getElem?_eq_some_iff.1 hk).1
      omega
    have h3 := Exec.bytes_at e3 hk
    rw [hm asm h1 it hit (it.addr + k) (by omega) (by omega)] at h3
    exact Option.some.inj h3
  · exact Exec.meant_eq e1 (Exec.items_nullary (by simp [Pass1.init]) h1 it hit) i3

/-- **C69, one step.** Whatever the instructions of the processor do: at the address of an instruction of the program, with the bytes of the program intact, the
processor that runs the binary does what the source says. -/
theorem C69_step {w : World} {srcName outName : Str} {src : List Byte} {p : List Stmt} (hw : Setup w srcName outName src)
    (hp : IsProgram src p) (ha : AscendingProgram p) {bin : List Byte} {total symbols : Nat}
    (hs : Succeeds w srcName outName bin total symbols) (hfit : bin.length ≤ 65536) {σ : Type} (P : Processor σ) {s t : σ}
    (hm : Intact p bin (P.mem s)) (h : P.sourceStep p s = some t) : P.step s = some t := by
  obtain ⟨asm, h1, h2⟩ := C69_fetch hw hp ha hs hfit hm
  unfold Processor.sourceStep at h
  simp only [Option.bind_eq_bind, Option.bind_eq_some_iff, h1, Option.some.injEq, exists_eq_left'] at h
  obtain ⟨it, h3, v, h4, rfl⟩ := h
  have hit := List.mem_of_find?_eq_some h3
  have hpc : it.addr = P.pc s := by simpa using List.find?_some h3
  obtain ⟨i, f1, f2, f3, f4, _⟩ := h2 it hit
  rw [h4, hpc] at f4
  unfold Processor.step
  rw [← hpc, f1, Option.map_some, f2, f3, Option.some.inj f4, hpc]

/-- Just after loading, the bytes of the program are in memory. -/
theorem C69_loaded {w : World} {srcName outName : Str} {src : List Byte} {p : List Stmt} (hw : Setup w srcName outName src)
    (hp : IsProgram src p) (ha : AscendingProgram p) {bin : List Byte} {total symbols : Nat}
    (hs : Succeeds w srcName outName bin total symbols) : Intact p bin (loaded bin) := by
  intro asm h1 it hit i hi hi'
  obtain ⟨asm', h1', h2, _⟩ := C28_image hw hp ha hs
  obtain rfl : asm = asm' := by rw [h1] at h1'; exact Option.some.inj h1'
  obtain ⟨bs, _, e2, e3⟩ := h2 it hit
  have := congrArg List.length e3
  simp only [List.length_take, List.length_drop] at this
  unfold loaded
  rw [List.getD_eq_getElem?_getD, List.getElem?_eq_getElem (by omega)]
  rfl

/-- The source can be executed at every instruction of the program: every operand stands for something. -/
theorem C69_progress {w : World} {srcName outName : Str} {src : List Byte} {p : List Stmt} (hw : Setup w srcName outName src)
    (hp : IsProgram src p) (ha : AscendingProgram p) {bin : List Byte} {total symbols : Nat}
    (hs : Succeeds w srcName outName bin total symbols) (hfit : bin.length ≤ 65536) {σ : Type} (P : Processor σ) {s : σ}
    {asm : Pass1} (h1 : pass1 p .init = some asm) (hpc : ∃ it ∈ asm.items, it.addr = P.pc s) : ∃ t, P.sourceStep p s = some t := by
  obtain ⟨asm', h1', h2⟩ := C69_fetch hw hp ha hs hfit (C69_loaded hw hp ha hs)
  obtain rfl : asm = asm' := by rw [h1] at h1'; exact Option.some.inj h1'
  obtain ⟨it, hit, hpc⟩ := hpc
  have hf : (asm.items.find? fun it => it.addr == P.pc s).isSome := by
    rw [List.find?_isSome]
    exact ⟨it, hit, by simpa using hpc⟩
  obtain ⟨it', hf⟩ := Option.isSome_iff_exists.1 hf
  obtain ⟨i, _, _, _, f4, _⟩ := h2 it' (List.mem_of_find?_eq_some hf)
  exact ⟨_, by simp only [Processor.sourceStep, h1, hf, f4, Option.bind_eq_bind, Option.bind_some]; rfl⟩

/-- **C69.** Runs of any length: as long as the bytes of the program stay intact, the processor that runs the binary goes through the same
states as the one that executes the source. -/
theorem C69_run {w : World} {srcName outName : Str} {src : List Byte} {p : List Stmt} (hw : Setup w srcName outName src)
    (hp : IsProgram src p) (ha : AscendingProgram p) {bin : List Byte} {total symbols : Nat}
    (hs : Succeeds w srcName outName bin total symbols) (hfit : bin.length ≤ 65536) {σ : Type} (P : Processor σ) :
    ∀ (n : Nat) {s t : σ}, (∀ k u, k < n → iterate (P.sourceStep p) k s = some u → Intact p bin (P.mem u)) →
      iterate (P.sourceStep p) n s = some t → iterate P.step n s = some t
  | 0, _, _, _, h => h
  | n + 1, s, t, hm, h => by
    obtain ⟨u, h1, h2⟩ := Option.bind_eq_some_iff.1 h
    have := C69_step hw hp ha hs hfit P (hm 0 s (by omega) rfl) h1
    rw [iterate, this]
    refine C69_run hw hp ha hs hfit P n (fun k v hk hv => hm (k + 1) v (by omega) ?_) h2
    rw [iterate, h1]
    exact hv

/-- One instruction written after the other is executed after the other: with only labels, constants and empty lines between them, the second
starts where the first ends, which is where the processor goes on. -/
theorem C69_next {p pre mid post : List Stmt} {lab lab' : Option Str} {m m' : Mnemonic} {a a' : Arg}
    (h : p = pre ++ .instr lab m a :: (mid ++ .instr lab' m' a' :: post)) (hpre : .stop ∉ pre) (hmid : ∀ st ∈ mid, Noiseless st)
    {asm : Pass1} (h1 : pass1 p .init = some asm) :
    ∃ before it it' after, asm.items = before ++ it :: it' :: after ∧ it.mnemonic = m ∧ it.opd = a.opd ∧ it'.mnemonic = m' ∧
      it'.opd = a'.opd ∧ it'.addr = it.addr + it.mode.bytes := by
  have hinstr : ∀ {t t' : Pass1} {lab : Option Str} {m : Mnemonic} {a : Arg}, pass1Stmt t (.instr lab m a) = some t' →
      ∃ md, t'.pc = t.pc + md.bytes ∧ t'.items = t.items ++ [⟨t.pc, m, md, a.opd⟩] := by
    intro t t' lab m a h
    cases lab with
    | none =>
      obtain ⟨v, md, _, _, rfl⟩ := place_some (show place t m a = some t' from h)
      exact ⟨md, rfl, rfl⟩
    | some x =>
      simp only [pass1Stmt, Option.bind_eq_bind, Option.bind_eq_some_iff] at h
      obtain ⟨u, hu, h⟩ := h
      obtain ⟨_, rfl⟩ := define_some hu
      obtain ⟨v, md, _, _, rfl⟩ := place_some h
      exact ⟨md, rfl, rfl⟩
  subst h
  obtain ⟨t, _, g2⟩ := pass1_append pre _ hpre h1
  rw [pass1_cons (by simp)] at g2
  obtain ⟨t2, g3, g4⟩ := Option.bind_eq_some_iff.1 g2
  obtain ⟨t3, g5, g6⟩ := pass1_append mid _ (fun h => hmid _ h) g4
  rw [pass1_cons (by simp)] at g6
  obtain ⟨t4, g7, g8⟩ := Option.bind_eq_some_iff.1 g6
  obtain ⟨md, k1, k2⟩ := hinstr g3
  obtain ⟨k3, k4, _⟩ := silent_pass1 mid hmid g5
  obtain ⟨md', k5, k6⟩ := hinstr g7
  obtain ⟨_, new, e2⟩ := pass1_extends post g8
  exact ⟨t.items, ⟨t.pc, m, md, a.opd⟩, ⟨t3.pc, m', md', a'.opd⟩, new, by rw [e2, k6, k4, k2]; simp, rfl, rfl, rfl, rfl, by simp [k3, k1]⟩

/-- With ascending addresses, the instruction executed at the address of an instruction of the program is this one. -/
theorem C69_this {p : List Stmt} (ha : AscendingProgram p) {asm : Pass1} (h1 : pass1 p .init = some asm) {it : Item} (hit : it ∈ asm.items)
    {σ : Type} (P : Processor σ) {s : σ} (hpc : P.pc s = it.addr) {v : Nat} (hv : it.meant asm.env = some v) :
    P.sourceStep p s = some (P.exec it.mnemonic it.mode v ((it.addr + it.mode.bytes) % 65536) s) := by
  have hf : asm.items.find? (fun it => it.addr == P.pc s) = some it := by
    rw [hpc]
    exact Exec.find_item (ha asm h1) hit
  simp only [Processor.sourceStep, h1, hf, hv, Option.bind_eq_bind, Option.bind_some]
  rw [hpc]

/-- A jump or branch to a label goes on with the instruction written at the label or after it: at the value of the label this instruction is
executed. -/
theorem C69_label {w : World} {srcName outName : Str} {src : List Byte} {p : List Stmt} (hw : Setup w srcName outName src)
    (hp : IsProgram src p) (ha : AscendingProgram p) {bin : List Byte} {total symbols : Nat}
    (hs : Succeeds w srcName outName bin total symbols) (hfit : bin.length ≤ 65536) {l : Str} {m : Mnemonic} {arg : Arg}
    (hl : Marks p l m arg) {σ : Type} (P : Processor σ) :
    ∃ asm it v, pass1 p .init = some asm ∧ it ∈ asm.items ∧ asm.env.lookup l = some it.addr ∧ it.opd = arg.opd ∧ it.meant asm.env = some v ∧
      ∀ s, P.pc s = it.addr → P.sourceStep p s = some (P.exec m it.mode v ((it.addr + it.mode.bytes) % 65536) s) := by
  obtain ⟨asm, it, _, h1, hit, rfl, h3, h4, _⟩ := C21_lands hw hp ha hs hl
  obtain ⟨asm', h1', h2⟩ := C69_fetch hw hp ha hs hfit (C69_loaded hw hp ha hs)
  obtain rfl : asm = asm' := by rw [h1] at h1'; exact Option.some.inj h1'
  obtain ⟨i, _, _, _, f4, _⟩ := h2 it hit
  exact ⟨asm, it, _, h1, hit, h4, h3, f4, fun s hpc => C69_this ha h1 hit P hpc f4⟩

/-! A concrete case: a counting loop on a processor with one register. -/

/-- The register X, the program counter, the memory. -/
structure Small where
  x : Nat
  pc : Nat
  mem : Nat → Byte

def small : Processor Small where
  pc := Small.pc
  mem := Small.mem
  exec m _ v next s :=
    match m with
    | .LDX => { s with x := v, pc := next }
    | .DEX => { s with x := (s.x + 255) % 256, pc := next }
    | .BNE => { s with pc := if s.x = 0 then next else v }
    | .JMP => { s with pc := v }
    | .STX => { s with mem := fun a => if a = v then UInt8.ofNat s.x else s.mem a, pc := next }
    | _ => { s with pc := next }

def loopSrc : List Byte := b! " *=$200\n LDX #3\nL STX $1000\n DEX\n BNE L\n JMP E\n BRK\nE NOP\n"
def loopProg : List Stmt := [.org 0x200, .instr none .LDX (.imm (.lit 3)), .instr (some (b! "L")) .STX (.plain (.lit 0x1000)), .instr none .DEX .none,
  .instr none .BNE (.plain (.sym (b! "L"))), .instr none .JMP (.plain (.sym (b! "E"))), .instr none .BRK .none, .instr (some (b! "E")) .NOP .none]
def loopBin : List Byte := List.replicate 0x200 0 ++ [0xA2, 3, 0x8E, 0, 0x10, 0xCA, 0xD0, 0xFA, 0x4C, 0x0C, 2, 0, 0xEA]

theorem loop_isProgram : IsProgram loopSrc loopProg :=
  isProgram_eval (by decide) (by decide +kernel) (by decide +kernel) (by
    intro st hst h
    simp only [loopProg, List.mem_cons, List.not_mem_nil, or_false] at hst
    rcases hst with rfl | rfl | rfl | rfl | rfl | rfl | rfl | rfl <;> simp [IndexedJump, Stmt.jumpsIndexed] at h)

theorem loop_succeeds : Succeeds (demo loopSrc) (b! "p.asm") (b! "p.bin") loopBin 13 2 := demo_succeeds (by decide +kernel)

theorem Exec.intact_eval {p : List Stmt} {bin : List Byte} {mem : Nat → Byte} (h : (match pass1 p .init with
    | some asm => asm.items.all fun it => (List.range it.mode.bytes).all fun j => bin[it.addr + j]? == some (mem (it.addr + j))
    | none => true) = true) : Intact p bin mem := by
  intro asm h1 it hit i hi hi'
  rw [h1] at h
  simp only [List.all_eq_true, beq_iff_eq, List.mem_range] at h
  have := h it hit (i - it.addr) (by omega)
  rwa [show it.addr + (i - it.addr) = i by omega] at this

/-- The hypotheses are met by the run of 11 steps from the start of the loaded binary. -/
example (t : Small) (h : iterate (small.sourceStep loopProg) 11 ⟨0, 0x200, loaded loopBin⟩ = some t) :
    iterate small.step 11 ⟨0, 0x200, loaded loopBin⟩ = some t := by
  refine C69_run (demo_setup _) loop_isProgram (ascendingProgram_eval (by decide +kernel)) loop_succeeds (by decide +kernel) small 11 ?_ h
  intro k u hk hu
  apply Exec.intact_eval
  have key : ∀ k < 11, (match iterate (small.sourceStep loopProg) k ⟨0, 0x200, loaded loopBin⟩ with
      | some u => (match pass1 loopProg .init with
        | some asm => asm.items.all fun it => (List.range it.mode.bytes).all fun j => loopBin[it.addr + j]? == some (u.mem (it.addr + j))
        | none => true)
      | none => true) = true := by decide +kernel
  have := key k hk
  rw [hu] at this
  exact this

/-- Both machines, from the start of the loaded binary: after 11 steps at the NOP with X = 0 and the last count in memory. -/
example : (iterate (small.sourceStep loopProg) 11 ⟨0, 0x200, loaded loopBin⟩).map (fun s => (s.x, s.pc, s.mem 0x1000)) = some (0, 0x20C, 1) ∧
    (iterate small.step 11 ⟨0, 0x200, loaded loopBin⟩).map (fun s => (s.x, s.pc, s.mem 0x1000)) = some (0, 0x20C, 1) := by
  decide +kernel

example : Marks loopProg (b! "E") .NOP .none :=
  ⟨loopProg.take 7, [], [], some (b! "E"), rfl, by decide +kernel, by simp, .inl rfl⟩

end Gaia

import Verif.Props.C50_Disassembly
import Verif.Props.C21_Runs

/-!
C50 for programs with origin lines: any stretch of lines without an origin line can be read back from the output.
-/
namespace Gaia
open Spec

namespace Sections

theorem contiguous_append : ∀ {xs ys : List Item} {a : Nat}, Contiguous a xs → Contiguous (a + (xs.map (·.mode.bytes)).sum) ys →
    Contiguous a (xs ++ ys)
  | [], ys, a, _, h => by simpa using h
  | x :: xs, ys, a, h, h' => ⟨h.1, contiguous_append h.2 (by
      simp only [List.map_cons, List.sum_cons] at h'
      rwa [Nat.add_assoc])⟩

/-- The mnemonic of a statement. -/
def one : Stmt → List Mnemonic
  | .instr _ m _ => [m]
  | _ => []

/-- The instructions of a program without origin lines follow each other. -/
theorem pass1_section : ∀ {p : List Stmt} {s s' : Pass1}, pass1 p s = some s' → NoOrigin p →
    ∃ J, s'.items = s.items ++ J ∧ Contiguous s.pc J ∧ J.map (·.mnemonic) = mnemonics p
  | [], s, s', h, _ => by
    obtain rfl : s = s' := by simpa [pass1] using h
    exact ⟨[], by simp, trivial, rfl⟩
  | st :: p, s, s', h, hno => by
    by_cases hst : st = .stop
    · subst hst
      obtain rfl : s = s' := by simpa [pass1] using h
      exact ⟨[], by simp, trivial, by simp [mnemonics]⟩
    · obtain ⟨t, h1, h2⟩ := pass1_cons_some hst h
      have hno' : NoOrigin p := fun v hv => hno v (by simp [hv])
      obtain ⟨J, g1, g2, g3⟩ := pass1_section h2 hno'
      have hd : mnemonics (st :: p) = one st ++ mnemonics p := by
        unfold mnemonics
        rw [List.takeWhile_cons_of_pos (by simpa using hst)]
        cases st <;> simp [one]
      have key : ∃ I, t.items = s.items ++ I ∧ Contiguous s.pc I ∧ t.pc = s.pc + (I.map (·.mode.bytes)).sum ∧
          I.map (·.mnemonic) = one st := by
        have hplace : ∀ {u : Pass1} {m : Mnemonic} {a : Arg}, u.pc = s.pc → u.items = s.items → place u m a = some t →
            ∃ I, t.items = s.items ++ I ∧ Contiguous s.pc I ∧ t.pc = s.pc + (I.map (·.mode.bytes)).sum ∧ I.map (·.mnemonic) = [m] := by
          intro u m a e1 e2 h
          obtain ⟨v, md, _, _, rfl⟩ := place_some h
          exact ⟨[⟨u.pc, m, md, a.opd⟩], by simp [e2], ⟨e1, trivial⟩, by simp [e1], by simp⟩
        cases st with
        | stop => exact absurd rfl hst
        | empty => obtain rfl : s = t := by simpa [pass1Stmt] using h1
                   exact ⟨[], by simp, trivial, by simp, rfl⟩
        | label l => obtain ⟨_, rfl⟩ := define_some (show define s l s.pc = some t from h1); exact ⟨[], by simp, trivial, by simp, rfl⟩
        | const l v => obtain ⟨_, rfl⟩ := define_some (show define s l v = some t from h1); exact ⟨[], by simp, trivial, by simp, rfl⟩
        | org v => exact absurd (by simp) (hno v)
        | instr lb m a =>
          cases lb with
          | none => exact hplace rfl rfl (show place s m a = some t from h1)
          | some l =>
            simp only [pass1Stmt, Option.bind_eq_bind, Option.bind_eq_some_iff] at h1
            obtain ⟨u, h1, h2⟩ := h1
            obtain ⟨_, rfl⟩ := define_some h1
            exact hplace (u := { s with env := (l, s.pc) :: s.env }) rfl rfl h2
      obtain ⟨I, k1, k2, k3, k4⟩ := key
      refine ⟨I ++ J, by rw [g1, k1, List.append_assoc], contiguous_append k2 (k3 ▸ g2), ?_⟩
      rw [List.map_append, g3, k4, hd]

theorem pass1_stopped : ∀ (p q : List Stmt) (s : Pass1), .stop ∈ p → pass1 (p ++ q) s = pass1 p s
  | [], q, s, h => by cases h
  | st :: p, q, s, h => by
    by_cases hst : st = .stop
    · subst hst; rfl
    · rw [List.cons_append, pass1_cons hst, pass1_cons hst]
      have hp : .stop ∈ p := by
        rcases List.mem_cons.1 h with h | h
        · exact absurd h.symm hst
        · exact h
      congr 1
      funext t
      exact pass1_stopped p q t hp

/-- The items of a contiguous list lie between its ends. -/
theorem contiguous_within : ∀ {xs : List Item} {a : Nat}, Contiguous a xs → ∀ it ∈ xs, it.addr + it.mode.bytes ≤ a + (xs.map (·.mode.bytes)).sum
  | x :: xs, a, h, it, hit => by
    simp only [List.map_cons, List.sum_cons]
    rcases List.mem_cons.1 hit with rfl | hit
    · have := h.1; omega
    · have := contiguous_within h.2 it hit; omega

theorem contiguous_last : ∀ {xs : List Item} {a : Nat}, Contiguous a xs → ∀ it, xs.getLast? = some it →
    it.addr + it.mode.bytes = a + (xs.map (·.mode.bytes)).sum
  | [x], a, h, it, hit => by
    obtain rfl : x = it := by simpa using hit
    have := h.1
    simp; omega
  | x :: y :: xs, a, h, it, hit => by
    rw [List.getLast?_cons_cons] at hit
    have := contiguous_last h.2 it hit
    simp only [List.map_cons, List.sum_cons] at this ⊢
    omega

theorem forall₂_mnemonics {env : Env} {xs : List Item} {is : List Insn} (h : List.Forall₂ (MachineForm env) xs is) :
    is.map (·.mnemonic) = xs.map (·.mnemonic) := by
  induction h with
  | nil => rfl
  | cons h _ ih => simp [h.mnemonic, ih]

end Sections

/-- **C50, stretches.** Let gaia succeed on a program with ascending addresses, and let `p2` be any stretch of its lines without origin line.
The output file, read from the address of the stretch on (`t.pc`, the address a textbook first pass reaches there) for as many bytes as
its instructions (`items`) have, disassembles to exactly these instructions. -/
theorem C50_stretch {w : World} {srcName outName : Str} {src : List Byte} {p1 p2 p3 : List Stmt} (hw : Setup w srcName outName src)
    (hp : IsProgram src (p1 ++ (p2 ++ p3))) (ha : AscendingProgram (p1 ++ (p2 ++ p3))) (hstop : .stop ∉ p1) (hno : NoOrigin p2)
    {bin : List Byte} {total symbols : Nat} (hs : Succeeds w srcName outName bin total symbols) :
    ∃ t s before items after is, pass1 p1 .init = some t ∧ pass1 (p1 ++ (p2 ++ p3)) .init = some s ∧
      s.items = before ++ items ++ after ∧ before = t.items ∧
      (let code := (bin.drop t.pc).take (items.map (·.mode.bytes)).sum
       code.length = (items.map (·.mode.bytes)).sum ∧ disassemble code = some is ∧ is.flatMap Insn.bytes = code) ∧
      is.map (·.mnemonic) = mnemonics p2 ∧ List.Forall₂ (MachineForm s.env) items is ∧ ∀ i ∈ is, i.Valid := by
  obtain ⟨s, h1, h2, _, _, _⟩ := C28_image hw hp ha hs
  obtain ⟨t, g1, g2⟩ := pass1_append p1 (p2 ++ p3) hstop h1
  have : ∃ u K, pass1 p2 t = some u ∧ s.items = u.items ++ K := by
    by_cases hst : .stop ∈ p2
    · rw [Sections.pass1_stopped p2 p3 t hst] at g2
      exact ⟨s, [], g2, by simp⟩
    · obtain ⟨u, k1, k2⟩ := pass1_append p2 p3 hst g2
      obtain ⟨K, hK⟩ := (pass1_extends p3 k2).2
      exact ⟨u, K, k1, hK⟩
  obtain ⟨u, K, k1, k2⟩ := this
  obtain ⟨J, j1, j2, j3⟩ := Sections.pass1_section k1 hno
  generalize hn : (J.map (·.mode.bytes)).sum = n
  have hitems : s.items = t.items ++ J ++ K := by rw [k2, j1]
  have hJ : ∀ it ∈ J, ∃ bs, encodeLow s.env it = some bs ∧ bs.length = it.mode.bytes ∧ (bin.drop it.addr).take it.mode.bytes = bs :=
    fun it hit => h2 it (by rw [hitems]; simp [hit])
  have main : ((bin.drop t.pc).take n).length = n ∧ ∃ is : List Insn, (bin.drop t.pc).take n = is.flatMap Insn.bytes ∧ (∀ i ∈ is, i.Valid) ∧
      List.Forall₂ (MachineForm s.env) J is := by
    cases hl : J.getLast? with
    | none =>
      obtain rfl := List.getLast?_eq_none_iff.1 hl
      obtain rfl : 0 = n := by simpa using hn
      exact ⟨by simp, [], by simp, by simp, .nil⟩
    | some last =>
      have hlast := Sections.contiguous_last j2 last hl
      obtain ⟨bs, _, e2, e3⟩ := hJ last (List.mem_of_getLast? hl)
      have hb := mode_bytes_cases last.mode
      have hlen : t.pc + n ≤ bin.length := by
        rw [← e3] at e2
        simp only [List.length_take, List.length_drop] at e2
        omega
      have hcut : (bin.take (t.pc + n)).drop t.pc = (bin.drop t.pc).take n := by
        rw [List.drop_take]; congr 1; omega
      obtain ⟨is, i1, i2, i3⟩ := contiguous_insns (bin := bin.take (t.pc + n)) j2
        (fun it hit => by
          obtain ⟨bs, f1, f2, f3⟩ := hJ it hit
          refine ⟨bs, f1, f2, ?_⟩
          have := Sections.contiguous_within j2 it hit
          rw [List.drop_take, List.take_take, ← f3]
          congr 1
          omega)
        (fun it hit => by
          rw [hl] at hit
          cases hit
          rw [List.length_take, hlast, hn]
          omega)
        (fun he => by rw [he] at hl; cases hl)
      refine ⟨?_, is, by rw [← hcut]; exact i1, i2, i3⟩
      rw [List.length_take, List.length_drop]
      omega
  obtain ⟨m1, is, m2, m3, m4⟩ := main
  subst hn
  refine ⟨t, s, t.items, J, K, is, g1, h1, hitems, rfl, ⟨m1, ?_, m2.symm⟩, ?_, m4, m3⟩
  · rw [m2]; exact disassemble_all m3
  · rw [Sections.forall₂_mnemonics m4, j3]

/-- **C50, one origin.** If gaia succeeds on a program that starts with an origin line and has no other, the output file is 0 up to the
origin, and from there to its end disassembles to exactly the instructions of the program. -/
theorem C50_origin {w : World} {srcName outName : Str} {src : List Byte} {v : Nat} {p : List Stmt} (hw : Setup w srcName outName src)
    (hp : IsProgram src (.org v :: p)) (hno : NoOrigin p) {bin : List Byte} {total symbols : Nat}
    (hs : Succeeds w srcName outName bin total symbols) :
    ∃ s is, pass1 (.org v :: p) .init = some s ∧ (∀ b ∈ bin.take v, b = 0) ∧ disassemble (bin.drop v) = some is ∧
      is.flatMap Insn.bytes = bin.drop v ∧ is.map (·.mnemonic) = mnemonics p ∧ List.Forall₂ (MachineForm s.env) s.items is ∧
      ∀ i ∈ is, i.Valid := by
  have hcont : ∀ {s}, pass1 (.org v :: p) .init = some s → Contiguous v s.items := by
    intro s h
    rw [pass1_cons (by simp)] at h
    obtain ⟨t, h1, h2⟩ := Option.bind_eq_some_iff.1 h
    obtain rfl : { Pass1.init with pc := v } = t := by simpa [pass1Stmt] using h1
    obtain ⟨J, j1, j2, _⟩ := Sections.pass1_section h2 hno
    rw [j1]
    exact j2
  have ha : AscendingProgram (.org v :: p) := fun s hs => (hcont hs).ascending.1
  obtain ⟨s, h1, h2, h3, h4, h5⟩ := C28_image hw hp ha hs
  have hc := hcont h1
  refine ⟨s, ?_⟩
  have hlow : ∀ it ∈ s.items, v ≤ it.addr := (hcont h1).ascending.2
  have hz : ∀ b ∈ bin.take v, b = 0 := by
    intro b hb
    obtain ⟨i, hi, rfl⟩ := List.mem_iff_getElem.1 hb
    simp only [List.length_take] at hi
    have := h3 i (by omega) (fun it hit hcov => by have := hlow it hit; have := hcov.1; omega)
    rw [List.getElem?_eq_getElem (by omega)] at this
    rw [List.getElem_take]
    exact Option.some.inj this
  have hm : s.items.map (·.mnemonic) = mnemonics p := by
    rw [pass1_mnemonics h1]
    simp [Pass1.init, mnemonics]
  cases hl : s.items with
  | nil =>
    rw [h5 hl]
    refine ⟨[], h1, by simp, by rw [List.drop_nil]; rfl, by simp, ?_, .nil, by simp⟩
    rw [← hm, hl]
    rfl
  | cons x xs =>
    obtain ⟨is, k1, k2, k3⟩ := contiguous_insns hc h2 h4 (fun h => by rw [hl] at h; cases h)
    refine ⟨is, h1, hz, by rw [k1]; exact disassemble_all k2, k1.symm, ?_, hl ▸ k3, k2⟩
    rw [Sections.forall₂_mnemonics k3, hm]

def c50oSrc : List Byte := b! " .ORG $4\nL LDA $10\n BNE L\n *=$A\n JMP F\nF RTS\n"

def c50oProg : List Stmt := [.org 4, .instr (some (b! "L")) .LDA (.plain (.lit 0x10)), .instr none .BNE (.plain (.sym (b! "L"))),
  .org 10, .instr none .JMP (.plain (.sym (b! "F"))), .instr (some (b! "F")) .RTS .none]

/-- A program with two origins and its two stretches. -/
example : IsProgram c50oSrc c50oProg ∧ AscendingProgram c50oProg ∧
    Succeeds (demo c50oSrc) (b! "p.asm") (b! "p.bin") [0, 0, 0, 0, 0xA5, 0x10, 0xD0, 0xFC, 0, 0, 0x4C, 13, 0, 0x60] 8 2 ∧
    disassemble (([0, 0, 0, 0, 0xA5, 0x10, 0xD0, 0xFC, 0, 0, 0x4C, 13, 0, 0x60].drop 4).take 4) = some [⟨.LDA, .zp, 0x10⟩, ⟨.BNE, .rel, 0xFC⟩] ∧
    disassemble (([0, 0, 0, 0, 0xA5, 0x10, 0xD0, 0xFC, 0, 0, 0x4C, 13, 0, 0x60].drop 10).take 4) = some [⟨.JMP, .abs, 13⟩, ⟨.RTS, .imp, 0⟩] :=
  ⟨isProgram_eval (by decide +kernel) (by decide +kernel) (by decide +kernel) (by decide +kernel), ascendingProgram_eval (by decide +kernel),
    demo_succeeds (by decide +kernel), by decide +kernel, by decide +kernel⟩

end Gaia

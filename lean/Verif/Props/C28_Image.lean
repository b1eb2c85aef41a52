import Verif.Proofs.Result
import Verif.Props.C26_TwoPass

/-! C28: the binary is the memory image of the program. C29: the reported totals. -/
set_option maxRecDepth 10000
namespace Gaia
open Spec

/-- The item of an instruction covers address `i`. -/
def Spec.Item.covers (it : Item) (i : Nat) : Prop := it.addr ≤ i ∧ i < it.addr + it.mode.bytes

/-- The items of the first pass, where everything has been found in order. -/
theorem item_encodes {p : List Stmt} {s : Pass1} (hc : check p = none) (h1 : pass1 p .init = some s) {it : Item} (hit : it ∈ s.items) :
    ∃ e ∈ placed p 1 .init, e.item = it ∧ encodeLow s.env it = some (rawBytes s.env it) := by
  obtain ⟨g1, g2⟩ := placed_made p 1 h1
  have g1 : s.items = (placed p 1 .init).map (·.item) := by simpa [Pass1.init] using g1
  rw [g1, List.mem_map] at hit
  obtain ⟨e, he, rfl⟩ := hit
  refine ⟨e, he, rfl, ?_⟩
  obtain ⟨s', h1', h2⟩ := check_assembleLow.1 hc
  have h3 : (assembleLow p).isSome = true := by rw [h2]; rfl
  unfold assembleLow at h3
  have h1'' : pass1 p ⟨0, [], []⟩ = some s := h1
  rw [h1''] at h3
  simp only [Option.bind_eq_bind, Option.bind_some] at h3
  cases hp2 : pass2Low s.env s.items with
  | none => rw [hp2] at h3; simp at h3
  | some cs =>
    have hs := pass2Low_some hp2 e.item (by rw [g1]; exact List.mem_map_of_mem he)
    exact (encodeLow_iff (g2 e he).1 (g2 e he).2).1 ((encodeLow_iff (g2 e he).1 (g2 e he).2).2 hs)

/-- **C28.** If gaia succeeds on a program with ascending addresses (`s` is the result of the address assignment of a textbook
first pass), then
* every instruction, at address `a`, has its bytes at file offset `a`: opcode and operand, operand low byte first, labels by
  their final value (`encodeLow`);
* every other byte of the file is 0;
* the file ends with the last byte of the last instruction, and is empty if there is no instruction. -/
theorem C28_image {w : World} {srcName outName : Str} {src : List Byte} {p : List Stmt} (hw : Setup w srcName outName src)
    (hp : IsProgram src p) (ha : AscendingProgram p) {bin : List Byte} {total symbols : Nat}
    (hs : Succeeds w srcName outName bin total symbols) :
    ∃ s, pass1 p .init = some s ∧
      (∀ it ∈ s.items, ∃ bs, encodeLow s.env it = some bs ∧ bs.length = it.mode.bytes ∧ (bin.drop it.addr).take it.mode.bytes = bs) ∧
      (∀ i < bin.length, (∀ it ∈ s.items, ¬ it.covers i) → bin[i]? = some 0) ∧
      (∀ it, s.items.getLast? = some it → bin.length = it.addr + it.mode.bytes) ∧
      (s.items = [] → bin = []) := by
  have hc := succeeds_check hw hp hs
  obtain ⟨s, h1, _, _, h4⟩ := succeeded hw hp hs
  obtain rfl := h4 (ha s h1)
  have hok := placed_ok h1
  obtain ⟨g1, g2⟩ := placed_made p 1 h1
  have g1 : s.items = (placed p 1 .init).map (·.item) := by simpa [Pass1.init] using g1
  have ha' : Ascending ((placed p 1 .init).map (·.item)) := by rw [← g1]; exact ha s h1
  refine ⟨s, h1, ?_, ?_, ?_, ?_⟩
  · intro it hit
    obtain ⟨e, he, rfl, henc⟩ := item_encodes hc h1 hit
    exact ⟨_, henc, rawBytes_length (hok e he) _, finals_bytes hok ha' he⟩
  · intro i hi h
    refine finals_zero hok hi fun e he hcov => ?_
    exact h e.item (by rw [g1]; exact List.mem_map_of_mem he) hcov
  · intro it hit
    rw [g1, List.getLast?_map] at hit
    obtain ⟨e, he, rfl⟩ := Option.map_eq_some_iff.1 hit
    exact finals_end hok ha' he
  · intro h0
    rw [h0] at g1
    have : placed p 1 .init = [] := List.map_eq_nil_iff.1 g1.symm
    rw [this]
    rfl

/-- The label a statement defines. -/
def Spec.Stmt.defined : Stmt → Option Str
  | .label l => some l
  | .const l _ => some l
  | .instr l _ _ => l
  | _ => none

/-- The labels defined by a program, up to `.END`. -/
def Spec.definitions (p : List Stmt) : List Str := (p.takeWhile (· ≠ .stop)).filterMap Stmt.defined

theorem place_env {s s' : Pass1} {m : Mnemonic} {a : Arg} (h : place s m a = some s') : s'.env = s.env := by
  obtain ⟨v, md, _, _, rfl⟩ := place_some h
  rfl

/-- One statement defines its label and no other. -/
theorem pass1Stmt_names {s s' : Pass1} {st : Stmt} (h : pass1Stmt s st = some s') :
    s'.env.map (·.1) = (st.defined.toList ++ s.env.map (·.1)) ∧ ∀ l, st.defined = some l → s.env.lookup l = none := by
  match st, h with
  | .empty, h => obtain rfl : s = s' := by simpa [pass1Stmt] using h
                 exact ⟨rfl, fun l hl => by cases hl⟩
  | .stop, h => obtain rfl : s = s' := by simpa [pass1Stmt] using h
                exact ⟨rfl, fun l hl => by cases hl⟩
  | .org v, h => obtain rfl := (Option.some.inj h).symm
                 exact ⟨rfl, fun l hl => by cases hl⟩
  | .label l, h => obtain ⟨h1, rfl⟩ := define_some h
                   exact ⟨rfl, fun x hx => by obtain rfl := Option.some.inj hx; exact h1⟩
  | .const l v, h => obtain ⟨h1, rfl⟩ := define_some h
                     exact ⟨rfl, fun x hx => by obtain rfl := Option.some.inj hx; exact h1⟩
  | .instr none m a, h => exact ⟨by rw [place_env h]; rfl, fun l hl => by cases hl⟩
  | .instr (some l) m a, h =>
    simp only [pass1Stmt, Option.bind_eq_bind, Option.bind_eq_some_iff] at h
    obtain ⟨u, hu, h⟩ := h
    obtain ⟨h1, rfl⟩ := define_some hu
    exact ⟨by rw [place_env h]; rfl, fun x hx => by obtain rfl := Option.some.inj hx; exact h1⟩

theorem pass1_names : ∀ (p : List Stmt) {s s' : Pass1}, pass1 p s = some s' →
    s'.env.map (·.1) = (definitions p).reverse ++ s.env.map (·.1)
  | [], s, s', h => by
    obtain rfl : s = s' := by simpa [pass1] using h
    rfl
  | st :: p, s, s', h => by
    by_cases hst : st = .stop
    · subst hst
      obtain rfl : s = s' := by simpa [pass1] using h
      rfl
    · rw [pass1_cons hst] at h
      obtain ⟨t, h1, h2⟩ := Option.bind_eq_some_iff.1 h
      rw [pass1_names p h2, (pass1Stmt_names h1).1]
      have : definitions (st :: p) = st.defined.toList ++ definitions p := by
        unfold definitions
        rw [List.takeWhile_cons, if_pos (by simpa using hst), List.filterMap_cons]
        cases st.defined <;> rfl
      rw [this]
      cases st.defined <;> simp

/-- The names in the symbol table of the first pass are the labels defined, each once. -/
theorem pass1_definitions {p : List Stmt} {s : Pass1} (h : pass1 p .init = some s) :
    s.env.map (·.1) = (definitions p).reverse := by
  have := pass1_names p h
  simpa [Pass1.init] using this

theorem pass1_nodup : ∀ (p : List Stmt) {s s' : Pass1}, pass1 p s = some s' → (s.env.map (·.1)).Nodup → (s'.env.map (·.1)).Nodup
  | [], s, s', h, hn => by
    obtain rfl : s = s' := by simpa [pass1] using h
    exact hn
  | st :: p, s, s', h, hn => by
    by_cases hst : st = .stop
    · subst hst
      obtain rfl : s = s' := by simpa [pass1] using h
      exact hn
    · rw [pass1_cons hst] at h
      obtain ⟨t, h1, h2⟩ := Option.bind_eq_some_iff.1 h
      refine pass1_nodup p h2 ?_
      obtain ⟨h3, h4⟩ := pass1Stmt_names h1
      rw [h3]
      cases hd : st.defined with
      | none => simpa using hn
      | some l =>
        simp only [Option.toList_some, List.singleton_append, List.nodup_cons]
        refine ⟨fun hmem => ?_, hn⟩
        obtain ⟨q, hq, rfl⟩ := List.mem_map.1 hmem
        have := h4 _ hd
        rw [List.lookup_eq_none_iff] at this
        have := this q hq
        simp at this

/-- **C29.** On success the byte count in the report is the sum of the lengths of all instructions, and the symbol count is the
number of labels defined before `.END` (each is defined once). -/
theorem C29_totals {w : World} {srcName outName : Str} {src : List Byte} {p : List Stmt} (hw : Setup w srcName outName src)
    (hp : IsProgram src p) {bin : List Byte} {total symbols : Nat} (hs : Succeeds w srcName outName bin total symbols) :
    (∃ s, pass1 p .init = some s ∧ total = (s.items.map (·.mode.bytes)).sum) ∧
    symbols = (definitions p).length ∧ (definitions p).Nodup := by
  obtain ⟨s, h1, h2, h3, _⟩ := succeeded hw hp hs
  have hd := pass1_definitions h1
  refine ⟨⟨s, h1, h2⟩, ?_, ?_⟩
  · rw [h3, ← List.length_reverse (as := definitions p), ← hd, List.length_map]
  · rw [← List.nodup_reverse, ← hd]
    exact pass1_nodup p h1 (by simp [Pass1.init])

/-- With ascending addresses the byte count is at most the length of the file (the difference is the gaps). -/
theorem C29_at_most_length {w : World} {srcName outName : Str} {src : List Byte} {p : List Stmt} (hw : Setup w srcName outName src)
    (hp : IsProgram src p) (ha : AscendingProgram p) {bin : List Byte} {total symbols : Nat}
    (hs : Succeeds w srcName outName bin total symbols) : total ≤ bin.length := by
  obtain ⟨s, h1, h2, _, _⟩ := succeeded hw hp hs
  obtain ⟨s', h1', _, _, h3, _⟩ := C28_image hw hp ha hs
  rw [h1] at h1'
  obtain rfl : s = s' := by simpa using h1'
  have key : ∀ (items : List Item), Ascending items → ∀ it, items.getLast? = some it →
      (items.map (·.mode.bytes)).sum ≤ it.addr + it.mode.bytes := by
    intro items
    induction items using List.reverseRecOn with
    | nil => intro _ it h; simp at h
    | append_singleton pre x ih =>
      intro hasc it hit
      obtain rfl : x = it := by simpa using hit
      unfold Ascending at hasc
      rw [List.pairwise_append] at hasc
      rw [List.map_append, List.sum_append]
      simp only [List.map_cons, List.map_nil, List.sum_cons, List.sum_nil]
      cases hl : pre.getLast? with
      | none =>
        obtain rfl := List.getLast?_eq_none_iff.1 hl
        simp
      | some y =>
        have h1 := ih hasc.1 y hl
        have h2 := hasc.2.2 y (List.mem_of_getLast? hl) x (by simp)
        omega
  cases hl : s.items.getLast? with
  | none =>
    rw [List.getLast?_eq_none_iff] at hl
    rw [h2, hl]; simp
  | some it => rw [h2, h3 it hl]; exact key _ (ha s h1) it hl

/-- **C29.** The numbers printed are these numbers: read as a decimal, the printed digits are the number, and so is the
hexadecimal number in parentheses, which has at least four digits. -/
theorem C29_printed (n : Nat) : positional 10 (decimal n) = n ∧ (∀ c ∈ decimal n, IsDigitOf 10 c) ∧
    positional 16 (hex04 n) = n ∧ 4 ≤ (hex04 n).length := by
  refine ⟨decimal_value n, fun c hc => ?_, hex04_value n, hex04_length n⟩
  obtain ⟨d, h1, h2⟩ := decimal_digits n c hc
  exact ⟨d, h2, h1⟩

/-! Non-vacuity: the program of C26. -/

def c26Bin : List Byte := List.replicate 16 0 ++ [0xA5, 0x12, 0xD0, 0x0C, 0x4C, 0x10, 0, 0, 0, 0, 0, 0, 0, 0, 0, 0, 0x60]

theorem c26_succeeds : Succeeds (demo c26Src) (b! "p.asm") (b! "p.bin") c26Bin 8 3 := demo_succeeds (by decide +kernel)

example : c26Bin.length = 0x21 ∧ definitions c26Prog = [b! "K", b! "LOOP", b! "DONE"] ∧
    ∃ s, pass1 c26Prog .init = some s ∧ s.items.map (·.mode.bytes) = [2, 2, 3, 1] := by
  obtain ⟨s, h, _⟩ := C28_image (demo_setup _) c26_isProgram (ascendingProgram_eval (by decide +kernel)) c26_succeeds
  have : (pass1 c26Prog .init).map (fun s => s.items.map (·.mode.bytes)) = some [2, 2, 3, 1] := by decide +kernel
  rw [h] at this
  exact ⟨by decide, by decide +kernel, s, h, by simpa using this⟩

example : 8 ≤ c26Bin.length := C29_at_most_length (demo_setup _) c26_isProgram (ascendingProgram_eval (by decide +kernel)) c26_succeeds
example : 3 = (definitions c26Prog).length := (C29_totals (demo_setup _) c26_isProgram c26_succeeds).2.1
example : hex04 300 = b! "012c" ∧ decimal 300 = b! "300" := by decide

end Gaia

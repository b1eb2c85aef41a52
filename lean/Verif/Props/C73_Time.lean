import Verif.Proofs.StepsRun
import Verif.Props.Example
import Verif.Proofs.Result

/-!
C73: the time gaia takes: the number of iterations of all its loops is bounded by a square of the number of lines; looking a label up inspects
no more symbols than there are; a message takes no more than 19 iterations for each byte of its line.

`Steps.gaia` (Model/Steps.lean) is the program with its loop iterations counted.
-/
namespace Gaia
open Spec

/-- The program with the counters is the program. -/
theorem C73_same (srcName outName : Str) (w : World) : (Steps.gaia srcName outName w).1 = gaia srcName outName w :=
  Steps.gaia_result srcName outName w

theorem Steps.clean_init : Steps.cleanSteps initSymbolTable initUnresolved = 25 := by decide

/-- However a run on a source of `n` lines (below 21474836) ends, its loops have run at most 198·n² + 4368·n + 2446 times. -/
theorem C73_time {w : World} {srcName outName : Str} {src : List Byte} (hsrc : w.files srcName = some src) (hs : Sized src) :
    (Steps.gaia srcName outName w).2 ≤ 198 * (pieces src).length ^ 2 + 4368 * (pieces src).length + 2446 := by
  have h8 : MAX_TOKENS = 8 := rfl
  have hc := Steps.clean_init
  unfold Steps.gaia
  rw [hsrc]
  simp only
  split
  · split <;> simp only <;> omega
  · have main : ∀ s : List Byte, Sized s → (pieces s).length ≤ (pieces src).length →
        (Steps.assembleBytes srcName s).steps ≤ 198 * (pieces src).length ^ 2 + 4368 * (pieces src).length + 2446 := by
      intro s h1 h2
      have := Steps.assembleBytes_steps srcName s h1
      have h3 : (pieces s).length ^ 2 ≤ (pieces src).length ^ 2 := Nat.pow_le_pow_left h2 2
      omega
    have key : (Steps.assembleBytes srcName (if srcName = outName then [] else src)).steps ≤
        198 * (pieces src).length ^ 2 + 4368 * (pieces src).length + 2446 := by
      split
      · exact main [] (by decide) (by simp [pieces, cut])
      · exact main src hs le_rfl
    split <;> exact key

/-- A run that succeeds on a source of `n` lines and reports `k` symbols: n·(3544 + 6·k) + 192·k² + 824·k + 33. For programs with a limited number
of symbols, the time grows with the number of lines. -/
theorem C73_few_symbols {w : World} {srcName outName : Str} {src bin : List Byte} {total k : Nat} (hw : Setup w srcName outName src) (hs : Sized src)
    (h : Succeeds w srcName outName bin total k) :
    (Steps.gaia srcName outName w).2 ≤ (pieces src).length * (3544 + 6 * k) + 192 * k ^ 2 + 824 * k + 33 := by
  unfold Succeeds at h
  rw [gaia_eq hw] at h
  cases hr : assembleBytes srcName src with
  | err e => rw [hr] at h; simp at h
  | ub u => rw [hr] at h; cases h
  | ok st =>
    have hk : k = st.symtab.count := (Succeeds.unique (by unfold Succeeds; rw [gaia_eq hw]; exact h) (succeeds_of hw hr)).2.2
    have hr' : (Steps.assembleBytes srcName src).result = .ok st := by rw [Steps.assembleBytes_result]; exact hr
    have key := Steps.assembleBytes_few srcName src hs hr'
    unfold Steps.gaia
    rw [hw.source]
    simp only
    rw [if_neg (by rw [hw.creatable]; decide), if_neg hw.different, hr', hk]
    exact key

/-- Without a source file, 33. -/
theorem C73_no_source {w : World} {srcName outName : Str} (h : w.files srcName = none) : (Steps.gaia srcName outName w).2 ≤ 33 := by
  have h8 : MAX_TOKENS = 8 := rfl
  have hc := Steps.clean_init
  unfold Steps.gaia
  rw [h]
  simp only
  split <;> simp only <;> omega

/-- The tables that arise: from the empty one by insertions of labels that fit a token. -/
inductive Steps.Filled : SymTab → Prop
  | empty : Filled initSymbolTable
  | insert {t t' : SymTab} {label : Str} {v : Int} : Filled t → label.length ≤ 63 → Gaia.insertSymbol t label v = .ok t' → Filled t'

theorem Steps.Filled.inv {t : SymTab} (h : Filled t) : W t := by
  induction h with
  | empty => exact W_init
  | @insert t t' label v _ hl e ih =>
    have hfew : (t.count + 1) * 100 ≤ INT_MAX := by
      by_contra hc
      unfold Gaia.insertSymbol at e
      rw [if_pos (by omega)] at e
      cases e
    obtain ⟨t1, i1, i2, _⟩ := insertSymbol_steps ih v hl (by
      have := ih.sizeLe
      have e : INT_MAX = 2147483647 := rfl
      omega) hfew
    rw [i1] at e
    cases e
    exact i2

/-- Looking up a label: one iteration for each of its characters, and one for each symbol inspected: no more than there are, whether the label is
there or not. -/
theorem C73_lookup {t : SymTab} (h : Steps.Filled t) (label : Str) : (Steps.searchSymbol t label).steps ≤ label.length + t.count := by
  unfold Steps.searchSymbol
  rw [Steps.steps_tick, h.inv.count]
  exact Nat.add_le_add le_rfl (Steps.steps_bind_le (Steps.probeLabel_steps t.symbols label (djb2 label)) (m := 0) (fun a _ => by cases a <;> simp))

/-- Inserting the symbols of a list one after the other. -/
def Steps.insertAll : List (Str × Int) → SymTab → Steps.T Fail SymTab
  | [], t => pure t
  | s :: rest, t => do
    let t ← Steps.insertSymbol t s.1 s.2
    Steps.insertAll rest t

theorem Steps.insertAll_steps : ∀ (l : List (Str × Int)) (t : SymTab) (N : Nat), W t → (∀ s ∈ l, s.1.length ≤ 63) → t.count + l.length ≤ N →
    N ≤ maxSymbols → ∃ t', (insertAll l t).result = .ok t' ∧ W t' ∧ t'.count = t.count + l.length ∧
      (insertAll l t).steps + 3 * (t.size * t.size) ≤ l.length * (63 + N) + 3 * (t'.size * t'.size) := by
  intro l
  induction l with
  | nil => intro t N h _ _ _; exact ⟨t, rfl, h, rfl, by simp [insertAll]⟩
  | cons s rest ih =>
    intro t N h hl hN hmax
    simp only [List.length_cons] at hN
    have hM : maxSymbols = 21474836 := rfl
    have hI : INT_MAX = 2147483647 := rfl
    have hsz := h.sizeLe
    obtain ⟨t1, i1, i2, i3, i4⟩ := insertSymbol_steps h s.2 (hl s (by simp)) (by omega) (by omega)
    obtain ⟨t2, j1, j2, j3, j4⟩ := ih t1 N i2 (fun x hx => hl x (by simp [hx])) (by omega) hmax
    have hr : (insertSymbol t s.1 s.2).result = .ok t1 := by rw [insertSymbol_result, i1]
    refine ⟨t2, ?_, j2, by simp only [List.length_cons]; omega, ?_⟩
    · unfold insertAll
      rw [result_bind, hr]
      exact j1
    · unfold insertAll
      rw [steps_bind_ok hr]
      simp only [List.length_cons]
      have : (rest.length + 1) * (63 + N) = rest.length * (63 + N) + (63 + N) := by ring
      omega

/-- Filling a table with `n` symbols, with all the growing and moving that takes: at most 193·n² + 879·n + 867 iterations. -/
theorem C73_insert {l : List (Str × Int)} (hl : ∀ s ∈ l, s.1.length ≤ 63) (hn : l.length ≤ maxSymbols) :
    ∃ t', (Steps.insertAll l initSymbolTable).result = .ok t' ∧ t'.count = l.length ∧
      (Steps.insertAll l initSymbolTable).steps ≤ 193 * l.length ^ 2 + 879 * l.length + 867 := by
  have h0 : initSymbolTable.count = 0 := rfl
  obtain ⟨t, h1, h2, h3, h4⟩ := Steps.insertAll_steps l initSymbolTable l.length Steps.W_init hl (by omega) hn
  refine ⟨t, h1, by omega, ?_⟩
  have hs : t.size ≤ 8 * l.length + 17 := by have := h2.sizeLe; omega
  have hsq : t.size * t.size ≤ (8 * l.length + 17) * (8 * l.length + 17) := Nat.mul_le_mul hs hs
  nlinarith

/-- The room: the table never has more than 8 slots per symbol, beyond its first 17, and is never more than 51 percent full. -/
theorem C73_room {t : SymTab} (h : Steps.Filled t) : t.size ≤ max 17 (8 * t.count) ∧ t.count * 100 < 51 * t.size :=
  ⟨h.inv.sizeLe, h.inv.load⟩

theorem Steps.trimSteps_le : ∀ s : Str, trimSteps s ≤ s.length := by
  intro s
  induction s with
  | nil => simp [trimSteps]
  | cons c s ih => unfold trimSteps; split <;> simp only [List.length_cons] <;> omega

theorem Steps.trimRev_le : ∀ (s r : Str), trimRev s = some r → r.length ≤ s.length := by
  intro s
  induction s with
  | nil => intro r h; cases h
  | cons c s ih =>
    intro r h
    unfold trimRev at h
    split at h
    · have := ih r h; simp only [List.length_cons]; omega
    · cases h; simp

theorem Steps.arrowSteps_le : ∀ (n : Nat) (s : Str) (k : Nat), arrowSteps n s k ≤ 9 * s.length := by
  intro n
  induction n with
  | zero => intro s k; simp [arrowSteps]
  | succ n ih =>
    intro s k
    cases s with
    | nil => simp [arrowSteps]
    | cons c s =>
      unfold arrowSteps
      simp only [List.length_cons]
      split
      · have := ih s 0; omega
      · have := ih s ((if k == 8 then 0 else k) + 1); omega

theorem Steps.arrowLoop_le : ∀ (n : Nat) (s : Str) (m k r : Nat), arrowLoop n s m k = some r → r ≤ m + 8 * s.length := by
  intro n
  induction n with
  | zero => intro s m k r h; simp only [arrowLoop, Option.some.injEq] at h; omega
  | succ n ih =>
    intro s m k r h
    cases s with
    | nil => cases h
    | cons c s =>
      unfold arrowLoop at h
      simp only [List.length_cons]
      simp only at h
      split at h
      · have := ih _ _ _ _ h; omega
      · have := ih _ _ _ _ h; omega

/-- A message about a line: 19 iterations for each byte of the line. -/
theorem C73_message (line : Str) (bad : Option Nat) : Steps.printErrorSteps (some line) bad ≤ 19 * line.length := by
  have h0 : line.reverse.length = line.length := by simp
  have h1 := Steps.trimSteps_le line.reverse
  have h2 : ((trimRev line.reverse).map List.length).getD 0 ≤ line.length := by
    cases h : trimRev line.reverse with
    | none => simp
    | some r => have := Steps.trimRev_le _ _ h; simp; omega
  unfold Steps.printErrorSteps
  simp only
  cases bad with
  | none => simp only; omega
  | some n =>
    have h3 := Steps.arrowSteps_le n line 0
    have h4 : (arrowLoop n line 0 0).getD 0 ≤ 8 * line.length := by
      cases h : arrowLoop n line 0 0 with
      | none => simp
      | some r => have := Steps.arrowLoop_le _ _ _ _ _ h; simp; omega
    simp only
    omega

/-- The bound used for the message of a failing run (`Steps.printSteps`): a line has at most 127 bytes. -/
theorem Steps.printErrorSteps_le {line : Str} (h : line.length ≤ 127) (bad : Option Nat) : printErrorSteps (some line) bad ≤ printSteps := by
  have := C73_message line bad
  have e : printSteps = 2413 := rfl
  omega

/-! ### Cases -/

/-- A source of six lines, with a symbol used before and one after its definition: the counters. -/
theorem C73_case :
    Sized (b! "K = $10\n LDA K\nL DEX\n BNE L\n JMP E\nE RTS\n") ∧
    (Steps.gaia (b! "p.asm") (b! "p.bin") (demo (b! "K = $10\n LDA K\nL DEX\n BNE L\n JMP E\nE RTS\n"))).2 = 3713 ∧
    198 * (pieces (b! "K = $10\n LDA K\nL DEX\n BNE L\n JMP E\nE RTS\n")).length ^ 2 +
      4368 * (pieces (b! "K = $10\n LDA K\nL DEX\n BNE L\n JMP E\nE RTS\n")).length + 2446 = 35782 := by
  decide +kernel

/-- Small enough to count by hand. No line: 8 token slots set up, 8 + 17 released. One instruction: 33 as before, one line, 8 · 65 + 64 to clear the
token slots, one blank, one token with 4 iterations to find its end and 3 to copy it, and 7 slots marked as unused. A line that cannot be assembled
adds the allowance for its message. -/
theorem C73_small :
    (Steps.gaia (b! "p.asm") (b! "p.bin") (demo [])).2 = 33 ∧
    (Steps.gaia (b! "p.asm") (b! "p.bin") (demo (b! " NOP\n"))).2 = 33 + 1 + 584 + 1 + (1 + 4 + 3) + 7 ∧
    (Steps.gaia (b! "p.asm") (b! "p.bin") (demo (b! " NOP X\n"))).2 = 33 + 1 + 584 + 1 + (1 + 4 + 3) + 1 + (1 + 2 + 1) + 6 + 2413 := by
  decide +kernel

/-- The theorems, applied to the first case. -/
example : (Steps.gaia (b! "p.asm") (b! "p.bin") (demo (b! "K = $10\n LDA K\nL DEX\n BNE L\n JMP E\nE RTS\n"))).2 ≤ 35782 :=
  C73_case.2.2 ▸ C73_time (demo_setup _).source C73_case.1
example : (Steps.gaia (b! "p.asm") (b! "p.bin") (demo (b! "K = $10\n LDA K\nL DEX\n BNE L\n JMP E\nE RTS\n"))).2 ≤ 6 * (3544 + 6 * 3) + 192 * 3 ^ 2 + 824 * 3 + 33 :=
  C73_few_symbols (demo_setup _) C73_case.1 (bin := [0xA5, 0x10, 0xCA, 0xD0, 0xFD, 0x4C, 8, 0, 0x60]) (total := 9) (demo_succeeds (by decide +kernel))
example : (Steps.gaia (b! "q.asm") (b! "p.bin") (demo [])).2 ≤ 33 := C73_no_source (by decide)

theorem Steps.Filled.insertAll : ∀ {l : List (Str × Int)} {t t' : SymTab}, Filled t → (∀ s ∈ l, s.1.length ≤ 63) → (insertAll l t).result = .ok t' →
    Filled t' := by
  intro l
  induction l with
  | nil => intro t t' h _ e; cases e; exact h
  | cons s rest ih =>
    intro t t' h hl e
    unfold Steps.insertAll at e
    rw [result_bind, C.bind_eq_ok] at e
    obtain ⟨t1, h1, e⟩ := e
    rw [insertSymbol_result] at h1
    exact ih (.insert h (hl s (by simp)) h1) (fun x hx => hl x (by simp [hx])) e

/-- The labels `L0` to `L9`. -/
def Steps.tenLabels : List (Str × Int) := (List.range 10).map fun i => ([76, 48 + UInt8.ofNat i], (i : Int))

/-- A table with ten symbols, grown once: the hypotheses of `C73_lookup`, `C73_room`, `C73_insert` hold; the iterations of the insertions, of a
look-up that finds its label and of one that does not. -/
theorem C73_table_case :
    (∀ s ∈ Steps.tenLabels, s.1.length ≤ 63) ∧ ∃ t, Steps.Filled t ∧ (Steps.insertAll Steps.tenLabels initSymbolTable).result = .ok t ∧
      t.count = 10 ∧ t.size = 37 ∧ (Steps.insertAll Steps.tenLabels initSymbolTable).steps = 60 ∧ (Steps.searchSymbol t (b! "L3")).steps = 3 ∧
      (Steps.searchSymbol t (b! "ZZ")).steps = 2 := by
  have hl : ∀ s ∈ Steps.tenLabels, s.1.length ≤ 63 := by decide
  obtain ⟨t, h1, h2, _⟩ := C73_insert hl (by decide)
  have hd : (match (Steps.insertAll Steps.tenLabels initSymbolTable).result with
    | .ok t => decide (t.size = 37 ∧ (Steps.searchSymbol t (b! "L3")).steps = 3 ∧ (Steps.searchSymbol t (b! "ZZ")).steps = 2)
    | _ => false) = true := by decide +kernel
  rw [h1] at hd
  have hd := of_decide_eq_true hd
  exact ⟨hl, t, Steps.Filled.insertAll .empty hl h1, h1, h2, hd.1, by decide +kernel, hd.2.1, hd.2.2⟩

/-- `C73_lookup`, `C73_room` and `C73_insert`, applied to the ten labels. -/
example : ∃ t, Steps.Filled t ∧ (Steps.searchSymbol t (b! "L3")).steps ≤ 2 + 10 ∧ t.size ≤ 80 ∧
    (Steps.insertAll Steps.tenLabels initSymbolTable).steps ≤ 193 * 10 ^ 2 + 879 * 10 + 867 := by
  obtain ⟨hl, t, h1, h2, h3, _⟩ := C73_table_case
  have ha := C73_lookup h1 (b! "L3")
  have hb := (C73_room h1).1
  obtain ⟨t', _, _, hc⟩ := C73_insert hl (by decide)
  rw [h3] at ha hb
  exact ⟨t, h1, ha, hb, hc⟩

end Gaia

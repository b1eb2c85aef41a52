import Verif.Model.Codes

/-! `Gaia.Codes` behaves like the main model: the relation between the two, and the functions below `main`. -/
namespace Gaia.Codes
open Gaia

/-- The function `y` with `int` returns does what `x` says: on success it prints nothing and its result is related by `R`, on an error
`e` its result `r` and the text `s` it prints are related by `E`. Nothing is said when `x` is undefined. -/
def Sim {ε α ρ} (E : ε → ρ → Str → Prop) (R : α → ρ → Prop) (x : C ε α) (y : M ρ) : Prop :=
  match x with
  | .ok a => ∃ r, R a r ∧ ∀ o, y o = .ok (r, o)
  | .err e => ∃ r s, E e r s ∧ ∀ o, y o = .ok (r, o ++ s)
  | .ub _ => True

/-- Errors of the functions that print their own messages: the code is returned, the message is printed. -/
def Ret {ρ} (c : ρ → Int) : Fail → ρ → Str → Prop := fun f r s => c r = f.code.code ∧ s = f.out

@[simp] theorem pure_run {α} (a : α) (o : Str) : (pure a : M α) o = .ok (a, o) := rfl
@[simp] theorem throw_run {α} (u : UB) (o : Str) : (throw u : M α) o = .error u := rfl
@[simp] theorem value_ok {ε α} (a : α) : value (C.ok a : C ε α) = pure a := rfl
@[simp] theorem value_ub {ε α} (u : UB) : value (C.ub u : C ε α) = throw u := rfl
@[simp] theorem throw_bind {α β} (u : UB) (k : α → M β) : ((throw u : M α) >>= k) = throw u := rfl

theorem bind_run_ok {α β} {y : M α} {k : α → M β} {o : Str} {a : α} {o' : Str} (h : y o = .ok (a, o')) :
    (y >>= k) o = k a o' := by
  show (y o >>= fun p => k p.1 p.2) = _
  rw [h]; rfl

section
variable {ε α β ρ σ : Type} {E : ε → ρ → Str → Prop} {R : α → ρ → Prop} {E' : ε → σ → Str → Prop}
  {R' : β → σ → Prop}

theorem sim_ub {u : UB} {y : M ρ} : Sim E R (.ub u) y := trivial

theorem sim_ok {a : α} {r : ρ} (h : R a r) : Sim E R (.ok a) (pure r) := ⟨r, h, fun _ => rfl⟩

theorem sim_bind {x : C ε α} {y : M ρ} {f : α → C ε β} {k : ρ → M σ} (h : Sim E R x y)
    (hok : ∀ a r, R a r → Sim E' R' (f a) (k r))
    (herr : ∀ e r s, E e r s → ∃ r', E' e r' s ∧ ∀ o, k r o = .ok (r', o)) :
    Sim E' R' (x >>= f) (y >>= k) := by
  cases x with
  | ub u => trivial
  | ok a =>
    obtain ⟨r, hr, hy⟩ := h
    have h2 := hok a r hr
    have e : ∀ o, (y >>= k) o = k r o := fun o => bind_run_ok (hy o)
    rw [C.ok_bind]
    revert h2
    cases f a with
    | ub u => intro _; trivial
    | ok b => rintro ⟨r', h1, h3⟩; exact ⟨r', h1, fun o => by rw [e, h3]⟩
    | err b => rintro ⟨r', s, h1, h3⟩; exact ⟨r', s, h1, fun o => by rw [e, h3]⟩
  | err a =>
    obtain ⟨r, s, hr, hy⟩ := h
    obtain ⟨r', h1, h3⟩ := herr a r s hr
    exact ⟨r', s, h1, fun o => by rw [bind_run_ok (hy o), h3]⟩

theorem sim_value_bind {ε'} {x : C ε' α} {k : α → M σ}
    {X : C ε β} (hx : ∀ a, x = .ok a → Sim E' R' X (k a)) (hu : ∀ u, x = .ub u → X = .ub u)
    (he : ∀ e, x ≠ .err e) : Sim E' R' X (value x >>= k) := by
  cases x with
  | ok a => simpa using hx a rfl
  | ub u => rw [hu u rfl]; trivial
  | err e => exact absurd rfl (he e)

theorem sim_val {x : C ε α} {f : α → C ε β} {k : α → M σ} (he : ∀ e, x ≠ .err e)
    (h : ∀ a, x = .ok a → Sim E' R' (f a) (k a)) : Sim E' R' (x >>= f) (value x >>= k) := by
  cases x with
  | ok a => simpa using h a rfl
  | ub u => trivial
  | err e => exact absurd rfl (he e)
end

/-! ## The codes -/

theorem code_injective : Function.Injective Err.code := by
  intro a b h
  cases a <;> cases b <;> first | rfl | (exact absurd h (by decide))

theorem code_inj {a b : Err} : a.code = b.code ↔ a = b := ⟨fun h => code_injective h, congrArg _⟩

theorem code_neg (e : Err) : e.code < 0 := by cases e <;> decide

theorem isError_code (e : Err) : isError e.code = true := by simpa [isError] using code_neg e

theorem isError_of_nonneg {n : Int} (h : 0 ≤ n) : isError n = false := by
  simp only [isError, decide_eq_false_iff_not]; omega

theorem errorMessage_code (fileName : Str) (e : Err) : errorMessage fileName e.code = Gaia.errorMessage fileName e := by
  unfold errorMessage
  simp only [code_inj]
  cases e <;> rfl

@[simp] theorem printf_run (s o : Str) : printf s o = .ok ((), o ++ s) := rfl
@[simp] theorem printf_bind_run {β} (s o : Str) (k : Unit → M β) : (printf s >>= k) o = k () (o ++ s) := rfl

theorem printError_run (line : Option Str) (e : Err) (bad : Option Nat) (fileName : Str) (lineNum : Nat) :
    (∃ s, Gaia.printError line e bad fileName lineNum = .ok s ∧
      ∀ o, printError line e.code bad fileName lineNum o = .ok ((), o ++ s)) ∨
    ∃ u, Gaia.printError line e bad fileName lineNum = .ub u := by
  unfold printError Gaia.printError
  rw [errorMessage_code]
  cases line with
  | none =>
    cases Gaia.errorMessage fileName e with
    | none => exact Or.inl ⟨_, rfl, fun o => by simp⟩
    | some msg => exact Or.inl ⟨_, rfl, fun o => by simp⟩
  | some l =>
    cases Gaia.errorMessage fileName e with
    | none => exact Or.inl ⟨_, rfl, fun o => by rfl⟩
    | some msg =>
      cases h1 : trimRev l.reverse with
      | none => right; exact ⟨.underrun, by simp [h1]⟩
      | some r =>
        cases bad with
        | none => left; exact ⟨_, by simp only [h1]; rfl, fun o => by simp [h1]⟩
        | some n =>
          cases h2 : arrowLoop n l 0 0 with
          | none => right; exact ⟨.overread, by simp [h1, h2]⟩
          | some k => left; exact ⟨_, by simp only [h1, h2]; rfl, fun o => by simp [h1, h2]⟩

/-- `print_error(…, e, …); return e;` -/
theorem sim_raise {α ρ} {c : ρ → Int} {R : α → ρ → Prop} {line : Option Str} {e : Err} {bad : Option Nat} {fileName : Str}
    {lineNum : Nat} {r : ρ} (hr : c r = e.code) :
    Sim (Ret c) R (raise line e bad fileName lineNum) (printError line e.code bad fileName lineNum >>= fun _ => pure r) := by
  rcases printError_run line e bad fileName lineNum with ⟨s, h1, h2⟩ | ⟨u, h⟩
  · unfold raise
    rw [h1]
    exact ⟨r, s, ⟨hr, rfl⟩, fun o => by rw [bind_run_ok (h2 o)]; rfl⟩
  · unfold raise; rw [h]; trivial

theorem slot_ne_err (lx : Lexer) (i : Nat) (e : Fail) : slot lx i ≠ .err e := by
  unfold slot; split <;> simp

theorem slot_cases (lx : Lexer) (i : Nat) : (∃ t, slot lx i = .ok t) ∨ ∃ u, slot lx i = .ub u := by
  unfold slot; split <;> simp

theorem sim_syntaxError {lx : Lexer} {i : Nat} {e : Err} {α} {R : α → Int → Prop} :
    Sim (Ret id) R (Gaia.syntaxError lx i e) (syntaxError lx i e.code) := by
  unfold Gaia.syntaxError syntaxError
  exact sim_val (slot_ne_err _ _) fun t _ => sim_raise rfl

theorem sim_syntaxError2 {lx : Lexer} {i : Nat} {e : Err} {α ρ} {b : ρ} {R : α → Int × ρ → Prop} :
    Sim (Ret Prod.fst) R (Gaia.syntaxError lx i e) (syntaxError lx i e.code >>= fun n => pure (n, b)) := by
  have : (Gaia.syntaxError lx i e : Res α) = (Gaia.syntaxError lx i e : Res α) >>= C.ok := by
    cases (Gaia.syntaxError lx i e : Res α) <;> rfl
  rw [this]
  refine sim_bind (R := fun _ _ => False) sim_syntaxError (fun a r h => h.elim) ?_
  rintro f r s ⟨h, rfl⟩
  exact ⟨(r, b), ⟨h, rfl⟩, fun o => rfl⟩

/-! ## parser.c -/

/-- Follows a chain of tests on the types of tokens, on both sides. -/
macro "tree" : tactic => `(tactic| (
  simp only [typeAt, bind_assoc, pure_bind]
  repeat' first
    | exact sim_syntaxError
    | exact sim_syntaxError2
    | exact sim_ok rfl
    | exact sim_ub
    | (refine sim_val (slot_ne_err _ _) fun t h => ?_)
    | simp only [*, value_ok, pure_bind, reduceCtorEq, ↓reduceIte, false_or, or_false, or_true, true_or, Nat.add_one_sub_one, C.pure_eq]
    | split))

theorem sim_indirect (lx : Lexer) (i : Nat) :
    Sim (Ret id) (fun _ r => r = PARSER_SUCCESS) (Gaia.parseIndirectOperandTree lx i) (parseIndirectOperandTree lx i) := by
  unfold Gaia.parseIndirectOperandTree parseIndirectOperandTree
  tree

theorem sim_instrTree (lx : Lexer) (i : Nat) :
    Sim (Ret id) (fun _ r => r = PARSER_SUCCESS) (Gaia.parseInstrTree lx i) (parseInstrTree lx i) := by
  unfold Gaia.parseInstrTree parseInstrTree
  tree
  all_goals exact sim_indirect _ _

theorem sim_labelTree (lx : Lexer) (i : Nat) :
    Sim (Ret id) (fun _ r => r = PARSER_SUCCESS) (Gaia.parseLabelTree lx i) (parseLabelTree lx i) := by
  unfold Gaia.parseLabelTree parseLabelTree
  tree
  all_goals exact sim_instrTree _ _

theorem sim_directiveTree (lx : Lexer) (i : Nat) :
    Sim (Ret Prod.fst) (fun a r => r = (PARSER_SUCCESS, a)) (Gaia.parseDirectiveTree lx i) (parseDirectiveTree lx i) := by
  unfold Gaia.parseDirectiveTree parseDirectiveTree
  tree

theorem sim_baseTree (lx : Lexer) (i : Nat) :
    Sim (Ret Prod.fst) (fun a r => r = (PARSER_SUCCESS, a)) (Gaia.parseBaseTree lx i) (parseBaseTree lx i) := by
  unfold Gaia.parseBaseTree parseBaseTree
  tree

theorem sim_intOnly {lx : Lexer} {x : Res Unit} {y : M Int} (h : Sim (Ret id) (fun _ r => r = PARSER_SUCCESS) x y) :
    Sim (Ret Prod.fst) (fun a r => r = (PARSER_SUCCESS, a)) (x >>= fun _ => C.ok lx) (y >>= fun n => pure (n, lx)) :=
  sim_bind h (fun _ r hr => by subst hr; exact sim_ok rfl)
    (fun e r s he => ⟨(r, lx), he, fun _ => rfl⟩)

theorem sim_parseLine (lx : Lexer) :
    Sim (Ret Prod.fst) (fun a r => r = (PARSER_SUCCESS, a)) (Gaia.parseLine lx) (parseLine lx) := by
  unfold Gaia.parseLine parseLine
  tree
  · exact sim_intOnly (sim_instrTree _ _)
  · exact sim_intOnly (sim_labelTree _ _)
  · exact sim_directiveTree _ _
  · exact sim_baseTree _ _

theorem probeLabel_ne_err (slots : List (Option Symbol)) (l : Str) (e : Fail) :
    ∀ fuel h, probeLabel slots l fuel h ≠ .err e
  | 0, _ => by simp [probeLabel]
  | fuel + 1, h => by
    unfold probeLabel
    split
    · simp
    · simp
    · split
      · simp
      · exact probeLabel_ne_err slots l e fuel _

theorem searchSymbol_ne_err (t : SymTab) (l : Str) (e : Fail) : Gaia.searchSymbol t l ≠ .err e := by
  unfold Gaia.searchSymbol
  have := probeLabel_ne_err t.symbols l e t.size (djb2 l % t.size)
  unfold searchOpt
  revert this
  cases probeLabel t.symbols l t.size (djb2 l % t.size) with
  | ok a => cases a <;> simp
  | err e => simp
  | ub u => simp

theorem searchSymbol_eq (t : SymTab) (l : Str) : searchSymbol t l = value (Gaia.searchSymbol t l) := by
  unfold searchSymbol Gaia.searchSymbol
  cases searchOpt t l with
  | ok a => cases a <;> rfl
  | err e => rfl
  | ub u => rfl

theorem probeFree_ne_err (slots : List (Option Symbol)) (e : Fail) : ∀ fuel h, probeFree slots fuel h ≠ .err e
  | 0, _ => by simp [probeFree]
  | fuel + 1, h => by
    unfold probeFree
    split
    · simp
    · simp
    · exact probeFree_ne_err slots e fuel _

theorem bind_ne_err {α β} {x : Res α} {f : α → Res β} {e : Fail} (h : x ≠ .err e) (hf : ∀ a, f a ≠ .err e) :
    (x >>= f) ≠ .err e := by
  cases x with
  | ok a => exact hf a
  | err e' => exact fun h' => h (by simpa using h')
  | ub u => simp

theorem rehashAll_ne_err (e : Fail) : ∀ old new, rehashAll old new ≠ .err e
  | [], new => by simp [rehashAll]
  | none :: old, new => by unfold rehashAll; exact rehashAll_ne_err e old new
  | some s :: old, new => by
    unfold rehashAll
    refine bind_ne_err ?_ fun a => rehashAll_ne_err e old a
    unfold rehashOne
    exact bind_ne_err (probeFree_ne_err _ _ _ _) fun a => by simp

theorem nextPrimeLoop_ne_err (e : Fail) : ∀ fuel x, nextPrimeLoop fuel x ≠ .err e
  | 0, _ => by simp [nextPrimeLoop]
  | fuel + 1, x => by
    unfold nextPrimeLoop
    split
    · simp
    · split
      · simp
      · exact nextPrimeLoop_ne_err e fuel _

theorem insertSymbol_ne_err (t : SymTab) (l : Str) (v : Int) (e : Fail) : Gaia.insertSymbol t l v ≠ .err e := by
  unfold Gaia.insertSymbol
  split
  · simp
  · have hp : ∀ t, placeSymbol t l v ≠ .err e := fun t => by
      unfold placeSymbol
      exact bind_ne_err (probeFree_ne_err _ _ _ _) fun a => by simp
    dsimp only
    split
    · refine bind_ne_err ?_ fun t => hp t
      unfold resizeSymbols
      split
      · simp
      · exact bind_ne_err (nextPrimeLoop_ne_err _ _ _) fun n => bind_ne_err (rehashAll_ne_err _ _ _) fun a => by simp
    · exact bind_ne_err (by simp) fun t => hp t

theorem sim_insertSymbol (t : SymTab) (l : Str) (v : Int) :
    Sim (Ret Prod.fst) (fun a r => r = (SYMBOL_INSERTION_SUCCESS, a)) (Gaia.insertSymbol t l v) (insertSymbol t l v) := by
  have : Gaia.insertSymbol t l v = Gaia.insertSymbol t l v >>= C.ok := by cases Gaia.insertSymbol t l v <;> rfl
  rw [this]
  exact sim_val (insertSymbol_ne_err _ _ _) fun a _ => sim_ok rfl

theorem sim_labelDeclaration (lx : Lexer) (symtab : SymTab) (pc : Nat) :
    Sim (Ret Prod.fst) (fun a r => r = (SYMBOL_INSERTION_SUCCESS, a)) (Gaia.parseLabelDeclaration lx symtab pc)
      (parseLabelDeclaration lx symtab pc) := by
  unfold Gaia.parseLabelDeclaration parseLabelDeclaration
  simp only [searchSymbol_eq]
  refine sim_val (slot_ne_err _ _) fun label _ => sim_val (slot_ne_err _ _) fun dl _ =>
    sim_val (searchSymbol_ne_err _ _) fun found _ => sim_val (searchSymbol_ne_err _ _) fun fd _ => ?_
  split
  · split
    · exact sim_raise rfl
    · exact sim_insertSymbol _ _ _
  · split
    · split
      · exact sim_raise rfl
      · exact sim_val (slot_ne_err _ _) fun lit _ => sim_insertSymbol _ _ _
    · split
      · split
        · exact sim_raise rfl
        · exact sim_val (slot_ne_err _ _) fun lit _ => sim_insertSymbol _ _ _
      · exact sim_raise rfl

/-- parser.h:69-73: the numbers of the operand statuses. -/
def enc : OpStatus → Int
  | .parserSuccess => PARSER_SUCCESS
  | .branchOperand => BRANCH_OPERAND
  | .jumpOperand => JUMP_OPERAND
  | .branchForwardReference => BRANCH_FORWARD_REFERENCE
  | .jumpForwardReference => JUMP_FORWARD_REFERENCE

theorem enc_injective : Function.Injective enc := by
  intro a b h
  cases a <;> cases b <;> first | rfl | (exact absurd h (by decide))

theorem isError_enc (st : OpStatus) : isError (enc st) = false := by cases st <;> decide

theorem enc_eq_iff (st : OpStatus) : (enc st = BRANCH_OPERAND ↔ st = .branchOperand) ∧
    (enc st = JUMP_OPERAND ↔ st = .jumpOperand) ∧
    (enc st = BRANCH_FORWARD_REFERENCE ↔ st = .branchForwardReference) ∧
    (enc st = JUMP_FORWARD_REFERENCE ↔ st = .jumpForwardReference) := by cases st <;> decide

theorem sim_labelOperand (lx : Lexer) (instr : Instr) (op : Token) (symtab : SymTab) :
    Sim (Ret Prod.fst) (fun a r => r = (enc a.1, a.2)) (Gaia.parseLabelOperand lx instr op symtab)
      (parseLabelOperand lx instr op symtab) := by
  unfold Gaia.parseLabelOperand parseLabelOperand
  simp only [searchSymbol_eq]
  refine sim_val (searchSymbol_ne_err _ _) fun v _ => ?_
  split
  · repeat' first | exact sim_ok rfl | split
  · repeat' first | exact sim_ok rfl | exact sim_raise rfl | split

theorem sim_operand (lx : Lexer) (instr : Instr) (op : Option Token) (symtab : SymTab) :
    Sim (Ret Prod.fst) (fun a r => r = (enc a.1, a.2)) (Gaia.parseOperand lx instr op symtab)
      (parseOperand lx instr op symtab) := by
  unfold Gaia.parseOperand parseOperand
  cases op with
  | none => exact sim_ok rfl
  | some tk =>
    dsimp only
    split
    · refine sim_bind (sim_labelOperand _ _ _ _) ?_ ?_
      · rintro a r rfl; exact sim_ok rfl
      · rintro e r s h; exact ⟨(r.1, some r.2), h, fun _ => rfl⟩
    · split
      · exact sim_ok rfl
      · exact sim_raise rfl

/-- The flag of an addressing mode is neither an error code nor FORWARD_REFERENCE. -/
theorem flag_range {f : Flags} (h : f.toNat ≤ 0x1FFF) : 0 ≤ f.toInt ∧ f.toInt ≠ FORWARD_REFERENCE := by
  have : f.toInt = (f.toNat : Int) := BitVec.toInt_eq_toNat_of_lt (by omega)
  rw [this]
  unfold FORWARD_REFERENCE
  omega

theorem and_le (a b : Flags) : (a &&& b).toNat ≤ a.toNat := by
  rw [BitVec.toNat_and]; exact Nat.and_le_left
theorem and_le' (a b : Flags) : (a &&& b).toNat ≤ b.toNat := by
  rw [BitVec.toNat_and]; exact Nat.and_le_right

theorem applyMasks_le (lx : Lexer) (f : Flags) : (applyMasks lx f).toNat ≤ 0x1FFF := by
  unfold applyMasks
  dsimp only
  have h0 : ∀ f : Flags, (if hasType lx .xRegister = true then f &&& X_REGISTER_FIELD
      else if hasType lx .yRegister = true then f &&& Y_REGISTER_FIELD else f &&& NOT_REGISTER_FIELD).toNat ≤ 0x1FFF := by
    intro f
    split
    · exact Nat.le_trans (and_le' _ _) (by decide)
    · split
      · exact Nat.le_trans (and_le' _ _) (by decide)
      · exact Nat.le_trans (and_le' _ _) (by decide)
  have step : ∀ {c : Bool} {x m m' : Flags}, x.toNat ≤ 0x1FFF → (if c = true then x &&& m else x &&& m').toNat ≤ 0x1FFF := by
    intro c x m m' h
    split <;> exact Nat.le_trans (and_le _ _) h
  exact step (step (step (h0 f)))

/-- What main.c:224-245 needs of the result of `parse_addr_mode`. -/
def AddrCode (st : OpStatus) (a : AddrRes × Instr) (r : Int × Instr) : Prop :=
  r.2 = a.2 ∧ match a.1 with
  | .forwardReference => r.1 = FORWARD_REFERENCE ∧ (st = .branchForwardReference ∨ st = .jumpForwardReference)
  | .flag => 0 ≤ r.1 ∧ r.1 ≠ FORWARD_REFERENCE

theorem sim_forwardRefAddrMode (lx : Lexer) (instr : Instr) {st : OpStatus}
    (h : st = .branchForwardReference ∨ st = .jumpForwardReference) :
    Sim (Ret Prod.fst) (AddrCode st) (Gaia.parseForwardRefAddrMode lx instr) (parseForwardRefAddrMode lx instr) := by
  have key : ∀ i : Instr, Sim (Ret Prod.fst) (AddrCode st)
      (if i.addrBitflag = 0 then raise lx.line .illegalAddressingMode none lx.fileName lx.lineNum else
        .ok (.forwardReference, i))
      (if i.addrBitflag = 0 then (do
        printError lx.line Err.illegalAddressingMode.code none lx.fileName lx.lineNum
        return (Err.illegalAddressingMode.code, i)) else return (FORWARD_REFERENCE, i)) := by
    intro i
    split
    · exact sim_raise rfl
    · exact sim_ok ⟨rfl, rfl, h⟩
  unfold Gaia.parseForwardRefAddrMode parseForwardRefAddrMode
  dsimp only
  split
  · exact key _
  · split
    · exact key _
    · split <;> exact key _

theorem sim_addrMode (lx : Lexer) (instr : Instr) (op : Option Token) (st : OpStatus) :
    Sim (Ret Prod.fst) (AddrCode st) (Gaia.parseAddrMode lx instr op st) (parseAddrMode lx instr op (enc st)) := by
  have key : ∀ i : Instr, i.addrBitflag.toNat ≤ 0x1FFF → Sim (Ret Prod.fst) (AddrCode st)
      (if i.addrBitflag = 0 then raise lx.line .illegalAddressingMode none lx.fileName lx.lineNum else .ok (.flag, i))
      (if i.addrBitflag = 0 then (do
        printError lx.line Err.illegalAddressingMode.code none lx.fileName lx.lineNum
        return (Err.illegalAddressingMode.code, i)) else return (i.addrBitflag.toInt, i)) := by
    intro i hi
    split
    · exact sim_raise rfl
    · exact sim_ok ⟨rfl, flag_range hi⟩
  unfold Gaia.parseAddrMode parseAddrMode
  simp only [(enc_eq_iff st).2.2.1, (enc_eq_iff st).2.2.2]
  split
  · exact sim_forwardRefAddrMode _ _ ‹_›
  · cases op with
    | none =>
      dsimp only
      let F : Flags :=
        if instr.mnemonic = some .ASL ∨ instr.mnemonic = some .LSR ∨ instr.mnemonic = some .ROL ∨ instr.mnemonic = some .ROR
        then instr.addrBitfield &&& ADDR_MODE_ACCUMULATOR else instr.addrBitfield &&& ADDR_MODE_IMPLIED
      refine key { instr with addrBitflag := F } ?_
      dsimp only [F]
      split <;> exact Nat.le_trans (and_le' _ _) (by decide)
    | some op =>
      dsimp only
      have hm : ∀ f : Flags, (applyMasks lx f &&& instr.addrBitfield).toNat ≤ 0x1FFF := fun f =>
        Nat.le_trans (and_le _ _) (applyMasks_le lx f)
      repeat' first | exact key { instr with addrBitflag := applyMasks lx _ &&& instr.addrBitfield } (hm _) | split

end Gaia.Codes

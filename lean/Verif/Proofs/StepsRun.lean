import Verif.Proofs.StepsTable
import Verif.Proofs.StepsLex
import Verif.Proofs.ForwardRef
import Verif.Proofs.Pieces

/-! How many iterations a whole run takes. -/
namespace Gaia.Steps
open Gaia

/-- A part of the program: it costs `k` iterations beyond what the growth of the potential from `φ` to `ψ` pays for; when it does not
deliver a result, the potential left is `E`. -/
structure Cost {ε α : Type} (x : T ε α) (φ k E : Nat) (P : α → Prop) (ψ : α → Nat) : Prop where
  ok : ∀ a, x.result = .ok a → P a ∧ x.steps + φ ≤ k + ψ a
  bad : (∀ a, x.result ≠ .ok a) → x.steps + φ ≤ k + E

section rules
variable {ε α β : Type} {φ k E : Nat} {P : α → Prop} {ψ : α → Nat}

theorem Cost.mono {x : T ε α} {k' E' : Nat} {Q : α → Prop} (h : Cost x φ k E P ψ) (hk : k ≤ k') (hE : E ≤ E') (hQ : ∀ a, P a → Q a) :
    Cost x φ k' E' Q ψ :=
  ⟨fun a ha => ⟨hQ a (h.ok a ha).1, by have := (h.ok a ha).2; omega⟩, fun hb => by have := h.bad hb; omega⟩

theorem Cost.bind {x : T ε α} {f : α → T ε β} {k₂ : Nat} {Q : β → Prop} {χ : β → Nat} (h : Cost x φ k E P ψ)
    (hf : ∀ a, P a → Cost (f a) (ψ a) k₂ E Q χ) : Cost (x >>= f) φ (k + k₂) E Q χ := by
  constructor
  · intro b hb
    rw [result_bind, C.bind_eq_ok] at hb
    obtain ⟨a, ha, hb⟩ := hb
    obtain ⟨hP, h1⟩ := h.ok a ha
    obtain ⟨hQ, h2⟩ := (hf a hP).ok b hb
    rw [steps_bind_ok ha]
    exact ⟨hQ, by omega⟩
  · intro hb
    by_cases he : ∃ a, x.result = .ok a
    · obtain ⟨a, ha⟩ := he
      obtain ⟨hP, h1⟩ := h.ok a ha
      have h2 := (hf a hP).bad (by
        intro b hbb
        exact hb b (by rw [result_bind, ha]; exact hbb))
      rw [steps_bind_ok ha]
      omega
    · have hne : ∀ a, x.result ≠ .ok a := fun a ha => he ⟨a, ha⟩
      have h1 := h.bad hne
      have : (x >>= f).steps = x.steps := by
        show (T.bind x f).steps = _
        unfold T.bind
        cases hr : x.result with
        | ok a => exact absurd hr (hne a)
        | err e => rfl
        | ub u => rfl
      omega

theorem Cost.pure {a : α} (hP : P a) (h : φ ≤ k + ψ a) : Cost (Pure.pure a : T ε α) φ k E P ψ :=
  ⟨fun b hb => by cases hb; exact ⟨hP, by simpa using h⟩, fun hb => absurd rfl (hb a)⟩

theorem Cost.tick {x : T ε α} (n : Nat) (h : Cost x φ k E P ψ) : Cost (tick n x) φ (n + k) E P ψ :=
  ⟨fun a ha => ⟨(h.ok a ha).1, by have := (h.ok a ha).2; rw [steps_tick]; omega⟩,
   fun hb => by have := h.bad hb; rw [steps_tick]; omega⟩

theorem Cost.lift {r : C ε α} (hok : ∀ a, r = .ok a → P a ∧ φ ≤ k + ψ a) (hE : φ ≤ k + E) : Cost (lift r) φ k E P ψ :=
  ⟨fun a ha => ⟨(hok a ha).1, by have := (hok a ha).2; rw [steps_lift]; omega⟩, fun _ => by rw [steps_lift]; omega⟩

/-- Code that changes nothing the potential counts. -/
theorem Cost.plain {x : T ε α} (hs : x.steps ≤ k) (hP : ∀ a, x.result = .ok a → P a) (hE : φ ≤ E) : Cost x φ k E P (fun _ => φ) :=
  ⟨fun a ha => ⟨hP a ha, by omega⟩, fun _ => by omega⟩

theorem Cost.ite {c : Prop} [Decidable c] {x y : T ε α} (h1 : c → Cost x φ k E P ψ) (h2 : ¬ c → Cost y φ k E P ψ) :
    Cost (if c then x else y) φ k E P ψ := by
  split
  · exact h1 ‹_›
  · exact h2 ‹_›

theorem Cost.orAbort {x : T Fail α} {E' : Nat} (symtab : SymTab) (unres : Unresolved) (out : OutFile) (h : Cost x φ k E P ψ)
    (hE : E + printSteps + cleanSteps symtab unres ≤ E') : Cost (orAbort symtab unres out x) φ k E' P ψ := by
  unfold Steps.orAbort
  cases hr : x.result with
  | ok a =>
    refine ⟨fun b hb => ?_, fun hb => absurd rfl (hb a)⟩
    cases hb
    exact h.ok a hr
  | err e =>
    refine ⟨fun b hb => (by cases hb), fun _ => ?_⟩
    have := h.bad (by intro a ha; rw [hr] at ha; cases ha)
    show x.steps + printSteps + cleanSteps symtab unres + φ ≤ _
    omega
  | ub u =>
    refine ⟨fun b hb => (by cases hb), fun _ => ?_⟩
    have := h.bad (by intro a ha; rw [hr] at ha; cases ha)
    show x.steps + φ ≤ _
    omega

end rules

/-- What is known after `m` declarations and `k` references. -/
structure Inv (m k : Nat) (st : St) : Prop where
  tab : W st.symtab
  few : st.symtab.count ≤ m
  refs : ∃ rs, Holds st.unres rs ∧ rs.length ≤ k ∧ ∀ r ∈ rs, r.label.length ≤ 63
  seq : st.lexer.seq.length = 8

/-- The potential: three times the square of the size of the symbol table, and the size of the array of references. -/
def pot (symtab : SymTab) (unres : Unresolved) : Nat := 3 * (symtab.size * symtab.size) + unres.size

/-- What a run that aborts after at most `N` lines has spent on growing, on the message and on the clean-up. -/
def potMax (N : Nat) : Nat := 3 * ((8 * N + 17) * (8 * N + 17)) + (2 * N + 8) + printSteps + (8 + (8 * N + 17) + N)

theorem pot_le {N : Nat} {symtab : SymTab} {unres : Unresolved} {rs : List ForwardRef} (h : W symtab) (hc : symtab.count ≤ N)
    (hh : Holds unres rs) (hr : rs.length ≤ N) : pot symtab unres + printSteps + cleanSteps symtab unres ≤ potMax N := by
  have h1 := h.sizeLe
  have h2 : symtab.size ≤ 8 * N + 17 := by omega
  have h3 : unres.size ≤ 2 * N + 8 := by have := hh.sizeLe; unfold Unresolved.size; omega
  have h4 := hh.curr
  have h5 : symtab.size * symtab.size ≤ (8 * N + 17) * (8 * N + 17) := Nat.mul_le_mul h2 h2
  have h6 : MAX_TOKENS = 8 := rfl
  unfold pot potMax cleanSteps
  omega

theorem Inv.pot {m k N : Nat} {st : St} (h : Inv m k st) (hm : m ≤ N) (hk : k ≤ N) :
    pot st.symtab st.unres + printSteps + cleanSteps st.symtab st.unres ≤ potMax N := by
  obtain ⟨rs, h1, h2, _⟩ := h.refs
  exact pot_le h.tab (h.few.trans hm) h1 (h2.trans hk)

theorem slot_mem {lx : Lexer} {i : Nat} {t : Token} (h : slot lx i = .ok t) : t ∈ lx.seq := by
  unfold slot at h
  cases hs : lx.seq[i]? with
  | none => rw [hs] at h; cases h
  | some t' => rw [hs] at h; cases h; exact List.mem_of_getElem? hs

/-- A declaration: two searches and one insertion. -/
theorem parseLabelDeclaration_cost {lx : Lexer} (hS : Short lx) {t : SymTab} (h : W t) (hfew : (t.count + 1) * 100 ≤ INT_MAX) (pc c : Nat) :
    Cost (parseLabelDeclaration lx t pc) (3 * (t.size * t.size) + c) (189 + 3 * t.count) (3 * (t.size * t.size) + c)
      (fun t' => W t' ∧ t'.count = t.count + 1) (fun t' => 3 * (t'.size * t'.size) + c) := by
  have hbig : t.size * 4 ≤ INT_MAX := by
    have := h.sizeLe
    have e : INT_MAX = 2147483647 := rfl
    omega
  have ins : ∀ (label : Str) (v : Int), label.length ≤ 63 → Cost (insertSymbol t label v) (3 * (t.size * t.size) + c) (63 + t.count)
      (3 * (t.size * t.size) + c) (fun t' => W t' ∧ t'.count = t.count + 1) (fun t' => 3 * (t'.size * t'.size) + c) := by
    intro label v hl
    obtain ⟨t', i1, i2, i3, i4⟩ := insertSymbol_steps h v hl hbig hfew
    constructor
    · intro a ha
      rw [insertSymbol_result, i1] at ha
      cases ha
      exact ⟨⟨i2, i3⟩, by omega⟩
    · intro hb
      exact absurd (by rw [insertSymbol_result, i1]) (hb t')
  have err : ∀ (line : Option Str) (e : Err) (bad : Option Nat) (fn : Str) (n : Nat), Cost (lift (raise line e bad fn n) : T Fail SymTab)
      (3 * (t.size * t.size) + c) (63 + t.count) (3 * (t.size * t.size) + c) (fun t' => W t' ∧ t'.count = t.count + 1)
      (fun t' => 3 * (t'.size * t'.size) + c) :=
    fun _ _ _ _ _ => Cost.lift (fun a ha => absurd ha (raise_ne_ok _ _ _ _ _ _)) (by omega)
  have look : ∀ label : Str, label.length ≤ 63 → Cost (searchSymbol t label) (3 * (t.size * t.size) + c) (63 + t.count)
      (3 * (t.size * t.size) + c) (fun _ => True) (fun _ => 3 * (t.size * t.size) + c) :=
    fun label hl => Cost.plain (searchSymbol_steps h hl) (fun _ _ => trivial) le_rfl
  have get : ∀ i, Cost (lift (slot lx i)) (3 * (t.size * t.size) + c) 0 (3 * (t.size * t.size) + c)
      (fun tk : Token => tk.str.length ≤ 63) (fun _ => 3 * (t.size * t.size) + c) :=
    fun i => Cost.plain (by simp) (fun a ha => hS.str a (slot_mem ha)) le_rfl
  unfold parseLabelDeclaration
  refine Cost.mono (k := 0 + (0 + ((63 + t.count) + ((63 + t.count) + (63 + t.count))))) ?_ (by omega) le_rfl (fun _ h => h)
  refine (get 0).bind fun label hl => (get 1).bind fun dl hdl => (look _ hl).bind fun found _ => (look _ hdl).bind fun fd _ => ?_
  refine Cost.ite (fun _ => Cost.ite (fun _ => err _ _ _ _ _) fun _ => ins _ _ hl) fun _ => Cost.ite (fun _ => Cost.ite (fun _ => err _ _ _ _ _)
    fun _ => ?_) fun _ => Cost.ite (fun _ => Cost.ite (fun _ => err _ _ _ _ _) fun _ => ?_) fun _ => err _ _ _ _ _
  · exact ((get 2).bind fun lit _ => ins _ _ hl).mono (by omega) le_rfl (fun _ h => h)
  · exact ((get 2).bind fun lit _ => ins _ _ hdl).mono (by omega) le_rfl (fun _ h => h)

theorem findOperandLoop_cost {lx : Lexer} (hS : Short lx) (φ E : Nat) (hE : φ ≤ E) : ∀ (fuel i : Nat) (curr : Token),
    Cost (findOperandLoop lx fuel i curr) φ fuel E (fun o => ∀ t, o = some t → t.str.length ≤ 63) (fun _ => φ) := by
  intro fuel
  induction fuel with
  | zero => intro i curr; exact Cost.lift (fun a ha => by cases ha) (by omega)
  | succ fuel ih =>
    intro i curr
    unfold findOperandLoop
    refine Cost.ite (fun _ => Cost.pure (by intro t h; cases h) (by omega)) fun _ => ?_
    refine (Cost.tick 1 (k := 0 + fuel) ?_).mono (by omega) le_rfl (fun _ h => h)
    refine Cost.bind (P := fun tk : Token => tk.str.length ≤ 63) (ψ := fun _ => φ)
      (Cost.plain (by simp) (fun a ha => hS.str a (slot_mem ha)) hE) fun tk htk => ?_
    exact Cost.ite (fun _ => Cost.pure (by intro t h; cases h; exact htk) (by omega)) fun _ => ih _ _

theorem findOperand_cost {lx : Lexer} (hS : Short lx) (φ E : Nat) (hE : φ ≤ E) :
    Cost (findOperand lx) φ 10 E (fun o => ∀ t, o = some t → t.str.length ≤ 63) (fun _ => φ) := by
  unfold findOperand
  refine (Cost.bind (k := 0) (P := fun _ => True) (ψ := fun _ => φ) (Cost.plain (by simp) (fun a _ => trivial) hE)
    fun tk _ => findOperandLoop_cost hS φ E hE _ _ _).mono (by omega) le_rfl (fun _ h => h)

theorem parseOperand_cost (lx : Lexer) (instr : Instr) {op : Option Token} {t : SymTab} (h : W t) (ho : ∀ tk, op = some tk → tk.str.length ≤ 63)
    (φ E : Nat) (hE : φ ≤ E) :
    Cost (parseOperand lx instr op t) φ (63 + t.count) E (fun r => ∀ tk, r.2 = some tk → tk.str.length ≤ 63) (fun _ => φ) := by
  unfold parseOperand
  cases op with
  | none => exact Cost.pure (by intro tk h; cases h) (by omega)
  | some tk =>
    have hl := ho tk rfl
    have err : ∀ {α : Type} {P : α → Prop} (k : Nat) (line : Option Str) (e : Err) (bad : Option Nat) (fn : Str) (n : Nat),
        Cost (lift (raise line e bad fn n) : T Fail α) φ k E P (fun _ => φ) :=
      fun _ _ _ _ _ _ => Cost.lift (fun a ha => absurd ha (raise_ne_ok _ _ _ _ _ _)) (by omega)
    refine Cost.ite (fun _ => ?_) fun _ => Cost.ite (fun _ => Cost.pure (by intro tk' h; cases h; exact hl) (by omega)) fun _ => err _ _ _ _ _ _
    refine (Cost.bind (k := 63 + t.count) (k₂ := 0) (P := fun r : OpStatus × Token => r.2.str.length ≤ 63) (ψ := fun _ => φ) ?_ fun r hr =>
      Cost.pure (by intro tk' h; cases h; exact hr) (by omega)).mono (by omega) le_rfl (fun _ h => h)
    unfold parseLabelOperand
    refine (Cost.bind (k := 63 + t.count) (k₂ := 0) (P := fun _ => True) (ψ := fun _ => φ)
      (Cost.plain (searchSymbol_steps h hl) (fun _ _ => trivial) hE) fun v _ => ?_).mono (by omega) le_rfl (fun _ h => h)
    refine Cost.ite (fun _ => ?_) fun _ => ?_
    · exact Cost.ite (fun _ => Cost.pure hl (by omega)) fun _ => Cost.ite (fun _ => Cost.pure hl (by omega)) fun _ => Cost.pure hl (by omega)
    · exact Cost.ite (fun _ => Cost.pure hl (by omega)) fun _ => Cost.ite (fun _ => Cost.pure hl (by omega)) fun _ => err _ _ _ _ _ _

theorem savedLineSteps_le (buffer : Str) : savedLineSteps buffer ≤ buffer.length := by
  unfold savedLineSteps
  refine (blankSteps_le _).trans ?_
  have : buffer.reverse.length = buffer.length := by simp
  split
  · rename_i r hr
    rw [hr] at this
    simp only [List.length_cons] at this
    omega
  · omega

/-- Saving a reference: looking at the end of the line; growing is paid for by the growth. -/
theorem saveForwardRef_cost {buffer : Str} (hb : buffer.length ≤ 127) {m k N : Nat} {st : St} (h : Inv m k st) (hm : m ≤ N) (hk : k < N)
    (hN : N ≤ 21474836) (instr : Instr) {op : Option Token} (ho : ∀ tk, op = some tk → tk.str.length ≤ 63) (status : OpStatus) :
    Cost (saveForwardRef buffer st instr op status) (pot st.symtab st.unres) 127 (potMax N)
      (fun st' => Inv m (k + 1) st' ∧ st'.symtab = st.symtab)
      (fun st' => pot st'.symtab st'.unres) := by
  have hp := h.pot hm hk.le
  obtain ⟨rs, h1, h2, h3⟩ := h.refs
  have hI : INT_MAX = 2147483647 := rfl
  unfold saveForwardRef
  have hsv := savedLineSteps_le buffer
  refine (Cost.bind (k := 127) (k₂ := 0) (P := fun ref : ForwardRef => ref.label.length ≤ 63) (ψ := fun _ => pot st.symtab st.unres) ?_
    fun ref href => ?_).mono (by omega) le_rfl (fun _ h => h)
  · refine Cost.orAbort _ _ _ (E := pot st.symtab st.unres) ?_ (by omega)
    unfold createForwardRef
    refine Cost.plain (by rw [steps_tick, steps_lift]; omega) ?_ le_rfl
    intro a ha
    rw [result_tick, result_lift] at ha
    unfold Gaia.createForwardRef at ha
    cases hsl : savedLine buffer with
    | none => rw [hsl] at ha; cases ha
    | some l =>
      rw [hsl] at ha
      cases op with
      | none => cases ha
      | some tk =>
        simp only at ha
        cases hloc : tk.bufferLocation with
        | none => rw [hloc] at ha; cases ha
        | some loc =>
          rw [hloc] at ha
          cases ha
          exact ho tk rfl
  · obtain ⟨u', a1, a2⟩ := addForwardRef_spec h1 ref (by omega)
    refine (Cost.bind (k := 0) (k₂ := 0) (P := fun u => u = u') (ψ := fun u => pot st.symtab u) ?_
      fun u hu => ?_).mono (by omega) le_rfl (fun _ h => h)
    · refine Cost.orAbort _ _ _ (E := pot st.symtab st.unres) ?_ (by omega)
      have hres : (addForwardRef st.unres ref).result = .ok u' := a1
      refine ⟨fun a ha => ?_, fun hb => absurd hres (hb u')⟩
      rw [hres] at ha
      cases ha
      refine ⟨rfl, ?_⟩
      unfold addForwardRef
      rw [steps_tick, steps_lift]
      have hsz : st.unres.size + (if st.unres.curr + 1 = st.unres.size then st.unres.size else 0) ≤ u'.size := by
        unfold Gaia.addForwardRef at a1
        split
        · rename_i hg
          rw [if_pos hg] at a1
          unfold resizeUnresolved at a1
          have hs : st.unres.size = st.unres.refs.length := rfl
          have := h1.curr
          rw [if_neg (by omega)] at a1
          simp only [C.ok_bind, C.pure_eq] at a1
          split at a1
          · cases a1
            simp [Unresolved.size]
          · cases a1
        · rename_i hg
          rw [if_neg hg] at a1
          simp only [C.ok_bind, C.pure_eq] at a1
          split at a1
          · cases a1
            simp [Unresolved.size]
          · cases a1
      unfold pot
      omega
    · subst hu
      refine Cost.pure ⟨⟨h.tab, h.few, ⟨rs ++ [ref], a2, by simp; omega, ?_⟩, h.seq⟩, rfl⟩ (by simp)
      intro r hr
      rcases List.mem_append.1 hr with hr | hr
      · exact h3 r hr
      · cases List.mem_singleton.1 hr; exact href

theorem emitStep_cost {m k N : Nat} {st : St} (h : Inv m k st) (hm : m ≤ N) (hk : k ≤ N) {op : Option Token} (ho : ∀ tk, op = some tk → tk.str.length ≤ 63)
    (status : OpStatus) :
    Cost (emitStep st op status) (pot st.symtab st.unres) (63 + m) (potMax N) (fun _ => True) (fun _ => pot st.symtab st.unres) := by
  have hp := h.pot hm hk
  have hfew := h.few
  unfold emitStep
  refine Cost.ite (fun _ => ?_) fun _ => Cost.pure trivial (by omega)
  refine Cost.orAbort _ _ _ (E := pot st.symtab st.unres) ?_ (by omega)
  unfold resolveLabelRef
  cases op with
  | none => exact Cost.lift (fun a ha => absurd ha (raise_ne_ok _ _ _ _ _ _)) (by omega)
  | some label =>
    have hl := searchSymbol_steps h.tab (ho label rfl)
    refine (Cost.bind (k := 63 + m) (k₂ := 0) (P := fun _ => True) (ψ := fun _ => pot st.symtab st.unres)
      (Cost.plain (by omega) (fun _ _ => trivial) le_rfl) fun v _ => ?_).mono (by omega) le_rfl (fun _ h => h)
    refine Cost.ite (fun _ => ?_) fun _ => Cost.ite (fun _ => Cost.pure trivial (by omega)) fun _ =>
      Cost.lift (fun a ha => absurd ha (raise_ne_ok _ _ _ _ _ _)) (by omega)
    refine (Cost.bind (k := 0) (k₂ := 0) (P := fun _ => True) (ψ := fun _ => pot st.symtab st.unres)
      (Cost.plain (by simp) (fun _ _ => trivial) le_rfl) fun v _ => ?_).mono (by omega) le_rfl (fun _ h => h)
    cases v with
    | none => exact Cost.lift (fun a ha => absurd ha (raise_ne_ok _ _ _ _ _ _)) (by omega)
    | some o => exact Cost.pure trivial (by omega)

/-- The instruction of a line. -/
theorem instructionStep_cost {buffer : Str} (hb : buffer.length ≤ 127) {m k N : Nat} {st : St} (h : Inv m k st) (hS : Short st.lexer) (hm : m ≤ N)
    (hk : k < N) (hN : N ≤ 21474836) :
    Cost (instructionStep buffer st) (pot st.symtab st.unres) (271 + 2 * m) (potMax N)
      (fun st' => Inv m (k + 1) st' ∧ st'.symtab = st.symtab) (fun st' => pot st'.symtab st'.unres) := by
  have hp := h.pot hm hk.le
  have hfew := h.few
  unfold instructionStep
  refine (Cost.bind (k := 10) (k₂ := (63 + m) + (8 + (127 + ((63 + m) + 0))))
    (Cost.orAbort _ _ _ (findOperand_cost hS _ (pot st.symtab st.unres) le_rfl) (by omega)) fun op ho => ?_).mono (by omega) le_rfl (fun _ h => h)
  refine Cost.bind (Cost.orAbort _ _ _ ((parseOperand_cost st.lexer st.instr h.tab ho _ (pot st.symtab st.unres) le_rfl).mono (by omega) le_rfl
    (fun _ h => h)) (by omega)) fun r hr => ?_
  refine Cost.bind (P := fun _ => True) (ψ := fun _ => pot st.symtab st.unres) (Cost.orAbort _ _ _ (E := pot st.symtab st.unres)
    (Cost.plain ?_ (fun _ _ => trivial) le_rfl) (by omega)) fun a _ => ?_
  · unfold parseAddrMode
    rw [steps_tick, steps_lift]
    have : MAX_TOKENS = 8 := rfl
    split <;> omega
  · have hst : Inv m k { st with instr := a.2 } := ⟨h.tab, h.few, h.refs, h.seq⟩
    refine Cost.bind (P := fun st' => Inv m (k + 1) st' ∧ st'.symtab = st.symtab) (ψ := fun st' => pot st'.symtab st'.unres) ?_ fun st' hst'' => ?_
    · unfold saveStep
      cases a.1 with
      | flag => exact Cost.pure ⟨⟨hst.tab, hst.few, (let ⟨rs, h1, h2, h3⟩ := hst.refs; ⟨rs, h1, h2.trans (Nat.le_succ k), h3⟩), hst.seq⟩, rfl⟩ (by simp)
      | forwardReference =>
        exact saveForwardRef_cost hb hst hm hk hN _ hr _
    · obtain ⟨hst', hsym⟩ := hst''
      refine Cost.bind (emitStep_cost hst' hm hk hr r.1) fun w _ => ?_
      refine Cost.lift ?_ ?_
      · intro st'' e
        unfold bumpLine at e
        simp only at e
        split at e
        · cases e
        · split at e
          · cases e
          · cases e
            exact ⟨⟨⟨hst'.tab, hst'.few, hst'.refs, hst'.seq⟩, hsym⟩, by simp⟩
      · have := hst'.pot hm hk
        omega

/-- The declaration of a line. -/
theorem declareStep_cost {m k N : Nat} {st : St} (h : Inv m k st) (hS : Short st.lexer) (hm : m < N) (hk : k ≤ N) (hN : N ≤ 21474836)
    (first : Token) :
    Cost (declareStep first st) (pot st.symtab st.unres) (189 + 3 * m) (potMax N)
      (fun st' => Inv (m + 1) k st' ∧ st'.lexer = st.lexer ∧ st.symtab.count ≤ st'.symtab.count) (fun st' => pot st'.symtab st'.unres) := by
  have hp := h.pot hm.le hk
  have hfew := h.few
  have hI : INT_MAX = 2147483647 := rfl
  unfold declareStep
  refine Cost.ite (fun _ => ?_) fun _ => Cost.ite (fun _ => ?_) fun _ => ?_
  · have hc := parseLabelDeclaration_cost hS h.tab (by omega) st.pc st.unres.size
    refine (Cost.bind (k₂ := 0) (Cost.orAbort _ _ _ hc hp) fun t ht => Cost.pure
      ⟨⟨ht.1, by have := ht.2; show t.count ≤ m + 1; omega, h.refs, h.seq⟩, rfl, by
        have := ht.2; show st.symtab.count ≤ t.count; omega⟩ (by unfold pot; simp)).mono (by omega) le_rfl (fun _ h => h)
  · exact Cost.pure ⟨⟨h.tab, by show st.symtab.count ≤ _; omega, h.refs, h.seq⟩, rfl, le_rfl⟩ (by simp)
  · exact Cost.pure ⟨⟨h.tab, by omega, h.refs, h.seq⟩, rfl, le_rfl⟩ (by simp)

/-- The state a line leaves. -/
def stateOf : Next → St
  | .continue st => st
  | .stop st => st

/-- One line. -/
theorem lineStep_cost {raw : List Byte} (hr : raw.length ≤ 127) {m k N : Nat} {st : St} (h : Inv m k st) (hm : m < N) (hk : k < N) (hN : N ≤ 21474836) :
    Cost (lineStep raw st) (pot st.symtab st.unres) (3476 + 5 * m) (potMax N) (fun n => Inv (m + 1) (k + 1) (stateOf n) ∧ st.symtab.count ≤ (stateOf n).symtab.count)
      (fun n => pot (stateOf n).symtab (stateOf n).unres) := by
  have hp := h.pot hm.le hk.le
  obtain ⟨l1, l2⟩ := lexLine_steps hr h.seq st.tk st.instr st.lineNum
  have hcs := cstr_length_le raw
  unfold lineStep
  refine (Cost.bind (k := 3014) (k₂ := 0 + (0 + ((189 + 3 * m) + (271 + 2 * (m + 1))))) (P := fun r => Short r.1)
    (ψ := fun _ => pot st.symtab st.unres) (Cost.orAbort _ _ _ (Cost.plain l1 l2 le_rfl) hp) fun r hr => ?_).mono (by omega) le_rfl (fun _ h => h)
  refine Cost.bind (P := Short) (ψ := fun _ => pot st.symtab st.unres) (Cost.orAbort _ _ _ (Cost.plain (by simp)
    (fun a ha => parseLine_short hr ha) le_rfl) hp) fun lx hlx => ?_
  have hst : Inv m k { st with lexer := lx, tk := r.2.1, instr := r.2.2 } := ⟨h.tab, h.few, h.refs, hlx.len⟩
  refine Cost.bind (P := fun _ => True) (ψ := fun _ => pot st.symtab st.unres) (Cost.orAbort _ _ _ (Cost.plain (by simp)
    (fun a ha => trivial) le_rfl) hp) fun first _ => ?_
  refine Cost.bind (declareStep_cost hst hlx hm hk.le hN first) fun st' hst' => ?_
  obtain ⟨hst', hle, hmono⟩ := hst'
  have hmono : st.symtab.count ≤ st'.symtab.count := hmono
  have hSl : Short st'.lexer := by rw [hle]; exact hlx
  have up : ∀ s : St, Inv (m + 1) k s → Inv (m + 1) (k + 1) s := fun s hs =>
    ⟨hs.tab, hs.few, (let ⟨rs, h1, h2, h3⟩ := hs.refs; ⟨rs, h1, h2.trans (Nat.le_succ k), h3⟩), hs.seq⟩
  refine Cost.ite (fun _ => Cost.pure ⟨up _ hst', hmono⟩ (by simp only [stateOf]; omega)) fun _ => Cost.ite (fun _ => ?_) fun _ => ?_
  · refine Cost.lift ?_ ?_
    · intro n e
      unfold bumpLine at e
      split at e
      · cases e
      · cases e
        exact ⟨⟨⟨hst'.tab, hst'.few, (up _ hst').refs, hst'.seq⟩, hmono⟩, by unfold stateOf; simp⟩
    · have := hst'.pot (by omega : m + 1 ≤ N) hk.le
      omega
  · refine (Cost.bind (k := 271 + 2 * (m + 1)) (k₂ := 0) (instructionStep_cost (by omega) hst' hSl (by omega) hk hN) fun s hs => ?_).mono (by omega)
      le_rfl (fun _ h => h)
    exact Cost.pure ⟨hs.1, by rw [show (stateOf (.continue s)).symtab = st'.symtab from hs.2]; exact hmono⟩ (by simp only [stateOf]; omega)

/-- All lines. -/
theorem mainLoop_cost {N : Nat} (hN : N ≤ 21474836) : ∀ (raws : List (List Byte)) (st : St) (m : Nat), (∀ raw ∈ raws, raw.length ≤ 127) →
    Inv m m st → m + raws.length ≤ N →
    Cost (mainLoop raws st) (pot st.symtab st.unres) (raws.length * (3477 + 5 * N)) (potMax N) (Inv N N) (fun st' => pot st'.symtab st'.unres) := by
  intro raws
  induction raws with
  | nil =>
    intro st m _ h hm
    simp only [List.length_nil, Nat.add_zero] at hm
    exact Cost.pure ⟨h.tab, h.few.trans hm, (let ⟨rs, h1, h2, h3⟩ := h.refs; ⟨rs, h1, h2.trans hm, h3⟩), h.seq⟩ (by simp)
  | cons raw rest ih =>
    intro st m hl h hm
    simp only [List.length_cons] at hm
    unfold mainLoop
    refine (Cost.tick 1 (Cost.bind (k₂ := rest.length * (3477 + 5 * N)) (lineStep_cost (hl raw (by simp)) h (by omega) (by omega) hN)
      fun n hn' => ?_)).mono ?_ le_rfl (fun _ h => h)
    · have hn := hn'.1
      cases n with
      | «continue» st' => exact ih st' (m + 1) (fun r hr => hl r (by simp [hr])) hn (by omega)
      | stop st' =>
        refine Cost.pure ⟨hn.tab, hn.few.trans (by omega), ?_, hn.seq⟩ (by simp [stateOf])
        obtain ⟨rs, h1, h2, h3⟩ := hn.refs
        exact ⟨rs, h1, h2.trans (by omega), h3⟩
    · simp only [List.length_cons]
      have : (rest.length + 1) * (3477 + 5 * N) = rest.length * (3477 + 5 * N) + (3477 + 5 * N) := by ring
      omega

/-- All lines, when no error occurs: with the number of symbols instead of the number of lines. -/
theorem mainLoop_few {N : Nat} (hN : N ≤ 21474836) : ∀ (raws : List (List Byte)) (st : St) (m : Nat), (∀ raw ∈ raws, raw.length ≤ 127) →
    Inv m m st → m + raws.length ≤ N → ∀ st', (mainLoop raws st).result = .ok st' → st.symtab.count ≤ st'.symtab.count ∧
      (mainLoop raws st).steps + pot st.symtab st.unres ≤ raws.length * (3477 + 5 * st'.symtab.count) + pot st'.symtab st'.unres := by
  intro raws
  induction raws with
  | nil => intro st m _ _ _ st' e; cases e; exact ⟨le_rfl, by simp [mainLoop]⟩
  | cons raw rest ih =>
    intro st m hl h hm st' e
    simp only [List.length_cons] at hm
    have hc : Inv st.symtab.count m st := ⟨h.tab, le_rfl, h.refs, h.seq⟩
    have hfew := h.few
    have line := lineStep_cost (hl raw (by simp)) hc (by omega) (by omega) hN
    unfold mainLoop at e
    rw [result_tick, result_bind, C.bind_eq_ok] at e
    obtain ⟨n, hn, e⟩ := e
    obtain ⟨⟨h1, h2⟩, h3⟩ := line.ok n hn
    unfold mainLoop
    rw [steps_tick, steps_bind_ok hn]
    cases n with
    | «continue» st1 =>
      obtain ⟨i1, i2⟩ := ih st1 (m + 1) (fun r hr => hl r (by simp [hr])) ⟨h1.tab, h1.few.trans (by omega), h1.refs, h1.seq⟩ (by omega) st' e
      simp only [stateOf] at h2 h3
      refine ⟨h2.trans i1, ?_⟩
      simp only [List.length_cons]
      have e1 : (rest.length + 1) * (3477 + 5 * st'.symtab.count) = rest.length * (3477 + 5 * st'.symtab.count) + (3477 + 5 * st'.symtab.count) := by ring
      omega
    | stop st1 =>
      cases e
      simp only [stateOf] at h2 h3
      refine ⟨h2, ?_⟩
      simp only [List.length_cons, steps_pure]
      have e1 : (rest.length + 1) * (3477 + 5 * st'.symtab.count) = rest.length * (3477 + 5 * st'.symtab.count) + (3477 + 5 * st'.symtab.count) := by ring
      have e2 : 0 ≤ rest.length * (3477 + 5 * st'.symtab.count) := Nat.zero_le _
      omega

/-- The references. -/
theorem resolveAll_cost {N : Nat} {st : St} (h : Inv N N st) {rs : List ForwardRef} (hrs : Holds st.unres rs)
    (hl : ∀ r ∈ rs, r.label.length ≤ 63) : ∀ (n i : Nat) (out : OutFile), i + n ≤ rs.length →
    Cost (resolveAll st n i out) (pot st.symtab st.unres) (n * (64 + N)) (potMax N) (fun _ => True) (fun _ => pot st.symtab st.unres) := by
  have hp := h.pot le_rfl le_rfl
  have hfew := h.few
  intro n
  induction n with
  | zero => intro i out _; exact Cost.pure trivial (by omega)
  | succ n ih =>
    intro i out hi
    unfold resolveAll
    rw [hrs.get (by omega : i < rs.length)]
    simp only
    have hlab := searchSymbol_steps h.tab (hl _ (List.getElem_mem (by omega : i < rs.length)))
    refine (Cost.tick 1 (Cost.bind (k := 63 + N) (k₂ := n * (64 + N)) (P := fun _ => True) (ψ := fun _ => pot st.symtab st.unres)
      (Cost.orAbort _ _ _ (Cost.plain (by omega) (fun _ _ => trivial) le_rfl) hp) fun d _ => ?_)).mono ?_ le_rfl (fun _ h => h)
    · refine Cost.ite (fun _ => ?_) fun _ => ?_
      · exact Cost.orAbort _ _ _ (E := pot st.symtab st.unres) (Cost.lift (fun a ha => absurd ha (raise_ne_ok _ _ _ _ _ _)) (by omega)) hp
      · refine (Cost.bind (k := 0) (P := fun _ => True) (ψ := fun _ => pot st.symtab st.unres)
          (Cost.orAbort _ _ _ (Cost.plain (by simp) (fun _ _ => trivial) le_rfl) hp) fun o _ => ih (i + 1) o (by omega)).mono (by omega)
          le_rfl (fun _ h => h)
    · have : (n + 1) * (64 + N) = n * (64 + N) + (64 + N) := by ring
      omega

theorem resolveAll_few {st : St} (h : W st.symtab) {rs : List ForwardRef} (hrs : Holds st.unres rs) (hl : ∀ r ∈ rs, r.label.length ≤ 63) :
    ∀ (n i : Nat) (out : OutFile), i + n ≤ rs.length → ∀ {out' : OutFile}, (resolveAll st n i out).result = .ok out' →
      (resolveAll st n i out).steps ≤ n * (64 + st.symtab.count) := by
  intro n
  induction n with
  | zero => intro i out _ out' _; simp [resolveAll]
  | succ n ih =>
    intro i out hi out' e
    unfold resolveAll at e ⊢
    rw [hrs.get (by omega : i < rs.length)] at e ⊢
    simp only at e ⊢
    have hlab := searchSymbol_steps h (hl _ (List.getElem_mem (by omega : i < rs.length)))
    rw [result_tick, result_bind, C.bind_eq_ok] at e
    obtain ⟨d, h1, e⟩ := e
    rw [steps_tick, steps_bind_ok h1]
    have hs : (orAbort st.symtab st.unres out (searchSymbol st.symtab rs[i].label)).steps = (searchSymbol st.symtab rs[i].label).steps := by
      unfold Steps.orAbort at h1 ⊢
      cases hres : (searchSymbol st.symtab rs[i].label).result with
      | ok a => rfl
      | err e => rw [hres] at h1; cases h1
      | ub u => rfl
    have e1 : (n + 1) * (64 + st.symtab.count) = n * (64 + st.symtab.count) + (64 + st.symtab.count) := by ring
    rw [hs]
    split at e
    · exfalso
      rw [result_orAbort, result_lift] at e
      unfold Gaia.orAbort at e
      split at e
      · rename_i ha; exact raise_ne_ok _ _ _ _ _ _ ha
      · cases e
      · cases e
    · rename_i hd
      rw [if_neg hd]
      rw [result_bind, C.bind_eq_ok] at e
      obtain ⟨o, h2, e⟩ := e
      rw [steps_bind_ok h2]
      have hs2 : (orAbort st.symtab st.unres out (lift (resolveForwardRef out rs[i] st.lexer d))).steps = 0 := by
        unfold Steps.orAbort at h2 ⊢
        cases hres : (lift (resolveForwardRef out rs[i] st.lexer d)).result with
        | ok a => rfl
        | err e => rw [hres] at h2; cases h2
        | ub u => rfl
      have := ih (i + 1) o (by omega) e
      omega

theorem pieces_short (src : List Byte) : ∀ raw ∈ Spec.pieces src, raw.length ≤ 127 := by
  have key : ∀ (s : List Byte) (room : Nat), room ≤ 127 → (∀ raw ∈ Spec.cut room s, raw.length ≤ 127) ∧
      ∀ l ls, Spec.cut room s = l :: ls → l.length ≤ max 1 room := by
    intro s
    induction s with
    | nil => intro room _; exact ⟨(by intro r hr; simp [Spec.cut] at hr), (by intro l ls h; simp [Spec.cut] at h)⟩
    | cons c s ih =>
      intro room hroom
      unfold Spec.cut
      split
      · refine ⟨?_, ?_⟩
        · intro raw hraw
          rcases List.mem_cons.1 hraw with rfl | hraw
          · simp
          · exact (ih 127 le_rfl).1 raw hraw
        · intro l ls h
          cases h
          simp
      · rename_i hc
        have hroom1 : 1 < room := by
          by_contra hcon
          exact hc (.inr (by omega))
        obtain ⟨i1, i2⟩ := ih (room - 1) (by omega)
        cases hcut : Spec.cut (room - 1) s with
        | nil =>
          refine ⟨?_, ?_⟩
          · intro raw hraw
            simp only [List.mem_singleton] at hraw
            subst hraw
            simp
          · intro l ls h
            cases h
            simp
        | cons l0 ls0 =>
          have := i2 l0 ls0 hcut
          refine ⟨?_, ?_⟩
          · intro raw hraw
            rcases List.mem_cons.1 hraw with rfl | hraw
            · simp only [List.length_cons]; omega
            · exact i1 raw (by rw [hcut]; exact List.mem_cons_of_mem _ hraw)
          · intro l ls h
            cases h
            simp only [List.length_cons]
            omega
  exact (key src 127 le_rfl).1

theorem Inv_init (fn : Str) : Inv 0 0 (initSt fn) :=
  ⟨W_init, Nat.le_of_eq rfl, ⟨[], Holds_init, le_rfl, by intro r hr; cases hr⟩, by simp [initSt, initLexer, MAX_TOKENS]⟩

/-- Assembling the bytes of a source of `n` lines. -/
theorem assembleBytes_steps (fn : Str) (src : List Byte) (h : Spec.Sized src) :
    (assembleBytes fn src).steps ≤ 198 * (Spec.pieces src).length ^ 2 + 4368 * (Spec.pieces src).length + 2446 := by
  have hN : (Spec.pieces src).length ≤ 21474836 := le_of_lt h
  have hpc := pieces_eq src
  have hcost : Cost (assembleBytes fn src) (pot initSymbolTable initUnresolved)
      (8 + ((Spec.pieces src).length * (3477 + 5 * (Spec.pieces src).length) + ((Spec.pieces src).length * (64 + (Spec.pieces src).length) + 0)))
      (potMax (Spec.pieces src).length) (fun _ => True) (fun _ => potMax (Spec.pieces src).length) := by
    unfold assembleBytes
    rw [← hpc]
    refine Cost.tick 8 (Cost.bind (mainLoop_cost hN (Spec.pieces src) (initSt fn) 0 (pieces_short src) (Inv_init fn) (by omega)) fun st hst => ?_)
    obtain ⟨rs, h1, h2, h3⟩ := hst.refs
    have hcurr := h1.curr
    have hp := hst.pot le_rfl le_rfl
    refine Cost.bind ((resolveAll_cost hst h1 h3 st.unres.curr 0 st.out (by omega)).mono ?_ le_rfl (fun _ h => h)) fun out _ => ?_
    · exact Nat.mul_le_mul_right _ (by omega)
    · refine ⟨fun a ha => ⟨trivial, ?_⟩, fun hb => absurd rfl (hb _)⟩
      rw [steps_tick, steps_pure]
      omega
  have h0 : pot initSymbolTable initUnresolved = 875 := by decide
  have key : (assembleBytes fn src).steps + 875 ≤
      (8 + ((Spec.pieces src).length * (3477 + 5 * (Spec.pieces src).length) + ((Spec.pieces src).length * (64 + (Spec.pieces src).length) + 0)))
        + potMax (Spec.pieces src).length := by
    by_cases he : ∃ a, (assembleBytes fn src).result = .ok a
    · obtain ⟨a, ha⟩ := he
      have := (hcost.ok a ha).2
      omega
    · have := hcost.bad (fun a ha => he ⟨a, ha⟩)
      omega
  revert key
  unfold potMax printSteps MAX_BUFFER_SIZE
  generalize (Spec.pieces src).length = n
  intro key
  ring_nf at key ⊢
  omega

/-- Assembling the bytes of a source of `n` lines that defines `k` symbols. -/
theorem assembleBytes_few (fn : Str) (src : List Byte) (h : Spec.Sized src) {st : St} (e : (assembleBytes fn src).result = .ok st) :
    (assembleBytes fn src).steps ≤ (Spec.pieces src).length * (3544 + 6 * st.symtab.count) + 192 * st.symtab.count ^ 2 + 824 * st.symtab.count + 33 := by
  have hN : (Spec.pieces src).length ≤ 21474836 := le_of_lt h
  have hpc := pieces_eq src
  unfold assembleBytes at e ⊢
  rw [← hpc] at e ⊢
  rw [result_tick, result_bind, C.bind_eq_ok] at e
  obtain ⟨s1, h1, e⟩ := e
  rw [result_bind, C.bind_eq_ok] at e
  obtain ⟨out, h2, e⟩ := e
  cases e
  have hinv := (mainLoop_cost hN (Spec.pieces src) (initSt fn) 0 (pieces_short src) (Inv_init fn) (by omega)).ok s1 h1
  have hm := (mainLoop_few hN (Spec.pieces src) (initSt fn) 0 (pieces_short src) (Inv_init fn) (by omega) s1 h1).2
  obtain ⟨rs, r1, r2, r3⟩ := hinv.1.refs
  have hcurr := r1.curr
  have hr := ((resolveAll_few hinv.1.tab r1 r3 s1.unres.curr 0 s1.out (by omega) h2))
  rw [steps_tick, steps_bind_ok h1, steps_bind_ok h2, steps_tick, steps_pure]
  have h8 : MAX_TOKENS = 8 := rfl
  have hsz : s1.symtab.size ≤ 8 * s1.symtab.count + 17 := by have := hinv.1.tab.sizeLe; omega
  have hsq : s1.symtab.size * s1.symtab.size ≤ (8 * s1.symtab.count + 17) * (8 * s1.symtab.count + 17) := Nat.mul_le_mul hsz hsz
  have hus : s1.unres.size ≤ 2 * (Spec.pieces src).length + 8 := by have := r1.sizeLe; unfold Unresolved.size; omega
  have hrm : s1.unres.curr * (64 + s1.symtab.count) ≤ (Spec.pieces src).length * (64 + s1.symtab.count) := Nat.mul_le_mul_right _ (by omega)
  have h0 : pot (initSt fn).symtab (initSt fn).unres = 875 := (by decide : pot initSymbolTable initUnresolved = 875)
  rw [h0] at hm
  unfold pot at hm
  unfold cleanSteps
  simp only at hm hr ⊢
  nlinarith

end Gaia.Steps

import Verif.Model.Pointers
import Verif.Proofs.Memory

/-! The model with pointers: single steps, texts in memory, and what it means to follow another model. -/
namespace Gaia.Low
open Gaia
open Gaia.Memory

variable {σ τ α β γ δ : Type}

/-! ### Following -/

/-- `x` is the result of a step of the model with pointers, `r` that of a step without: if `r` is no undefined behaviour, `x` ends the
same way. -/
def Sim (x : Result α × σ) (r : Result β × τ) (Q : α → σ → β → τ → Prop) (E : σ → τ → Prop) : Prop :=
  match r with
  | (.ok b, t) => ∃ a s, x = (.ok a, s) ∧ Q a s b t
  | (.err f, t) => ∃ s, x = (.err f, s) ∧ E s t
  | (.ub _, _) => True

/-- The same for a step without state. -/
def SimR (x : Result α × σ) (r : Res β) (Q : α → σ → β → Prop) (E : σ → Prop) : Prop :=
  match r with
  | .ok b => ∃ a s, x = (.ok a, s) ∧ Q a s b
  | .err f => ∃ s, x = (.err f, s) ∧ E s
  | .ub _ => True

theorem Sim.bind {x : Mem σ α} {f : α → Mem σ γ} {y : Mem τ β} {g : β → Mem τ δ} {o : Oracle} {s : σ} {t : τ}
    {Q : α → σ → β → τ → Prop} {Q' : γ → σ → δ → τ → Prop} {E : σ → τ → Prop} (h : Sim (x o s) (y o t) Q E)
    (hf : ∀ a s' b t', Q a s' b t' → Sim (f a o s') (g b o t') Q' E) : Sim ((x >>= f) o s) ((y >>= g) o t) Q' E := by
  rw [bind_apply y, bind_apply x]
  generalize y o t = r at h ⊢
  obtain ⟨r, t'⟩ := r
  cases r with
  | ok b =>
    obtain ⟨a, s', hx, hq⟩ := h
    rw [hx]
    exact hf a s' b t' hq
  | err f' =>
    obtain ⟨s', hx, he⟩ := h
    rw [hx]
    exact ⟨s', rfl, he⟩
  | ub => trivial

theorem SimR.bind {x : Mem σ α} {f : α → Mem σ γ} {y : Res β} {g : β → Res δ} {o : Oracle} {s : σ}
    {Q : α → σ → β → Prop} {Q' : γ → σ → δ → Prop} {E : σ → Prop} (h : SimR (x o s) y Q E)
    (hf : ∀ a s' b, Q a s' b → SimR (f a o s') (g b) Q' E) : SimR ((x >>= f) o s) (y >>= g) Q' E := by
  rw [bind_apply x]
  cases y with
  | ok b =>
    obtain ⟨a, s', hx, hq⟩ := h
    rw [hx]
    exact hf a s' b hq
  | err f' =>
    obtain ⟨s', hx, he⟩ := h
    rw [hx]
    exact ⟨s', rfl, he⟩
  | ub => trivial

theorem SimR.mono {x : Result α × σ} {r : Res β} {Q Q' : α → σ → β → Prop} {E E' : σ → Prop} (h : SimR x r Q E)
    (hq : ∀ a s b, Q a s b → Q' a s b) (he : ∀ s, E s → E' s) : SimR x r Q' E' := by
  cases r with
  | ok b => obtain ⟨a, s, hx, h⟩ := h; exact ⟨a, s, hx, hq _ _ _ h⟩
  | err f => obtain ⟨s, hx, h⟩ := h; exact ⟨s, hx, he _ h⟩
  | ub => trivial

theorem Sim.mono {x : Result α × σ} {r : Result β × τ} {Q Q' : α → σ → β → τ → Prop} {E E' : σ → τ → Prop} (h : Sim x r Q E)
    (hq : ∀ a s b t, Q a s b t → Q' a s b t) (he : ∀ s t, E s t → E' s t) : Sim x r Q' E' := by
  unfold Sim at h ⊢
  split at h
  · obtain ⟨a, s, hx, h⟩ := h; exact ⟨a, s, hx, hq _ _ _ _ h⟩
  · obtain ⟨s, hx, h⟩ := h; exact ⟨s, hx, he _ _ h⟩
  · trivial

/-- A step of the model without memory, inside a step of the model with memory. -/
theorem SimR.toSim {x : Result α × σ} {r : Res β} {o : Oracle} {t : τ} {Q : α → σ → β → Prop} {E : σ → Prop} (h : SimR x r Q E) :
    Sim x (lift r o t) (fun a s b t' => t' = t ∧ Q a s b) (fun s t' => t' = t ∧ E s) := by
  cases r with
  | ok b => obtain ⟨a, s, hx, h⟩ := h; exact ⟨a, s, hx, rfl, h⟩
  | err f => obtain ⟨s, hx, h⟩ := h; exact ⟨s, hx, rfl, h⟩
  | ub => trivial

theorem SimR.ok {x : Result α × σ} {b : β} {a : α} {s : σ} {Q : α → σ → β → Prop} {E : σ → Prop} (hx : x = (.ok a, s)) (h : Q a s b) :
    SimR x (.ok b) Q E := ⟨a, s, hx, h⟩

theorem SimR.err {x : Result α × σ} {f : Fail} {s : σ} {Q : α → σ → β → Prop} {E : σ → Prop} (hx : x = (.err f, s)) (h : E s) :
    SimR x (.err f) Q E := ⟨s, hx, h⟩

theorem SimR.ite {c : Prop} [Decidable c] {x y : Mem σ α} {r r' : Res β} {o : Oracle} {s : σ} {Q : α → σ → β → Prop} {E : σ → Prop}
    (h1 : c → SimR (x o s) r Q E) (h2 : ¬ c → SimR (y o s) r' Q E) :
    SimR ((if c then x else y) o s) (if c then r else r') Q E := by
  by_cases h : c
  · rw [if_pos h, if_pos h]; exact h1 h
  · rw [if_neg h, if_neg h]; exact h2 h

theorem Sim.ite {c : Prop} [Decidable c] {x y : Mem σ α} {r r' : Mem τ β} {o : Oracle} {s : σ} {t : τ}
    {Q : α → σ → β → τ → Prop} {E : σ → τ → Prop}
    (h1 : c → Sim (x o s) (r o t) Q E) (h2 : ¬ c → Sim (y o s) (r' o t) Q E) :
    Sim ((if c then x else y) o s) ((if c then r else r') o t) Q E := by
  by_cases h : c
  · rw [if_pos h, if_pos h]; exact h1 h
  · rw [if_neg h, if_neg h]; exact h2 h

/-- A pure check that neither model passes unless all is well. -/
theorem SimR.lift {r : Res β} {o : Oracle} {s : σ} {Q : β → σ → β → Prop} {E : σ → Prop} (h : ∀ b, r = .ok b → Q b s b)
    (he : ∀ f, r = .err f → E s) : SimR ((Memory.lift r : Mem σ β) o s) r Q E := by
  cases r with
  | ok b => exact ⟨b, s, rfl, h b rfl⟩
  | err f => exact ⟨s, rfl, he f rfl⟩
  | ub => trivial

/-! ### Single steps -/

/-- The memory with object `x` in block `p`. -/
def Store.put (s : Store) (p : Nat) (x : Obj) : Store := { s with mem := fun n => if n = p then some x else s.mem n }

@[simp] theorem put_heap (s : Store) (p : Nat) (x : Obj) : (s.put p x).heap = s.heap := rfl
@[simp] theorem put_buffer (s : Store) (p : Nat) (x : Obj) : (s.put p x).buffer = s.buffer := rfl
@[simp] theorem put_name (s : Store) (p : Nat) (x : Obj) : (s.put p x).name = s.name := rfl
theorem put_mem (s : Store) (p q : Nat) (x : Obj) : (s.put p x).mem q = if q = p then some x else s.mem q := rfl
@[simp] theorem put_same (s : Store) (p : Nat) (x : Obj) : (s.put p x).mem p = some x := if_pos rfl
theorem put_other {s : Store} {p q : Nat} {x : Obj} (h : q ≠ p) : (s.put p x).mem q = s.mem q := if_neg h

theorem load_run {o : Oracle} {s : Store} {p : Nat} {x : Obj} (h : s.mem p = some x) : load p o s = (.ok x, s) := by
  unfold load; rw [h]

theorem store_run {o : Oracle} {s : Store} {p : Nat} {x y : Obj} (h : s.mem p = some x) : store p y o s = (.ok (), s.put p y) := by
  unfold store; rw [h]; rfl

theorem loadToken_run {o : Oracle} {s : Store} {p : Nat} {t : TokenO} (h : s.mem p = some (.token t)) :
    loadToken p o s = (.ok t, s) := by unfold loadToken; rw [bind_ok (load_run h)]; rfl
theorem loadLexer_run {o : Oracle} {s : Store} {p : Nat} {t : LexerO} (h : s.mem p = some (.lexer t)) :
    loadLexer p o s = (.ok t, s) := by unfold loadLexer; rw [bind_ok (load_run h)]; rfl
theorem loadInstr_run {o : Oracle} {s : Store} {p : Nat} {t : Instr} (h : s.mem p = some (.instr t)) :
    loadInstr p o s = (.ok t, s) := by unfold loadInstr; rw [bind_ok (load_run h)]; rfl
theorem loadSymbol_run {o : Oracle} {s : Store} {p : Nat} {t : SymbolO} (h : s.mem p = some (.symbol t)) :
    loadSymbol p o s = (.ok t, s) := by unfold loadSymbol; rw [bind_ok (load_run h)]; rfl
theorem loadTable_run {o : Oracle} {s : Store} {p : Nat} {t : TableO} (h : s.mem p = some (.table t)) :
    loadTable p o s = (.ok t, s) := by unfold loadTable; rw [bind_ok (load_run h)]; rfl
theorem loadRef_run {o : Oracle} {s : Store} {p : Nat} {t : RefO} (h : s.mem p = some (.ref t)) :
    loadRef p o s = (.ok t, s) := by unfold loadRef; rw [bind_ok (load_run h)]; rfl
theorem loadUnres_run {o : Oracle} {s : Store} {p : Nat} {t : UnresO} (h : s.mem p = some (.unres t)) :
    loadUnres p o s = (.ok t, s) := by unfold loadUnres; rw [bind_ok (load_run h)]; rfl

theorem getCell_run {o : Oracle} {s : Store} {a i : Nat} {cells : List (Option Nat)} {c : Option Nat}
    (h : s.mem a = some (.ptrs cells)) (hc : cells[i]? = some c) : getCell a i o s = (.ok c, s) := by
  unfold getCell; rw [bind_ok (load_run h)]; simp only [hc]; rfl

theorem setCell_run {o : Oracle} {s : Store} {a i : Nat} {cells : List (Option Nat)} {c : Option Nat}
    (h : s.mem a = some (.ptrs cells)) (hc : i < cells.length) :
    setCell a i c o s = (.ok (), s.put a (.ptrs (cells.set i c))) := by
  unfold setCell; rw [bind_ok (load_run h)]; simp only [hc, if_true]; exact store_run h

theorem writeChars_run {o : Oracle} {s : Store} {p : Nat} {data bs : List Byte} (h : s.mem p = some (.chars data))
    (hl : bs.length ≤ data.length) : writeChars p bs o s = (.ok (), s.put p (.chars (bs ++ data.drop bs.length))) := by
  unfold writeChars; rw [bind_ok (load_run h)]; simp only [hl, if_true]; exact store_run h

/-! ### Texts -/

/-- The characters of an array. -/
def dataOf (s : Store) : Base → Option (List Byte)
  | .buffer => some s.buffer
  | .name => some s.name
  | .heap n => match s.mem n with
    | some (.chars data) => some data
    | _ => none

theorem charsOf_run {o : Oracle} {s : Store} {b : Base} {data : List Byte} (h : dataOf s b = some data) :
    charsOf b o s = (.ok data, s) := by
  cases b with
  | buffer => cases h; rfl
  | name => cases h; rfl
  | heap n =>
    simp only [dataOf] at h
    split at h
    · rename_i d hm
      cases h
      unfold charsOf
      simp only
      rw [bind_ok (load_run hm)]
      rfl
    · cases h

/-- The text `str` lies at `l`. -/
def TextAt (s : Store) (l : Loc) (str : Str) : Prop :=
  ∃ data, dataOf s l.base = some data ∧ (0 : Byte) ∈ data.drop l.off ∧ cstr (data.drop l.off) = str

theorem readStr_run {o : Oracle} {s : Store} {l : Loc} {str : Str} (h : TextAt s l str) : readStr l o s = (.ok str, s) := by
  obtain ⟨data, h1, h2, h3⟩ := h
  unfold readStr
  rw [bind_ok (charsOf_run h1)]
  simp only [h2, if_true, h3]
  rfl

theorem cstr_nul (d : List Byte) : ∀ c ∈ cstr d, c ≠ 0 := by
  intro c hc
  have : ∀ (l : List Byte), ∀ c ∈ l.takeWhile (· != (0 : Byte)), c ≠ 0 := by
    intro l
    induction l with
    | nil => simp
    | cons a l ih =>
      intro c hc
      by_cases ha : a = 0
      · simp [ha] at hc
      · simp only [List.takeWhile_cons, bne_iff_ne, ne_eq, ha, not_false_eq_true, if_true, List.mem_cons] at hc
        rcases hc with rfl | hc
        · exact ha
        · exact ih c hc
  exact this d c hc

theorem cstr_of {str r : List Byte} (h : ∀ c ∈ str, c ≠ (0 : Byte)) : cstr (str ++ 0 :: r) = str := by
  induction str with
  | nil => simp [cstr]
  | cons c s ih =>
    have hc := h c (by simp)
    have := ih (fun x hx => h x (by simp [hx]))
    unfold cstr at this ⊢
    simp only [List.cons_append, List.takeWhile_cons, bne_iff_ne, ne_eq, hc, not_false_eq_true, if_true, this]

theorem cstr_drop {d : List Byte} {n : Nat} (h0 : (0 : Byte) ∈ d) (h : n ≤ (cstr d).length) :
    cstr (d.drop n) = (cstr d).drop n ∧ (0 : Byte) ∈ d.drop n := by
  induction d generalizing n with
  | nil => cases h0
  | cons c d ih =>
    cases n with
    | zero => exact ⟨rfl, h0⟩
    | succ n =>
      by_cases hc : c = 0
      · subst hc; simp [cstr] at h
      · have he : cstr (c :: d) = c :: cstr d := by simp [cstr, hc]
        rw [he] at h ⊢
        have h0' : (0 : Byte) ∈ d := by
          rcases List.mem_cons.1 h0 with h0 | h0
          · exact absurd h0.symm hc
          · exact h0
        simpa using ih h0' (by simpa using h)

theorem TextAt.plus {s : Store} {l : Loc} {str : Str} {n : Nat} (h : TextAt s l str) (hn : n ≤ str.length) :
    TextAt s (l.plus n) (str.drop n) := by
  obtain ⟨data, h1, h2, h3⟩ := h
  have := cstr_drop h2 (n := n) (by rw [h3]; exact hn)
  refine ⟨data, h1, ?_, ?_⟩
  · have h' := this.2
    rw [List.drop_drop] at h'
    exact h'
  · have h' := this.1
    rw [List.drop_drop, h3] at h'
    exact h'

theorem take_cstr (d : List Byte) (n : Nat) (h : n ≤ (cstr d).length) : d.take n = (cstr d).take n := by
  have hd : d = cstr d ++ d.dropWhile (· != 0) := (List.takeWhile_append_dropWhile (p := (· != (0 : Byte))) (l := d)).symm
  conv => lhs; rw [hd]
  exact List.take_append_of_le_length h

theorem readBytes_run {o : Oracle} {s : Store} {l : Loc} {str : Str} {n : Nat} (h : TextAt s l str) (hn : n ≤ str.length) :
    readBytes l n o s = (.ok (str.take n), s) := by
  obtain ⟨data, h1, h2, h3⟩ := h
  have hl : (cstr (data.drop l.off)).length ≤ (data.drop l.off).length :=
    (List.takeWhile_prefix _).length_le
  have ho : l.off < data.length := by
    have := List.length_pos_of_mem h2
    rw [List.length_drop] at this
    omega
  rw [h3, List.length_drop] at hl
  unfold readBytes
  rw [bind_ok (charsOf_run h1), if_pos (by omega), take_cstr _ _ (by rw [h3]; exact hn), h3]
  rfl

theorem TextAt.nonul {s : Store} {l : Loc} {str : Str} (h : TextAt s l str) : ∀ c ∈ str, c ≠ 0 := by
  obtain ⟨data, _, _, h3⟩ := h
  rw [← h3]
  exact cstr_nul _

/-! ### Error messages -/

/-- The source's name is in its place. -/
def NameAt (s : Store) (fn : Str) : Prop := TextAt s ⟨.name, 0⟩ fn

theorem raise_sim {o : Oracle} {s : Store} {l : Loc} {buf : Str} {fn : Str} {e : Err} {bad : Option Nat} {n : Nat} {E : Store → Prop}
    {Q : α → Store → β → Prop}
    (hl : TextAt s l buf) (hn : NameAt s fn) (hE : E s) :
    SimR ((raise (some l) e (bad.map l.plus) ⟨.name, 0⟩ (some n) : M α) o s) (Gaia.raise (some buf) e bad fn n : Res β) Q E := by
  unfold raise Gaia.raise printError
  have : printError (some l) e (bad.map l.plus) ⟨.name, 0⟩ (some n) o s = Memory.lift (Gaia.printError (some buf) e bad fn n) o s := by
    unfold printError
    rw [bind_ok (readStr_run hn)]
    simp only
    rw [bind_ok (readStr_run hl)]
    cases bad with
    | none => rfl
    | some b => simp [Loc.plus]
  have hp : printError (some l) e (bad.map l.plus) ⟨.name, 0⟩ (some n) o s = Memory.lift (Gaia.printError (some buf) e bad fn n) o s := this
  unfold printError at hp
  rw [bind_apply, hp]
  cases Gaia.printError (some buf) e bad fn n with
  | ok t => exact ⟨s, rfl, hE⟩
  | err f => exact ⟨s, rfl, hE⟩
  | ub => trivial

theorem raise_none_sim {o : Oracle} {s : Store} {fn : Str} {e : Err} {n : Nat} {m : Option Nat} {E : Store → Prop}
    {Q : α → Store → β → Prop} (hn : NameAt s fn) (hE : E s) :
    SimR ((raise none e none ⟨.name, 0⟩ m : M α) o s) (Gaia.raise none e none fn n : Res β) Q E := by
  unfold raise Gaia.raise
  have hp : printError none e none ⟨.name, 0⟩ m o s = Memory.lift (Gaia.printError none e none fn n) o s := by
    unfold printError
    rw [bind_ok (readStr_run hn)]
    rfl
  rw [bind_apply, hp]
  cases Gaia.printError none e none fn n with
  | ok t => exact ⟨s, rfl, hE⟩
  | err f => exact ⟨s, rfl, hE⟩
  | ub => trivial

end Gaia.Low

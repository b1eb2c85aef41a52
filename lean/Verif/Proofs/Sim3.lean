import Verif.Proofs.Sim2

/-! Simulation of one line. -/
set_option linter.unusedSimpArgs false
namespace Gaia
open Spec

/-! ### Literals fit in 16 bits -/

theorem wordLexeme_not_lit (w : Str) (v : Nat) : wordLexeme w ≠ .lit v := by
  unfold wordLexeme
  split_ifs <;> try simp
  split <;> simp

theorem directiveLexeme_not_lit {w : Str} {x : Lexeme} (h : directiveLexeme w = some x) (v : Nat) : x ≠ .lit v := by
  unfold directiveLexeme at h
  split_ifs at h <;> simp at h <;> subst h <;> simp

theorem punctLexeme_not_lit {c : Byte} {x : Lexeme} (h : punctLexeme c = some x) (v : Nat) : x ≠ .lit v := by
  unfold punctLexeme at h
  split_ifs at h <;> simp at h <;> subst h <;> simp

theorem lexOne_small {s : Str} {n v : Nat} (h : lexOne s = .ok (n, .lit v)) : v ≤ 0xFFFF := by
  have lit : ∀ {conv : Byte → Option Nat} {b k : Nat} {s : Str} (hc : ConvOK conv b),
      litBody conv b s k = .ok (n, .lit v) → v ≤ 0xFFFF := by
    intro conv b k s hc h
    obtain ⟨_, _, _, _, h5, h6⟩ := litBody_ok hc h
    simp only [Lexeme.lit.injEq] at h5
    omega
  unfold lexOne at h
  split at h
  · rename_i x hx
    simp only [Except.ok.injEq, Prod.mk.injEq] at h
    exact absurd h.2 (punctLexeme_not_lit hx v)
  · split_ifs at h
    · unfold wordBody at h
      split at h
      · cases h
      · split_ifs at h
        simp only [Except.ok.injEq, Prod.mk.injEq] at h
        exact absurd h.2 (wordLexeme_not_lit _ v)
    · exact lit convOK_hex h
    · exact lit convOK_bin h
    · exact lit convOK_dec h
    · unfold dirBody at h
      split at h
      · cases h
      · split_ifs at h
        split at h
        · rename_i x hx
          simp only [Except.ok.injEq, Prod.mk.injEq] at h
          exact absurd h.2 (directiveLexeme_not_lit hx v)
        · cases h

theorem scan_small : ∀ (fuel off : Nat) (s : Str) (cnt : Nat) (ls : List (Nat × Lexeme)),
    scan fuel off s cnt = .ok ls → ∀ p ∈ ls, ∀ v, p.2 = .lit v → v ≤ 0xFFFF := by
  intro fuel
  induction fuel with
  | zero => intro off s cnt ls h; simp [scan] at h; subst h; simp
  | succ fuel ih =>
    intro off s cnt ls h
    unfold scan at h
    by_cases h1 : isTerm (rd s) = true
    · rw [if_pos h1] at h
      simp at h; subst h; simp
    · rw [if_neg h1] at h
      cases hk : lexOne s with
      | error p => rw [hk] at h; simp at h
      | ok p =>
        obtain ⟨n, x⟩ := p
        rw [hk] at h
        simp only at h
        have key : ∀ o' s' ls', scan fuel o' s' (cnt + 1) = .ok ls' → ls = (off, x) :: ls' →
            ∀ p ∈ ls, ∀ v, p.2 = .lit v → v ≤ 0xFFFF := by
          intro o' s' ls' hs hl p hp v hv
          rw [hl] at hp
          rcases List.mem_cons.1 hp with rfl | hp
          · have hv : x = .lit v := hv
            subst hv
            exact lexOne_small hk
          · exact ih _ _ _ _ hs p hp v hv
        split_ifs at h with h2 h3 h4
        · split at h
          · rename_i ls' hs
            simp only [Except.ok.injEq] at h
            exact key _ _ _ hs h.symm
          · simp at h
        · split at h
          · rename_i ls' hs
            simp only [Except.ok.injEq] at h
            exact key _ _ _ hs h.symm
          · simp at h

theorem lexemes_small {raw : List Byte} {ls : List (Nat × Lexeme)} (h : lexemes raw = .ok ls) :
    ∀ p ∈ ls, ∀ v, p.2 = .lit v → v ≤ 0xFFFF := scan_small _ _ _ _ _ h

/-! ### The shapes of accepted lines -/

/-- The lines the syntax check lets through, as far as declarations are concerned. -/
inductive Accepted : List (Nat × Lexeme) → Prop
  | empty : Accepted []
  | label (p : Nat) (l : Str) : Accepted [(p, .name l)]
  | labelled (p q : Nat) (l : Str) (m : Mnemonic) (r : List (Nat × Lexeme)) :
      Accepted ((p, .name l) :: (q, .mnem m) :: r)
  | eq (p q r : Nat) (l : Str) (v : Nat) : Accepted [(p, .name l), (q, .eq), (r, .lit v)]
  | equ (p q r : Nat) (l : Str) (v : Nat) : Accepted [(p, .name l), (q, .equ), (r, .lit v)]
  | define (p q r : Nat) (l : Str) (v : Nat) : Accepted [(p, .define), (q, .name l), (r, .lit v)]
  | org (p q : Nat) (v : Nat) : Accepted [(p, .org), (q, .lit v)]
  | base (p q r : Nat) (v : Nat) : Accepted [(p, .star), (q, .eq), (r, .lit v)]
  | stop (p : Nat) : Accepted [(p, .stop)]
  | instr (p : Nat) (m : Mnemonic) (r : List (Nat × Lexeme)) : Accepted ((p, .mnem m) :: r)

theorem accepted_of_syn {ls : List (Nat × Lexeme)} (h : syn (typeAt (ls.map (·.2))) = .ok ()) : Accepted ls := by
  rcases (syn_ok_iff _).1 h with hp | ⟨m', args, hj, _⟩
  · generalize hx : ls.map (·.2) = xs at hp
    unfold parse at hp
    split at hp
    · match ls, hx with | [], _ => exact .empty
    · rename_i l; match ls, hx with | [(p, _)], h => simp at h; subst h; exact .label p l
    · rename_i l v
      match ls, hx with
      | [(p, _), (q, _), (r, _)], h => simp at h; obtain ⟨rfl, rfl, rfl⟩ := h; exact .eq ..
    · rename_i l v
      match ls, hx with
      | [(p, _), (q, _), (r, _)], h => simp at h; obtain ⟨rfl, rfl, rfl⟩ := h; exact .equ ..
    · rename_i l v
      match ls, hx with
      | [(p, _), (q, _), (r, _)], h => simp at h; obtain ⟨rfl, rfl, rfl⟩ := h; exact .define ..
    · match ls, hx with
      | [(p, _), (q, _)], h => simp at h; obtain ⟨rfl, rfl⟩ := h; exact .org ..
    · match ls, hx with
      | [(p, _), (q, _), (r, _)], h => simp at h; obtain ⟨rfl, rfl, rfl⟩ := h; exact .base ..
    · match ls, hx with
      | [(p, _)], h => simp at h; subst h; exact .stop ..
    · match ls, hx with
      | (p, _) :: r, h => simp at h; obtain ⟨rfl, _⟩ := h; exact .instr ..
    · match ls, hx with
      | (p, _) :: (q, _) :: r, h => simp at h; obtain ⟨rfl, rfl, _⟩ := h; exact .labelled ..
    · simp at hp
  · rcases hj with hj | ⟨l, hj⟩
    · match ls, hj with
      | (p, _) :: r, h => simp at h; obtain ⟨rfl, _⟩ := h; exact .instr ..
    · match ls, hj with
      | (p, _) :: (q, _) :: r, h => simp at h; obtain ⟨rfl, rfl, _⟩ := h; exact .labelled ..

/-! ### Declarations -/

theorem Rel.setPc {fn : Str} {st : St} {a : A} (h : Rel fn st a) (v : Nat) :
    Rel fn { st with pc := v } { a with pc := v } :=
  ⟨rfl, h.lineNum, h.total, h.out, h.tab, h.count, h.look, h.refs, h.seq, h.fileName⟩

theorem insert_sim {fn : Str} {st : St} {a : A} (hr : Rel fn st a) (henv : a.env.length < maxSymbols) (l : Str) (v : Nat)
    (hv : v < 2 ^ 31) (hl : a.env.lookup l = none) :
    ∃ t', insertSymbol st.symtab l (toInt32 v) = .ok t' ∧
      Rel fn { st with symtab := t' } { a with env := (l, v) :: a.env } := by
  obtain ⟨t', e1, e2, e3, e4⟩ := insertSymbol_spec hr.tab l (toInt32 v) (by
    have := hr.count
    have : INT_MAX = 2147483647 := rfl
    have : maxSymbols = 21474836 := rfl
    omega) (by rw [hr.look, hl]; rfl)
  refine ⟨t', e1, ⟨hr.pc, hr.lineNum, hr.total, hr.out, e2, ?_, ?_, hr.refs, hr.seq, hr.fileName⟩⟩
  · simp [e3, hr.count]
  · intro x
    rw [e4]
    simp only [List.lookup_cons]
    by_cases hx : x = l
    · subst hx; simp [toInt32_small hv]
    · have : (x == l) = false := by simpa using hx
      rw [if_neg hx, this, hr.look]

/-- One symbol too many. -/
theorem insert_overflow {fn : Str} {st : St} {a : A} (hr : Rel fn st a) (henv : maxSymbols ≤ a.env.length) (l : Str) (v : Int) :
    insertSymbol st.symtab l v = .ub .signedOverflow := by
  unfold insertSymbol
  rw [if_pos]
  have := hr.count
  have : INT_MAX = 2147483647 := rfl
  have : maxSymbols = 21474836 := rfl
  omega

theorem lookupCode_some {a : A} {l : Str} {v : Nat} (h : a.env.lookup l = some v) :
    (match a.env.lookup l with | some v => (v : Int) | none => -2) ≠ Err.symbolNotFound.code := by
  rw [h]
  show (v : Int) ≠ -2
  omega

theorem lookupCode_none {a : A} {l : Str} (h : a.env.lookup l = none) :
    ¬ (match a.env.lookup l with | some v => (v : Int) | none => -2) ≠ Err.symbolNotFound.code := by
  rw [h]
  simp [Err.code]

theorem declare_sim {fn : Str} {st : St} {a : A} {buf : Str} {ls : List (Nat × Lexeme)} {k : Nat} (hr : Rel fn st a)
    (hb : Bound k a) (hk : k < 2 ^ 28) (hf : LexFacts st.lexer buf a.lineNum fn ls)
    (hc : ls ≠ [] → Ctx st.lexer buf fn a.lineNum ls) (hacc : Accepted ls)
    (hlit : ∀ p ∈ ls, ∀ v, p.2 = .lit v → v ≤ 0xFFFF) :
    match declare ls a with
    | .error f => declareStep (tok st.lexer 0) st = .err (faultAt fn buf a f)
    | .ok a' => (a.env.length < maxSymbols ∨ a'.env.length ≤ a.env.length →
        ∃ st', declareStep (tok st.lexer 0) st = .ok st' ∧ Rel fn st' a' ∧ st'.lexer = st.lexer ∧ st'.instr = st.instr) ∧
        (maxSymbols ≤ a.env.length → a.env.length < a'.env.length →
          declareStep (tok st.lexer 0) st = .ub .signedOverflow) := by
  have t0 := hf.types 0
  have t1 := hf.types 1
  have h8 := hf.len
  have hpc := hb.pc
  have henv := hb.env
  have trivialCase : declare ls a = .ok a → (tok st.lexer 0).type ≠ .label → (tok st.lexer 0).type ≠ .defineDirective →
      (tok st.lexer 0).type ≠ .base → (tok st.lexer 0).type ≠ .orgDirective →
      match declare ls a with
      | .error f => declareStep (tok st.lexer 0) st = .err (faultAt fn buf a f)
      | .ok a' => (a.env.length < maxSymbols ∨ a'.env.length ≤ a.env.length →
          ∃ st', declareStep (tok st.lexer 0) st = .ok st' ∧ Rel fn st' a' ∧ st'.lexer = st.lexer ∧ st'.instr = st.instr) ∧
          (maxSymbols ≤ a.env.length → a.env.length < a'.env.length →
            declareStep (tok st.lexer 0) st = .ub .signedOverflow) := by
    intro h e1 e2 e3 e4
    rw [h]
    unfold declareStep
    rw [if_neg (by simp [e1, e2]), if_neg (by simp [e3, e4])]
    exact ⟨fun _ => ⟨st, rfl, hr, rfl, rfl⟩, fun _ h => absurd h (Nat.lt_irrefl _)⟩
  -- a declaration of `l` as `v`, with the label token in slot `i`
  have decl : ∀ (p : Nat) (l : Str) (v : Nat), (tok st.lexer 0).type = .label ∨ (tok st.lexer 0).type = .defineDirective →
      ls ≠ [] → v < 2 ^ 31 → (∃ x, (p, x) ∈ ls) → declared a.pc ls = some (p, l, v) →
      (∀ w : Int, w = (match a.env.lookup l with | some v => (v : Int) | none => -2) →
        parseLabelDeclaration st.lexer st.symtab st.pc =
          if w ≠ Err.symbolNotFound.code then
            raise st.lexer.line .labelRedefinition (some p) st.lexer.fileName st.lexer.lineNum
          else insertSymbol st.symtab l (toInt32 v)) →
      match declare ls a with
      | .error f => declareStep (tok st.lexer 0) st = .err (faultAt fn buf a f)
      | .ok a' => (a.env.length < maxSymbols ∨ a'.env.length ≤ a.env.length →
          ∃ st', declareStep (tok st.lexer 0) st = .ok st' ∧ Rel fn st' a' ∧ st'.lexer = st.lexer ∧ st'.instr = st.instr) ∧
          (maxSymbols ≤ a.env.length → a.env.length < a'.env.length →
            declareStep (tok st.lexer 0) st = .ub .signedOverflow) := by
    intro p l v hty hne hv hmem hd hp
    obtain ⟨x, hmem⟩ := hmem
    have hC := hc hne
    unfold declare declareStep
    rw [if_pos hty, hd, hp _ rfl]
    simp only
    cases hl : a.env.lookup l with
    | some w =>
      simp only
      rw [if_pos (by show (w : Int) ≠ -2; omega), hC.raise rfl (hC.showsAt _ hmem)]
      simp only [orAbort, C.err_bind, faultAt, hr.out]
    | none =>
      simp only
      rw [if_neg (by simp [Err.code])]
      constructor
      · intro hroom
        have hroom : a.env.length < maxSymbols := by
          rcases hroom with h | h
          · exact h
          · simp only [List.length_cons] at h; omega
        obtain ⟨t', e1, e2⟩ := insert_sim hr hroom l v hv hl
        rw [e1]
        exact ⟨_, rfl, e2, rfl, rfl⟩
      · intro hfull _
        rw [insert_overflow hr hfull]
        rfl
  cases hacc with
  | empty => exact trivialCase rfl (by simp [t0, typeAt]) (by simp [t0, typeAt]) (by simp [t0, typeAt]) (by simp [t0, typeAt])
  | stop p =>
    exact trivialCase rfl (by simp [t0, typeAt, lexType]) (by simp [t0, typeAt, lexType])
      (by simp [t0, typeAt, lexType]) (by simp [t0, typeAt, lexType])
  | instr p m r =>
    exact trivialCase rfl (by simp [t0, typeAt, lexType]) (by simp [t0, typeAt, lexType])
      (by simp [t0, typeAt, lexType]) (by simp [t0, typeAt, lexType])
  | org p q v =>
    have ht : (tok st.lexer 0).type = .orgDirective := t0
    have hv := hf.origin v rfl
    unfold declareStep
    rw [if_neg (by simp [ht]), if_pos (by simp [ht]), hv]
    exact ⟨fun _ => ⟨_, rfl, hr.setPc v, rfl, rfl⟩, fun _ h => absurd h (Nat.lt_irrefl _)⟩
  | base p q r v =>
    have ht : (tok st.lexer 0).type = .base := t0
    have hv := hf.origin v rfl
    unfold declareStep
    rw [if_neg (by simp [ht]), if_pos (by simp [ht]), hv]
    exact ⟨fun _ => ⟨_, rfl, hr.setPc v, rfl, rfl⟩, fun _ h => absurd h (Nat.lt_irrefl _)⟩
  | label p l =>
    have ht : (tok st.lexer 0).type = .label := t0
    have ht1 : (tok st.lexer 1).type = .null := t1
    refine decl p l a.pc (.inl ht) (by simp) (by omega) ⟨_, List.mem_cons_self⟩ rfl ?_
    rintro _ rfl
    unfold parseLabelDeclaration
    simp (disch := omega) only [slot_ok h8, C.ok_bind, search_eq hr, hf.name 0 p l rfl, ht1, hf.loc 0, hr.pc]
    rw [if_pos (.inl trivial)]
    rfl
  | labelled p q l m r =>
    have ht : (tok st.lexer 0).type = .label := t0
    have ht1 : (tok st.lexer 1).type = .instruction := t1
    have hd : declared a.pc ((p, .name l) :: (q, .mnem m) :: r) = some (p, l, a.pc) := by
      cases r <;> rfl
    refine decl p l a.pc (.inl ht) (by simp) (by omega) ⟨_, List.mem_cons_self⟩ hd ?_
    rintro _ rfl
    unfold parseLabelDeclaration
    simp (disch := omega) only [slot_ok h8, C.ok_bind, search_eq hr, hf.name 0 p l rfl, ht1, hf.loc 0, hr.pc]
    rw [if_pos (.inr trivial)]
    rfl
  | eq p q r l v =>
    have ht : (tok st.lexer 0).type = .label := t0
    have ht1 : (tok st.lexer 1).type = .equalSign := t1
    have hv := hlit (r, .lit v) (by simp) v rfl
    refine decl p l v (.inl ht) (by simp) (by omega) ⟨_, List.mem_cons_self⟩ rfl ?_
    rintro _ rfl
    unfold parseLabelDeclaration
    simp (disch := omega) only [slot_ok h8, C.ok_bind, search_eq hr, hf.name 0 p l rfl, ht1, hf.loc 0, hf.lit 2 r v rfl]
    rw [if_neg (by simp), if_pos (by simp)]
    rfl
  | equ p q r l v =>
    have ht : (tok st.lexer 0).type = .label := t0
    have ht1 : (tok st.lexer 1).type = .equDirective := t1
    have hv := hlit (r, .lit v) (by simp) v rfl
    refine decl p l v (.inl ht) (by simp) (by omega) ⟨_, List.mem_cons_self⟩ rfl ?_
    rintro _ rfl
    unfold parseLabelDeclaration
    simp (disch := omega) only [slot_ok h8, C.ok_bind, search_eq hr, hf.name 0 p l rfl, ht1, hf.loc 0, hf.lit 2 r v rfl]
    rw [if_neg (by simp), if_pos (by simp)]
    rfl
  | define p q r l v =>
    have ht : (tok st.lexer 0).type = .defineDirective := t0
    have ht1 : (tok st.lexer 1).type = .label := t1
    have hv := hlit (r, .lit v) (by simp) v rfl
    refine decl q l v (.inr ht) (by simp) (by omega) ⟨.name l, by simp⟩ rfl ?_
    rintro _ rfl
    unfold parseLabelDeclaration
    simp (disch := omega) only [slot_ok h8, C.ok_bind, search_eq hr, hf.name 1 q l rfl, ht1, ht, hf.loc 1, hf.lit 2 r v rfl]
    rw [if_neg (by simp), if_neg (by simp), if_pos trivial]
    rfl

end Gaia

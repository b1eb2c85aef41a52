import Verif.Proofs.LineFacts

/-! The model of the main loop computes what the pure machine of `Proofs/OnePass.lean` computes. -/
namespace Gaia
open Spec

/-! ### Pieces -/

theorem typeAt_of_get {ls : List (Nat × Lexeme)} {i o : Nat} {x : Lexeme} (h : ls[i]? = some (o, x)) :
    typeAt (ls.map (·.2)) i = lexType x := by
  unfold typeAt
  rw [List.getElem?_map, h]; rfl

theorem typeAt_get {ls : List (Nat × Lexeme)} {i : Nat} {p : Nat × Lexeme} (h : ls[i]? = some p) :
    typeAt (ls.map (·.2)) i = lexType p.2 := typeAt_of_get (o := p.1) (x := p.2) h

theorem hasType_eq {lx : Lexer} {buf fn : Str} {n : Nat} {ls : List (Nat × Lexeme)} (hf : LexFacts lx buf n fn ls)
    (hlen : ls.length ≤ 8) {x : Lexeme} {t : TokenType} (hx : lexType x = t) (hinj : ∀ y, lexType y = t → y = x) :
    hasType lx t = (ls.map (·.2)).contains x := by
  rw [Bool.eq_iff_iff]
  unfold hasType
  rw [List.any_eq_true, List.contains_iff_mem]
  have ht : t ≠ .null := by rintro rfl; cases x <;> simp [lexType] at hx
  constructor
  · rintro ⟨tk, htk, he⟩
    obtain ⟨i, hi, rfl⟩ := List.getElem_of_mem htk
    have h2 := hf.types i
    have h3 : tok lx i = lx.seq[i] := by unfold tok; rw [List.getElem?_eq_getElem hi]; rfl
    rw [h3] at h2
    have h4 : lx.seq[i].type = t := by simpa using he
    rw [h4] at h2
    unfold typeAt at h2
    split at h2
    · rename_i y hy
      rw [← hinj y h2.symm]
      exact List.mem_of_getElem? hy
    · exact absurd h2 ht
  · intro hm
    obtain ⟨p, hp, rfl⟩ := List.mem_map.1 hm
    obtain ⟨i, hi, rfl⟩ := List.getElem_of_mem hp
    have hi' : i < lx.seq.length := by rw [hf.len]; omega
    refine ⟨lx.seq[i], List.getElem_mem hi', ?_⟩
    have h2 := hf.types i
    have h3 : tok lx i = lx.seq[i] := by unfold tok; rw [List.getElem?_eq_getElem hi']; rfl
    rw [h3, typeAt_of_get (o := ls[i].1) (x := ls[i].2) (by rw [List.getElem?_eq_getElem hi])] at h2
    rw [h2, hx]
    simp

theorem applyMasks_eq {lx : Lexer} {buf fn : Str} {n : Nat} {ls : List (Nat × Lexeme)} (hf : LexFacts lx buf n fn ls)
    (hlen : ls.length ≤ 8) (f : Flags) : applyMasks lx f = masks (shape (ls.map (·.2))) f := by
  unfold applyMasks masks shape
  rw [hasType_eq hf hlen (x := .regX) (t := .xRegister) rfl (fun y => lexType_x),
    hasType_eq hf hlen (x := .regY) (t := .yRegister) rfl (fun y => lexType_y),
    hasType_eq hf hlen (x := .lpar) (t := .openParenthesis) rfl (fun y => lexType_open),
    hasType_eq hf hlen (x := .hash) (t := .immediate) rfl (fun y => lexType_hash),
    hasType_eq hf hlen (x := .regA) (t := .accumulator) rfl (fun y => lexType_a)]

theorem operandLike_type (x : Lexeme) :
    (lexType x = .label ∨ lexType x = .literal ∨ lexType x = .accumulator) ↔ operandLike x = true := by
  cases x <;> simp [lexType, operandLike]

theorem findLoop_hit {lx : Lexer} {buf fn : Str} {n : Nat} {ls : List (Nat × Lexeme)} (hf : LexFacts lx buf n fn ls)
    (hlen : ls.length ≤ 8) : ∀ (d i fuel : Nat) (curr : Token), d < fuel → i + d < ls.length → curr.type ≠ .null →
    (∀ j, i ≤ j → j < i + d → ∀ p, ls[j]? = some p → operandLike p.2 = false) →
    (∀ p, ls[i + d]? = some p → operandLike p.2 = true) →
    findOperandLoop lx fuel i curr = .ok (some (tok lx (i + d))) := by
  intro d
  induction d with
  | zero =>
    intro i fuel curr hfu hi hc _ hop
    obtain ⟨f, rfl⟩ : ∃ f, fuel = f + 1 := ⟨fuel - 1, by omega⟩
    unfold findOperandLoop
    rw [if_neg hc, slot_ok hf.len (by omega)]
    simp only [C.ok_bind]
    have hg : ls[i]? = some (ls[i]'(by omega)) := List.getElem?_eq_getElem (by omega)
    have h1 := hop _ hg
    rw [← operandLike_type, ← typeAt_get hg, ← hf.types i] at h1
    rw [if_pos h1]; rfl
  | succ d ih =>
    intro i fuel curr hfu hi hc hno hop
    obtain ⟨f, rfl⟩ : ∃ f, fuel = f + 1 := ⟨fuel - 1, by omega⟩
    unfold findOperandLoop
    rw [if_neg hc, slot_ok hf.len (by omega)]
    simp only [C.ok_bind]
    have hg : ls[i]? = some (ls[i]'(by omega)) := List.getElem?_eq_getElem (by omega)
    have h1 := hno i le_rfl (by omega) _ hg
    have h2 : ¬ ((tok lx i).type = .label ∨ (tok lx i).type = .literal ∨ (tok lx i).type = .accumulator) := by
      rw [hf.types i, typeAt_get hg, operandLike_type, h1]; simp
    rw [if_neg h2, ih (i + 1) f (tok lx i) (by omega) (by omega) ?_ ?_ ?_]
    · congr 3; omega
    · rw [hf.types i, Ne, typeAt_null]; simp; omega
    · intro j hj1 hj2; exact hno j (by omega) (by omega)
    · intro p hp; exact hop p (by rw [← hp]; congr 1; omega)

theorem findLoop_miss {lx : Lexer} {buf fn : Str} {n : Nat} {ls : List (Nat × Lexeme)} (hf : LexFacts lx buf n fn ls)
    (hlen : ls.length < 8) : ∀ (d i fuel : Nat) (curr : Token), d + 1 < fuel → i + d = ls.length → 
    (∀ j, i ≤ j → ∀ p, ls[j]? = some p → operandLike p.2 = false) →
    findOperandLoop lx fuel i curr = .ok none := by
  intro d
  induction d with
  | zero =>
    intro i fuel curr hfu hi _
    obtain ⟨f, rfl⟩ : ∃ f, fuel = f + 2 := ⟨fuel - 2, by omega⟩
    unfold findOperandLoop
    split_ifs
    · rfl
    rw [slot_ok hf.len (by omega)]
    simp only [C.ok_bind]
    have h0 : (tok lx i).type = .null := by rw [hf.types i, typeAt_null]; simp; omega
    rw [if_neg (by rw [h0]; decide)]
    unfold findOperandLoop
    rw [if_pos h0]
  | succ d ih =>
    intro i fuel curr hfu hi hno
    obtain ⟨f, rfl⟩ : ∃ f, fuel = f + 1 := ⟨fuel - 1, by omega⟩
    unfold findOperandLoop
    split_ifs
    · rfl
    rw [slot_ok hf.len (by omega)]
    simp only [C.ok_bind]
    have hg : ls[i]? = some (ls[i]'(by omega)) := List.getElem?_eq_getElem (by omega)
    have h1 := hno i le_rfl _ hg
    have h2 : ¬ ((tok lx i).type = .label ∨ (tok lx i).type = .literal ∨ (tok lx i).type = .accumulator) := by
      rw [hf.types i, typeAt_get hg, operandLike_type, h1]; simp
    rw [if_neg h2]
    exact ih (i + 1) f (tok lx i) (by omega) (by omega) (fun j hj => hno j (by omega))

/-- `find_operand` finds the operand. -/
theorem findOperand_some {lx : Lexer} {buf fn : Str} {n : Nat} {ls : List (Nat × Lexeme)} (hf : LexFacts lx buf n fn ls)
    (hlen : ls.length ≤ 8) {q : Nat × Lexeme} (h : operandOf ls = some q) :
    ∃ i, ls[i]? = some q ∧ 1 ≤ i ∧ operandLike q.2 = true ∧ (∀ j, 1 ≤ j → j < i → ∀ p, ls[j]? = some p → operandLike p.2 = false) ∧
      findOperand lx = .ok (some (tok lx i)) := by
  unfold operandOf at h
  obtain ⟨hq, i, hi, hget, hno⟩ := List.find?_eq_some_iff_getElem.1 h
  have hi1 : i + 1 < ls.length := by rw [List.length_tail] at hi; omega
  have hget' : ls[i + 1]? = some q := by
    rw [← hget, List.getElem_tail, List.getElem?_eq_getElem hi1]
  have hno' : ∀ j, 1 ≤ j → j < i + 1 → ∀ p, ls[j]? = some p → operandLike p.2 = false := by
    intro j h1 h2 p hp
    have := hno (j - 1) (by omega)
    rw [List.getElem_tail] at this
    have hj : j < ls.length := (List.getElem?_eq_some_iff.1 hp).1
    have e : ls[j - 1 + 1] = p := by
      have : j - 1 + 1 = j := by omega
      simp only [this]
      exact (List.getElem?_eq_some_iff.1 hp).2
    rw [e] at this
    simpa using this
  refine ⟨i + 1, hget', by omega, hq, hno', ?_⟩
  unfold findOperand
  rw [slot_ok hf.len (by omega)]
  simp only [C.ok_bind]
  rw [findLoop_hit hf hlen i 1 10 (tok lx 1) (by omega) (by omega) ?_ ?_ ?_, Nat.add_comm]
  · rw [hf.types 1, Ne, typeAt_null]; simp; omega
  · intro j h1 h2; exact hno' j h1 (by omega)
  · intro p hp
    rw [Nat.add_comm, hget'] at hp
    cases hp
    exact hq

theorem findOperand_none {lx : Lexer} {buf fn : Str} {n : Nat} {ls : List (Nat × Lexeme)} (hf : LexFacts lx buf n fn ls)
    (hlen : ls.length < 8) (h : operandOf ls = none) : findOperand lx = .ok none := by
  unfold operandOf at h
  rw [List.find?_eq_none] at h
  have hno : ∀ j, 1 ≤ j → ∀ p, ls[j]? = some p → operandLike p.2 = false := by
    intro j hj p hp
    have hm : p ∈ ls.tail := by
      apply List.mem_of_getElem? (i := j - 1)
      rw [List.getElem?_tail, ← hp]; congr 1; omega
    simpa using h p hm
  unfold findOperand
  rw [slot_ok hf.len (by omega)]
  simp only [C.ok_bind]
  by_cases h1 : ls.length ≤ 1
  · unfold findOperandLoop
    rw [if_pos]
    rw [hf.types 1, typeAt_null]; simpa using h1
  · exact findLoop_miss hf hlen (ls.length - 1) 1 10 _ (by omega) (by omega) hno

/-! ### Shapes of accepted lines -/

theorem parseArg_length {args : List Lexeme} (h : (parseArg args).isSome = true) : args.length ≤ 5 := by
  unfold parseArg at h
  split at h <;> simp at h ⊢

theorem parse_length {ls : List Lexeme} (h : (parse ls).isSome = true) : ls.length ≤ 7 := by
  unfold parse at h
  split at h
  all_goals first
    | (simp; done)
    | (simp at h; done)
    | (simp only [Option.isSome_map] at h; have := parseArg_length h; simp only [List.length_cons]; omega)

theorem junk_operand {ls : List (Nat × Lexeme)} (h : LineJunk (ls.map (·.2))) : ∃ q, operandOf ls = some q := by
  obtain ⟨m, args, hm, o, r, more, rfl, ho, _⟩ := h
  have hol : operandLike o = true := by
    rcases opd_cases ho with ⟨v, rfl⟩ | ⟨l, rfl⟩ <;> rfl
  have hmem : o ∈ (ls.map (·.2)).tail := by
    rcases hm with hm | ⟨l, hm⟩ <;> rw [hm] <;> simp
  rw [← List.map_tail] at hmem
  obtain ⟨p, hp, rfl⟩ := List.mem_map.1 hmem
  cases hq : operandOf ls with
  | some q => exact ⟨q, rfl⟩
  | none =>
    unfold operandOf at hq
    rw [List.find?_eq_none] at hq
    exact absurd hol (by simpa using hq p hp)

theorem operand_none_length {ls : List (Nat × Lexeme)} (hs : syn (typeAt (ls.map (·.2))) = .ok ())
    (h : operandOf ls = none) : ls.length < 8 := by
  rcases (syn_ok_iff _).1 hs with hp | hj
  · have := parse_length hp; simp at this; omega
  · obtain ⟨q, hq⟩ := junk_operand hj
    rw [hq] at h; cases h

/-- Lines with a mnemonic start with it, or with a label before it. -/
theorem accepted_instr {ls : List Lexeme} (hs : syn (typeAt ls) = .ok ()) {m : Mnemonic} (hm : lastMnem ls = some m) :
    ∃ m' args, ls = .mnem m' :: args ∨ ∃ l, ls = .name l :: .mnem m' :: args := by
  rcases (syn_ok_iff _).1 hs with hp | ⟨m', args, hj, _⟩
  · unfold parse at hp
    split at hp
    all_goals first
      | (simp [lastMnem] at hm; done)
      | (simp at hp; done)
      | exact ⟨_, _, .inl rfl⟩
      | exact ⟨_, _, .inr ⟨_, rfl⟩⟩
  · exact ⟨m', args, hj⟩

end Gaia

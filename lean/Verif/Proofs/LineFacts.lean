import Verif.Proofs.OnePass

/-! Facts about the tokens of a line, in terms of its lexemes. -/
namespace Gaia
open Spec

theorem fputc_eq (f : OutFile) (v : Int) : f.fputc v = f.put (UInt8.ofNat (v % 256).toNat) := rfl

/-! ### Offsets point at the text of the lexeme -/

theorem scan_chars : ∀ (fuel off : Nat) (s : Str) (cnt : Nat) (ls : List (Nat × Lexeme)),
    scan fuel off s cnt = .ok ls → isBlank (rd s) = false →
    ∀ p ∈ ls, off ≤ p.1 ∧ ∃ c, s[p.1 - off]? = some c ∧ isTerm c = false ∧ isBlank c = false := by
  intro fuel
  induction fuel with
  | zero => intro off s cnt ls h; simp [scan] at h; subst h; simp
  | succ fuel ih =>
    intro off s cnt ls h hb
    unfold scan at h
    by_cases h1 : isTerm (rd s) = true
    · rw [if_pos h1] at h; simp at h; subst h; simp
    rw [if_neg h1] at h
    have hne : s ≠ [] := by
      rintro rfl
      exact h1 isTerm_zero
    have h1' : isTerm (rd s) = false := by simpa using h1
    have hhead : s[0]? = some (rd s) := by
      cases s with
      | nil => exact absurd rfl hne
      | cons c s => rfl
    -- the rest after skipping `k` characters
    have key : ∀ (k : Nat) (o' : Nat) (u : Str) (ls' : List (Nat × Lexeme)), (∃ bl, s.drop k = bl ++ (skipBlanks (off + k) u).2 ∧
        (skipBlanks (off + k) u).1 = off + k + bl.length) → o' = (skipBlanks (off + k) u).1 →
        isBlank (rd (skipBlanks (off + k) u).2) = false →
        scan fuel (skipBlanks (off + k) u).1 (skipBlanks (off + k) u).2 (cnt + 1) = .ok ls' →
        ∀ p ∈ ls', off ≤ p.1 ∧ ∃ c, s[p.1 - off]? = some c ∧ isTerm c = false ∧ isBlank c = false := by
      intro k o' u ls' ⟨bl, e1, e2⟩ _ hb' hs p hp
      obtain ⟨g1, c, g2, g3⟩ := ih _ _ _ _ hs hb' p hp
      rw [e2] at g1 g2
      refine ⟨by omega, c, ?_, g3⟩
      have : s[p.1 - off]? = (s.drop k)[p.1 - off - k]? := by
        rw [List.getElem?_drop]; congr 1; omega
      rw [this, e1, List.getElem?_append_right (by omega), ← g2]
      congr 1; omega
    have hblank : ∀ o u, isBlank (rd (skipBlanks o u).2) = false := by
      intro o u
      obtain ⟨bl, b1, b2, b3, b4⟩ := skipBlanks_spec o u
      cases hs : (skipBlanks o u).2 with
      | nil => decide
      | cons c r => exact b4 c r hs
    cases hk : lexOne s with
    | error q => rw [hk] at h; simp at h
    | ok q =>
      obtain ⟨n, x⟩ := q
      obtain ⟨hn1, hn2⟩ := lexOne_len hne hk
      rw [hk] at h
      simp only at h
      split_ifs at h with h2 h3 h4
      · split at h
        · rename_i ls' hf
          simp only [Except.ok.injEq] at h
          subst h
          intro p hp
          rcases List.mem_cons.1 hp with rfl | hp
          · exact ⟨le_rfl, rd s, by simpa using hhead, h1', hb⟩
          · obtain ⟨bl, b1, b2, b3, b4⟩ := skipBlanks_spec (off + n + 1) (s.drop n).tail
            refine key (n + 1) _ (s.drop n).tail ls' ⟨bl, ?_, ?_⟩ rfl (hblank _ _) hf p hp
            · rw [← Nat.add_assoc, ← b1, List.tail_drop]
            · rw [← Nat.add_assoc, b2]
        · simp at h
      · split at h
        · rename_i ls' hf
          simp only [Except.ok.injEq] at h
          subst h
          intro p hp
          rcases List.mem_cons.1 hp with rfl | hp
          · exact ⟨le_rfl, rd s, by simpa using hhead, h1', hb⟩
          · obtain ⟨bl, b1, b2, b3, b4⟩ := skipBlanks_spec (off + n) (s.drop n)
            exact key n _ (s.drop n) ls' ⟨bl, b1, b2⟩ rfl (hblank _ _) hf p hp
        · simp at h

/-- The recorded offset of a lexeme is that of a character of the line that is neither a blank nor a terminator. -/
theorem lexemes_char {raw : List Byte} {ls : List (Nat × Lexeme)} (h : lexemes raw = .ok ls) :
    ∀ p ∈ ls, ∃ c, (cstr raw)[p.1]? = some c ∧ isTerm c = false ∧ isBlank c = false := by
  intro p hp
  obtain ⟨bl, b1, b2, b3, b4⟩ := skipBlanks_spec 0 (cstr raw)
  have hb : isBlank (rd (skipBlanks 0 (cstr raw)).2) = false := by
    cases hs : (skipBlanks 0 (cstr raw)).2 with
    | nil => decide
    | cons c r => exact b4 c r hs
  obtain ⟨g1, c, g2, g3⟩ := scan_chars _ _ _ _ _ h hb p hp
  refine ⟨c, ?_, g3⟩
  rw [b2] at g1 g2
  rw [b1, List.getElem?_append_right (by omega), ← g2]
  congr 1; omega

/-! ### The saved source line -/

theorem dropBlankRev_eq (r : Str) :
    dropBlankRev r = if r.dropWhile isBlank = [] then none else some (r.dropWhile isBlank) := by
  induction r with
  | nil => rfl
  | cons c r ih =>
    unfold dropBlankRev
    rw [List.dropWhile_cons]
    split_ifs with h <;> simp_all

/-- What `savedLine` cuts off is a suffix of blanks and newlines. -/
theorem savedLine_spec {buf : Str} {p : Nat} {c : Byte} (hc : buf[p]? = some c) (ht : isTerm c = false)
    (hb : isBlank c = false) :
    ∃ s suf, savedLine buf = some s ∧ buf = s ++ suf ∧ (∀ x ∈ suf, isTrailing x = true) ∧ p < s.length := by
  have hp : p < buf.length := (List.getElem?_eq_some_iff.1 hc).1
  have hcm : c ∈ buf := List.mem_of_getElem? hc
  have hbt : ∀ x : Byte, isBlank x = true → isTrailing x = true := by decide +kernel
  have hnt : ∀ x : Byte, isTerm x = false → isBlank x = false → isTrailing x = false := by decide +kernel
  have hc10 : c ≠ 10 := by rintro rfl; simp [isTerm] at ht
  -- generic: dropping blanks from `r`, the reverse of a prefix
  have key : ∀ (r : Str) (suf : Str), buf = r.reverse ++ suf → (∀ x ∈ suf, isTrailing x = true) → c ∈ r →
      ∃ s suf, (dropBlankRev r).map List.reverse = some s ∧ buf = s ++ suf ∧ (∀ x ∈ suf, isTrailing x = true) ∧
        p < s.length := by
    intro r suf hbuf hsuf hcr
    have hne : r.dropWhile isBlank ≠ [] := dropWhile_ne_nil ⟨c, hcr, hb⟩
    rw [dropBlankRev_eq, if_neg hne]
    have hsplit : r = r.takeWhile isBlank ++ r.dropWhile isBlank := List.takeWhile_append_dropWhile.symm
    have hall : ∀ x ∈ (r.takeWhile isBlank).reverse ++ suf, isTrailing x = true := by
      intro x hx
      rcases List.mem_append.1 hx with hx | hx
      · exact hbt x (takeWhile_all isBlank r x (by simpa using hx))
      · exact hsuf x hx
    have hbuf' : buf = (r.dropWhile isBlank).reverse ++ ((r.takeWhile isBlank).reverse ++ suf) := by
      conv_lhs => rw [hbuf, hsplit]
      rw [List.reverse_append, List.append_assoc]
    refine ⟨_, _, rfl, hbuf', hall, ?_⟩
    by_contra hlt
    have hm : c ∈ (r.takeWhile isBlank).reverse ++ suf := by
      rw [hbuf', List.getElem?_append_right (by omega)] at hc
      exact List.mem_of_getElem? hc
    have := hall c hm
    rw [hnt c ht hb] at this
    simp at this
  unfold savedLine
  cases hr : buf.reverse with
  | nil =>
    have : buf = [] := by simpa using hr
    rw [this] at hcm; simp at hcm
  | cons d r =>
    by_cases hd : d = 10
    · subst hd
      have hbuf : buf = r.reverse ++ [10] := by
        have := congrArg List.reverse hr
        simpa using this
      refine key r [10] hbuf (by simp [isTrailing]) ?_
      rw [hbuf] at hcm
      simpa [hc10] using hcm
    · have hbuf : buf = (d :: r).reverse ++ [] := by
        have := congrArg List.reverse hr
        simpa using this
      have := key (d :: r) [] hbuf (by simp) (by
        have h2 : c ∈ buf.reverse := by simpa using hcm
        rwa [hr] at h2)
      split
      · rename_i heq
        simp only [List.cons.injEq] at heq
        exact absurd heq.1 hd
      · exact this

theorem trimEnd_append {s suf : Str} (h : ∀ x ∈ suf, isTrailing x = true) : trimEnd (s ++ suf) = trimEnd s := by
  simp only [trimEnd_eq]
  rw [List.reverse_append, List.dropWhile_append]
  have : List.dropWhile isTrailing suf.reverse = [] := by
    by_contra hne
    obtain ⟨c, r, hr⟩ := List.exists_cons_of_ne_nil hne
    have h1 := dropWhile_head isTrailing suf.reverse
    have h2 : c ∈ suf.reverse := (List.dropWhile_suffix isTrailing).subset (by rw [hr]; simp)
    have := h c (by simpa using h2)
    have h3 := h1 c r hr
    rw [this] at h3; simp at h3
  simp [this]

/-- Reporting at the saved line is the same as reporting at the line. -/
theorem diag_saved {buf s suf : Str} {e : Err} {p : Nat} {fn : Str} {n : Nat} (h1 : buf = s ++ suf)
    (h2 : ∀ x ∈ suf, isTrailing x = true) (h3 : p ≤ s.length) : diag s e (some p) fn n = diag buf e (some p) fn n := by
  have h4 : buf.take p = s.take p := by rw [h1, List.take_append_of_le_length h3]
  unfold diag
  simp only [h4]
  rw [h1, trimEnd_append h2]

/-! ### Tokens -/

theorem lastInstr_eq (ls : List (Nat × Lexeme)) : lastInstr {} ls =
    match lastMnem (ls.map (·.2)) with
    | some m => ⟨some m, getAddrBitfield m, 0, 0⟩
    | none => {} := by
  have key : ∀ (ls : List (Nat × Lexeme)) (i : Instr), i.addrBitflag = 0 → i.opcode = 0 → lastInstr i ls =
      match lastMnem (ls.map (·.2)) with
      | some m => ⟨some m, getAddrBitfield m, 0, 0⟩
      | none => i := by
    intro ls
    induction ls with
    | nil => intro i _ _; rfl
    | cons p ls ih =>
      obtain ⟨o, x⟩ := p
      intro i h1 h2
      unfold lastInstr
      rw [ih _ (by cases x <;> simpa [updInstr] using h1) (by cases x <;> simpa [updInstr] using h2)]
      rw [List.map_cons]
      cases x
      case mnem m =>
        simp only [lastMnem, updInstr]
        cases lastMnem (ls.map (·.2)) <;> simp [h1, h2]
      all_goals rfl
  exact key ls {} rfl rfl

/-- Facts about the lexer after `lex_line` and `parse_line`. -/
structure LexFacts (lx : Lexer) (buf : Str) (n : Nat) (fn : Str) (ls : List (Nat × Lexeme)) : Prop where
  len : lx.seq.length = 8
  line : lx.line = some buf
  lineNum : lx.lineNum = n
  fileName : lx.fileName = fn
  types : ∀ i, (tok lx i).type = typeAt (ls.map (·.2)) i
  loc : ∀ i, (tok lx i).bufferLocation = posAt ls i
  name : ∀ i o l, ls[i]? = some (o, .name l) → (tok lx i).str = l
  lit : ∀ i o v, ls[i]? = some (o, .lit v) → (tok lx i).value = v
  zero : ∀ i, (∀ p ∈ ls.take (i + 1), ∀ v, p.2 ≠ .lit v) → originOf ls = none → (tok lx i).value = 0
  origin : ∀ v, originOf ls = some v → (tok lx 0).value = v

theorem tokens_value_zero : ∀ (ls : List (Nat × Lexeme)) (tk : Token) (i : Nat) (t : Token),
    tk.value = 0 → (∀ p ∈ ls.take (i + 1), ∀ v, p.2 ≠ .lit v) → (tokens tk ls)[i]? = some t → t.value = 0
  | [], _, _, _, _, _, h => by simp [tokens] at h
  | (o, x) :: ls, tk, i, t, h0, hz, h => by
    have hx : (updTok tk o x).value = 0 := by
      have := hz (o, x) (by simp)
      cases x
      case lit v => exact absurd rfl (this v)
      all_goals simpa [updTok, lexValue] using h0
    cases i with
    | zero =>
      simp only [tokens, List.getElem?_cons_zero, Option.some.injEq] at h
      rw [← h]; exact hx
    | succ i =>
      refine tokens_value_zero ls _ i t hx (fun p hp => hz p ?_) (by simpa [tokens] using h)
      rw [List.take_succ_cons]
      exact List.mem_cons_of_mem _ hp

theorem setValue_tok (lx : Lexer) (v : Nat) (i : Nat) :
    tok (setValue lx 0 v) i = if i = 0 ∧ lx.seq ≠ [] then { tok lx i with value := v } else tok lx i := by
  unfold tok setValue
  cases hs : lx.seq with
  | nil => simp
  | cons t s =>
    cases i with
    | zero => simp
    | succ i => simp

theorem lexerOf_zero {buf : Str} {n : Nat} {fn : Str} {ls : List (Nat × Lexeme)} {i : Nat}
    (h : ∀ p ∈ ls.take (i + 1), ∀ v, p.2 ≠ .lit v) : (tok (lexerOf buf n fn ls) i).value = 0 := by
  cases hi : ls[i]? with
  | none => rw [lexerOf_none hi]
  | some q =>
    have hil : i < ls.length := (List.getElem?_eq_some_iff.1 hi).1
    unfold tok lexerOf
    simp only
    rw [List.getElem?_append_left (by rw [tokens_length]; exact hil)]
    cases ht : (tokens nullTok ls)[i]? with
    | none => rfl
    | some t => exact tokens_value_zero ls nullTok i t rfl h ht

theorem originOf_facts {ls : List (Nat × Lexeme)} :
    (typeAt (ls.map (·.2)) 0 ≠ .orgDirective ∧ typeAt (ls.map (·.2)) 0 ≠ .base ∧ originOf ls = none) ∨
    (∃ o r, ls = (o, .org) :: r) ∨ (∃ o r, ls = (o, .star) :: r) := by
  cases ls with
  | nil => left; exact ⟨by decide, by decide, rfl⟩
  | cons p r =>
    obtain ⟨o, x⟩ := p
    cases x
    case org => right; left; exact ⟨o, r, rfl⟩
    case star => right; right; exact ⟨o, r, rfl⟩
    all_goals left; exact ⟨by simp [typeAt, lexType], by simp [typeAt, lexType], rfl⟩

theorem lexFacts {raw : List Byte} {n : Nat} {fn : Str} {ls : List (Nat × Lexeme)} (h : lexemes raw = .ok ls)
    (hs : syn (typeAt (ls.map (·.2))) = .ok ()) :
    LexFacts (finish (lexerOf (cstr raw) n fn ls)) (cstr raw) n fn ls := by
  have hlen : ls.length ≤ 8 := by
    have := scan_length _ _ _ _ _ (by omega) h
    omega
  have h8 := lexerOf_length (cstr raw) n fn ls hlen
  have hne : (lexerOf (cstr raw) n fn ls).seq ≠ [] := by
    intro h0; rw [h0] at h8; simp at h8
  have base : ∀ lx, (lx = lexerOf (cstr raw) n fn ls ∨ ∃ v, lx = setValue (lexerOf (cstr raw) n fn ls) 0 v) →
      lx.seq.length = 8 ∧ lx.line = some (cstr raw) ∧ lx.lineNum = n ∧ lx.fileName = fn ∧
      (∀ i, (tok lx i).type = typeAt (ls.map (·.2)) i) ∧ (∀ i, (tok lx i).bufferLocation = posAt ls i) ∧
      (∀ i o l, ls[i]? = some (o, .name l) → (tok lx i).str = l) := by
    intro lx hlx
    have h0 : (∀ i, (tok (lexerOf (cstr raw) n fn ls) i).type = typeAt (ls.map (·.2)) i) := by
      intro i; rw [← types_lexerOf (cstr raw) n fn ls]; rfl
    have h1 : ∀ i, (tok (lexerOf (cstr raw) n fn ls) i).bufferLocation = posAt ls i := loc_lexerOf _ _ _ _
    have h2 : ∀ i o l, ls[i]? = some (o, .name l) → (tok (lexerOf (cstr raw) n fn ls) i).str = l := by
      intro i o l hi
      obtain ⟨tk', h'⟩ := lexerOf_some (buf := cstr raw) (n := n) (fn := fn) hi
      rw [h']; rfl
    rcases hlx with rfl | ⟨v, rfl⟩
    · exact ⟨h8, rfl, rfl, rfl, h0, h1, h2⟩
    · refine ⟨by simp [setValue, h8], rfl, rfl, rfl, ?_, ?_, ?_⟩
      · intro i; rw [setValue_tok]; split_ifs <;> simp [h0]
      · intro i; rw [setValue_tok]; split_ifs <;> simp [h1]
      · intro i o l hi
        rw [setValue_tok]; split_ifs <;> simpa using h2 i o l hi
  have hlit : ∀ i o v, ls[i]? = some (o, .lit v) → (tok (lexerOf (cstr raw) n fn ls) i).value = v := by
    intro i o v hi
    obtain ⟨tk', h'⟩ := lexerOf_some (buf := cstr raw) (n := n) (fn := fn) hi
    rw [h']; rfl
  rcases originOf_facts (ls := ls) with ⟨g1, g2, g3⟩ | ⟨o, r, rfl⟩ | ⟨o, r, rfl⟩
  · have hfin : finish (lexerOf (cstr raw) n fn ls) = lexerOf (cstr raw) n fn ls := by
      unfold finish
      rw [types_lexerOf, if_neg g1, if_neg g2]
    rw [hfin]
    obtain ⟨b1, b2, b3, b4, b5, b6, b7⟩ := base _ (.inl rfl)
    refine ⟨b1, b2, b3, b4, b5, b6, b7, hlit, fun i hi _ => lexerOf_zero hi, ?_⟩
    intro v hv; rw [g3] at hv; cases hv
  · have hsh : ∃ o' v, r = [(o', .lit v)] := by
      have : (if typeAt (r.map (·.2)) 0 = .literal then
          if typeAt (r.map (·.2)) 1 = .null then .ok () else .error (2, Err.illegalSequence)
          else .error (1, Err.illegalSequence)) = (Except.ok () : Verdict) := hs
      split_ifs at this with k1 k2
      obtain ⟨y, r', e1, e2⟩ := typeAt_inv k1 (by decide)
      obtain ⟨v, rfl⟩ := lexType_lit e2
      rw [e1] at k2
      have := typeAt_zero_null.1 (show typeAt r' 0 = .null from k2)
      subst this
      match r, e1 with
      | [(o', x)], e1 => simp at e1; exact ⟨o', v, by rw [e1]⟩
    obtain ⟨o', v, rfl⟩ := hsh
    have hv := hlit 1 o' v rfl
    have hfin : finish (lexerOf (cstr raw) n fn [(o, .org), (o', .lit v)]) =
        setValue (lexerOf (cstr raw) n fn [(o, .org), (o', .lit v)]) 0 v := by
      unfold finish
      rw [types_lexerOf, if_pos (by rfl), hv]
    rw [hfin]
    obtain ⟨b1, b2, b3, b4, b5, b6, b7⟩ := base _ (.inr ⟨v, rfl⟩)
    refine ⟨b1, b2, b3, b4, b5, b6, b7, ?_, ?_, ?_⟩
    · intro i o'' w hi
      rw [setValue_tok]
      have : i ≠ 0 := by rintro rfl; simp at hi
      rw [if_neg (by simp [this])]
      exact hlit i o'' w hi
    · intro i hi ho; simp [originOf] at ho
    · intro w hw
      simp only [originOf, Option.some.injEq] at hw
      rw [setValue_tok, if_pos ⟨rfl, hne⟩]
      exact hw
  · have hsh : ∃ o1 o' v, r = [(o1, .eq), (o', .lit v)] := by
      have : (if typeAt (r.map (·.2)) 0 = .equalSign then
          if typeAt (r.map (·.2)) 1 = .literal then
          if typeAt (r.map (·.2)) 2 = .null then .ok () else .error (3, Err.illegalBase)
          else .error (2, Err.illegalBase) else .error (1, Err.illegalBase)) = (Except.ok () : Verdict) := hs
      split_ifs at this with k1 k2 k3
      obtain ⟨y, r', e1, e2⟩ := typeAt_inv k1 (by decide)
      obtain rfl := lexType_eq e2
      rw [e1] at k2 k3
      obtain ⟨y, r'', e3, e4⟩ := typeAt_inv (l := r') k2 (by decide)
      obtain ⟨v, rfl⟩ := lexType_lit e4
      subst e3
      have := typeAt_zero_null.1 (show typeAt r'' 0 = .null from k3)
      subst this
      match r, e1 with
      | [(o1, y), (o', x)], e1 => simp at e1; exact ⟨o1, o', v, by rw [e1.1, e1.2]⟩
    obtain ⟨o1, o', v, rfl⟩ := hsh
    have hv := hlit 2 o' v rfl
    have hfin : finish (lexerOf (cstr raw) n fn [(o, .star), (o1, .eq), (o', .lit v)]) =
        setValue (lexerOf (cstr raw) n fn [(o, .star), (o1, .eq), (o', .lit v)]) 0 v := by
      unfold finish
      rw [types_lexerOf, if_neg (by simp [typeAt, lexType]), if_pos (by rfl), hv]
    rw [hfin]
    obtain ⟨b1, b2, b3, b4, b5, b6, b7⟩ := base _ (.inr ⟨v, rfl⟩)
    refine ⟨b1, b2, b3, b4, b5, b6, b7, ?_, ?_, ?_⟩
    · intro i o'' w hi
      rw [setValue_tok]
      have : i ≠ 0 := by rintro rfl; simp at hi
      rw [if_neg (by simp [this])]
      exact hlit i o'' w hi
    · intro i hi ho; simp [originOf] at ho
    · intro w hw
      simp only [originOf, Option.some.injEq] at hw
      rw [setValue_tok, if_pos ⟨rfl, hne⟩]
      exact hw

end Gaia

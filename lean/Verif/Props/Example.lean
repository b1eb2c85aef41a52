import Verif.Proofs.Equiv
import Verif.Proofs.TwoPass

/-! A standard world for the concrete cases beside the theorems. -/
namespace Gaia
open Spec

/-- A file system with one file, `p.asm`, in which `p.bin` can be created. -/
def demo (src : List Byte) : World := ⟨fun n => if n = b! "p.asm" then some src else none, fun n => n == b! "p.bin"⟩

theorem demo_setup (src : List Byte) : Setup (demo src) (b! "p.asm") (b! "p.bin") src :=
  ⟨rfl, rfl, by decide⟩

/-- What gaia does with a source: exit status, text printed, output file. -/
def demoRun (src : List Byte) : Option (Nat × Str × Option (List Byte)) :=
  match gaia (b! "p.asm") (b! "p.bin") (demo src) with
  | .exited e => some (e.status, e.stdout, e.world.files (b! "p.bin"))
  | .undefined _ => none

/-! Deciding `Lexes` for concrete lines. -/

/-- No run of more than 16 hexadecimal digits. -/
def runs : Nat → Str → Bool
  | _, [] => true
  | k, c :: s => if (digitValue c).isSome then decide (k < 16) && runs (k + 1) s else runs 0 s

theorem runs_digits : ∀ (ds r : Str) (k : Nat), (∀ x ∈ ds, (digitValue x).isSome = true) → runs k (ds ++ r) = true →
    ds ≠ [] → k + ds.length ≤ 16
  | [], _, _, _, _, h => absurd rfl h
  | [c], r, k, hd, h, _ => by
    rw [List.cons_append, runs, if_pos (hd c (by simp))] at h
    simp only [Bool.and_eq_true, decide_eq_true_eq] at h
    simp; omega
  | c :: d :: ds, r, k, hd, h, _ => by
    rw [List.cons_append, runs, if_pos (hd c (by simp))] at h
    simp only [Bool.and_eq_true, decide_eq_true_eq] at h
    have := runs_digits (d :: ds) r (k + 1) (fun x hx => hd x (by simp at hx ⊢; tauto)) h.2 (by simp)
    simp at this ⊢; omega

theorem runs_drop : ∀ (p s : Str) (k : Nat), runs k (p ++ s) = true → ∃ k', runs k' s = true
  | [], s, k, h => ⟨k, h⟩
  | c :: p, s, k, h => by
    rw [List.cons_append, runs] at h
    split_ifs at h
    · rw [Bool.and_eq_true] at h; exact runs_drop p s _ h.2
    · exact runs_drop p s _ h

theorem positional_lt {b : Nat} (hb : b ≤ 16) : ∀ (ds : Str), (∀ x ∈ ds, IsDigitOf b x) → positional b ds < 16 ^ ds.length := by
  intro ds
  unfold positional
  suffices H : ∀ (ds : Str) (n k : Nat), n < 16 ^ k → (∀ x ∈ ds, IsDigitOf b x) →
      ds.foldl (fun n c => n * b + (digitValue c).getD 0) n < 16 ^ (k + ds.length) by
    intro hd
    have := H ds 0 0 (by simp) hd
    simpa using this
  intro ds
  induction ds with
  | nil => intro n k h _; simpa using h
  | cons c ds ih =>
    intro n k h hd
    obtain ⟨v, hv, hlt⟩ := hd c (by simp)
    have : n * b + (digitValue c).getD 0 < 16 ^ (k + 1) := by
      rw [hv, Option.getD_some, pow_succ]
      calc n * b + v < n * b + b := by omega
        _ = (n + 1) * b := by ring
        _ ≤ 16 ^ k * 16 := Nat.mul_le_mul h hb
    have := ih _ (k + 1) this fun x hx => hd x (by simp [hx])
    rw [List.foldl_cons, List.length_cons, show k + (ds.length + 1) = k + 1 + ds.length by omega]
    exact this

theorem hugeFree_of_runs {line : List Byte} (h : runs 0 (code line) = true) : HugeFree line := by
  intro p ds r hc
  have key : ∀ b, b ≤ 16 → (∀ x ∈ ds, IsDigitOf b x) → positional b ds < 2 ^ 64 := by
    intro b hb hd
    have h1 := positional_lt hb ds hd
    have h2 : ds.length ≤ 16 := by
      by_cases he : ds = []
      · subst he; simp
      · rw [hc, List.append_assoc] at h
        obtain ⟨k', hk⟩ := runs_drop p (ds ++ r) 0 h
        have := runs_digits ds r k' (fun x hx => by obtain ⟨v, hv, _⟩ := hd x hx; rw [hv]; rfl) hk he
        omega
    calc positional b ds < 16 ^ ds.length := h1
      _ ≤ 16 ^ 16 := Nat.pow_le_pow_right (by omega) h2
      _ = 2 ^ 64 := by norm_num
  exact ⟨fun _ hd => key 16 (by omega) hd, fun _ hd => key 2 (by omega) hd, fun _ hd => key 10 (by omega) hd⟩

/-- The lexemes of a concrete line, by evaluation. -/
theorem lexes_eval {line : List Byte} {ls : List (Nat × Lexeme)} (h : runs 0 (code line) = true) (hl : lexemes line = .ok ls) :
    Lexes line ls := (lexemes_sound (hugeFree_of_runs h) hl).1

/-- A concrete line is a statement, by evaluation. -/
def lineStmt (l : List Byte) : Option Stmt :=
  if runs 0 (code l) = true then
    match lexemes l with
    | .ok ls => parse (ls.map (·.2))
    | .error _ => none
  else none

theorem lineStmt_some {l : List Byte} {st : Stmt} (h : lineStmt l = some st) :
    ∃ x, Lexes l x ∧ parse (x.map (·.2)) = some st := by
  unfold lineStmt at h
  split_ifs at h with hr
  cases hl : lexemes l with
  | error f => rw [hl] at h; cases h
  | ok ls => rw [hl] at h; exact ⟨ls, lexes_eval hr hl, h⟩

/-- The statements of a concrete text, by evaluation. -/
def linesStmts : List (List Byte) → Option (List Stmt)
  | [] => some []
  | l :: ls =>
    match lineStmt l with
    | none => none
    | some .stop => some [.stop]
    | some st => (linesStmts ls).map (st :: ·)

theorem reads_eval : ∀ {ls : List (List Byte)} {p : List Stmt}, linesStmts ls = some p → Reads ls p
  | [], p, h => by
    obtain rfl : [] = p := by simpa [linesStmts] using h
    exact .nil
  | l :: ls, p, h => by
    unfold linesStmts at h
    cases hl : lineStmt l with
    | none => rw [hl] at h; cases h
    | some st =>
      obtain ⟨x, h1, h2⟩ := lineStmt_some hl
      rw [hl] at h
      by_cases hst : st = .stop
      · subst hst
        obtain rfl : [Stmt.stop] = p := by simpa using h
        exact .stop l ls x h1 h2
      · have h' : (linesStmts ls).map (st :: ·) = some p := by
          cases st <;> first | exact absurd rfl hst | exact h
        obtain ⟨q, hq, rfl⟩ := Option.map_eq_some_iff.1 h'
        exact .cons l ls x st q h1 h2 hst (reads_eval hq)

instance (st : Stmt) : Decidable (IndexedJump st) := by unfold IndexedJump; infer_instance

/-- A check for `NoForwardIndexedJump`. -/
def fwdFree : List Str → List Stmt → Bool
  | _, [] => true
  | ls, st :: p =>
    (match st.jumpsIndexed with
      | some l => (st.defines.toList ++ ls).contains l
      | none => true) && fwdFree (st.defines.toList ++ ls) p

theorem noForward_eval {p : List Stmt} (h : fwdFree [] p = true) : NoForwardIndexedJump p := by
  have key : ∀ (p : List Stmt) (ls : List Str), fwdFree ls p = true → ∀ before st after l, p = before ++ st :: after →
      st.jumpsIndexed = some l → l ∈ ls ∨ ∃ d ∈ before ++ [st], d.defines = some l := by
    intro p
    induction p with
    | nil => intro ls _ before st after l he; simp at he
    | cons s p ih =>
      intro ls hf before st after l he hl
      simp only [fwdFree, Bool.and_eq_true] at hf
      cases before with
      | nil =>
        obtain ⟨rfl, rfl⟩ : s = st ∧ p = after := by simpa using he
        rw [hl] at hf
        have := hf.1
        simp only [List.contains_eq_mem, List.mem_append, Option.mem_toList, decide_eq_true_eq] at this
        rcases this with h1 | h1
        · exact .inr ⟨s, by simp, h1⟩
        · exact .inl h1
      | cons b before =>
        obtain ⟨rfl, rfl⟩ : s = b ∧ p = before ++ st :: after := by simpa using he
        rcases ih _ hf.2 before st after l rfl hl with h1 | ⟨d, h1, h2⟩
        · simp only [List.mem_append, Option.mem_toList] at h1
          rcases h1 with h1 | h1
          · exact .inr ⟨s, by simp, h1⟩
          · exact .inl h1
        · exact .inr ⟨d, by simp only [List.cons_append, List.mem_cons]; exact .inr h1, h2⟩
  intro before st after l he hl
  rcases key p [] h before st after l he hl with h1 | h1
  · cases h1
  · exact h1

/-- A concrete source is a program, by evaluation. -/
theorem isProgram_eval {src : List Byte} {p : List Stmt} (h1 : Sized src) (h2 : ∀ l ∈ lines src, l.length ≤ 126)
    (h3 : linesStmts (lines src) = some p) (h4 : ∀ st ∈ p, ¬ IndexedJump st) : IsProgram src p :=
  ⟨h1, h2, reads_eval h3, noForward_of h4⟩

example : IsProgram (b! "L: LDA #$10
 JMP L
") [.instr (some (b! "L")) .LDA (.imm (.lit 16)), .instr none .JMP (.plain (.sym (b! "L")))] :=
  isProgram_eval (by decide) (by decide +kernel) (by decide +kernel) (by decide)

instance (s : Str) : Decidable (Blanks s) := by unfold Blanks; infer_instance
instance (s : Str) : Decidable (Delimited s) :=
  match s with
  | [] => isTrue (.inl rfl)
  | c :: r =>
    if h : c = 32 ∨ c = 9 ∨ c = 44 ∨ c = 40 ∨ c = 41 then isTrue (.inr ⟨c, r, rfl, h⟩)
    else isFalse (by rintro (h' | ⟨d, q, h', hd⟩)
                     · cases h'
                     · cases h'; exact h hd)
instance (s : Str) : Decidable (NoLeadingBlank s) :=
  match s with
  | [] => isTrue (by intro c r h; cases h)
  | c :: r =>
    if h : c ≠ 32 ∧ c ≠ 9 then isTrue (by intro d q h'; cases h'; exact h)
    else isFalse (fun h' => h (h' c r rfl))
instance (b : Nat) (c : Byte) : Decidable (IsDigitOf b c) := decidable_of_iff _ (isDig_iff b c)
instance (s : Str) : Decidable (HeadSmall s) := by unfold HeadSmall; infer_instance

/-- The first `n` lexemes of a concrete text, by evaluation. -/
def beginsEval : (n : Nat) → Bool → (off : Nat) → Str → Option (List (Nat × Lexeme) × Nat × Str)
  | 0, _, off, s => some ([], off, s)
  | n + 1, first, off, s =>
    if s ≠ [] ∧ HeadSmall s then
      match lexOne s with
      | .error _ => none
      | .ok (k, x) =>
        if rd (s.drop k) = 58 ∧ x.isPunct = false then
          if first = true ∧ isName x = true then
            (beginsEval n false (skipBlanks (off + k + 1) (s.drop k).tail).1 (skipBlanks (off + k + 1) (s.drop k).tail).2).map
              fun q => ((off, x) :: q.1, q.2)
          else none
        else
          if x.isPunct = true ∨ Delimited (s.drop k) then
            (beginsEval n false (skipBlanks (off + k) (s.drop k)).1 (skipBlanks (off + k) (s.drop k)).2).map
              fun q => ((off, x) :: q.1, q.2)
          else none
    else none

theorem skipBlanks_split (off : Nat) (s : Str) : ∃ bl, s = bl ++ (skipBlanks off s).2 ∧ (skipBlanks off s).1 = off + bl.length ∧
    Blanks bl ∧ NoLeadingBlank (skipBlanks off s).2 := by
  obtain ⟨bl, h1, h2, h3, h4⟩ := skipBlanks_spec off s
  refine ⟨bl, h1, h2, fun c hc => (isBlank_iff c).1 (h3 c hc), fun c r h => ?_⟩
  have := h4 c r h
  constructor <;> rintro rfl <;> revert this <;> decide

theorem beginsEval_sound : ∀ (n : Nat) (first : Bool) (off : Nat) (s : Str) (ls : List (Nat × Lexeme)) (off' : Nat) (s' : Str),
    beginsEval n first off s = some (ls, off', s') → Begins first off s ls off' s'
  | 0, first, off, s, ls, off', s', h => by
    obtain ⟨rfl, rfl, rfl⟩ : [] = ls ∧ off = off' ∧ s = s' := by simpa [beginsEval] using h
    exact .done _ _ _
  | n + 1, first, off, s, ls, off', s', h => by
    unfold beginsEval at h
    split_ifs at h with h0
    cases hx : lexOne s with
    | error f => rw [hx] at h; cases h
    | ok q =>
      obtain ⟨k, x⟩ := q
      rw [hx] at h
      have hsp := (lexOne_spell h0.1 h0.2 hx).1
      have hlen := (lexOne_len h0.1 hx).2
      have htk : (s.take k).length = k := by rw [List.length_take]; omega
      simp only at h
      split_ifs at h with h1 h2 h3
      · obtain ⟨q, hq, he⟩ := Option.map_eq_some_iff.1 h
        obtain ⟨rfl, rfl, rfl⟩ : (off, x) :: q.1 = ls ∧ q.2.1 = off' ∧ q.2.2 = s' := by
          simpa [Prod.ext_iff] using he
        obtain ⟨bl, b1, b2, b3, b4⟩ := skipBlanks_split (off + k + 1) (s.drop k).tail
        have ih := beginsEval_sound n _ _ _ _ _ _ hq
        cases x with
        | name l =>
          obtain rfl : first = true := h2.1
          have hs : s = s.take k ++ 58 :: bl ++ (skipBlanks (off + k + 1) (s.drop k).tail).2 := by
            conv_lhs => rw [← List.take_append_drop k s]
            rw [List.append_assoc, List.cons_append, ← b1, ← rd_colon_cons h1.1]
          rw [b2] at ih
          have := Begins.colon off (s.take k) bl _ l _ _ _ hsp b3 b4 (by rw [htk]; exact ih)
          rw [← hs] at this
          exact this
        | _ => simp [isName] at h2
      · obtain ⟨q, hq, he⟩ := Option.map_eq_some_iff.1 h
        obtain ⟨rfl, rfl, rfl⟩ : (off, x) :: q.1 = ls ∧ q.2.1 = off' ∧ q.2.2 = s' := by
          simpa [Prod.ext_iff] using he
        obtain ⟨bl, b1, b2, b3, b4⟩ := skipBlanks_split (off + k) (s.drop k)
        have ih := beginsEval_sound n _ _ _ _ _ _ hq
        have hs : s = s.take k ++ bl ++ (skipBlanks (off + k) (s.drop k)).2 := by
          conv_lhs => rw [← List.take_append_drop k s]
          rw [List.append_assoc, ← b1]
        rw [b2] at ih
        have := Begins.cons first off (s.take k) bl _ x _ _ _ hsp (by rw [← b1]; exact h3) b3 b4 (by rw [htk]; exact ih)
        rw [← hs] at this
        exact this

/-- The beginning of a concrete line, by evaluation. -/
theorem lineBegins_eval {line : List Byte} {ls : List (Nat × Lexeme)} {off : Nat} {s : Str} (n : Nat)
    (h : beginsEval n true (skipBlanks 0 (code line)).1 (skipBlanks 0 (code line)).2 = some (ls, off, s)) :
    LineBegins line ls off s := by
  obtain ⟨bl, b1, b2, b3, b4⟩ := skipBlanks_split 0 (code line)
  refine ⟨bl, _, b1, b3, b4, ?_⟩
  have := beginsEval_sound n _ _ _ _ _ _ h
  rw [b2, Nat.zero_add] at this
  exact this

/-- What a concrete source does, by evaluation. -/
theorem demo_succeeds {src bin : List Byte} {total symbols : Nat}
    (h : (match assembleBytes (b! "p.asm") src with
      | .ok st => some (st.out.bytes, st.total, st.symtab.count)
      | _ => none) = some (bin, total, symbols)) : Succeeds (demo src) (b! "p.asm") (b! "p.bin") bin total symbols := by
  cases hst : assembleBytes (b! "p.asm") src with
  | ok st =>
    rw [hst] at h
    have h' := Prod.mk.inj (Option.some.inj h)
    have h'' := Prod.mk.inj h'.2
    have := succeeds_of (demo_setup src) hst
    rw [h'.1, h''.1, h''.2] at this
    exact this
  | err a => rw [hst] at h; cases h
  | ub u => rw [hst] at h; cases h

end Gaia

import Verif.Proofs.Whole
import Verif.Proofs.LexFault3
import Verif.Proofs.SynFault

/-! Sources with a line that is no statement. -/
set_option linter.unusedSimpArgs false
namespace Gaia
open Spec

theorem badToken_le {s : Str} {e : Err} {k : Nat} (h : BadToken s e k) : k ≤ s.length := by
  cases h with
  | literalEmpty pre b r hp hne =>
    cases pre with
    | nil => exact absurd rfl hne
    | cons => simp only [List.length_append, List.length_cons]; omega
  | _ => simp <;> omega

theorem lineBegins_length {l : List Byte} {ls : List (Nat × Lexeme)} {off : Nat} {s : Str} (h : LineBegins l ls off s) :
    off + s.length = (Spec.code l).length := by
  obtain ⟨bl, u, h1, _, _, h4⟩ := h
  obtain ⟨p, rfl, rfl⟩ := begins_suffix h4
  rw [h1]; simp; omega

theorem lexFault_le {l : List Byte} {e : Err} {pos : Nat} (h : LexFault l e pos) : pos ≤ (Spec.code l).length := by
  cases h with
  | token ls off s e k hb _ ht =>
    have := badToken_le ht
    have := lineBegins_length hb
    omega
  | colon ls off t r hb =>
    have := lineBegins_length hb
    simp only [List.length_append, List.length_cons] at this
    omega

theorem BadLine_le {l : List Byte} {e : Err} {pos : Option Nat} (h : BadLine l e pos) : ∀ p, pos = some p → p ≤ (cstr l).length := by
  intro p hp
  cases h with
  | lexical e pos h =>
    obtain rfl : pos = p := by simpa using hp
    have := lexFault_le h
    have := code_le_cstr l
    omega
  | syntactic ls e i hl h8 h hj =>
    obtain ⟨q, hq, rfl⟩ := Option.map_eq_some_iff.1 hp
    exact Lexes_offset hl q (List.mem_of_getElem? hq)

theorem lexemes_buffers {raw l : List Byte} (h : Buffers raw l) : lexemes raw = lexemes l := by
  rw [lexemes_code, lexemes_code, h.code]

/-- A line that is no statement stops the machine. -/
theorem line_bad {raw l : List Byte} (hb : Buffers raw l) {e : Err} {pos : Option Nat} (hh : e = .tooBigLiteral → HugeFree l) (h : BadLine l e pos) (fn : Str) (a : A) :
    line fn raw a = .error ⟨⟨e, diag (cstr l) e pos fn a.lineNum⟩, a.out⟩ := by
  have hd := fun n => diag_buffers hb e pos fn n (BadLine_le h)
  unfold line
  rw [lexemes_buffers hb]
  cases h with
  | lexical e pos h =>
    rw [lexFault_complete hh h]
    simp only [faultAt, hd]
  | syntactic ls e i hl h8 h hj =>
    rw [lexemes_complete hl, if_pos h8]
    simp only [(syn_error_iff _ _ _).2 ⟨h, hj⟩, faultAt]
    rw [show posAt ls i = ls[i]?.map (·.1) from rfl, hd]

theorem forall₂_append_right {α β} {R : α → β → Prop} {l : List α} {m₁ m₂ : List β} (h : List.Forall₂ R l (m₁ ++ m₂)) :
    ∃ l₁ l₂, l = l₁ ++ l₂ ∧ List.Forall₂ R l₁ m₁ ∧ List.Forall₂ R l₂ m₂ := by
  induction m₁ generalizing l with
  | nil => exact ⟨[], l, rfl, .nil, h⟩
  | cons b m₁ ih =>
    cases h with
    | cons hab ht =>
      obtain ⟨l₁, l₂, rfl, h1, h2⟩ := ih ht
      exact ⟨_ :: l₁, l₂, rfl, .cons hab h1, h2⟩

theorem Reads_length {ls : List (List Byte)} {p : List Stmt} (h : Reads ls p) (hs : .stop ∉ p) : ls.length = p.length := by
  induction h with
  | nil => rfl
  | stop => simp at hs
  | cons l rest x st p _ _ _ _ ih =>
    simp only [List.length_cons]
    rw [ih (fun h => hs (by simp [h]))]

/-- The machine on a source that starts with the lines of a program. -/
theorem assembleA_continues {src : List Byte} {p : List Stmt} {l : List Byte} {rest : List (List Byte)}
    (h : Continues src p l rest) (fn : Str) :
    (∀ k e, firstFault p 1 .init = some (k, e) → ∃ raw ls out, (chunks src)[k - 1]? = some raw ∧ Lexes raw ls ∧
      assembleA fn src = .error ⟨⟨e, diag (cstr raw) e (faultPos ls e) fn k⟩, out⟩) ∧
    (firstFault p 1 .init = none → ∃ raw tail s a, Buffers raw l ∧ pass1 p .init = some s ∧
      Inv (chunks src) (p.length + 1) s (placed p 1 .init) a ∧
      runLines fn (chunks src) A.init = runLines fn (raw :: tail) a) := by
  obtain ⟨pre, hsp, hr⟩ := h.splits
  have hb := chunks_lines src h.short
  rw [hsp] at hb
  obtain ⟨rpre, rtail, hc, hb1, hb2⟩ := forall₂_append_right hb
  cases hb2 with
  | @cons raw _ tail _ hraw _ =>
    obtain ⟨g1, g2⟩ := run_spec fn (chunks src) (raw :: tail) rpre p (Reads_buffers hb1 hr) 1 .init [] A.init (Inv_init _)
      (Nat.le_refl _) (by simpa using hc) (fun b t c l h1 h2 => .inl (h.noForwardJump b t c l h1 h2))
    rw [← hc] at g1 g2
    constructor
    · intro k e he
      obtain ⟨raw', ls, out, k1, k2, k3, _⟩ := g1 k e he
      exact ⟨raw', ls, out, k1, k2, by unfold assembleA; rw [k3]⟩
    · intro he
      obtain ⟨s, a, n', k1, k2, k3⟩ := g2 he
      rcases k3 with ⟨k3, _⟩ | ⟨_, k4, k5⟩
      · exact absurd k3 h.noStop
      · refine ⟨raw, tail, s, a, hraw, k1, ?_, k5⟩
        rw [k4, Nat.add_comm, List.nil_append] at k2
        exact k2

/-- **The first error wins**: the first faulty statement is reported, whatever comes later. -/
theorem run_first_fault {w : World} {srcName outName : Str} {src : List Byte} {p : List Stmt} {l : List Byte} {rest : List (List Byte)}
    (hw : Setup w srcName outName src) (h : Continues src p l rest) {k : Nat} {e : Err} (he : firstFault p 1 .init = some (k, e)) :
    ∃ l x, (lines src)[k - 1]? = some l ∧ Lexes l x ∧ FailsAt w srcName outName src k e (faultPos x e) := by
  obtain ⟨raw, ls, out, h1, h2, h3⟩ := (assembleA_continues h srcName).1 k e he
  obtain ⟨l, k1, k2⟩ := forall₂_get (chunks_lines src h.short) h1
  have hs := assemble_sim srcName src h.size
  rw [h3] at hs
  have hl := (k2.lexes ls).1 h2
  simp only at hs
  rw [diag_buffers k2 e (faultPos ls e) srcName k (fun q hq => by
    obtain ⟨x, hx⟩ := faultPos_mem hq
    exact Lexes_offset hl _ hx)] at hs
  exact ⟨l, ls, k1, hl, l, firstFault_line _ _ _ he, k1, fails_of hw hs⟩

/-- **A line that is no statement**, after faultless statements, is reported. -/
theorem run_bad_line {w : World} {srcName outName : Str} {src : List Byte} {p : List Stmt} {l : List Byte} {rest : List (List Byte)}
    (hw : Setup w srcName outName src) (h : Continues src p l rest) (he : firstFault p 1 .init = none)
    {e : Err} {pos : Option Nat} (hh : e = .tooBigLiteral → HugeFree l) (hb : BadLine l e pos) : FailsAt w srcName outName src (p.length + 1) e pos := by
  obtain ⟨raw, tail, s, a, h1, h2, h3, h4⟩ := (assembleA_continues h srcName).2 he
  have hl := line_bad h1 hh hb srcName a
  rw [h3.line] at hl
  have hA : assembleA srcName src = .error ⟨⟨e, diag (cstr l) e pos srcName (p.length + 1)⟩, a.out⟩ := by
    unfold assembleA
    rw [h4, runLines, hl]
  have hs := assemble_sim srcName src h.size
  rw [hA] at hs
  obtain ⟨pre, hsp, hr⟩ := h.splits
  refine ⟨l, by omega, ?_, fails_of hw hs⟩
  rw [hsp, Nat.add_sub_cancel, ← Reads_length hr h.noStop]
  simp

/-- **A line of more than eight tokens** stops gaia without any message. -/
theorem run_too_many {w : World} {srcName outName : Str} {src : List Byte} {p : List Stmt} {l : List Byte} {rest : List (List Byte)}
    (hw : Setup w srcName outName src) (h : Continues src p l rest) (he : firstFault p 1 .init = none) (hb : TooMany l) :
    FailsPrinting w srcName outName [] := by
  obtain ⟨raw, tail, s, a, h1, h2, h3, h4⟩ := (assembleA_continues h srcName).2 he
  have hA : assembleA srcName src = .error ⟨⟨.tooManyTokens, []⟩, a.out⟩ := by
    unfold assembleA
    rw [h4, runLines]
    unfold line
    rw [lexemes_buffers h1, tooMany_complete hb]
  have hs := assemble_sim srcName src h.size
  rw [hA] at hs
  exact fails_of hw hs

/-- What a line can be. -/
theorem line_cases (l : List Byte) (hh : HugeFree l) :
    (∃ x st, Lexes l x ∧ parse (x.map (·.2)) = some st) ∨ (∃ e pos, BadLine l e pos) ∨ TooMany l ∨
    (∃ x, Lexes l x ∧ x.length ≤ 8 ∧ LineJunk (x.map (·.2))) := by
  cases hx : lexemes l with
  | error f =>
    cases f with
    | «at» e pos => exact .inr (.inl ⟨e, _, .lexical e pos (lexFault_sound hh hx)⟩)
    | tooMany => exact .inr (.inr (.inl (tooMany_sound hh hx)))
  | ok x =>
    obtain ⟨h1, h2⟩ := lexemes_sound hh hx
    cases hs : syn (typeAt (x.map (·.2))) with
    | ok u =>
      rcases (syn_ok_iff _).1 hs with h | h
      · obtain ⟨st, hst⟩ := Option.isSome_iff_exists.1 h
        exact .inl ⟨x, st, h1, hst⟩
      · exact .inr (.inr (.inr ⟨x, h1, h2, h⟩))
    | error q =>
      obtain ⟨i, e⟩ := q
      obtain ⟨h3, h4⟩ := syn_fault hs
      exact .inr (.inl ⟨e, _, .syntactic x e i h1 h2 h3 h4⟩)

/-- Every list of lines is a program, or a program without `.END` followed by a line that is no statement. -/
theorem lines_cases : ∀ (ls : List (List Byte)), (∀ l ∈ ls, HugeFree l) →
    (∃ p, Reads ls p) ∨ ∃ pre l rest p, ls = pre ++ l :: rest ∧ Reads pre p ∧ .stop ∉ p ∧
      ((∃ e pos, BadLine l e pos) ∨ TooMany l ∨ ∃ x, Lexes l x ∧ x.length ≤ 8 ∧ LineJunk (x.map (·.2)))
  | [], _ => .inl ⟨[], .nil⟩
  | l :: ls, hh => by
    rcases line_cases l (hh l (by simp)) with ⟨x, st, h1, h2⟩ | h
    · by_cases hst : st = .stop
      · subst hst
        exact .inl ⟨_, .stop l ls x h1 h2⟩
      · rcases lines_cases ls (fun y hy => hh y (by simp [hy])) with ⟨p, hp⟩ | ⟨pre, l', rest, p, rfl, h3, h4, h5⟩
        · exact .inl ⟨_, .cons l ls x st p h1 h2 hst hp⟩
        · refine .inr ⟨l :: pre, l', rest, st :: p, rfl, .cons l pre x st p h1 h2 hst h3, ?_, h5⟩
          simp only [List.mem_cons, not_or]
          exact ⟨fun h => hst h.symm, h4⟩
    · exact .inr ⟨[], l, ls, [], rfl, .nil, by simp, h⟩

end Gaia

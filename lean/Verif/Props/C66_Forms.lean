import Verif.Props.C63_Origins

/-!
C66: lines that are the same statement are interchangeable: the three ways to define a constant, the two ways to set the origin.
-/
namespace Gaia.Spec
open Gaia

/-- The lines are the same, or they are the same statement in different forms. -/
def SameStatement (l l' : List Byte) : Prop :=
  l = l' ∨ ∃ x x' st, Lexes l x ∧ Lexes l' x' ∧ parse (x.map (·.2)) = some st ∧ parse (x'.map (·.2)) = some st

/-- Both texts are empty, or both are diagnostics with the same message for lines of the same number. -/
def MessageAlike (fn : Str) (text text' : Str) : Prop :=
  (text = [] ∧ text' = []) ∨ ∃ l l' e p p' k, text = diag l e p fn k ∧ text' = diag l' e p' fn k

end Gaia.Spec

namespace Gaia
open Spec Spec.Reference

namespace Forms

theorem message {fn : Str} (l l' : Str) (e : Err) (p p' : Option Nat) {k k' : Nat} (h : k = k') :
    MessageAlike fn (diag l e p fn k) (diag l' e p' fn k') := .inr ⟨l, l', e, p, p', k, rfl, by rw [h]⟩

/-- References that differ in the text of their line only. -/
def LikeRef (r r' : Pending) : Prop :=
  r.line = r'.line ∧ r.label = r'.label ∧ r.addr = r'.addr ∧ r.mnemonic = r'.mnemonic ∧ r.opcode = r'.opcode

/-- States that differ in the text of the lines of references only. -/
structure Like (s s' : State) : Prop where
  pc : s.pc = s'.pc
  line : s.line = s'.line
  env : s.env = s'.env
  total : s.total = s'.total
  filePos : s.filePos = s'.filePos
  writes : s.writes = s'.writes
  pending : List.Forall₂ LikeRef s.pending s'.pending

theorem Like.refl (s : State) : Like s s :=
  ⟨rfl, rfl, rfl, rfl, rfl, rfl, List.forall₂_same.2 fun _ _ => ⟨rfl, rfl, rfl, rfl, rfl⟩⟩

/-- Both fail with the same error, or both succeed in like states. -/
def LikeF : Except Fault State → Except Fault State → Prop
  | .ok s, .ok s' => Like s s'
  | .error f, .error f' => f.1 = f'.1
  | _, _ => False

theorem Like.write {s s' : State} (h : Like s s') (bs : List Byte) : Like (s.write bs) (s'.write bs) := by
  refine ⟨?_, h.line, h.env, ?_, ?_, ?_, h.pending⟩ <;> simp [State.write, h.pc, h.total, h.writes]

theorem defineLabel_like {s s' : State} (h : Like s s') (ls ls' : List (Nat × Lexeme)) (l : Str) (v : Nat) :
    LikeF (defineLabel ls l v s) (defineLabel ls' l v s') := by
  unfold defineLabel
  rw [h.env]
  split
  · rfl
  · exact ⟨h.pc, h.line, rfl, h.total, h.filePos, h.writes, h.pending⟩

theorem instruction_like {s s' : State} (h : Like s s') (t t' : Str) (ls ls' : List (Nat × Lexeme)) (m : Mnemonic) (a : Arg) (odd : Bool) :
    LikeF (instruction t ls m a odd s) (instruction t' ls' m a odd s') := by
  unfold instruction
  rw [← h.env, ← h.pc]
  cases sizingValue s.env m a.opd with
  | none => rfl
  | some v =>
    dsimp only
    cases unknown s.env a.opd with
    | none =>
      dsimp only
      cases (if odd then none else modeFor m a v) with
      | none => rfl
      | some md =>
        dsimp only
        cases encodeLow s.env ⟨s.pc, m, md, a.opd⟩ with
        | none => rfl
        | some bs => exact h.write bs
    | some l =>
      dsimp only
      cases (if odd then none else forwardCode m a) with
      | none => rfl
      | some q =>
        refine Like.write ?_ _
        refine ⟨rfl, h.line, rfl, h.total, h.filePos, ?_, ?_⟩
        · simp only [h.writes, h.filePos]
        · exact List.rel_append h.pending (.cons ⟨h.line, rfl, rfl, rfl, rfl⟩ .nil)

theorem execute_like {s s' : State} (h : Like s s') (t t' : Str) (ls ls' : List (Nat × Lexeme)) (odd : Bool) (st : Stmt) :
    LikeF (execute t ls odd s st) (execute t' ls' odd s' st) := by
  unfold execute
  split
  · exact h
  · exact h
  · rw [h.pc]; exact defineLabel_like h ls ls' _ _
  · exact defineLabel_like h ls ls' _ _
  · exact ⟨rfl, h.line, h.env, h.total, h.filePos, h.writes, h.pending⟩
  · exact instruction_like h _ _ _ _ _ _ _
  · rename_i l m a
    have := defineLabel_like h ls ls' l s.pc
    rw [h.pc] at this ⊢
    cases h1 : defineLabel ls l s'.pc s <;> cases h2 : defineLabel ls' l s'.pc s' <;> rw [h1, h2] at this
    · exact this
    · exact this.elim
    · exact this.elim
    · exact instruction_like this _ _ _ _ _ _ _

/-- Pieces that stand for the same statement. -/
theorem sameStatement {l l' : List Byte} (h : SameStatement l l') :
    l = l' ∨ ∃ x x' st, lexemesOf l = .ok x ∧ lexemesOf l' = .ok x' ∧ statement (x.map (·.2)) = .ok (st, false) ∧
      statement (x'.map (·.2)) = .ok (st, false) := by
  rcases h with rfl | ⟨x, x', st, h1, h2, h3, h4⟩
  · exact .inl rfl
  · have key : ∀ {l : List Byte} {x : List (Nat × Lexeme)}, Lexes l x → parse (x.map (·.2)) = some st → lexemesOf l = .ok x := by
      intro l x hl hp
      have e := lexemes_complete hl
      have hlen := parse_length (ls := x.map (·.2)) (by rw [hp]; rfl)
      rw [List.length_map] at hlen
      rw [if_pos (by omega), ref_lexemes] at e
      cases hx : lexemesOf l with
      | error f => rw [hx] at e; cases e
      | ok y => rw [hx] at e; cases e; rfl
    exact .inr ⟨x, x', st, key h1 h3, key h2 h4, by simp only [statement, h3], by simp only [statement, h4]⟩

/-- Both runs fail with the same message and writes, or both succeed in like states. -/
def LikeR (fn : Str) : Except Failure State → Except Failure State → Prop
  | .ok s, .ok s' => Like s s'
  | .error f, .error f' => MessageAlike fn f.1 f'.1 ∧ f.2 = f'.2
  | _, _ => False

theorem runPieces_like (fn : Str) {P P' : List (List Byte)} (h : List.Forall₂ SameStatement P P') : ∀ {s s' : State}, Like s s' →
    LikeR fn (runPieces fn P s) (runPieces fn P' s') := by
  induction h with
  | nil => exact fun h => h
  | @cons p p' P P' hp _ ih =>
    intro s s' hs
    rw [Org.runPieces_cons, Org.runPieces_cons]
    have step : ∀ (x x' : List (Nat × Lexeme)) (st : Stmt) (odd : Bool), LikeR fn
        (match execute (p.takeWhile (· != 0)) x odd s st with
        | .error (e, pos) => .error (diag (p.takeWhile (· != 0)) e pos fn s.line, s.writes)
        | .ok s => if st = .stop then .ok s else runPieces fn P { s with line := s.line + 1 })
        (match execute (p'.takeWhile (· != 0)) x' odd s' st with
        | .error (e, pos) => .error (diag (p'.takeWhile (· != 0)) e pos fn s'.line, s'.writes)
        | .ok s => if st = .stop then .ok s else runPieces fn P' { s with line := s.line + 1 }) := by
      intro x x' st odd
      have := execute_like hs (p.takeWhile (· != 0)) (p'.takeWhile (· != 0)) x x' odd st
      cases h1 : execute (p.takeWhile (· != 0)) x odd s st <;> cases h2 : execute (p'.takeWhile (· != 0)) x' odd s' st <;>
        rw [h1, h2] at this
      · rename_i f f'
        obtain ⟨e, pos⟩ := f
        obtain ⟨e', pos'⟩ := f'
        cases (this : e = e')
        exact ⟨message _ _ e pos pos' hs.line, hs.writes⟩
      · exact this.elim
      · exact this.elim
      · dsimp only
        split
        · exact this
        · exact ih ⟨this.pc, congrArg (· + 1) this.line, this.env, this.total, this.filePos, this.writes, this.pending⟩
    rcases sameStatement hp with rfl | ⟨x, x', st, h1, h2, h3, h4⟩
    · cases h1 : lexemesOf p with
      | error f =>
        cases f with
        | «at» e pos => exact ⟨(message _ _ _ _ _ hs.line : MessageAlike fn (diag _ e (some pos) fn s.line) (diag _ e (some pos) fn s'.line)), hs.writes⟩
        | tooMany => exact ⟨.inl ⟨rfl, rfl⟩, hs.writes⟩
      | ok x =>
        dsimp only
        cases h2 : statement (x.map (·.2)) with
        | error f => exact ⟨message _ _ f.1 _ _ hs.line, hs.writes⟩
        | ok q => exact step x x q.1 q.2
    · rw [h1, h2]
      dsimp only
      rw [h3, h4]
      exact step x x' st false

/-- Both fail with the same message and writes, or both succeed with the same writes. -/
def LikeW (fn : Str) : Except Failure (List Chunk) → Except Failure (List Chunk) → Prop
  | .ok W, .ok W' => W = W'
  | .error f, .error f' => MessageAlike fn f.1 f'.1 ∧ f.2 = f'.2
  | _, _ => False

theorem resolve_like (fn : Str) (env : Env) {R R' : List Pending} (h : List.Forall₂ LikeRef R R') : ∀ W : List Chunk,
    LikeW fn (resolve fn env R W) (resolve fn env R' W) := by
  induction h with
  | nil => exact fun W => rfl
  | @cons r r' R R' hr _ ih =>
    intro W
    obtain ⟨h1, h2, h3, h4, h5⟩ := hr
    unfold resolve
    rw [← h1, ← h2, ← h3, ← h4, ← h5]
    cases List.lookup r.label env with
    | none => exact ⟨(message r.text r'.text .missingLabelDefinition (some r.pos) (some r'.pos) rfl :), rfl⟩
    | some v =>
      dsimp only
      split
      · cases branchByte r.addr v with
        | none => exact ⟨(message r.text r'.text .tooBigOffset (some r.pos) (some r'.pos) rfl :), rfl⟩
        | some b => exact ih _
      · exact ih _

end Forms

/-- **C66.** Two sources whose lines, as gaia reads them, correspond one by one, each pair being the same line or the same statement in
different forms: gaia succeeds on both, with the same output file and the same report, or fails on both, with the same output file and the
same message for the same line. Other lines may be wrong in any way. -/
theorem C66_statements {w w' : World} {srcName outName : Str} {src src' : List Byte}
    (hw : Setup w srcName outName src) (hw' : Setup w' srcName outName src') (hs : Sized src)
    (h : List.Forall₂ SameStatement (pieces src) (pieces src')) :
    (∃ bin total symbols, Succeeds w srcName outName bin total symbols ∧ Succeeds w' srcName outName bin total symbols) ∨
    ∃ text text' bin, FailsLeaving w srcName outName text bin ∧ FailsLeaving w' srcName outName text' bin ∧ MessageAlike srcName text text' := by
  have hs' : Sized src' := by unfold Sized at hs ⊢; rw [← h.length_eq]; exact hs
  have key := Forms.runPieces_like srcName h (Forms.Like.refl .init)
  cases h1 : runPieces srcName (pieces src) .init <;> cases h2 : runPieces srcName (pieces src') .init <;> rw [h1, h2] at key
  · rename_i f f'
    obtain ⟨t, W⟩ := f
    obtain ⟨t', W'⟩ := f'
    obtain ⟨k1, k2⟩ := key
    cases (k2 : W = W')
    exact .inr ⟨t, t', image W, (C57_failure hw hs _ _).2 ⟨W, rfl, .inl h1⟩, (C57_failure hw' hs' _ _).2 ⟨W, rfl, .inl h2⟩, k1⟩
  · exact key.elim
  · exact key.elim
  · rename_i s s'
    have kw := Forms.resolve_like srcName s.env key.pending s.writes
    rw [key.env, key.writes] at kw
    have e1 : resolve srcName s.env s.pending s.writes = resolve srcName s'.env s.pending s'.writes := by rw [key.env, key.writes]
    cases g1 : resolve srcName s'.env s.pending s'.writes <;> cases g2 : resolve srcName s'.env s'.pending s'.writes <;> rw [g1, g2] at kw
    · rename_i f f'
      obtain ⟨t, W⟩ := f
      obtain ⟨t', W'⟩ := f'
      obtain ⟨k1, k2⟩ := kw
      cases (k2 : W = W')
      exact .inr ⟨t, t', image W, (C57_failure hw hs _ _).2 ⟨W, rfl, .inr ⟨s, h1, e1.trans g1⟩⟩,
        (C57_failure hw' hs' _ _).2 ⟨W, rfl, .inr ⟨s', h2, g2⟩⟩, k1⟩
    · exact kw.elim
    · exact kw.elim
    · rename_i W W'
      cases (kw : W = W')
      exact .inl ⟨_, _, _, (C57_success hw hs _ _ _).2 ⟨s, W, h1, e1.trans g1, rfl, rfl, rfl⟩,
        (C57_success hw' hs' _ _ _).2 ⟨s', W, h2, g2, rfl, by rw [key.total], by rw [key.env]⟩⟩

/-- **C66, constants.** `.DEFINE name value`, `name .EQU value` and `name = value` are the same statement. -/
theorem C66_constants {l l' : List Byte} {x x' : List (Nat × Lexeme)} (h : Lexes l x) (h' : Lexes l' x') {n : Str} {v : Nat}
    (hx : x.map (·.2) ∈ [[.define, .name n, .lit v], [.name n, .equ, .lit v], [.name n, .eq, .lit v]])
    (hx' : x'.map (·.2) ∈ [[.define, .name n, .lit v], [.name n, .equ, .lit v], [.name n, .eq, .lit v]]) : SameStatement l l' := by
  have key : ∀ y : List Lexeme, y ∈ [[Lexeme.define, .name n, .lit v], [.name n, .equ, .lit v], [.name n, .eq, .lit v]] →
      parse y = some (.const n v) := by
    intro y hy
    simp only [List.mem_cons, List.not_mem_nil, or_false] at hy
    rcases hy with rfl | rfl | rfl <;> rfl
  exact .inr ⟨x, x', _, h, h', key _ hx, key _ hx'⟩

/-- **C66, origins.** `.ORG value` and `* = value` are the same statement. -/
theorem C66_origins {l l' : List Byte} {x x' : List (Nat × Lexeme)} (h : Lexes l x) (h' : Lexes l' x') {v : Nat}
    (hx : x.map (·.2) ∈ [[.org, .lit v], [.star, .eq, .lit v]])
    (hx' : x'.map (·.2) ∈ [[.org, .lit v], [.star, .eq, .lit v]]) : SameStatement l l' := by
  have key : ∀ y : List Lexeme, y ∈ [[Lexeme.org, .lit v], [.star, .eq, .lit v]] → parse y = some (.org v) := by
    intro y hy
    simp only [List.mem_cons, List.not_mem_nil, or_false] at hy
    rcases hy with rfl | rfl <;> rfl
  exact .inr ⟨x, x', _, h, h', key _ hx, key _ hx'⟩

/-- **C66, the meaning of these lines.** A program with such a line: the constant is the value, whichever form is used; there are no other forms. -/
theorem C66_all_forms (ls : List Lexeme) :
    (∀ n v, parse ls = some (.const n v) ↔ ls ∈ [[Lexeme.define, .name n, .lit v], [.name n, .equ, .lit v], [.name n, .eq, .lit v]]) ∧
    (∀ v, parse ls = some (.org v) ↔ ls ∈ [[Lexeme.org, .lit v], [.star, .eq, .lit v]]) ∧
    (parse ls = some .stop ↔ ls = [.stop]) ∧ (parse ls = some .empty ↔ ls = []) ∧ (∀ n, parse ls = some (.label n) ↔ ls = [.name n]) := by
  have hm : ∀ (o : Option Str) (m : Mnemonic) (a : List Lexeme) (st : Stmt), (∀ a', st ≠ .instr o m a') → (parseArg a).map (Stmt.instr o m) ≠ some st := by
    intro o m a st h e
    cases h1 : parseArg a with
    | none => rw [h1] at e; cases e
    | some a' => rw [h1] at e; cases e; exact h a' rfl
  refine ⟨fun n v => ?_, fun v => ?_, ?_, ?_, fun n => ?_⟩ <;>
  · constructor
    · intro h
      unfold parse at h
      split at h <;> first | (cases h; done) | (exact absurd h (hm _ _ _ _ (by simp))) | (cases h; simp)
    · intro h
      try simp only [List.mem_cons, List.not_mem_nil, or_false] at h
      rcases h with rfl | rfl | rfl <;> rfl

/-! ### Cases -/

example : SameStatement (b! "K =16 ; size\n") (b! "\t.define k $10\n") ∧ SameStatement (b! "K: .EQU %10000\n") (b! "k = 16\n") ∧
    SameStatement (b! ".org $c000\n") (b! "*=49152\n") := by
  refine ⟨C66_constants (n := b! "K") (v := 16) (x := [(0, .name (b! "K")), (2, .eq), (3, .lit 16)]) (x' := [(1, .define), (9, .name (b! "K")), (11, .lit 16)])
      (lexes_eval (by decide +kernel) (by decide +kernel)) (lexes_eval (by decide +kernel) (by decide +kernel)) (by decide +kernel) (by decide +kernel),
    C66_constants (n := b! "K") (v := 16) (x := [(0, .name (b! "K")), (3, .equ), (8, .lit 16)]) (x' := [(0, .name (b! "K")), (2, .eq), (4, .lit 16)])
      (lexes_eval (by decide +kernel) (by decide +kernel)) (lexes_eval (by decide +kernel) (by decide +kernel)) (by decide +kernel) (by decide +kernel),
    C66_origins (v := 49152) (x := [(0, .org), (5, .lit 49152)]) (x' := [(0, .star), (1, .eq), (2, .lit 49152)])
      (lexes_eval (by decide +kernel) (by decide +kernel)) (lexes_eval (by decide +kernel) (by decide +kernel)) (by decide +kernel) (by decide +kernel)⟩

/-- A program, valid up to the redefinition in its last line, in two forms. -/
example : (∃ bin total symbols, Succeeds (demo (b! "K =16 ; size\n JMP M\nM LDA K\nK\n")) (b! "p.asm") (b! "p.bin") bin total symbols ∧
      Succeeds (demo (b! "\t.define k $10\n JMP M\nM LDA K\nK\n")) (b! "p.asm") (b! "p.bin") bin total symbols) ∨
    ∃ text text' bin, FailsLeaving (demo (b! "K =16 ; size\n JMP M\nM LDA K\nK\n")) (b! "p.asm") (b! "p.bin") text bin ∧
      FailsLeaving (demo (b! "\t.define k $10\n JMP M\nM LDA K\nK\n")) (b! "p.asm") (b! "p.bin") text' bin ∧ MessageAlike (b! "p.asm") text text' := by
  refine C66_statements (demo_setup _) (demo_setup _) (by decide +kernel) ?_
  have e1 : pieces (b! "K =16 ; size\n JMP M\nM LDA K\nK\n") = [b! "K =16 ; size\n", b! " JMP M\n", b! "M LDA K\n", b! "K\n"] := by decide +kernel
  have e2 : pieces (b! "\t.define k $10\n JMP M\nM LDA K\nK\n") = [b! "\t.define k $10\n", b! " JMP M\n", b! "M LDA K\n", b! "K\n"] := by decide +kernel
  rw [e1, e2]
  refine .cons (C66_constants (n := b! "K") (v := 16) (x := [(0, .name (b! "K")), (2, .eq), (3, .lit 16)]) (x' := [(1, .define), (9, .name (b! "K")), (11, .lit 16)])
      (lexes_eval (by decide +kernel) (by decide +kernel)) (lexes_eval (by decide +kernel) (by decide +kernel)) (by decide +kernel) (by decide +kernel))
    (.cons (.inl rfl) (.cons (.inl rfl) (.cons (.inl rfl) .nil)))

end Gaia

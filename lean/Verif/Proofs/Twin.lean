import Verif.Props.C70_Edit

/-!
Two runs of the reference assembler in step, apart from where their messages point: line number, quoted text and column.
-/
namespace Gaia
open Spec Spec.Reference

/-- Where a message points: the number of the line, its text, the offset in it. -/
abbrev Place := Nat × Str × Option Nat

/-- Both texts are empty, or both are the same message for places that correspond. -/
def TwinTexts (fn : Str) (C : Place → Place → Prop) (t t' : Str) : Prop :=
  (t = [] ∧ t' = []) ∨ ∃ e q q', C q q' ∧ t = diag q.2.1 e q.2.2 fn q.1 ∧ t' = diag q'.2.1 e q'.2.2 fn q'.1

namespace Twin

/-- The same reference, from places that correspond. -/
structure Ref (C : Place → Place → Prop) (r r' : Pending) : Prop where
  label : r.label = r'.label
  addr : r.addr = r'.addr
  mnemonic : r.mnemonic = r'.mnemonic
  opcode : r.opcode = r'.opcode
  place : C (r.line, r.text, some r.pos) (r'.line, r'.text, some r'.pos)

/-- The same state, but for the number of the line and the places of the references. -/
structure Rel (C : Place → Place → Prop) (s s' : State) : Prop where
  pc : s.pc = s'.pc
  env : s.env = s'.env
  total : s.total = s'.total
  filePos : s.filePos = s'.filePos
  writes : s.writes = s'.writes
  pending : List.Forall₂ (Ref C) s.pending s'.pending

theorem Rel.refl {C : Place → Place → Prop} (s : State) (h : ∀ r ∈ s.pending, C (r.line, r.text, some r.pos) (r.line, r.text, some r.pos)) : Rel C s s :=
  ⟨rfl, rfl, rfl, rfl, rfl, List.forall₂_same.2 fun r hr => ⟨rfl, rfl, rfl, rfl, h r hr⟩⟩

theorem Rel.write {C : Place → Place → Prop} {s s' : State} (h : Rel C s s') (bs : List Byte) : Rel C (s.write bs) (s'.write bs) :=
  ⟨by simp only [State.write, h.pc], h.env, by simp only [State.write, h.total], by simp only [State.write, h.pc],
    by simp only [State.write, h.pc, h.writes], h.pending⟩

/-- One statement. -/
def Out (C : Place → Place → Prop) (text text' : Str) (s s' : State) : Except Fault State → Except Fault State → Prop
  | .ok u, .ok u' => Rel C u u' ∧ u.line = s.line ∧ u'.line = s'.line
  | .error f, .error f' => f.1 = f'.1 ∧ C (s.line, text, f.2) (s'.line, text', f'.2)
  | _, _ => False

theorem define {C : Place → Place → Prop} {text text' : Str} {s s' : State} {ls ls' : List (Nat × Lexeme)} (h : Rel C s s')
    (hC : C (s.line, text, (nameOffsets ls).head?) (s'.line, text', (nameOffsets ls').head?)) (l : Str) (v : Nat) :
    Out C text text' s s' (defineLabel ls l v s) (defineLabel ls' l v s') := by
  unfold defineLabel
  rw [h.env]
  split
  · exact ⟨rfl, hC⟩
  · exact ⟨⟨h.pc, rfl, h.total, h.filePos, h.writes, h.pending⟩, rfl, rfl⟩

theorem instruction {C : Place → Place → Prop} {text text' : Str} {s s' : State} {ls ls' : List (Nat × Lexeme)} (h : Rel C s s')
    {m : Mnemonic} {a : Arg} {odd : Bool} (hnone : C (s.line, text, none) (s'.line, text', none))
    (hpos : C (s.line, text, (nameOffsets ls.tail).head?) (s'.line, text', (nameOffsets ls'.tail).head?))
    (href : ∀ l, a.opd = some (.sym l) →
      C (s.line, text, some ((nameOffsets ls.tail).head?.getD 0)) (s'.line, text', some ((nameOffsets ls'.tail).head?.getD 0))) :
    Out C text text' s s' (Reference.instruction text ls m a odd s) (Reference.instruction text' ls' m a odd s') := by
  unfold Reference.instruction
  rw [h.env]
  cases sizingValue s'.env m a.opd with
  | none => exact ⟨rfl, hpos⟩
  | some v =>
    dsimp only
    cases hu : unknown s'.env a.opd with
    | none =>
      dsimp only
      cases (if odd then none else modeFor m a v) with
      | none => exact ⟨rfl, hnone⟩
      | some md =>
        dsimp only
        rw [h.pc]
        cases encodeLow s'.env ⟨s'.pc, m, md, a.opd⟩ with
        | none => exact ⟨rfl, hpos⟩
        | some bs => exact ⟨h.write bs, rfl, rfl⟩
    | some l =>
      have ho : ∃ l, a.opd = some (.sym l) := by
        unfold unknown at hu
        split at hu
        · exact ⟨_, by assumption⟩
        · cases hu
      obtain ⟨l', ho⟩ := ho
      dsimp only
      cases (if odd then none else forwardCode m a) with
      | none => exact ⟨rfl, hnone⟩
      | some x =>
        obtain ⟨op, n⟩ := x
        refine ⟨Rel.write ?_ _, rfl, rfl⟩
        refine ⟨h.pc, rfl, h.total, h.filePos, by simp only [h.writes, h.filePos], ?_⟩
        exact List.rel_append h.pending (.cons ⟨rfl, h.pc, rfl, rfl, href l' ho⟩ .nil)

/-- The same line in both. -/
theorem execute {C : Place → Place → Prop} {text : Str} {s s' : State} {ls : List (Nat × Lexeme)} (h : Rel C s s')
    (hC : ∀ pos, C (s.line, text, pos) (s'.line, text, pos)) (odd : Bool) (st : Stmt) :
    Out C text text s s' (Reference.execute text ls odd s st) (Reference.execute text ls odd s' st) := by
  cases st with
  | empty => exact ⟨h, rfl, rfl⟩
  | stop => exact ⟨h, rfl, rfl⟩
  | label l => simp only [Reference.execute, h.pc]; exact define h (hC _) l s'.pc
  | const l v => exact define h (hC _) l v
  | org v => exact ⟨⟨rfl, h.env, h.total, h.filePos, h.writes, h.pending⟩, rfl, rfl⟩
  | instr lab m a =>
    cases lab with
    | none => exact instruction h (hC _) (hC _) fun _ _ => hC _
    | some l =>
      simp only [Reference.execute, h.pc]
      have := define (text := text) (text' := text) (ls := ls) (ls' := ls) h (hC _) l s'.pc
      cases h1 : defineLabel ls l s'.pc s <;> cases h2 : defineLabel ls l s'.pc s' <;> rw [h1, h2] at this
      · exact this
      · exact this.elim
      · exact this.elim
      · rename_i u u'
        obtain ⟨k1, k2, k3⟩ := this
        rw [← k2, ← k3] at hC
        have := instruction (text := text) (text' := text) (ls := ls) (ls' := ls) (m := m) (a := a) (odd := odd) k1 (hC _) (hC _) fun _ _ => hC _
        dsimp only
        cases h3 : Reference.instruction text ls m a odd u <;> cases h4 : Reference.instruction text ls m a odd u' <;> rw [h3, h4] at this
        · exact ⟨this.1, by rw [← k2, ← k3]; exact this.2⟩
        · exact this.elim
        · exact this.elim
        · exact ⟨this.1, this.2.1.trans k2, this.2.2.trans k3⟩

/-- Both fail with the same writes, or both succeed. -/
def Outs (fn : Str) (C : Place → Place → Prop) : Except Failure State → Except Failure State → Prop
  | .ok u, .ok u' => Rel C u u'
  | .error f, .error f' => TwinTexts fn C f.1 f'.1 ∧ f.2 = f'.2
  | _, _ => False

/-- The same lines in both. -/
theorem runPieces {fn : Str} {C : Place → Place → Prop} : ∀ {P : List (List Byte)} {s s' : State}, Rel C s s' →
    (∀ (i : Nat) (p : List Byte), P[i]? = some p → ∀ pos, C (s.line + i, shown p, pos) (s'.line + i, shown p, pos)) →
    Outs fn C (Reference.runPieces fn P s) (Reference.runPieces fn P s')
  | [], s, s', h, _ => h
  | p :: P, s, s', h, hC => by
    rw [Org.runPieces_cons, Org.runPieces_cons]
    have h0 : ∀ pos, C (s.line, p.takeWhile (· != 0), pos) (s'.line, p.takeWhile (· != 0), pos) := hC 0 p rfl
    cases h1 : lexemesOf p with
    | error f =>
      cases f with
      | tooMany => exact ⟨.inl ⟨rfl, rfl⟩, h.writes⟩
      | «at» e pos => exact ⟨.inr ⟨e, _, _, h0 (some pos), rfl, rfl⟩, h.writes⟩
    | ok ls =>
      dsimp only
      cases h2 : statement (ls.map (·.2)) with
      | error f => exact ⟨.inr ⟨f.1, _, _, h0 _, rfl, rfl⟩, h.writes⟩
      | ok x =>
        obtain ⟨st, odd⟩ := x
        dsimp only
        have := execute (ls := ls) h h0 odd st
        cases h3 : Reference.execute (p.takeWhile (· != 0)) ls odd s st <;>
          cases h4 : Reference.execute (p.takeWhile (· != 0)) ls odd s' st <;> rw [h3, h4] at this
        · rename_i f f'
          obtain ⟨e, pos⟩ := f
          obtain ⟨e', pos'⟩ := f'
          obtain ⟨k1, k2⟩ := this
          cases (k1 : e = e')
          exact ⟨.inr ⟨e, _, _, k2, rfl, rfl⟩, h.writes⟩
        · exact this.elim
        · exact this.elim
        · rename_i u u'
          obtain ⟨k1, k2, k3⟩ := this
          dsimp only
          split
          · exact k1
          · refine runPieces ⟨k1.pc, k1.env, k1.total, k1.filePos, k1.writes, k1.pending⟩ fun i q hq pos => ?_
            have := hC (i + 1) q hq pos
            simp only [k2, k3]
            rw [show s.line + 1 + i = s.line + (i + 1) by omega, show s'.line + 1 + i = s'.line + (i + 1) by omega]
            exact this

theorem resolve {fn : Str} {C : Place → Place → Prop} {env : Env} {R R' : List Pending} (h : List.Forall₂ (Ref C) R R') : ∀ W : List Chunk,
    (∃ V, Reference.resolve fn env R W = .ok V ∧ Reference.resolve fn env R' W = .ok V) ∨
    ∃ t t' V, Reference.resolve fn env R W = .error (t, V) ∧ Reference.resolve fn env R' W = .error (t', V) ∧ TwinTexts fn C t t' := by
  induction h with
  | nil => exact fun W => .inl ⟨W, rfl, rfl⟩
  | @cons r r' R R' hr _ ih =>
    intro W
    unfold Reference.resolve
    rw [← hr.label, ← hr.addr, ← hr.mnemonic, ← hr.opcode]
    cases env.lookup r.label with
    | none => exact .inr ⟨_, _, W, rfl, rfl, .inr ⟨_, _, _, hr.place, rfl, rfl⟩⟩
    | some v =>
      dsimp only
      split
      · cases branchByte r.addr v with
        | none => exact .inr ⟨_, _, W, rfl, rfl, .inr ⟨_, _, _, hr.place, rfl, rfl⟩⟩
        | some b => exact ih _
      · exact ih _

/-- From runs in step to what gaia does. -/
theorem outcome {C : Place → Place → Prop} {w w' : World} {srcName outName : Str} {src src' : List Byte} (hw : Setup w srcName outName src)
    (hw' : Setup w' srcName outName src') (hs : Sized src) (hs' : Sized src')
    (h : Outs srcName C (Reference.runPieces srcName (pieces src) .init) (Reference.runPieces srcName (pieces src') .init)) :
    (∃ bin total symbols, Succeeds w srcName outName bin total symbols ∧ Succeeds w' srcName outName bin total symbols) ∨
    ∃ t t' bin, FailsLeaving w srcName outName t bin ∧ FailsLeaving w' srcName outName t' bin ∧ TwinTexts srcName C t t' := by
  cases h1 : Reference.runPieces srcName (pieces src) .init <;> cases h2 : Reference.runPieces srcName (pieces src') .init <;> rw [h1, h2] at h
  · rename_i f f'
    obtain ⟨t, W⟩ := f
    obtain ⟨t', W'⟩ := f'
    obtain ⟨k1, k2⟩ := h
    cases (k2 : W = W')
    exact .inr ⟨t, t', image W, (C57_failure hw hs _ _).2 ⟨W, rfl, .inl h1⟩, (C57_failure hw' hs' _ _).2 ⟨W, rfl, .inl h2⟩, k1⟩
  · exact h.elim
  · exact h.elim
  · rename_i u u'
    rcases resolve (fn := srcName) (env := u.env) h.pending u.writes with ⟨V, k1, k2⟩ | ⟨t, t', V, k1, k2, k3⟩
    · refine .inl ⟨image V, u.total, u.env.length, (C57_success hw hs _ _ _).2 ⟨u, V, h1, k1, rfl, rfl, rfl⟩,
        (C57_success hw' hs' _ _ _).2 ⟨u', V, h2, ?_, rfl, h.total, by rw [h.env]⟩⟩
      rw [← h.env, ← h.writes]; exact k2
    · refine .inr ⟨t, t', image V, (C57_failure hw hs _ _).2 ⟨V, rfl, .inr ⟨u, h1, k1⟩⟩, (C57_failure hw' hs' _ _).2 ⟨V, rfl, .inr ⟨u', h2, ?_⟩⟩, k3⟩
      rw [← h.env, ← h.writes]; exact k2

end Twin

end Gaia

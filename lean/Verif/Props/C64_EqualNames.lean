import Verif.Props.C62_Constants

/-!
C64: names with the same value are interchangeable.
-/
namespace Gaia.Spec
open Gaia

/-- The same argument with another operand. -/
def Arg.withOpd : Arg → Opd → Arg
  | .none, _ => .none
  | .acc, _ => .acc
  | .imm _, o => .imm o
  | .plain _, o => .plain o
  | .idxX _, o => .idxX o
  | .idxY _, o => .idxY o
  | .ind _, o => .ind o
  | .indX _, o => .indX o
  | .indY _, o => .indY o

end Gaia.Spec

namespace Gaia
open Gaia.Spec

theorem modeFor_withOpd (m : Mnemonic) (a : Arg) (o : Opd) (v : Nat) : modeFor m (a.withOpd o) v = modeFor m a v := by
  cases a <;> rfl

/-- The states agree but for the first instructions. -/
structure Front (I I' : List Item) (s t : Pass1) : Prop where
  pc : t.pc = s.pc
  env : t.env = s.env
  items : ∃ new, s.items = I ++ new ∧ t.items = I' ++ new

theorem Front.define {I I' : List Item} {s t s' : Pass1} (h : Front I I' s t) {x : Str} {k : Nat} (hd : Spec.define s x k = some s') :
    ∃ t', Spec.define t x k = some t' ∧ Front I I' s' t' := by
  obtain ⟨h1, rfl⟩ := define_some hd
  refine ⟨⟨t.pc, (x, k) :: t.env, t.items⟩, by unfold Spec.define; rw [h.env, h1], h.pc, by simp [h.env], h.items⟩

theorem Front.place {I I' : List Item} {s t s' : Pass1} (h : Front I I' s t) {m : Mnemonic} {a : Arg} (hp : Spec.place s m a = some s') :
    ∃ t', Spec.place t m a = some t' ∧ Front I I' s' t' := by
  obtain ⟨k, md, h1, h2, rfl⟩ := place_some hp
  obtain ⟨new, n1, n2⟩ := h.items
  refine ⟨⟨t.pc + md.bytes, t.env, t.items ++ [⟨t.pc, m, md, a.opd⟩]⟩, ?_, by simp [h.pc], h.env,
    new ++ [⟨s.pc, m, md, a.opd⟩], by simp [n1], by simp [n2, h.pc]⟩
  unfold Spec.place
  rw [h.env, h1]
  simp [h2]

theorem Front.pass1 {I I' : List Item} : ∀ (p : List Stmt) {s t s' : Pass1}, Front I I' s t → Spec.pass1 p s = some s' →
    ∃ t', Spec.pass1 p t = some t' ∧ Front I I' s' t'
  | [], s, t, s', h, hp => by
    obtain rfl : s = s' := by simpa [Spec.pass1] using hp
    exact ⟨t, rfl, h⟩
  | st :: p, s, t, s', h, hp => by
    by_cases hst : st = .stop
    · subst hst
      obtain rfl : s = s' := by simpa [Spec.pass1] using hp
      exact ⟨t, rfl, h⟩
    rw [pass1_cons hst] at hp
    obtain ⟨u, h1, h2⟩ := Option.bind_eq_some_iff.1 hp
    have : ∃ u', pass1Stmt t st = some u' ∧ Front I I' u u' := by
      cases st with
      | empty => obtain rfl : s = u := by simpa [pass1Stmt] using h1
                 exact ⟨t, rfl, h⟩
      | stop => exact absurd rfl hst
      | label x =>
        have h1 : Spec.define s x s.pc = some u := h1
        rw [← h.pc] at h1
        exact h.define h1
      | const x k => exact h.define h1
      | org k =>
        obtain rfl : { s with pc := k } = u := by simpa [pass1Stmt] using h1
        exact ⟨{ t with pc := k }, rfl, rfl, h.env, h.items⟩
      | instr lb m a =>
        cases lb with
        | none => exact h.place h1
        | some x =>
          have h1 : (Spec.define s x s.pc).bind (Spec.place · m a) = some u := h1
          obtain ⟨y, k1, k2⟩ := Option.bind_eq_some_iff.1 h1
          rw [← h.pc] at k1
          obtain ⟨y', g1, g2⟩ := h.define k1
          obtain ⟨t', g3, g4⟩ := g2.place k2
          exact ⟨t', Option.bind_eq_some_iff.2 ⟨y', g1, g3⟩, g4⟩
    obtain ⟨u', g1, g2⟩ := this
    obtain ⟨t', g3, g4⟩ := Front.pass1 p g2 h2
    exact ⟨t', by rw [pass1_cons hst, g1]; exact g3, g4⟩

/-- The symbols known where the operand of an instruction is read. -/
theorem instr_step {s s' : Pass1} {lab : Option Str} {m : Mnemonic} {a : Arg} (h : pass1Stmt s (.instr lab m a) = some s') :
    ∃ u, (match lab with | none => some s | some x => Spec.define s x s.pc) = some u ∧ Spec.place u m a = some s' := by
  cases lab with
  | none => exact ⟨s, rfl, h⟩
  | some x =>
    have h : (Spec.define s x s.pc).bind (Spec.place · m a) = some s' := h
    exact Option.bind_eq_some_iff.1 h

theorem step_instr {s s' u : Pass1} {lab : Option Str} {m : Mnemonic} {a : Arg}
    (h : (match lab with | none => some s | some x => Spec.define s x s.pc) = some u) (h' : Spec.place u m a = some s') :
    pass1Stmt s (.instr lab m a) = some s' := by
  cases lab with
  | none => cases h; exact h'
  | some x => exact Option.bind_eq_some_iff.2 ⟨u, h, h'⟩

/-- Where is a label known? If a statement before defines it. -/
theorem known_of_defined : ∀ (p : List Stmt) {s s' : Pass1}, .stop ∉ p → pass1 p s = some s' → ∀ d ∈ p, ∀ l, d.defines = some l →
    (s'.env.lookup l).isSome = true
  | [], _, _, _, _, d, hd, _, _ => by simp at hd
  | st :: p, s, s', hs, h, d, hd, l, hl => by
    have hst : st ≠ .stop := fun e => hs (by simp [e])
    rw [pass1_cons hst] at h
    obtain ⟨u, h1, h2⟩ := Option.bind_eq_some_iff.1 h
    rcases List.mem_cons.1 hd with rfl | hd
    · have : ∃ v, u.env.lookup l = some v := by
        cases d with
        | empty => cases hl
        | stop => cases hl
        | org v => cases hl
        | label x => cases hl; obtain ⟨_, rfl⟩ := define_some h1; exact ⟨s.pc, by simp⟩
        | const x v => cases hl; obtain ⟨_, rfl⟩ := define_some h1; exact ⟨v, by simp⟩
        | instr lab m a =>
          cases lab with
          | none => cases hl
          | some x =>
            cases hl
            obtain ⟨y, k1, k2⟩ := instr_step h1
            obtain ⟨_, rfl⟩ := define_some k1
            exact ⟨_, (place_extends k2).1 l s.pc (by simp)⟩
      obtain ⟨v, hv⟩ := this
      rw [(pass1_extends p h2).1 l v hv]; rfl
    · exact known_of_defined p (fun e => hs (by simp [e])) h2 d hd l hl

/-- **C64.** Names with the same value are interchangeable. Let gaia assemble a program (documented language, ascending addresses) in which
an instruction uses the name `l`, and let `l'` be a name that has the same value in it. If the instruction is a branch or a jump, or `l'` is
defined before it, then the program with `l'` in place of `l` in this instruction has the same binary and the same totals. -/
theorem C64_interchangeable {w w' : World} {srcName outName srcName' outName' : Str} {src src' : List Byte} {pre post : List Stmt}
    {lab : Option Str} {m : Mnemonic} {a : Arg} {l l' : Str} (ho : a.opd = some (.sym l))
    (hw : Setup w srcName outName src) (hw' : Setup w' srcName' outName' src')
    (hp : IsProgram src (pre ++ .instr lab m a :: post)) (hp' : IsProgram src' (pre ++ .instr lab m (a.withOpd (.sym l')) :: post))
    (ha : AscendingProgram (pre ++ .instr lab m a :: post)) (hs : .stop ∉ pre)
    {s : Pass1} (h1 : pass1 (pre ++ .instr lab m a :: post) .init = some s) (hv : s.env.lookup l' = s.env.lookup l)
    (hm : (Spec.isBranch m || Spec.isJump m) = true ∨ lab = some l' ∨ ∃ d ∈ pre, d.defines = some l')
    {bin : List Byte} {total symbols : Nat} (hr : Succeeds w srcName outName bin total symbols) :
    Succeeds w' srcName' outName' bin total symbols := by
  obtain ⟨t, g1, g2⟩ := pass1_append pre _ hs h1
  rw [pass1_cons (by simp)] at g2
  obtain ⟨u, g3, g4⟩ := Option.bind_eq_some_iff.1 g2
  obtain ⟨y, k1, k2⟩ := instr_step g3
  obtain ⟨v, md, e1, e2, rfl⟩ := place_some k2
  have hext := (pass1_extends post g4).1
  -- the mode is the same
  have hknown : (y.env.lookup l').isSome = true ∨ (Spec.isBranch m || Spec.isJump m) = true := by
    rcases hm with hm | hm | ⟨d, hd, hd'⟩
    · exact .inr hm
    · subst hm
      obtain ⟨_, rfl⟩ := define_some k1
      left; simp
    · left
      have := known_of_defined pre hs g1 d hd l' hd'
      cases hq : t.env.lookup l' with
      | none => rw [hq] at this; cases this
      | some z =>
        cases lab with
        | none => cases k1; rw [hq]; rfl
        | some x => rw [(define_extends k1).1 l' z hq]; rfl
  have hmode : ∃ v', sizingValue y.env m (a.withOpd (.sym l')).opd = some v' ∧ modeFor m (a.withOpd (.sym l')) v' = some md := by
    have ho' : (a.withOpd (.sym l')).opd = some (.sym l') := by
      cases a <;> first | rfl | cases ho
    rw [ho']
    unfold sizingValue
    cases hq : y.env.lookup l' with
    | none =>
      rw [hq] at hknown
      have hb : (Spec.isBranch m || Spec.isJump m) = true := by simpa using hknown
      refine ⟨0, by simp only [hq, hb, if_true], ?_⟩
      rw [modeFor_withOpd, modeFor_flow hb a 0 v]
      exact e2
    | some z =>
      refine ⟨z, by simp only [hq], ?_⟩
      rw [modeFor_withOpd]
      rw [ho] at e1
      unfold sizingValue at e1
      cases hl : y.env.lookup l with
      | none =>
        simp only [hl] at e1
        split at e1
        · rename_i hb
          rw [modeFor_flow hb a z v]
          exact e2
        · cases e1
      | some z' =>
        simp only [hl, Option.some.injEq] at e1
        subst e1
        have q1 := hext l' z hq
        have q2 := hext l z' hl
        rw [hv, q2] at q1
        cases q1
        exact e2
  obtain ⟨v', e3, e4⟩ := hmode
  have ho' : (a.withOpd (.sym l')).opd = some (.sym l') := by
    cases a <;> first | rfl | cases ho
  have hplace : Spec.place y m (a.withOpd (.sym l')) =
      some ⟨y.pc + md.bytes, y.env, y.items ++ [⟨y.pc, m, md, some (.sym l')⟩]⟩ := by
    unfold Spec.place
    rw [e3]
    simp [e4, ho']
  have hf : Front (y.items ++ [⟨y.pc, m, md, some (.sym l)⟩]) (y.items ++ [⟨y.pc, m, md, some (.sym l')⟩])
      ⟨y.pc + md.bytes, y.env, y.items ++ [⟨y.pc, m, md, a.opd⟩]⟩ ⟨y.pc + md.bytes, y.env, y.items ++ [⟨y.pc, m, md, some (.sym l')⟩]⟩ :=
    ⟨rfl, rfl, [], by simp [ho], by simp⟩
  obtain ⟨s', g5, g6⟩ := hf.pass1 post g4
  have h2 : pass1 (pre ++ .instr lab m (a.withOpd (.sym l')) :: post) .init = some s' := by
    refine pass1_append_some pre _ hs g1 ?_
    rw [pass1_cons (by simp), step_instr k1 hplace]
    exact g5
  obtain ⟨new, n1, n2⟩ := g6.items
  have hsame : encodeLow s.env ⟨y.pc, m, md, some (.sym l')⟩ = encodeLow s.env ⟨y.pc, m, md, some (.sym l)⟩ := by
    unfold encodeLow operandBytesLow
    cases md <;> simp [Mode.bytes, opdValue, hv]
  have := same_code hw hw' hp hp' ha hr h1 h2 (by
    rw [n1, n2, g6.env]
    refine List.rel_append (List.rel_append (List.forall₂_same.2 fun it _ => ⟨rfl, rfl, rfl⟩) (.cons ⟨rfl, rfl, hsame⟩ .nil))
      (List.forall₂_same.2 fun it _ => ⟨rfl, rfl, rfl⟩))
  obtain ⟨_, q1, q2⟩ := check_assembleLow.1 (succeeds_check hw hp hr)
  rw [h1] at q1
  cases q1
  have hn := (hr.unique ((C26_low hw hp ha).1 _ q2)).2.2
  rw [g6.env, hn] at this
  rw [hn]
  simpa using this

/-! ### A case: a jump to `M` can as well be written as a jump to the constant `K`, which has the same value; and so for the load after it -/

def namesSrc : List Byte := b! " JMP M\nM NOP\nN LDA M\nK =3\n"
def namesSrc' : List Byte := b! " JMP K\nM NOP\nN LDA M\nK =3\n"
def namesPost : List Stmt := [.instr (some (b! "M")) .NOP .none, .instr (some (b! "N")) .LDA (.plain (.sym (b! "M"))), .const (b! "K") 3]
def namesBin : List Byte := [0x4C, 3, 0, 0xEA, 0xA5, 3]

theorem names_isProgram (l : Str) {src : List Byte} (h1 : Sized src) (h2 : ∀ l ∈ lines src, l.length ≤ 126)
    (h3 : linesStmts (lines src) = some ([] ++ .instr none .JMP (.plain (.sym l)) :: namesPost)) :
    IsProgram src ([] ++ .instr none .JMP (.plain (.sym l)) :: namesPost) :=
  isProgram_eval h1 h2 h3 (by
    intro st hst h
    simp only [namesPost, List.nil_append, List.mem_cons, List.not_mem_nil, or_false] at hst
    rcases hst with rfl | rfl | rfl | rfl <;> simp [IndexedJump, Stmt.jumpsIndexed] at h)

example : Succeeds (demo namesSrc') (b! "p.asm") (b! "p.bin") namesBin 6 3 :=
  C64_interchangeable (a := .plain (.sym (b! "M"))) (l := b! "M") (l' := b! "K") rfl (demo_setup namesSrc) (demo_setup namesSrc')
    (names_isProgram (b! "M") (by decide +kernel) (by decide +kernel) (by decide +kernel))
    (names_isProgram (b! "K") (by decide +kernel) (by decide +kernel) (by decide +kernel))
    (ascendingProgram_eval (by decide +kernel)) (by decide +kernel)
    (s := ⟨6, [(b! "K", 3), (b! "N", 4), (b! "M", 3)], [⟨0, .JMP, .abs, some (.sym (b! "M"))⟩, ⟨3, .NOP, .imp, none⟩, ⟨4, .LDA, .zp, some (.sym (b! "M"))⟩]⟩)
    (by decide +kernel) (by decide +kernel) (.inl (by decide +kernel)) (demo_succeeds (by decide +kernel))

end Gaia

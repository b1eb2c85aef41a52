import Verif.Spec.Append
import Verif.Proofs.Relocate
import Verif.Proofs.Image

/-! Appending source text: the reference assembler, step by step. -/
namespace Gaia
open Spec Spec.Reference

namespace App

/-- The length of a reference. -/
def Pending.len (r : Pending) : Nat := if Spec.isBranch r.mnemonic then 2 else 3

/-- The elementary steps of the assembler. -/
inductive Step (allow : Bool) : State → State → Prop
  | org (s : State) (v : Nat) (h : allow = true) : Step allow s { s with pc := v }
  | line (s : State) : Step allow s { s with line := s.line + 1 }
  | define (s : State) (l : Str) (v : Nat) (h : s.env.lookup l = none) : Step allow s { s with env := (l, v) :: s.env }
  | write (s : State) (bs : List Byte) (h : bs ≠ []) : Step allow s (s.write bs)
  | forward (s : State) (r : Pending) (bs zs : List Byte) (h : bs ≠ []) (hr : r.addr = s.pc) (hb : bs.length = Pending.len r) (hz : zs.length = bs.length) :
      Step allow s ({ s with writes := s.writes ++ [(s.filePos, zs)], pending := s.pending ++ [r] }.write bs)

abbrev Steps (allow : Bool) := Relation.ReflTransGen (Step allow)

theorem instruction_steps {allow : Bool} {text : Str} {ls : List (Nat × Lexeme)} {m : Mnemonic} {a : Arg} {odd : Bool} {s s' : State}
    (h : instruction text ls m a odd s = .ok s') : Steps allow s s' := by
  unfold instruction at h
  simp only at h
  split at h
  · cases h
  · rename_i v hv
    split at h
    · split at h
      · cases h
      · split at h
        · cases h
        · rename_i bs hbs
          cases h
          refine .single (.write s bs ?_)
          unfold encodeLow at hbs
          rw [Option.bind_eq_bind] at hbs
          obtain ⟨op, _, hbs⟩ := Option.bind_eq_some_iff.1 hbs
          rw [Option.bind_eq_bind] at hbs
          obtain ⟨fs, _, hbs⟩ := Option.bind_eq_some_iff.1 hbs
          cases hbs
          simp
    · rename_i l hl
      split at h
      · cases h
      · rename_i op n hf
        cases h
        have hf' : forwardCode m a = some (op, n) := by
          cases odd with
          | true => cases hf
          | false => exact hf
        have hbj : (Spec.isBranch m || Spec.isJump m) = true := by
          cases ho : a.opd with
          | none => rw [ho] at hl; cases hl
          | some o =>
            cases o with
            | lit w => rw [ho] at hl; cases hl
            | sym k =>
              rw [ho] at hl hv
              unfold unknown at hl
              simp only at hl
              cases hk : s.env.lookup k with
              | some w => rw [hk] at hl; cases hl
              | none =>
                simp only [sizingValue, hk] at hv
                by_contra hc
                rw [if_neg hc] at hv
                cases hv
        have hn := Reloc.forward_len hbj hf'
        have hlen : (op :: List.replicate (n - 1) (0 : Byte)).length = n := by
          have : n = 2 ∨ n = 3 := by rw [hn]; split <;> simp
          simp only [List.length_cons, List.length_replicate]; omega
        exact .single (.forward s ⟨s.line, text, _, l, s.pc, m, op⟩ _ _ (by simp) rfl (by rw [hlen, hn]; rfl) (by rw [hlen]; simp))

theorem define_steps {allow : Bool} {ls : List (Nat × Lexeme)} {l : Str} {v : Nat} {s s' : State} (h : defineLabel ls l v s = .ok s') :
    Steps allow s s' := by
  unfold defineLabel at h
  split at h
  · cases h
  · rename_i hl
    cases h
    exact .single (.define s l v (by rwa [Bool.not_eq_true, Option.isSome_eq_false_iff, Option.isNone_iff_eq_none] at hl))

theorem execute_steps {allow : Bool} {text : Str} {ls : List (Nat × Lexeme)} {odd : Bool} {st : Stmt} {s s' : State}
    (h : execute text ls odd s st = .ok s') (ho : st.isOrg = false ∨ allow = true) : Steps allow s s' := by
  cases st with
  | empty => cases h; exact .refl
  | stop => cases h; exact .refl
  | label l => exact define_steps h
  | const l v => exact define_steps h
  | org v =>
    rcases ho with ho | ho
    · cases ho
    · cases h; exact .single (.org s v ho)
  | instr lab m a =>
    cases lab with
    | none => exact instruction_steps h
    | some l =>
      have h : (match defineLabel ls l s.pc s with
        | Except.error f => Except.error f
        | Except.ok s => instruction text ls m a odd s) = Except.ok s' := h
      split at h
      · cases h
      · rename_i s1 hd
        exact (define_steps hd).trans (instruction_steps h)

theorem runPieces_steps {allow : Bool} {fn : Str} : ∀ {ps : List (List Byte)} {s s' : State}, runPieces fn ps s = .ok s' →
    (allow = true ∨ ∀ st ∈ ps.filterMap stmtOf, st.isOrg = false) → Steps allow s s'
  | [], s, s', h, _ => by cases h; exact .refl
  | p :: ps, s, s', h, ho => by
    unfold runPieces at h
    simp only at h
    split at h
    · cases h
    · cases h
    · rename_i ls h1
      split at h
      · cases h
      · rename_i st odd h2
        have hp : stmtOf p = some st := by unfold stmtOf; simp only [h1, h2]
        split at h
        · cases h
        · rename_i s1 h3
          have hs := execute_steps (allow := allow) h3 (by
            rcases ho with ho | ho
            · exact .inr ho
            · exact .inl (ho st (by rw [List.filterMap_cons, hp]; simp)))
          split at h
          · cases h; exact hs
          · refine hs.trans (.trans (.single (.line s1)) (runPieces_steps h ?_))
            rcases ho with ho | ho
            · exact .inl ho
            · refine .inr fun q hq => ho q ?_
              rw [List.filterMap_cons, hp]
              exact List.mem_cons_of_mem _ hq

/-- What any run keeps. -/
structure Keeps (s s' : State) : Prop where
  writes : ∃ W, s'.writes = s.writes ++ W
  pending : ∃ P, s'.pending = s.pending ++ P
  env : ∀ l v, s.env.lookup l = some v → s'.env.lookup l = some v
  count : s.env.length ≤ s'.env.length

theorem Steps.keeps {allow : Bool} {s s' : State} (h : Steps allow s s') : Keeps s s' := by
  induction h with
  | refl => exact ⟨⟨[], by simp⟩, ⟨[], by simp⟩, fun _ _ h => h, le_rfl⟩
  | @tail b c _ hst ih =>
    obtain ⟨⟨W, hW⟩, ⟨P, hP⟩, he, hc⟩ := ih
    cases hst with
    | org v h => exact ⟨⟨W, hW⟩, ⟨P, hP⟩, he, hc⟩
    | line => exact ⟨⟨W, hW⟩, ⟨P, hP⟩, he, hc⟩
    | define l v h =>
      refine ⟨⟨W, hW⟩, ⟨P, hP⟩, fun k u hk => ?_, hc.trans (by simp)⟩
      have := he k u hk
      show ((l, v) :: _).lookup k = _
      rw [List.lookup_cons]
      split
      · rename_i heq
        rw [beq_iff_eq] at heq
        subst heq
        rw [h] at this; cases this
      · exact this
    | write bs h => exact ⟨⟨W ++ [(b.pc, bs)], by simp only [State.write, hW, List.append_assoc]⟩, ⟨P, hP⟩, he, hc⟩
    | forward r bs zs h hr hb hz =>
      exact ⟨⟨W ++ [(b.filePos, zs)] ++ [(b.pc, bs)], by simp only [State.write, hW, List.append_assoc]⟩, ⟨P ++ [r], by simp only [State.write, hP, List.append_assoc]⟩, he, hc⟩

/-- What a run without origins appends, if the file stands at the location counter. -/
structure After (s s' : State) : Prop where
  pos : s'.filePos = s'.pc
  le : s.pc ≤ s'.pc
  total : s'.total + s.pc = s.total + s'.pc
  writes : ∃ W, s'.writes = s.writes ++ W ∧ (∀ c ∈ W, s.pc ≤ c.1 ∧ c.1 + c.2.length ≤ s'.pc) ∧
    (s'.pc = s.pc ∨ ∃ c ∈ W, c.1 + c.2.length = s'.pc)
  pending : ∃ P, s'.pending = s.pending ++ P ∧ ∀ r ∈ P, s.pc ≤ r.addr ∧ r.addr + Pending.len r ≤ s'.pc

theorem Steps.after {s s' : State} (h : Steps false s s') (h0 : s.filePos = s.pc) : After s s' := by
  induction h with
  | refl => exact ⟨h0, le_rfl, rfl, ⟨[], by simp, by simp, .inl rfl⟩, ⟨[], by simp, by simp⟩⟩
  | @tail b c _ hst ih =>
    obtain ⟨hp, hle, ht, ⟨W, hW, hWb, hl⟩, ⟨P, hP, hPb⟩⟩ := ih
    cases hst with
    | org v h => cases h
    | line => exact ⟨hp, hle, ht, ⟨W, hW, hWb, hl⟩, ⟨P, hP, hPb⟩⟩
    | define l v h => exact ⟨hp, hle, ht, ⟨W, hW, hWb, hl⟩, ⟨P, hP, hPb⟩⟩
    | write bs h =>
      refine ⟨rfl, ?_, ?_, ⟨W ++ [(b.pc, bs)], by simp only [State.write, hW, List.append_assoc], ?_, .inr ⟨(b.pc, bs), by simp, rfl⟩⟩,
        ⟨P, hP, fun r hr => ?_⟩⟩
      · show s.pc ≤ b.pc + bs.length; omega
      · show b.total + bs.length + s.pc = s.total + (b.pc + bs.length); omega
      · intro c hc
        rcases List.mem_append.1 hc with hc | hc
        · have := hWb c hc; exact ⟨this.1, by show _ ≤ b.pc + bs.length; omega⟩
        · cases List.mem_singleton.1 hc; exact ⟨hle, le_rfl⟩
      · have := hPb r hr; exact ⟨this.1, by show _ ≤ b.pc + bs.length; omega⟩
    | forward r bs zs h hr hb hz =>
      refine ⟨rfl, ?_, ?_, ⟨W ++ [(b.filePos, zs), (b.pc, bs)], by simp [State.write, hW], ?_, .inr ⟨(b.pc, bs), by simp, rfl⟩⟩,
        ⟨P ++ [r], by simp only [State.write, hP, List.append_assoc], ?_⟩⟩
      · show s.pc ≤ b.pc + bs.length; omega
      · show b.total + bs.length + s.pc = s.total + (b.pc + bs.length); omega
      · intro c hc
        simp only [List.mem_append, List.mem_cons, List.not_mem_nil, or_false] at hc
        rcases hc with hc | rfl | rfl
        · have := hWb c hc; exact ⟨this.1, by show _ ≤ b.pc + bs.length; omega⟩
        · exact ⟨by show s.pc ≤ b.filePos; omega, by show b.filePos + zs.length ≤ b.pc + bs.length; omega⟩
        · exact ⟨hle, le_rfl⟩
      · intro q hq
        rcases List.mem_append.1 hq with hq | hq
        · have := hPb q hq; exact ⟨this.1, by show _ ≤ b.pc + bs.length; omega⟩
        · cases List.mem_singleton.1 hq
          exact ⟨by omega, by show _ ≤ b.pc + bs.length; omega⟩

/-- A text without origins, from a state in which nothing was written yet. -/
structure Whole (s : State) : Prop where
  fits : ∀ c ∈ s.writes, c.1 + c.2.length ≤ s.pc
  refs : ∀ r ∈ s.pending, r.addr + Pending.len r ≤ s.pc
  last : (s.writes = [] ∧ s.pending = [] ∧ s.total = 0) ∨ (0 < s.total ∧ s.filePos = s.pc ∧ ∃ c ∈ s.writes, c.1 + c.2.length = s.pc)

theorem Steps.whole {s s' : State} (h : Steps false s s') (h0 : s.writes = [] ∧ s.pending = [] ∧ s.filePos = 0 ∧ s.total = 0) : Whole s' ∧ (s'.writes = [] → s'.filePos = 0) := by
  induction h with
  | refl => exact ⟨⟨by simp [h0.1], by simp [h0.2.1], .inl ⟨h0.1, h0.2.1, h0.2.2.2⟩⟩, fun _ => h0.2.2.1⟩
  | @tail b c _ hst ih =>
    obtain ⟨⟨hf, hr, hl⟩, hz0⟩ := ih
    cases hst with
    | org v h => cases h
    | line => exact ⟨⟨hf, hr, hl⟩, hz0⟩
    | define l v h => exact ⟨⟨hf, hr, hl⟩, hz0⟩
    | write bs h =>
      refine ⟨⟨?_, ?_, .inr ⟨(by have := List.length_pos_iff.2 h; show 0 < b.total + bs.length; omega), rfl, (b.pc, bs), by simp [State.write], rfl⟩⟩, by simp [State.write]⟩
      · intro c hc
        show _ ≤ b.pc + bs.length
        simp only [State.write, List.mem_append, List.mem_singleton] at hc
        rcases hc with hc | rfl
        · have := hf c hc; omega
        · exact le_rfl
      · intro r hm
        show _ ≤ b.pc + bs.length
        have := hr r hm; omega
    | forward r bs zs h hra hb hz =>
      refine ⟨⟨?_, ?_, .inr ⟨(by have := List.length_pos_iff.2 h; show 0 < b.total + bs.length; omega), rfl, (b.pc, bs), by simp [State.write], rfl⟩⟩, by simp [State.write]⟩
      · intro c hc
        show _ ≤ b.pc + bs.length
        simp only [State.write, List.mem_append, List.mem_singleton] at hc
        rcases hc with (hc | rfl) | rfl
        · have := hf c hc; omega
        · show b.filePos + zs.length ≤ _
          rcases hl with hl | hl
          · have := hz0 hl.1; omega
          · omega
        · exact le_rfl
      · intro q hm
        show _ ≤ b.pc + bs.length
        simp only [State.write, List.mem_append, List.mem_singleton] at hm
        rcases hm with hm | rfl
        · have := hr q hm; omega
        · omega

theorem Steps.total {s s' : State} (h : Steps false s s') : s'.total + s.pc = s.total + s'.pc := by
  induction h with
  | refl => rfl
  | @tail b c _ hst ih =>
    cases hst with
    | org v h => cases h
    | line => exact ih
    | define l v h => exact ih
    | write bs h => show b.total + bs.length + s.pc = s.total + (b.pc + bs.length); omega
    | forward r bs zs h hra hb hz => show b.total + bs.length + s.pc = s.total + (b.pc + bs.length); omega

/-- A text of which at most the first line sets the origin. -/
theorem one_origin {fn : Str} {src : List Byte} (ho : OneOrigin src) {s : State} (h : runPieces fn (pieces src) .init = .ok s) :
    Whole s ∧ s.pc = originSet src + s.total := by
  have hfirst : ∀ {ps : List (List Byte)} {s0 : State}, runPieces fn ps s0 = .ok s →
      (∀ st ∈ ps.filterMap stmtOf, st.isOrg = false) → s0.writes = [] ∧ s0.pending = [] ∧ s0.filePos = 0 ∧ s0.total = 0 →
      Whole s ∧ s.pc = s0.pc + s.total := by
    intro ps s0 hr ho h0
    have hst := runPieces_steps (allow := false) hr (.inr ho)
    have := Steps.total hst
    exact ⟨(Steps.whole hst h0).1, by omega⟩
  unfold OneOrigin at ho
  unfold originSet
  cases hp : pieces src with
  | nil =>
    rw [hp] at h
    simpa [State.init] using hfirst h (by simp) ⟨rfl, rfl, rfl, rfl⟩
  | cons p ps =>
    rw [hp] at h ho
    simp only [List.drop_succ_cons, List.drop_zero] at ho
    simp only [List.head?_cons, Option.bind_some]
    have plain : (∀ v, stmtOf p ≠ some (.org v)) → Whole s ∧ s.pc = 0 + s.total := by
      intro hno
      refine hfirst h ?_ ⟨rfl, rfl, rfl, rfl⟩
      intro st hm
      rw [List.filterMap_cons] at hm
      cases hps : stmtOf p with
      | none => rw [hps] at hm; exact ho st hm
      | some q =>
        rw [hps] at hm
        rcases List.mem_cons.1 hm with rfl | hm
        · cases st with
          | org v => exact absurd hps (hno v)
          | _ => rfl
        · exact ho st hm
    cases hps : stmtOf p with
    | none => exact plain (by rw [hps]; simp)
    | some st =>
      cases st with
      | org v =>
        unfold stmtOf at hps
        unfold runPieces at h
        simp only at h
        split at h
        · cases h
        · cases h
        · rename_i ls hls
          simp only [hls] at hps
          split at h
          · cases h
          · rename_i st' odd hst'
            simp only [hst'] at hps
            cases hps
            simp only [execute] at h
            rw [if_neg (by simp)] at h
            exact hfirst h ho ⟨rfl, rfl, rfl, rfl⟩
      | empty => exact plain (by rw [hps]; simp)
      | stop => exact plain (by rw [hps]; simp)
      | label => exact plain (by rw [hps]; simp)
      | const => exact plain (by rw [hps]; simp)
      | instr => exact plain (by rw [hps]; simp)

/-- The pieces one after another. -/
theorem runPieces_append {fn : Str} (Q : List (List Byte)) : ∀ {P : List (List Byte)} {s s' : State}, runPieces fn P s = .ok s' →
    runPieces fn (P ++ Q) s = .ok s' ∨ runPieces fn (P ++ Q) s = runPieces fn Q s'
  | [], s, s', h => by cases h; exact .inr rfl
  | p :: P, s, s', h => by
    rw [List.cons_append]
    unfold runPieces at h
    simp only at h
    split at h
    · cases h
    · cases h
    · rename_i ls h1
      split at h
      · cases h
      · rename_i st odd h2
        split at h
        · cases h
        · rename_i s1 h3
          have e : runPieces fn (p :: (P ++ Q)) s = if st = .stop then .ok s1 else runPieces fn (P ++ Q) { s1 with line := s1.line + 1 } := by
            conv_lhs => unfold runPieces
            simp only [h1, h2, h3]
          rw [e]
          split at h
          · rename_i hs; rw [if_pos hs]; exact .inl h
          · rename_i hs; rw [if_neg hs]; exact runPieces_append Q h

theorem runPieces_error {fn : Str} (Q : List (List Byte)) : ∀ {P : List (List Byte)} {s : State} {f : Failure}, runPieces fn P s = .error f →
    runPieces fn (P ++ Q) s = .error f
  | [], s, f, h => by cases h
  | p :: P, s, f, h => by
    rw [List.cons_append]
    unfold runPieces at h
    simp only at h
    split at h
    · rename_i h1; conv_lhs => unfold runPieces
      simp only [h1]; exact h
    · rename_i h1; conv_lhs => unfold runPieces
      simp only [h1]; exact h
    · rename_i ls h1
      split at h
      · rename_i h2; conv_lhs => unfold runPieces
        simp only [h1, h2]; exact h
      · rename_i st odd h2
        split at h
        · rename_i h3; conv_lhs => unfold runPieces
          simp only [h1, h2, h3]; exact h
        · rename_i s1 h3
          conv_lhs => unfold runPieces
          simp only [h1, h2, h3]
          split at h
          · cases h
          · rename_i hs; rw [if_neg hs]; exact runPieces_error Q h

/-- References already resolved stay so. -/
theorem resolve_more {fn : Str} {env env' : Env} (he : ∀ l v, env.lookup l = some v → env'.lookup l = some v) :
    ∀ {rs : List Pending} {W V : List Chunk}, resolve fn env rs W = .ok V → ∃ D, V = W ++ D ∧
      (∀ c ∈ D, ∃ r ∈ rs, c.1 = r.addr ∧ c.2.length = Pending.len r) ∧ ∀ rs' W', resolve fn env' (rs ++ rs') W' = resolve fn env' rs' (W' ++ D)
  | [], W, V, h => by cases h; exact ⟨[], by simp, by simp, by simp⟩
  | r :: rs, W, V, h => by
    unfold resolve at h
    simp only at h
    split at h
    · cases h
    · rename_i v hv
      have hv' := he _ _ hv
      split at h
      · rename_i hb
        split at h
        · cases h
        · rename_i b hbb
          obtain ⟨D, hD, hm, hr⟩ := resolve_more he h
          refine ⟨(r.addr, [r.opcode, b]) :: D, by rw [hD]; simp, ?_, ?_⟩
          · intro c hc
            rcases List.mem_cons.1 hc with rfl | hc
            · exact ⟨r, List.mem_cons_self, rfl, by simp [Pending.len, hb]⟩
            · obtain ⟨q, hq, hq2⟩ := hm c hc; exact ⟨q, List.mem_cons_of_mem _ hq, hq2⟩
          · intro rs' W'
            rw [List.cons_append]
            conv_lhs => unfold resolve
            simp only [hv', hb, hbb, if_true]
            rw [hr]
            simp
      · rename_i hb
        obtain ⟨D, hD, hm, hr⟩ := resolve_more he h
        refine ⟨(r.addr, [r.opcode, UInt8.ofNat (v % 256), UInt8.ofNat (v / 256 % 256)]) :: D, by rw [hD]; simp, ?_, ?_⟩
        · intro c hc
          rcases List.mem_cons.1 hc with rfl | hc
          · exact ⟨r, List.mem_cons_self, rfl, by simp [Pending.len, hb]⟩
          · obtain ⟨q, hq, hq2⟩ := hm c hc; exact ⟨q, List.mem_cons_of_mem _ hq, hq2⟩
        · intro rs' W'
          rw [List.cons_append]
          conv_lhs => unfold resolve
          simp only [hv', hb]
          rw [if_neg (by simp), hr]
          simp

/-- A reference that cannot be resolved although its label is known never can. -/
theorem resolve_never {fn : Str} {env env' : Env} (he : ∀ l v, env.lookup l = some v → env'.lookup l = some v) :
    ∀ {rs : List Pending} {W : List Chunk} {t : Str} {V : List Chunk}, resolve fn env rs W = .error (t, V) →
      (∃ r ∈ rs, t = diag r.text .missingLabelDefinition (some r.pos) fn r.line) ∨
      ∀ rs' W', ∃ V', resolve fn env' (rs ++ rs') W' = .error (t, V')
  | [], W, t, V, h => by cases h
  | r :: rs, W, t, V, h => by
    unfold resolve at h
    simp only at h
    split at h
    · cases h; exact .inl ⟨r, List.mem_cons_self, rfl⟩
    · rename_i v hv
      have hv' := he _ _ hv
      split at h
      · rename_i hb
        split at h
        · rename_i hbb
          cases h
          refine .inr fun rs' W' => ⟨W', ?_⟩
          rw [List.cons_append]
          unfold resolve
          simp only [hv', hb, hbb, if_true]
        · rename_i b hbb
          rcases resolve_never he h with ⟨q, hq, hq2⟩ | hr
          · exact .inl ⟨q, List.mem_cons_of_mem _ hq, hq2⟩
          · refine .inr fun rs' W' => ?_
            rw [List.cons_append]
            unfold resolve
            simp only [hv', hb, hbb, if_true]
            exact hr rs' _
      · rename_i hb
        rcases resolve_never he h with ⟨q, hq, hq2⟩ | hr
        · exact .inl ⟨q, List.mem_cons_of_mem _ hq, hq2⟩
        · refine .inr fun rs' W' => ?_
          rw [List.cons_append]
          unfold resolve
          simp only [hv', hb]
          rw [if_neg (by simp)]
          exact hr rs' _

/-- Chunks that lie above an address do not matter for the bytes below. -/
theorem byteAt_skip (i : Nat) (W U V : List Chunk) (h : ∀ c ∈ U, i < c.1) : byteAt (W ++ U ++ V) i = byteAt (W ++ V) i := by
  unfold byteAt
  have hU : U.reverse.findSome? (Chunk.at · i) = none := by
    rw [List.findSome?_eq_none_iff]
    intro c hc
    have := h c (List.mem_reverse.1 hc)
    unfold Chunk.at
    rw [if_neg (by omega)]
  simp only [List.reverse_append, List.findSome?_append, hU]
  simp

theorem image_prefix {W W' D D' : List Chunk} {n n' : Nat} (h1 : ∀ c ∈ W ++ D, c.1 + c.2.length ≤ n) (hl : ∃ c ∈ W, c.1 + c.2.length = n)
    (h2 : ∀ c ∈ W' ++ D', n ≤ c.1 ∧ c.1 + c.2.length ≤ n') (hl' : n' = n ∨ ∃ c ∈ W', c.1 + c.2.length = n') (hn : n ≤ n') :
    ∃ more, image (W ++ W' ++ D ++ D') = image (W ++ D) ++ more ∧ more.length = n' - n := by
  have e1 : imageEnd (W ++ D) = n := by
    apply Nat.le_antisymm (imageEnd_le h1)
    obtain ⟨c, hc, hcn⟩ := hl
    have := le_imageEnd (W := W ++ D) (List.mem_append_left _ hc)
    omega
  have e2 : imageEnd (W ++ W' ++ D ++ D') = n' := by
    apply Nat.le_antisymm
    · apply imageEnd_le
      intro c hc
      have : c ∈ W ++ D ∨ c ∈ W' ++ D' := by simp only [List.mem_append] at hc ⊢; tauto
      rcases this with hc | hc
      · have := h1 c hc; omega
      · exact (h2 c hc).2
    · rcases hl' with rfl | ⟨c, hc, hcn⟩
      · obtain ⟨c, hc, hcn⟩ := hl
        have := le_imageEnd (W := W ++ W' ++ D ++ D') (c := c) (by simp [hc])
        omega
      · have := le_imageEnd (W := W ++ W' ++ D ++ D') (c := c) (by simp [hc])
        omega
  refine ⟨(image (W ++ W' ++ D ++ D')).drop n, ?_, by rw [List.length_drop, image_length, e2]⟩
  have : image (W ++ D) = (image (W ++ W' ++ D ++ D')).take n := by
    apply List.ext_getElem?
    intro i
    by_cases hi : i < n
    · rw [List.getElem?_take, if_pos hi, image_get (by omega), image_get (by omega)]
      congr 1
      have k1 : byteAt (W ++ W' ++ D ++ D') i = byteAt (W ++ W' ++ D) i := by
        have := byteAt_skip i (W ++ W' ++ D) D' [] (by
          intro c hc
          have := (h2 c (by simp [hc])).1
          omega)
        simpa using this
      rw [k1, byteAt_skip i W W' D (by
        intro c hc
        have := (h2 c (by simp [hc])).1
        omega)]
    · rw [List.getElem?_take, if_neg hi, List.getElem?_eq_none (by rw [image_length, e1]; omega)]
  rw [this, List.take_append_drop]

end App
end Gaia

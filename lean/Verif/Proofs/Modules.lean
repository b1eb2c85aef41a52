import Verif.Spec.Modules
import Verif.Proofs.Append

/-! Two texts that share no names: the reference assembler on the second text, behind the first and alone. -/
namespace Gaia
open Spec Spec.Reference

namespace Mods

theorem lookup_stranger {env env0 : Env} {l : Str} (h : env0.lookup l = none) : (env ++ env0).lookup l = env.lookup l := by
  rw [List.lookup_append, h, Option.or_none]

/-- The label, if there is one, means nothing in `env0`. -/
def Free (env0 : Env) (o : Option Opd) : Prop := ∀ l, o = some (.sym l) → env0.lookup l = none

theorem sizing_free {env env0 : Env} {m : Mnemonic} {o : Option Opd} (h : Free env0 o) : sizingValue (env ++ env0) m o = sizingValue env m o := by
  cases o with
  | none => rfl
  | some o =>
    cases o with
    | lit v => rfl
    | sym l => simp only [sizingValue, lookup_stranger (h l rfl)]

theorem unknown_free {env env0 : Env} {o : Option Opd} (h : Free env0 o) : unknown (env ++ env0) o = unknown env o := by
  cases o with
  | none => rfl
  | some o =>
    cases o with
    | lit v => rfl
    | sym l => simp only [unknown, lookup_stranger (h l rfl)]

theorem encode_free {env env0 : Env} {it : Item} (h : Free env0 it.opd) : encodeLow (env ++ env0) it = encodeLow env it := by
  have : operandBytesLow (env ++ env0) it = operandBytesLow env it := by
    have hv : ∀ o, it.opd = some o → opdValue (env ++ env0) o = opdValue env o := by
      intro o ho
      cases o with
      | lit v => rfl
      | sym l => exact lookup_stranger (h l ho)
    unfold operandBytesLow
    split
    · rfl
    · rfl
    · rename_i o ho _
      rw [hv o ho]
  unfold encodeLow
  rw [this]

/-- The reference with another line number. -/
def bump (n : Nat) (r : Pending) : Pending := { r with line := r.line + n }

/-- The same writes, but for zeros written before the first instruction, at `e`. -/
def Same (e : Nat) (X Y : List Chunk) : Prop :=
  X = Y ∨ ∃ n bs R, bs.length = n ∧ X = (e, List.replicate n (0 : Byte)) :: (e, bs) :: R ∧ Y = (0, List.replicate n (0 : Byte)) :: (e, bs) :: R

theorem Same.append {e : Nat} {X Y : List Chunk} (h : Same e X Y) (Z : List Chunk) : Same e (X ++ Z) (Y ++ Z) := by
  rcases h with rfl | ⟨n, bs, R, h1, rfl, rfl⟩
  · exact .inl rfl
  · exact .inr ⟨n, bs, R ++ Z, h1, rfl, rfl⟩

/-- `s` is the state of the run behind the first text, `t` that of the run alone. -/
structure Rel (e n : Nat) (s0 s t : State) : Prop where
  pc : s.pc = t.pc
  line : s.line = t.line + n
  env : s.env = t.env ++ s0.env
  total : s.total = s0.total + t.total
  pending : s.pending = s0.pending ++ t.pending.map (bump n)
  free : ∀ r ∈ t.pending, s0.env.lookup r.label = none
  writes : ∃ X, s.writes = s0.writes ++ X ∧ (∀ c ∈ X, c.2 ≠ []) ∧ ((X = [] ∧ t.writes = [] ∧ s.filePos = e ∧ s.pc = e ∧ t.filePos = 0) ∨
    (s.filePos = t.filePos ∧ Same e X t.writes))

theorem Rel.write {e n : Nat} {s0 s t : State} (h : Rel e n s0 s t) {bs : List Byte} (hbs : bs ≠ []) : Rel e n s0 (s.write bs) (t.write bs) := by
  obtain ⟨X, hX, hne, hw⟩ := h.writes
  refine ⟨by simp [State.write, h.pc], by simp [State.write, h.line], by simp [State.write, h.env], by simp [State.write, h.total]; omega,
    by simp [State.write, h.pending], by simpa [State.write] using h.free, X ++ [(s.pc, bs)], by simp [State.write, hX], ?_, .inr ⟨by simp [State.write, h.pc], ?_⟩⟩
  · intro c hc
    rcases List.mem_append.1 hc with hc | hc
    · exact hne c hc
    · cases List.mem_singleton.1 hc; exact hbs
  simp only [State.write, h.pc]
  rcases hw with ⟨rfl, h2, _⟩ | ⟨_, h2⟩
  · rw [h2]; exact .inl rfl
  · exact h2.append _

/-- Both fail for the same reason, or neither fails. -/
def Both (e n : Nat) (s0 : State) (x y : Except Fault State) : Prop :=
  (∃ f, x = .error f ∧ y = .error f) ∨ ∃ s t, x = .ok s ∧ y = .ok t ∧ Rel e n s0 s t

theorem instruction_both {e n : Nat} {s0 s t : State} (h : Rel e n s0 s t) {text : Str} {ls : List (Nat × Lexeme)} {m : Mnemonic} {a : Arg}
    {odd : Bool} (hf : Free s0.env a.opd) : Both e n s0 (instruction text ls m a odd s) (instruction text ls m a odd t) := by
  unfold instruction
  simp only
  rw [h.env, sizing_free hf, unknown_free hf]
  cases hv : sizingValue t.env m a.opd with
  | none => exact .inl ⟨_, rfl, rfl⟩
  | some v =>
    simp only
    cases hu : unknown t.env a.opd with
    | none =>
      simp only
      cases hm : (if odd = true then none else modeFor m a v) with
      | none => exact .inl ⟨_, rfl, rfl⟩
      | some md =>
        simp only
        rw [h.pc, encode_free (it := ⟨t.pc, m, md, a.opd⟩) hf]
        cases hb : encodeLow t.env ⟨t.pc, m, md, a.opd⟩ with
        | none => exact .inl ⟨_, rfl, rfl⟩
        | some bs =>
          refine .inr ⟨_, _, rfl, rfl, h.write ?_⟩
          unfold encodeLow at hb
          rw [Option.bind_eq_bind] at hb
          obtain ⟨op, _, hb⟩ := Option.bind_eq_some_iff.1 hb
          rw [Option.bind_eq_bind] at hb
          obtain ⟨fs, _, hb⟩ := Option.bind_eq_some_iff.1 hb
          cases hb
          simp
    | some l =>
      simp only
      cases hm : (if odd = true then none else forwardCode m a) with
      | none => exact .inl ⟨_, rfl, rfl⟩
      | some q =>
        obtain ⟨op, k⟩ := q
        simp only
        have hf' : forwardCode m a = some (op, k) := by
          cases odd with
          | true => cases hm
          | false => exact hm
        have ho : a.opd = some (.sym l) := by
          cases ho : a.opd with
          | none => rw [ho] at hu; cases hu
          | some o =>
            cases o with
            | lit w => rw [ho] at hu; cases hu
            | sym k =>
              rw [ho] at hu
              unfold unknown at hu
              simp only at hu
              split at hu
              · cases hu
              · cases hu; rfl
        have hbj : (Spec.isBranch m || Spec.isJump m) = true := by
          rw [ho] at hu hv
          unfold unknown at hu
          simp only at hu
          cases hk : t.env.lookup l with
          | some w => rw [hk] at hu; cases hu
          | none =>
            simp only [sizingValue, hk] at hv
            by_contra hc
            rw [if_neg hc] at hv
            cases hv
        have hn := Reloc.forward_len hbj hf'
        have hk : k = 2 ∨ k = 3 := by rw [hn]; split <;> simp
        obtain ⟨X, hX, hne, hw⟩ := h.writes
        refine .inr ⟨_, _, rfl, rfl, ?_⟩
        have hlen : (op :: List.replicate (k - 1) (0 : Byte)).length = k := by simp only [List.length_cons, List.length_replicate]; omega
        refine ⟨by simp [State.write, h.pc], by simp [State.write, h.line], by simp [State.write], by simp [State.write, h.total]; omega,
          by simp [State.write, h.pending, bump, h.pc, h.line], ?_, X ++ [(s.filePos, List.replicate k 0), (s.pc, op :: List.replicate (k - 1) 0)],
          by simp [State.write, hX], ?_, .inr ⟨by simp [State.write, h.pc], ?_⟩⟩
        rotate_left
        · intro c hc
          simp only [List.mem_append, List.mem_cons, List.not_mem_nil, or_false] at hc
          rcases hc with hc | rfl | rfl
          · exact hne c hc
          · intro h0
            have := congrArg List.length h0
            simp at this; omega
          · simp
        rotate_left
        · intro r hr
          simp only [State.write, List.mem_append, List.mem_singleton] at hr
          rcases hr with hr | rfl
          · exact h.free r hr
          · exact hf l ho
        · simp only [State.write, List.append_assoc, List.cons_append, List.nil_append]
          rcases hw with ⟨rfl, h2, h3, h4, h5⟩ | ⟨h1, h2⟩
          · rw [h2, h3, h5, ← h.pc, h4]
            exact .inr ⟨k, _, [], hlen, rfl, rfl⟩
          · rw [h1, h.pc]; exact h2.append _

theorem define_both {e n : Nat} {s0 s t : State} (h : Rel e n s0 s t) {ls : List (Nat × Lexeme)} {l : Str} {v : Nat}
    (hf : s0.env.lookup l = none) : Both e n s0 (defineLabel ls l v s) (defineLabel ls l v t) := by
  unfold defineLabel
  rw [h.env, lookup_stranger hf]
  split
  · exact .inl ⟨_, rfl, rfl⟩
  · exact .inr ⟨_, _, rfl, rfl, ⟨h.pc, h.line, by simp, h.total, h.pending, h.free, h.writes⟩⟩

theorem execute_both {e n : Nat} {s0 s t : State} (h : Rel e n s0 s t) {text : Str} {ls : List (Nat × Lexeme)} {odd : Bool} {st : Stmt}
    (ho : st.isOrg = false) (hd : ∀ l ∈ defined st, s0.env.lookup l = none) (hr : ∀ l ∈ st.reference, s0.env.lookup l = none) :
    Both e n s0 (execute text ls odd s st) (execute text ls odd t st) := by
  cases st with
  | empty => exact .inr ⟨_, _, rfl, rfl, h⟩
  | stop => exact .inr ⟨_, _, rfl, rfl, h⟩
  | label l => unfold execute; rw [h.pc]; exact define_both h (hd l rfl)
  | const l v => exact define_both h (hd l rfl)
  | org v => cases ho
  | instr lab m a =>
    have hf : Free s0.env a.opd := by
      intro l hl
      exact hr l (by simp [Stmt.reference, hl])
    cases lab with
    | none => exact instruction_both h hf
    | some l =>
      unfold execute
      simp only
      rw [h.pc]
      rcases define_both h (ls := ls) (v := t.pc) (hd l rfl) with ⟨f, h1, h2⟩ | ⟨s', t', h1, h2, h3⟩
      · rw [h1, h2]; exact .inl ⟨_, rfl, rfl⟩
      · rw [h1, h2]; exact instruction_both h3 hf

theorem runPieces_both {fn : Str} {e n : Nat} {s0 : State} : ∀ {ps : List (List Byte)} {s t : State}, Rel e n s0 s t →
    (∀ st ∈ ps.filterMap stmtOf, st.isOrg = false ∧ (∀ l ∈ defined st, s0.env.lookup l = none) ∧ ∀ l ∈ st.reference, s0.env.lookup l = none) →
    (∃ m m' V V', runPieces fn ps s = .error (m', V') ∧ runPieces fn ps t = .error (m, V) ∧ SameMessage fn n m m') ∨
    ∃ s' t', runPieces fn ps s = .ok s' ∧ runPieces fn ps t = .ok t' ∧ Rel e n s0 s' t'
  | [], s, t, h, _ => .inr ⟨_, _, rfl, rfl, h⟩
  | p :: ps, s, t, h, hp => by
    unfold runPieces
    simp only
    cases h1 : lexemesOf p with
    | error w =>
      cases w with
      | tooMany => exact .inl ⟨_, _, _, _, rfl, rfl, .inl ⟨rfl, rfl⟩⟩
      | «at» er pos => exact .inl ⟨_, _, _, _, rfl, rfl, .inr ⟨_, _, _, _, rfl, by rw [h.line]⟩⟩
    | ok ls =>
      simp only
      cases h2 : statement (ls.map (·.2)) with
      | error q => exact .inl ⟨_, _, _, _, rfl, rfl, .inr ⟨_, _, _, _, rfl, by rw [h.line]⟩⟩
      | ok q =>
        obtain ⟨st, odd⟩ := q
        have hst : stmtOf p = some st := by unfold stmtOf; simp only [h1, h2]
        rw [List.filterMap_cons, hst] at hp
        obtain ⟨k1, k2, k3⟩ := hp st List.mem_cons_self
        simp only
        rcases execute_both h (text := p.takeWhile (· != 0)) (ls := ls) (odd := odd) k1 k2 k3 with ⟨f, e1, e2⟩ | ⟨s', t', e1, e2, e3⟩
        · rw [e1, e2]
          exact .inl ⟨_, _, _, _, rfl, rfl, .inr ⟨_, _, _, _, rfl, by rw [h.line]⟩⟩
        · rw [e1, e2]
          simp only
          split
          · exact .inr ⟨_, _, rfl, rfl, e3⟩
          · refine runPieces_both ⟨e3.pc, ?_, e3.env, e3.total, e3.pending, e3.free, e3.writes⟩ fun q hq => hp q (List.mem_cons_of_mem _ hq)
            show s'.line + 1 = t'.line + 1 + n
            rw [e3.line]; omega

theorem resolve_both {fn : Str} {n : Nat} {env env0 : Env} : ∀ {rs : List Pending} (_ : ∀ r ∈ rs, env0.lookup r.label = none) (X Y : List Chunk),
    (∃ m m' V V', resolve fn (env ++ env0) (rs.map (bump n)) X = .error (m', V') ∧ resolve fn env rs Y = .error (m, V) ∧ SameMessage fn n m m') ∨
    ∃ D, resolve fn (env ++ env0) (rs.map (bump n)) X = .ok (X ++ D) ∧ resolve fn env rs Y = .ok (Y ++ D)
  | [], _, X, Y => .inr ⟨[], by simp [resolve], by simp [resolve]⟩
  | r :: rs, h, X, Y => by
    rw [List.map_cons]
    unfold resolve
    simp only
    have e : (env ++ env0).lookup (bump n r).label = env.lookup r.label := lookup_stranger (h r List.mem_cons_self)
    rw [e]
    have next : ∀ c : Chunk, (∃ m m' V V', resolve fn (env ++ env0) (rs.map (bump n)) (X ++ [c]) = .error (m', V') ∧ resolve fn env rs (Y ++ [c]) = .error (m, V) ∧ SameMessage fn n m m') ∨
        ∃ D, resolve fn (env ++ env0) (rs.map (bump n)) (X ++ [c]) = .ok (X ++ D) ∧ resolve fn env rs (Y ++ [c]) = .ok (Y ++ D) := by
      intro c
      rcases resolve_both (fn := fn) (n := n) (env := env) (fun q hq => h q (List.mem_cons_of_mem _ hq)) (X ++ [c]) (Y ++ [c]) with h | ⟨D, h1, h2⟩
      · exact .inl h
      · exact .inr ⟨c :: D, by simpa using h1, by simpa using h2⟩
    cases env.lookup r.label with
    | none => exact .inl ⟨_, _, _, _, rfl, rfl, .inr ⟨_, _, _, _, rfl, rfl⟩⟩
    | some v =>
      simp only
      show (∃ m m' V V', (if Spec.isBranch r.mnemonic = true then _ else _) = _ ∧ _) ∨ ∃ D, (if Spec.isBranch r.mnemonic = true then _ else _) = _ ∧ _
      cases hb : Spec.isBranch r.mnemonic with
      | false => exact next _
      | true =>
        simp only [if_true]
        have e2 : (bump n r).addr = r.addr := rfl
        rw [e2]
        cases branchByte r.addr v with
        | none => exact .inl ⟨_, _, _, _, rfl, rfl, .inr ⟨_, _, _, _, rfl, rfl⟩⟩
        | some b => exact next _

theorem instruction_line {text : Str} {ls : List (Nat × Lexeme)} {m : Mnemonic} {a : Arg} {odd : Bool} {s s' : State}
    (h : instruction text ls m a odd s = .ok s') : s'.line = s.line := by
  unfold instruction at h
  simp only at h
  repeat' split at h
  all_goals first | cases h; rfl | cases h

theorem execute_line {text : Str} {ls : List (Nat × Lexeme)} {odd : Bool} {st : Stmt} {s s' : State}
    (h : execute text ls odd s st = .ok s') : s'.line = s.line := by
  have hd : ∀ {l v s s'}, defineLabel ls l v s = .ok s' → s'.line = s.line := by
    intro l v s s' h
    unfold defineLabel at h
    split at h <;> cases h
    rfl
  cases st with
  | empty => cases h; rfl
  | stop => cases h; rfl
  | label l => exact hd h
  | const l v => exact hd h
  | org v => cases h; rfl
  | instr lab m a =>
    cases lab with
    | none => exact instruction_line h
    | some l =>
      unfold execute at h
      simp only at h
      split at h
      · cases h
      · rename_i s1 h1
        rw [instruction_line h, hd h1]

/-- Without `.END` the second text is reached. -/
theorem runPieces_through {fn : Str} (Q : List (List Byte)) : ∀ {P : List (List Byte)} {s s' : State}, runPieces fn P s = .ok s' →
    (∀ st ∈ P.filterMap stmtOf, st ≠ .stop) → runPieces fn (P ++ Q) s = runPieces fn Q s' ∧ s'.line = s.line + P.length
  | [], s, s', h, _ => by cases h; exact ⟨rfl, rfl⟩
  | p :: P, s, s', h, hn => by
    rw [List.cons_append]
    unfold runPieces at h
    simp only at h
    split at h
    · cases h
    · cases h
    · rename_i ls h1
      split at h
      · cases h
      · rename_i st odd h2
        have hst : stmtOf p = some st := by unfold stmtOf; simp only [h1, h2]
        rw [List.filterMap_cons, hst] at hn
        split at h
        · cases h
        · rename_i s1 h3
          have hs := hn st List.mem_cons_self
          rw [if_neg hs] at h
          have e : runPieces fn (p :: (P ++ Q)) s = runPieces fn (P ++ Q) { s1 with line := s1.line + 1 } := by
            conv_lhs => unfold runPieces
            simp only [h1, h2, h3]
            rw [if_neg hs]
          obtain ⟨k1, k2⟩ := runPieces_through Q h fun q hq => hn q (List.mem_cons_of_mem _ hq)
          refine ⟨by rw [e]; exact k1, ?_⟩
          have hl : s1.line = s.line := by
            exact execute_line h3
          rw [k2]; simp only [List.length_cons, hl]; omega

theorem at_none {c : Chunk} {i : Nat} (h : i < c.1 ∨ c.1 + c.2.length ≤ i) : Chunk.at c i = none := by
  unfold Chunk.at
  split
  · rw [List.getElem?_eq_none (by omega)]
  · rfl

theorem at_some {c : Chunk} {i : Nat} (h : c.1 ≤ i ∧ i < c.1 + c.2.length) : (Chunk.at c i).isSome = true := by
  unfold Chunk.at
  rw [if_pos h.1, List.getElem?_eq_getElem (by omega)]
  rfl

theorem find_none {W : List Chunk} {i : Nat} (h : ∀ c ∈ W, i < c.1 ∨ c.1 + c.2.length ≤ i) : W.reverse.findSome? (Chunk.at · i) = none := by
  rw [List.findSome?_eq_none_iff]
  intro c hc
  exact at_none (h c (List.mem_reverse.1 hc))

/-- The code of the second text: behind the first text and alone. -/
theorem placed {e n' : Nat} {W0 D0 X Y D : List Chunk} (h0 : ∀ c ∈ W0 ++ D0, c.1 + c.2.length ≤ e) (hl : ∃ c ∈ W0, c.1 + c.2.length = e)
    (h1 : ∀ c ∈ X ++ D, e ≤ c.1 ∧ c.1 + c.2.length ≤ n') (hl' : n' = e ∨ ∃ c ∈ X, c.1 + c.2.length = n') (hn : e ≤ n')
    (hXY : X = [] ∧ Y = [] ∧ D = [] ∨ X ≠ [] ∧ Same e X Y) (hpos : ∀ c ∈ X, c.2 ≠ []) :
    ∃ code, image (W0 ++ X ++ D0 ++ D) = image (W0 ++ D0) ++ code ∧ code.length = n' - e ∧ image (Y ++ D) = placedAt e code := by
  obtain ⟨code, hc1, hc2⟩ := App.image_prefix h0 hl h1 hl' hn
  refine ⟨code, hc1, hc2, ?_⟩
  rcases hXY with ⟨rfl, rfl, rfl⟩ | ⟨hne, hsame⟩
  · have : n' = e := by
      rcases hl' with h | ⟨c, hc, _⟩
      · exact h
      · cases hc
    have : code = [] := List.length_eq_zero_iff.1 (by omega)
    rw [this]; rfl
  · have hlt : e < n' := by
      obtain ⟨c, R, rfl⟩ := List.exists_cons_of_ne_nil hne
      have := h1 c (by simp)
      have := List.length_pos_iff.2 (hpos c (by simp))
      omega
    have hcn : code ≠ [] := by intro h; rw [h] at hc2; simp at hc2; omega
    have e0 : imageEnd (W0 ++ D0) = e := by
      apply Nat.le_antisymm (imageEnd_le h0)
      obtain ⟨c, hc, hcn⟩ := hl
      have := le_imageEnd (W := W0 ++ D0) (List.mem_append_left _ hc)
      omega
    -- the writes of the second text alone
    have hY : ∀ c ∈ Y ++ D, (e ≤ c.1 ∧ c.1 + c.2.length ≤ n') ∨ ∃ k, c = (0, List.replicate k 0) ∧ e + k ≤ n' := by
      intro c hc
      rcases hsame with rfl | ⟨k, bs, R, hk, rfl, rfl⟩
      · exact .inl (h1 c hc)
      · rcases List.mem_append.1 hc with hc | hc
        · rcases List.mem_cons.1 hc with rfl | hc
          · have := h1 (e, List.replicate k 0) (by simp)
            exact .inr ⟨k, rfl, by simpa using this⟩
          · exact .inl (h1 c (List.mem_append_left _ (List.mem_cons_of_mem _ hc)))
        · exact .inl (h1 c (List.mem_append_right _ hc))
    have eY : imageEnd (Y ++ D) = n' := by
      apply Nat.le_antisymm
      · apply imageEnd_le
        intro c hc
        rcases hY c hc with h | ⟨k, rfl, h⟩
        · exact h.2
        · simp; omega
      · rcases hl' with h | ⟨c, hc, hcn⟩
        · omega
        · have hc' : ∃ c ∈ Y, n' ≤ c.1 + c.2.length := by
            rcases hsame with rfl | ⟨k, bs, R, hk, rfl, rfl⟩
            · exact ⟨c, hc, by omega⟩
            · rcases List.mem_cons.1 hc with rfl | hc
              · exact ⟨(e, bs), by simp, by simp at hcn; simp; omega⟩
              · exact ⟨c, List.mem_cons_of_mem _ hc, by omega⟩
          obtain ⟨c, hc, h⟩ := hc'
          have := le_imageEnd (W := Y ++ D) (List.mem_append_left _ hc)
          omega
    have below : ∀ i, i < e → byteAt (Y ++ D) i = 0 := by
      intro i hi
      unfold byteAt
      cases hf : (Y ++ D).reverse.findSome? (Chunk.at · i) with
      | none => rfl
      | some b =>
        obtain ⟨c, hc, hcb⟩ := List.exists_of_findSome?_eq_some hf
        rcases hY c (List.mem_reverse.1 hc) with h | ⟨k, rfl, _⟩
        · rw [at_none (.inl (by omega))] at hcb; cases hcb
        · unfold Chunk.at at hcb
          simp only [Nat.zero_le, if_true, Nat.sub_zero, List.getElem?_replicate] at hcb
          split at hcb
          · cases hcb; rfl
          · cases hcb
    have above : ∀ i, e ≤ i → byteAt (W0 ++ X ++ D0 ++ D) i = byteAt (Y ++ D) i := by
      intro i hi
      have n1 : W0.reverse.findSome? (Chunk.at · i) = none := find_none fun c hc => .inr (by have := h0 c (by simp [hc]); omega)
      have n2 : D0.reverse.findSome? (Chunk.at · i) = none := find_none fun c hc => .inr (by have := h0 c (by simp [hc]); omega)
      have key : X.reverse.findSome? (Chunk.at · i) = Y.reverse.findSome? (Chunk.at · i) := by
        rcases hsame with rfl | ⟨k, bs, R, hk, rfl, rfl⟩
        · rfl
        · simp only [List.reverse_cons, List.findSome?_append, List.findSome?_cons, List.findSome?_nil]
          by_cases hin : i < e + k
          · have := at_some (c := (e, bs)) (i := i) ⟨hi, by simp only; omega⟩
            obtain ⟨b, hb⟩ := Option.isSome_iff_exists.1 this
            rw [hb]
            simp
          · rw [at_none (c := (e, List.replicate k 0)) (.inr (by simp; omega)), at_none (c := (0, List.replicate k 0)) (.inr (by simp; omega))]
      unfold byteAt
      simp only [List.reverse_append, List.findSome?_append, n1, n2, key]
      simp
    have hlenE : (image (W0 ++ D0)).length = e := by rw [image_length, e0]
    have hlenAll : (image (W0 ++ X ++ D0 ++ D)).length = n' := by rw [hc1, List.length_append, hlenE, hc2]; omega
    unfold placedAt
    rw [if_neg hcn]
    apply List.ext_getElem?
    intro i
    by_cases hi : i < n'
    · rw [image_get (by omega)]
      by_cases hie : i < e
      · rw [below i hie, List.getElem?_append_left (by simpa using hie), List.getElem?_replicate, if_pos hie]
      · rw [← above i (by omega), ← image_get (W := W0 ++ X ++ D0 ++ D) (by rw [← image_length, hlenAll]; exact hi), hc1,
          List.getElem?_append_right (by omega), List.getElem?_append_right (by simpa using hie), hlenE]
        simp
    · rw [List.getElem?_eq_none (by rw [image_length]; omega), List.getElem?_eq_none (by simp; omega)]

end Mods
end Gaia

import Verif.Props.C68_Prefix

/-!
C70: an instruction replaced by another one of the same length changes its own bytes only, and can be refused for its own line only.
-/
namespace Gaia.Spec
open Gaia Reference

/-- The length of an instruction where the symbols `env` are known. -/
def lengthIn (env : Env) (m : Mnemonic) (a : Arg) : Option Nat :=
  (sizingValue env m a.opd).bind fun v =>
    match unknown env a.opd with
    | none => (modeFor m a v).map (·.bytes)
    | some _ => (forwardCode m a).map (·.2)

/-- The symbols known to an instruction: those of the lines above, and the label of the line itself. -/
def knownAt (s : State) : Option Str → Env
  | none => s.env
  | some l => (l, s.pc) :: s.env

/-- The operand is a label that is defined later. -/
def isForward (env : Env) (a : Arg) : Bool := (unknown env a.opd).isSome

end Gaia.Spec

namespace Gaia
open Spec Spec.Reference

namespace Edit

/-- The number of bytes of a reference. -/
def refLen (r : Pending) : Nat := if Spec.isBranch r.mnemonic then 2 else 3

/-- The references of line `k` with text `t` that lie in the window `R`. -/
def Mine (R : Nat → Prop) (k : Nat) (t : Str) (W : List Chunk) (X : List Pending) : Prop :=
  ∀ r ∈ X, r.line = k ∧ r.text = t ∧ (∀ q, r.addr ≤ q → q < r.addr + refLen r → R q) ∧ r.addr + refLen r ≤ imageEnd W

/-- Writes that differ in the window `R` only, with the same end if `len`. -/
structure Near (R : Nat → Prop) (len : Prop) (W W' : List Chunk) : Prop where
  view : ∀ q, ¬ R q → byteAt W q = byteAt W' q
  ends : len → imageEnd W = imageEnd W'

theorem Near.append {R : Nat → Prop} {len : Prop} {W W' : List Chunk} (h : Near R len W W') (c : Chunk) : Near R len (W ++ [c]) (W' ++ [c]) := by
  refine ⟨fun q hq => ?_, fun hl => ?_⟩
  · rw [byteAt_append, byteAt_append, h.view q hq]
  · rw [imageEnd_append, imageEnd_append, h.ends hl]

theorem byteAt_outside {R : Nat → Prop} {W : List Chunk} {c : Chunk} (hc : ∀ q, c.1 ≤ q → q < c.1 + c.2.length → R q) {q : Nat} (hq : ¬ R q) :
    byteAt (W ++ [c]) q = byteAt W q := by
  rw [byteAt_append, Chunk.at_none]
  · rfl
  · by_contra hn
    exact hq (hc q (by omega) (by omega))

/-- States that differ in the window only. -/
structure Close (R : Nat → Prop) (len : Prop) (k : Nat) (t t' : Str) (s s' : State) : Prop where
  pc : s.pc = s'.pc
  line : s.line = s'.line
  env : s.env = s'.env
  total : s.total = s'.total
  filePos : s.filePos = s'.filePos
  writes : Near R len s.writes s'.writes
  pending : ∃ A X X' B, s.pending = A ++ X ++ B ∧ s'.pending = A ++ X' ++ B ∧ Mine R k t s.writes X ∧ Mine R k t' s'.writes X'

theorem Mine.append {R : Nat → Prop} {k : Nat} {t : Str} {W : List Chunk} {X : List Pending} (h : Mine R k t W X) (c : Chunk) :
    Mine R k t (W ++ [c]) X := by
  intro r hr
  obtain ⟨h1, h2, h3, h4⟩ := h r hr
  refine ⟨h1, h2, h3, ?_⟩
  rw [imageEnd_append]
  omega

theorem Close.write {R : Nat → Prop} {len : Prop} {k : Nat} {t t' : Str} {s s' : State} (h : Close R len k t t' s s') (bs : List Byte) :
    Close R len k t t' (s.write bs) (s'.write bs) := by
  obtain ⟨A, X, X', B, h1, h2, h3, h4⟩ := h.pending
  refine ⟨?_, h.line, h.env, ?_, ?_, ?_, A, X, X', B, h1, h2, h3.append _, h4.append _⟩
  · simp only [State.write, h.pc]
  · simp only [State.write, h.total]
  · simp only [State.write, h.pc]
  · simp only [State.write, ← h.pc]
    exact h.writes.append _

theorem defineLabel_close {R : Nat → Prop} {len : Prop} {k : Nat} {t t' : Str} {s s' u : State} (h : Close R len k t t' s s')
    {ls : List (Nat × Lexeme)} {l : Str} {v : Nat} (hd : defineLabel ls l v s = .ok u) :
    ∃ u', defineLabel ls l v s' = .ok u' ∧ Close R len k t t' u u' := by
  unfold defineLabel at hd ⊢
  rw [h.env] at hd
  split_ifs at hd ⊢
  cases hd
  exact ⟨_, rfl, h.pc, h.line, rfl, h.total, h.filePos, h.writes, h.pending⟩

theorem instruction_close {R : Nat → Prop} {len : Prop} {k : Nat} {t t' : Str} {s s' u : State} (h : Close R len k t t' s s')
    {text : Str} {ls : List (Nat × Lexeme)} {m : Mnemonic} {a : Arg} {odd : Bool} (hd : instruction text ls m a odd s = .ok u) :
    ∃ u', instruction text ls m a odd s' = .ok u' ∧ Close R len k t t' u u' := by
  unfold instruction at hd ⊢
  rw [← h.env, ← h.pc]
  cases h1 : sizingValue s.env m a.opd with
  | none => rw [h1] at hd; cases hd
  | some v =>
    rw [h1] at hd
    dsimp only at hd ⊢
    cases h2 : unknown s.env a.opd with
    | none =>
      rw [h2] at hd
      dsimp only at hd ⊢
      cases h3 : (if odd then none else modeFor m a v) with
      | none => rw [h3] at hd; cases hd
      | some md =>
        rw [h3] at hd
        dsimp only at hd ⊢
        cases h4 : encodeLow s.env ⟨s.pc, m, md, a.opd⟩ with
        | none => rw [h4] at hd; cases hd
        | some bs =>
          rw [h4] at hd
          cases hd
          exact ⟨_, rfl, h.write bs⟩
    | some l =>
      rw [h2] at hd
      dsimp only at hd ⊢
      cases h3 : (if odd then none else forwardCode m a) with
      | none => rw [h3] at hd; cases hd
      | some q =>
        rw [h3] at hd
        cases hd
        refine ⟨_, rfl, Close.write ?_ _⟩
        obtain ⟨A, X, X', B, g1, g2, g3, g4⟩ := h.pending
        refine ⟨rfl, h.line, rfl, h.total, h.filePos, ?_, A, X, X', B ++ [⟨s.line, text, (nameOffsets ls.tail).head?.getD 0, l, s.pc, m, q.1⟩], ?_, ?_, g3.append _, g4.append _⟩
        · simp only [← h.filePos]
          exact h.writes.append _
        · simp only [g1, List.append_assoc]
        · simp only [g2, h.line, List.append_assoc]

theorem execute_close {R : Nat → Prop} {len : Prop} {k : Nat} {t t' : Str} {s s' u : State} (h : Close R len k t t' s s')
    {text : Str} {ls : List (Nat × Lexeme)} {odd : Bool} {st : Stmt} (hd : execute text ls odd s st = .ok u) :
    ∃ u', execute text ls odd s' st = .ok u' ∧ Close R len k t t' u u' := by
  unfold execute at hd ⊢
  split at hd
  · cases hd; exact ⟨_, rfl, h⟩
  · cases hd; exact ⟨_, rfl, h⟩
  · rw [← h.pc]; exact defineLabel_close h hd
  · exact defineLabel_close h hd
  · cases hd; exact ⟨_, rfl, rfl, h.line, h.env, h.total, h.filePos, h.writes, h.pending⟩
  · exact instruction_close h hd
  · rename_i l m a
    cases h1 : defineLabel ls l s.pc s with
    | error f => rw [h1] at hd; cases hd
    | ok v =>
      rw [h1] at hd
      obtain ⟨v', g1, g2⟩ := defineLabel_close h h1
      rw [h.pc] at g1
      simp only [g1]
      exact instruction_close g2 hd

theorem runPieces_close {fn : Str} {R : Nat → Prop} {len : Prop} {k : Nat} {t t' : Str} : ∀ {P : List (List Byte)} {s s' u : State},
    Close R len k t t' s s' → runPieces fn P s = .ok u → ∃ u', runPieces fn P s' = .ok u' ∧ Close R len k t t' u u'
  | [], s, s', u, h, hd => by cases hd; exact ⟨_, rfl, h⟩
  | p :: P, s, s', u, h, hd => by
    rw [Org.runPieces_cons] at hd ⊢
    cases h1 : lexemesOf p with
    | error f => rw [h1] at hd; cases f <;> cases hd
    | ok ls =>
      rw [h1] at hd
      dsimp only at hd ⊢
      cases h2 : statement (ls.map (·.2)) with
      | error f => rw [h2] at hd; cases hd
      | ok x =>
        obtain ⟨st, odd⟩ := x
        rw [h2] at hd
        dsimp only at hd ⊢
        cases h3 : execute (p.takeWhile (· != 0)) ls odd s st with
        | error f => rw [h3] at hd; cases hd
        | ok v =>
          rw [h3] at hd
          obtain ⟨v', g1, g2⟩ := execute_close h h3
          rw [g1]
          dsimp only at hd ⊢
          split_ifs at hd ⊢ with hst
          · cases hd; exact ⟨_, rfl, g2⟩
          · exact runPieces_close (s := { v with line := v.line + 1 }) (s' := { v' with line := v'.line + 1 })
              ⟨g2.pc, by simp only [g2.line], g2.env, g2.total, g2.filePos, g2.writes, g2.pending⟩ hd

/-! ### The second part of a run -/

theorem resolve_append {fn : Str} {env : Env} (B : List Pending) : ∀ (A : List Pending) (W : List Chunk),
    resolve fn env (A ++ B) W = match resolve fn env A W with
      | .error f => .error f
      | .ok V => resolve fn env B V
  | [], W => rfl
  | r :: A, W => by
    simp only [List.cons_append, resolve]
    cases env.lookup r.label with
    | none => rfl
    | some v =>
      dsimp only
      split_ifs
      · cases branchByte r.addr v with
        | none => rfl
        | some b => exact resolve_append B A _
      · exact resolve_append B A _

/-- The same references, written after writes that differ in the window. -/
theorem resolve_near {fn : Str} {env : Env} {R : Nat → Prop} {len : Prop} : ∀ {A : List Pending} {W W' V : List Chunk}, Near R len W W' →
    resolve fn env A W = .ok V → ∃ V', resolve fn env A W' = .ok V' ∧ Near R len V V' ∧ imageEnd W ≤ imageEnd V ∧ imageEnd W' ≤ imageEnd V'
  | [], W, W', V, h, hd => by cases hd; exact ⟨_, rfl, h, le_rfl, le_rfl⟩
  | r :: A, W, W', V, h, hd => by
    simp only [resolve] at hd ⊢
    cases h1 : env.lookup r.label with
    | none => rw [h1] at hd; cases hd
    | some v =>
      rw [h1] at hd
      dsimp only at hd ⊢
      have key : ∀ c : Chunk, resolve fn env A (W ++ [c]) = .ok V → ∃ V', resolve fn env A (W' ++ [c]) = .ok V' ∧ Near R len V V' ∧
          imageEnd W ≤ imageEnd V ∧ imageEnd W' ≤ imageEnd V' := by
        intro c hc
        obtain ⟨V', g1, g2, g3, g4⟩ := resolve_near (h.append c) hc
        rw [imageEnd_append] at g3 g4
        exact ⟨V', g1, g2, by omega, by omega⟩
      split_ifs at hd ⊢
      · cases h2 : branchByte r.addr v with
        | none => rw [h2] at hd; cases hd
        | some b => rw [h2] at hd; exact key _ hd
      · exact key _ hd

/-- References in the window change bytes of the window only. -/
theorem resolve_mine {fn : Str} {env : Env} {R : Nat → Prop} {k : Nat} {t : Str} : ∀ {X : List Pending} {W : List Chunk}, Mine R k t W X →
    (∃ V, resolve fn env X W = .ok V ∧ Near R True W V) ∨ ∃ e pos V, resolve fn env X W = .error (diag t e pos fn k, V)
  | [], W, _ => .inl ⟨W, rfl, fun _ _ => rfl, fun _ => rfl⟩
  | r :: X, W, h => by
    obtain ⟨h1, h2, h3, h4⟩ := h r (by simp)
    have hx : Mine R k t W X := fun r' hr => h r' (by simp [hr])
    simp only [resolve]
    cases env.lookup r.label with
    | none => exact .inr ⟨_, _, _, by rw [h1, h2]⟩
    | some v =>
      dsimp only
      have key : ∀ bs : List Byte, bs.length = refLen r →
          (∃ V, resolve fn env X (W ++ [(r.addr, bs)]) = .ok V ∧ Near R True W V) ∨
          ∃ e pos V, resolve fn env X (W ++ [(r.addr, bs)]) = .error (diag t e pos fn k, V) := by
        intro bs hl
        rcases resolve_mine (fn := fn) (env := env) (hx.append (r.addr, bs)) with ⟨V, g1, g2⟩ | g
        · refine .inl ⟨V, g1, fun q hq => ?_, fun _ => ?_⟩
          · rw [← g2.view q hq, byteAt_outside (c := (r.addr, bs)) _ hq]
            intro q h1 h2
            exact h3 q h1 (by rw [← hl]; exact h2)
          · rw [← g2.ends trivial, imageEnd_append]
            dsimp only
            omega
        · exact .inr g
      split_ifs with hb
      · cases branchByte r.addr v with
        | none => exact .inr ⟨_, _, _, by rw [h1, h2]⟩
        | some b => exact key _ (by simp [refLen, hb])
      · exact key _ (by simp [refLen, hb])

theorem resolve_close {fn : Str} {R : Nat → Prop} {len : Prop} {k : Nat} {t t' : Str} {s s' : State} (h : Close R len k t t' s s')
    {V : List Chunk} (hd : resolve fn s.env s.pending s.writes = .ok V) :
    (∃ V', resolve fn s'.env s'.pending s'.writes = .ok V' ∧ Near R len V V') ∨
    ∃ e pos V', resolve fn s'.env s'.pending s'.writes = .error (diag t' e pos fn k, V') := by
  obtain ⟨A, X, X', B, h1, h2, h3, h4⟩ := h.pending
  rw [h1, resolve_append, resolve_append] at hd
  rw [h2, resolve_append, resolve_append, ← h.env]
  cases g1 : resolve fn s.env A s.writes with
  | error f => rw [g1] at hd; cases hd
  | ok W =>
    rw [g1] at hd
    obtain ⟨W', g2, g3, g4, g5⟩ := resolve_near h.writes g1
    rw [g2]
    dsimp only at hd ⊢
    have m3 : Mine R k t W X := fun r hr => ⟨(h3 r hr).1, (h3 r hr).2.1, (h3 r hr).2.2.1, (h3 r hr).2.2.2.trans g4⟩
    have m4 : Mine R k t' W' X' := fun r hr => ⟨(h4 r hr).1, (h4 r hr).2.1, (h4 r hr).2.2.1, (h4 r hr).2.2.2.trans g5⟩
    rcases resolve_mine (fn := fn) (env := s.env) m3 with ⟨U, k1, k2⟩ | ⟨e, pos, U, k1⟩
    · rw [k1] at hd
      rcases resolve_mine (fn := fn) (env := s.env) m4 with ⟨U', k3, k4⟩ | ⟨e, pos, U', k3⟩
      · rw [k3]
        dsimp only at hd ⊢
        have near : Near R len U U' := ⟨fun q hq => by rw [← k2.view q hq, ← k4.view q hq, g3.view q hq],
          fun hl => by rw [← k2.ends trivial, ← k4.ends trivial, g3.ends hl]⟩
        obtain ⟨V', j1, j2, _⟩ := resolve_near near hd
        exact .inl ⟨V', j1, j2⟩
      · rw [k3]; exact .inr ⟨e, pos, U', rfl⟩
    · rw [k1] at hd; cases hd

/-! ### The line itself -/

theorem encodeLow_len {env : Env} {it : Item} {bs : List Byte} (h : encodeLow env it = some bs) : bs.length = it.mode.bytes := by
  unfold encodeLow at h
  simp only [Option.bind_eq_bind, Option.bind_eq_some_iff, Option.some.injEq] at h
  obtain ⟨op, _, bs', h1, rfl⟩ := h
  unfold operandBytesLow at h1
  split at h1
  · rename_i hb
    cases h1; rw [hb]; rfl
  · cases h1
  · rename_i o _ hn
    simp only [Option.bind_eq_bind, Option.bind_eq_some_iff] at h1
    obtain ⟨v, _, h1⟩ := h1
    split_ifs at h1 with g1 g2
    · rw [g1]
      split at h1
      · cases h1; rfl
      · obtain ⟨b, _, rfl⟩ := Option.map_eq_some_iff.1 h1
        rfl
    · cases h1; rw [g2]; rfl
    · cases h1
      rcases mode_bytes_cases it.mode with h | h | h
      · exact (hn h).elim
      · exact (g2 h).elim
      · rw [h]; rfl

/-- What the line adds to the output: nothing but its own bytes, and zeros where the file stood if its label is defined later. -/
structure Adds (fwd : Bool) (n : Nat) (text : Str) (s u : State) : Prop where
  pc : u.pc = s.pc + n
  line : u.line = s.line
  env : u.env = s.env
  total : u.total = s.total + n
  filePos : u.filePos = s.pc + n
  writes : ∃ bs : List Byte, bs.length = n ∧ u.writes = s.writes ++ (if fwd then [(s.filePos, List.replicate n 0)] else []) ++ [(s.pc, bs)]
  pending : ∃ X, u.pending = s.pending ++ X ∧ ∀ r ∈ X, r.line = s.line ∧ r.text = text ∧ r.addr = s.pc ∧ refLen r = n

theorem instruction_adds {text : Str} {ls : List (Nat × Lexeme)} {m : Mnemonic} {a : Arg} {odd : Bool} {s u : State} {n : Nat}
    (hn : lengthIn s.env m a = some n) (h : instruction text ls m a odd s = .ok u) : Adds (isForward s.env a) n text s u := by
  unfold instruction at h
  unfold lengthIn at hn
  unfold isForward
  cases h1 : sizingValue s.env m a.opd with
  | none => rw [h1] at hn; cases hn
  | some v =>
    rw [h1] at h hn
    dsimp only [Option.bind_some] at h hn
    cases h2 : unknown s.env a.opd with
    | none =>
      rw [h2] at h hn
      dsimp only at h hn
      obtain ⟨md, g1, g2⟩ := Option.map_eq_some_iff.1 hn
      cases odd with
      | true => cases h
      | false =>
        simp only [Bool.false_eq_true, if_false, g1] at h
        cases h4 : encodeLow s.env ⟨s.pc, m, md, a.opd⟩ with
        | none => rw [h4] at h; cases h
        | some bs =>
          rw [h4] at h
          cases h
          have hl : bs.length = n := by rw [encodeLow_len h4]; exact g2
          refine ⟨?_, rfl, rfl, ?_, ?_, ⟨bs, hl, ?_⟩, [], ?_, fun r hr => by cases hr⟩
          · simp only [State.write, hl]
          · simp only [State.write, hl]
          · simp only [State.write, hl]
          · simp [State.write]
          · simp [State.write]
    | some l =>
      rw [h2] at h hn
      dsimp only at h hn
      obtain ⟨q, g1, g2⟩ := Option.map_eq_some_iff.1 hn
      obtain ⟨op, n'⟩ := q
      obtain rfl : n' = n := g2
      cases odd with
      | true => cases h
      | false =>
        simp only [Bool.false_eq_true, if_false, g1] at h
        have hbj : (Spec.isBranch m || Spec.isJump m) = true := by
          unfold unknown at h2
          split at h2
          · rename_i l' ho
            split_ifs at h2 with h3
            rw [ho] at h1
            unfold sizingValue at h1
            simp only at h1
            cases h4 : s.env.lookup l' with
            | some v => rw [h4] at h3; exact (h3 rfl).elim
            | none =>
              rw [h4] at h1
              simp only at h1
              split_ifs at h1 with h5
              exact h5
          · cases h2
        have hlen := Reloc.forward_len hbj g1
        have hl : (op :: List.replicate (n' - 1) (0 : Byte)).length = n' := by
          simp only [List.length_cons, List.length_replicate]
          have : n' = 2 ∨ n' = 3 := by rw [hlen]; split_ifs <;> simp
          omega
        cases h
        refine ⟨?_, rfl, rfl, ?_, ?_, ⟨_, hl, ?_⟩, [⟨s.line, text, (nameOffsets ls.tail).head?.getD 0, l, s.pc, m, op⟩], ?_, ?_⟩
        · simp only [State.write, hl]
        · simp only [State.write, hl]
        · simp only [State.write, hl]
        · simp [State.write]
        · simp [State.write]
        · intro r hr
          obtain rfl := List.mem_singleton.1 hr
          exact ⟨rfl, rfl, rfl, hlen.symm⟩

/-- The bytes that may change: those of the instruction, and those where the file stood if only one of the labels is defined later. -/
def Window (s : State) (n : Nat) (f f' : Bool) (q : Nat) : Prop :=
  (s.pc ≤ q ∧ q < s.pc + n) ∨ (f ≠ f' ∧ s.filePos ≤ q ∧ q < s.filePos + n)

theorem adds_close {f f' : Bool} {n : Nat} {t t' : Str} {s u u' : State} (h : Adds f n t s u) (h' : Adds f' n t' s u') :
    Close (Window s n f f') (f = f' ∨ s.filePos ≤ s.pc) s.line t t' u u' := by
  obtain ⟨bs, hl, hw⟩ := h.writes
  obtain ⟨bs', hl', hw'⟩ := h'.writes
  obtain ⟨X, hX, hx⟩ := h.pending
  obtain ⟨X', hX', hx'⟩ := h'.pending
  have view : ∀ (f f' g : Bool) (bs : List Byte), bs.length = n → (g = true → f ≠ f') → ∀ q, ¬ Window s n f f' q →
      byteAt (s.writes ++ (if g then [(s.filePos, List.replicate n 0)] else []) ++ [(s.pc, bs)]) q = byteAt s.writes q := by
    intro f f' g bs hl hg q hq
    rw [byteAt_outside (R := Window s n f f') _ hq]
    · cases g with
      | false => simp
      | true =>
        simp only [if_true]
        refine byteAt_outside (R := Window s n f f') ?_ hq
        intro q h1 h2
        simp only [List.length_replicate] at h1 h2
        exact .inr ⟨hg rfl, h1, h2⟩
    · intro q h1 h2
      dsimp only at h1 h2
      rw [hl] at h2
      exact .inl ⟨h1, h2⟩
  have same : ∀ (Z : List Chunk) (bs : List Byte), bs.length = n → ∀ q, ¬ Window s n f f' q →
      byteAt (Z ++ [(s.pc, bs)]) q = byteAt Z q := by
    intro Z bs hl q hq
    refine byteAt_outside (R := Window s n f f') ?_ hq
    intro q h1 h2
    dsimp only at h1 h2
    rw [hl] at h2
    exact .inl ⟨h1, h2⟩
  refine ⟨by rw [h.pc, h'.pc], by rw [h.line, h'.line], by rw [h.env, h'.env], by rw [h.total, h'.total], by rw [h.filePos, h'.filePos],
    ⟨?_, ?_⟩, s.pending, X, X', [], by rw [hX, List.append_nil], by rw [hX', List.append_nil], ?_, ?_⟩
  · intro q hq
    rw [hw, hw']
    by_cases hff : f = f'
    · subst hff
      rw [same _ bs hl q hq, same _ bs' hl' q hq]
    · rw [view f f' f bs hl (fun _ => hff) q hq, view f f' f' bs' hl' (fun _ => hff) q hq]
  · intro hlen
    rw [hw, hw', imageEnd_append, imageEnd_append]
    dsimp only
    rw [hl, hl']
    rcases hlen with rfl | hlen
    · rfl
    · cases f <;> cases f' <;> simp only [Bool.false_eq_true, if_false, if_true, List.append_nil, imageEnd_append, List.length_replicate] <;> omega
  · intro r hr
    obtain ⟨h1, h2, h3, h4⟩ := hx r hr
    refine ⟨h1, h2, fun q k1 k2 => .inl (by rw [h3] at k1 k2; rw [h4] at k2; exact ⟨k1, k2⟩), ?_⟩
    rw [hw, imageEnd_append, h3, h4]
    dsimp only
    omega
  · intro r hr
    obtain ⟨h1, h2, h3, h4⟩ := hx' r hr
    refine ⟨h1, h2, fun q k1 k2 => .inl (by rw [h3] at k1 k2; rw [h4] at k2; exact ⟨k1, k2⟩), ?_⟩
    rw [hw', imageEnd_append, h3, h4]
    dsimp only
    omega

theorem runPieces_split {fn : Str} : ∀ {P : List (List Byte)} {s s' : State}, runPieces fn P s = .ok s' →
    (∀ Q, runPieces fn (P ++ Q) s = .ok s') ∨ (s'.line = s.line + P.length ∧ ∀ Q, runPieces fn (P ++ Q) s = runPieces fn Q s')
  | [], s, s', h => by cases h; exact .inr ⟨rfl, fun _ => rfl⟩
  | p :: P, s, s', h => by
    rw [Org.runPieces_cons] at h
    simp only [List.cons_append, Org.runPieces_cons]
    cases h1 : lexemesOf p with
    | error f => rw [h1] at h; cases f <;> cases h
    | ok ls =>
      rw [h1] at h
      dsimp only at h ⊢
      cases h2 : statement (ls.map (·.2)) with
      | error f => rw [h2] at h; cases h
      | ok x =>
        obtain ⟨st, odd⟩ := x
        rw [h2] at h
        dsimp only at h ⊢
        cases h3 : execute (p.takeWhile (· != 0)) ls odd s st with
        | error f => rw [h3] at h; cases h
        | ok v =>
          rw [h3] at h
          dsimp only at h ⊢
          split_ifs at h ⊢ with hst
          · cases h; exact .inl fun _ => rfl
          · rcases runPieces_split h with g | ⟨g1, g2⟩
            · exact .inl g
            · refine .inr ⟨?_, g2⟩
              have := (Pre.execute_pending h3).2
              simp only [List.length_cons] at g1 ⊢
              omega

theorem image_getD (W : List Chunk) (i : Nat) : (image W).getD i 0 = byteAt W i := by
  rw [List.getD_eq_getElem?_getD]
  by_cases h : i < imageEnd W
  · rw [image_get h]; rfl
  · rw [byteAt_beyond (by omega), List.getElem?_eq_none (by rw [image_length]; omega)]
    rfl

/-- The edited line. -/
theorem line_close {fn : Str} {p p' : List Byte} {lab : Option Str} {m m' : Mnemonic} {a a' : Arg} (hp : stmtOf p = some (.instr lab m a))
    (hp' : stmtOf p' = some (.instr lab m' a')) {s : State} {n : Nat} (hn : lengthIn (knownAt s lab) m a = some n)
    (hn' : lengthIn (knownAt s lab) m' a' = some n) {post : List (List Byte)} {u : State} (h : runPieces fn (p :: post) s = .ok u) :
    (∃ u', runPieces fn (p' :: post) s = .ok u' ∧
      Close (Window s n (isForward (knownAt s lab) a) (isForward (knownAt s lab) a'))
        (isForward (knownAt s lab) a = isForward (knownAt s lab) a' ∨ s.filePos ≤ s.pc) s.line (shown p) (shown p') u u') ∨
    ∃ e pos W, runPieces fn (p' :: post) s = .error (diag (shown p') e pos fn s.line, W) := by
  have parts : ∀ {p : List Byte} {st : Stmt}, stmtOf p = some st → ∃ ls odd, lexemesOf p = .ok ls ∧ statement (ls.map (·.2)) = .ok (st, odd) := by
    intro p st hp
    unfold stmtOf at hp
    cases h1 : lexemesOf p with
    | error f => rw [h1] at hp; cases hp
    | ok ls =>
      rw [h1] at hp
      dsimp only at hp
      cases h2 : statement (ls.map (·.2)) with
      | error f => rw [h2] at hp; cases hp
      | ok x =>
        rw [h2] at hp
        cases hp
        exact ⟨ls, x.2, rfl, h2⟩
  obtain ⟨ls, odd, h1, h2⟩ := parts hp
  obtain ⟨ls', odd', h1', h2'⟩ := parts hp'
  rw [Org.runPieces_cons, h1] at h
  rw [Org.runPieces_cons, h1']
  simp only [h2] at h
  simp only [h2']
  cases h3 : execute (p.takeWhile (· != 0)) ls odd s (.instr lab m a) with
  | error f => rw [h3] at h; cases h
  | ok v =>
    rw [h3] at h
    simp only [reduceCtorEq, if_false] at h
    cases h3' : execute (p'.takeWhile (· != 0)) ls' odd' s (.instr lab m' a') with
    | error f => exact .inr ⟨f.1, f.2, s.writes, rfl⟩
    | ok v' =>
      simp only [reduceCtorEq, if_false]
      have hc : Close (Window s n (isForward (knownAt s lab) a) (isForward (knownAt s lab) a'))
          (isForward (knownAt s lab) a = isForward (knownAt s lab) a' ∨ s.filePos ≤ s.pc) s.line (shown p) (shown p') v v' := by
        cases lab with
        | none => exact adds_close (instruction_adds hn h3) (instruction_adds hn' h3')
        | some l =>
          simp only [execute, defineLabel] at h3 h3'
          by_cases hl : (s.env.lookup l).isSome = true
          · rw [if_pos hl] at h3; cases h3
          · rw [if_neg hl] at h3 h3'
            exact adds_close (s := { s with env := (l, s.pc) :: s.env }) (instruction_adds hn h3) (instruction_adds hn' h3')
      have hc1 : Close (Window s n (isForward (knownAt s lab) a) (isForward (knownAt s lab) a'))
          (isForward (knownAt s lab) a = isForward (knownAt s lab) a' ∨ s.filePos ≤ s.pc) s.line (shown p) (shown p')
          { v with line := v.line + 1 } { v' with line := v'.line + 1 } :=
        ⟨hc.pc, by simp only [hc.line], hc.env, hc.total, hc.filePos, hc.writes, hc.pending⟩
      obtain ⟨u', g1, g2⟩ := runPieces_close hc1 h
      exact .inl ⟨u', g1, g2⟩

end Edit

/-- **C70.** Let gaia succeed, and let the instruction in a line be replaced by another instruction of the same length, with the same label in
front of it if there is one. (`s`: the state before the line, of the reference assembler of C57; `n`: the length where the symbols of the lines
above are known.) Then gaia succeeds again, with the same totals, and no byte of the output has changed but the `n` of the instruction, or it
refuses the program with a message about that very line. If exactly one of the two instructions refers to a label defined later, the `n`
bytes where the file stood (see C27) may have changed too; these are the bytes of the instruction unless it follows an origin line. The
output has the same length, unless in that case the origin line went back. -/
theorem C70_local {w w' : World} {srcName outName outName' : Str} {src src' : List Byte} (hw : Setup w srcName outName src)
    (hw' : Setup w' srcName outName' src') (hs : Sized src) (hs' : Sized src') {pre post : List (List Byte)} {p p' : List Byte}
    (hsrc : pieces src = pre ++ p :: post) (hsrc' : pieces src' = pre ++ p' :: post)
    {lab : Option Str} {m m' : Mnemonic} {a a' : Arg} (hp : stmtOf p = some (.instr lab m a)) (hp' : stmtOf p' = some (.instr lab m' a'))
    {s : State} (hpre : runPieces srcName pre .init = .ok s) {n : Nat} (hn : lengthIn (knownAt s lab) m a = some n)
    (hn' : lengthIn (knownAt s lab) m' a' = some n) {bin : List Byte} {total symbols : Nat} (h : Succeeds w srcName outName bin total symbols) :
    (∃ bin', Succeeds w' srcName outName' bin' total symbols ∧
      (∀ i, ¬ (s.pc ≤ i ∧ i < s.pc + n) →
        ¬ (isForward (knownAt s lab) a ≠ isForward (knownAt s lab) a' ∧ s.filePos ≤ i ∧ i < s.filePos + n) → bin'.getD i 0 = bin.getD i 0) ∧
      (isForward (knownAt s lab) a = isForward (knownAt s lab) a' ∨ s.filePos ≤ s.pc → bin'.length = bin.length)) ∨
    ∃ e pos bin', FailsLeaving w' srcName outName' (diag (shown p') e pos srcName (pre.length + 1)) bin' := by
  obtain ⟨u, W, h1, h2, rfl, rfl, rfl⟩ := (C57_success hw hs _ _ _).1 h
  rw [hsrc] at h1
  rcases Edit.runPieces_split hpre with g | ⟨g1, g2⟩
  · rw [g] at h1
    cases h1
    refine .inl ⟨image W, (C57_success hw' hs' _ _ _).2 ⟨s, W, by rw [hsrc', g], h2, rfl, rfl, rfl⟩, fun _ _ _ => rfl, fun _ => rfl⟩
  · rw [g2] at h1
    have hline : s.line = pre.length + 1 := by rw [g1]; simp only [State.init]; omega
    rcases Edit.line_close hp hp' hn hn' h1 with ⟨u', k1, k2⟩ | ⟨e, pos, V, k1⟩
    · rcases Edit.resolve_close k2 h2 with ⟨V', j1, j2⟩ | ⟨e, pos, V', j1⟩
      · refine .inl ⟨image V', (C57_success hw' hs' _ _ _).2 ⟨u', V', by rw [hsrc', g2, k1], j1, rfl, k2.total, by rw [k2.env]⟩, ?_, ?_⟩
        · intro i h1 h2
          rw [Edit.image_getD, Edit.image_getD, j2.view i (by rintro (h | h); exacts [h1 h, h2 h])]
        · intro hl
          rw [image_length, image_length, j2.ends hl]
      · rw [hline] at j1
        exact .inr ⟨e, pos, image V', (C57_failure hw' hs' _ _).2 ⟨V', rfl, .inr ⟨u', by rw [hsrc', g2, k1], j1⟩⟩⟩
    · rw [hline] at k1
      exact .inr ⟨e, pos, image V, (C57_failure hw' hs' _ _).2 ⟨V, rfl, .inl (by rw [hsrc', g2, k1])⟩⟩

/-! ### Cases -/

/-- A program, and the same with another instruction in its second line: all hypotheses hold, and the program succeeds. -/
theorem C70_conditions :
    let src := b! " LDA #$01\nL STA $0200\n BNE E\n JMP L\nE RTS\n"
    let src' := b! " LDA #$01\nL JMP E\n BNE E\n JMP L\nE RTS\n"
    let pre := [b! " LDA #$01\n"]
    let post := [b! " BNE E\n", b! " JMP L\n", b! "E RTS\n"]
    pieces src = pre ++ b! "L STA $0200\n" :: post ∧ pieces src' = pre ++ b! "L JMP E\n" :: post ∧
    stmtOf (b! "L STA $0200\n") = some (.instr (some (b! "L")) .STA (.plain (.lit 512))) ∧
    stmtOf (b! "L JMP E\n") = some (.instr (some (b! "L")) .JMP (.plain (.sym (b! "E")))) ∧
    runPieces (b! "p.asm") pre .init = .ok ⟨2, 2, [], 2, 2, [(0, [0xA9, 1])], []⟩ ∧
    lengthIn [(b! "L", 2)] .STA (.plain (.lit 512)) = some 3 ∧ lengthIn [(b! "L", 2)] .JMP (.plain (.sym (b! "E"))) = some 3 ∧
    Succeeds (demo src) (b! "p.asm") (b! "p.bin") [0xA9, 1, 0x8D, 0, 2, 0xD0, 3, 0x4C, 2, 0, 0x60] 11 2 ∧
    Succeeds (demo src') (b! "p.asm") (b! "p.bin") [0xA9, 1, 0x4C, 10, 0, 0xD0, 3, 0x4C, 2, 0, 0x60] 11 2 := by
  refine ⟨by decide +kernel, by decide +kernel, by decide +kernel, by decide +kernel, by rfl, by decide +kernel, by decide +kernel, ?_, ?_⟩
  · exact demo_succeeds (by decide +kernel)
  · exact demo_succeeds (by decide +kernel)

/-- The window where the file stood is needed: the file stands at 4 when the last line is assembled, and the reference to a later label
clears the bytes there (C27). -/
theorem C70_window :
    Succeeds (demo (b! " .ORG $4\n LDA #$11\n .ORG $2\n LDA #$22\n .ORG $6\n JMP $1234\nE NOP\n")) (b! "p.asm") (b! "p.bin")
      [0, 0, 0xA9, 0x22, 0xA9, 0x11, 0x4C, 0x34, 0x12, 0xEA] 8 1 ∧
    Succeeds (demo (b! " .ORG $4\n LDA #$11\n .ORG $2\n LDA #$22\n .ORG $6\n JMP E\nE NOP\n")) (b! "p.asm") (b! "p.bin")
      [0, 0, 0xA9, 0x22, 0, 0, 0x4C, 9, 0, 0xEA] 8 1 :=
  ⟨demo_succeeds (by decide +kernel), demo_succeeds (by decide +kernel)⟩

/-- The new instruction can be refused. -/
theorem C70_refused : ∃ pos bin, FailsLeaving (demo (b! " LDA #$01\nL JMP F\n BNE E\n JMP L\nE RTS\n")) (b! "p.asm") (b! "p.bin")
    (diag (b! "L JMP F\n") .missingLabelDefinition pos (b! "p.asm") 2) bin := by
  have hr : Reference.run (b! "p.asm") (b! " LDA #$01\nL JMP F\n BNE E\n JMP L\nE RTS\n") =
      ⟨1, diag (b! "L JMP F\n") .missingLabelDefinition (some 6) (b! "p.asm") 2, [0xA9, 1, 0x4C, 0, 0, 0xD0, 0, 0x4C, 2, 0, 0x60]⟩ := by decide +kernel
  have h0 := C57_reference (demo_setup (b! " LDA #$01\nL JMP F\n BNE E\n JMP L\nE RTS\n")) (by decide +kernel)
  rw [hr] at h0
  exact ⟨some 6, [0xA9, 1, 0x4C, 0, 0, 0xD0, 0, 0x4C, 2, 0, 0x60], h0⟩

end Gaia

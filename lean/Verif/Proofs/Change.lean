import Verif.Spec.Change
import Verif.Proofs.Files2

/-! Proofs for C82: the value of a constant changed. -/
set_option maxRecDepth 20000
namespace Gaia
open Spec Spec.Reference
namespace Change

/-- What is written, as it depends on the constant. -/
abbrev TChunk := Nat × List Spot

def TChunk.at (v : Nat) (c : TChunk) : Chunk := (c.1, c.2.map (Spot.at v))

/-- The value of a symbol, `none` for that of the constant. -/
def value (v : Nat) : Option Nat → Nat
  | none => v
  | some k => k

/-- A state of the assembler as it depends on the constant, and the branches to it so far. -/
structure T where
  pc : Nat
  line : Nat
  env : List (Str × Option Nat)
  total : Nat
  filePos : Nat
  writes : List TChunk
  pending : List Pending

def envAt (v : Nat) (env : List (Str × Option Nat)) : Env := env.map fun p => (p.1, value v p.2)

def T.at (v : Nat) (t : T) : State := ⟨t.pc, t.line, envAt v t.env, t.total, t.filePos, t.writes.map (TChunk.at v), t.pending⟩

theorem lookup_at (v : Nat) (l : Str) : ∀ env : List (Str × Option Nat), (envAt v env).lookup l = (env.lookup l).map (value v)
  | [] => rfl
  | (k, o) :: env => by
    unfold envAt
    rw [List.map_cons, List.lookup_cons, List.lookup_cons]
    have := lookup_at v l env
    unfold envAt at this
    cases l == k <;> simp [this]

theorem isSome_at (v : Nat) (l : Str) (env : List (Str × Option Nat)) : ((envAt v env).lookup l).isSome = (env.lookup l).isSome := by
  rw [lookup_at]; simp

theorem branchByte_eq (a v : Nat) : branchByte a v = if Reaches a v then some ((Spot.offset a).at v) else none := rfl

/-- Values on the same side of the end of page zero. -/
def Same (v v' : Nat) : Prop := v ≤ 255 ↔ v' ≤ 255

theorem modeFor_same {v v' : Nat} (h : Same v v') (m : Mnemonic) (a : Arg) : modeFor m a v' = modeFor m a v := by
  have : decide (v' ≤ 0xFF) = decide (v ≤ 0xFF) := decide_eq_decide.2 h.symm
  unfold modeFor wantedMode
  rw [this]

/-- The bytes of an instruction with the constant as operand. -/
theorem encode_spots {L : Str} {it : Item} (ho : it.opd = some (.sym L)) {env : List (Str × Option Nat)} (hl : env.lookup L = some none) {v : Nat} {bs : List Byte}
    (h : encodeLow (envAt v env) it = some bs) : ∃ (f : List Spot) (near : List Nat), bs = f.map (Spot.at v) ∧ (∀ c ∈ near, Reaches c v) ∧ (it.mode ≠ .rel → near = []) ∧
      (∀ a, Spot.offset a ∈ f → a ∈ near) ∧ ∀ v', encodeLow (envAt v' env) it = if ∀ c ∈ near, Reaches c v' then some (f.map (Spot.at v')) else none := by
  have hv : ∀ v, opdValue (envAt v env) (.sym L) = some v := fun v => by
    simp only [opdValue, lookup_at, hl]
    rfl
  unfold encodeLow at h ⊢
  simp only [Option.bind_eq_bind, Option.bind_eq_some_iff, Option.some.injEq] at h
  obtain ⟨op, hop, bs', h1, rfl⟩ := h
  simp only [hop, Option.bind_eq_bind, Option.bind_some]
  unfold operandBytesLow at h1 ⊢
  rw [ho] at h1 ⊢
  split at h1
  · cases h1
    exact ⟨[.fixed (UInt8.ofNat op)], [], rfl, by simp, by simp, by simp, fun v' => by simp [Spot.at]⟩
  · rename_i heq _; cases heq
  · rename_i o heq _
    cases heq
    simp only [hv, Option.bind_eq_bind, Option.bind_some] at h1 ⊢
    by_cases hr : it.mode = .rel
    · rw [if_pos hr, branchByte_eq] at h1
      by_cases hn : Reaches it.addr v
      · rw [if_pos hn] at h1
        cases h1
        refine ⟨[.fixed (UInt8.ofNat op), .offset it.addr], [it.addr], rfl, by simpa using hn, fun h => absurd hr h, by simp, fun v' => ?_⟩
        simp only [hr, branchByte_eq, if_true]
        by_cases hn' : Reaches it.addr v' <;> simp [hn', Spot.at]
      · rw [if_neg hn] at h1
        cases h1
    · rw [if_neg hr] at h1
      simp only [hr, if_false]
      rcases mode_bytes_cases it.mode with hb | hb | hb
      · simp_all
      · rw [if_pos hb] at h1
        cases h1
        exact ⟨[.fixed (UInt8.ofNat op), .low], [], rfl, by simp, by simp, by simp, fun v' => by simp [Spot.at, hb]⟩
      · rw [if_neg (by omega)] at h1
        cases h1
        exact ⟨[.fixed (UInt8.ofNat op), .low, .high], [], rfl, by simp, by simp, by simp, fun v' => by simp [Spot.at, hb]⟩

theorem encode_fixed {it : Item} {env : List (Str × Option Nat)} (h : ∀ L, it.opd = some (.sym L) → env.lookup L ≠ some none) (v v' : Nat) :
    encodeLow (envAt v' env) it = encodeLow (envAt v env) it := by
  have key : ∀ o, it.opd = some o → opdValue (envAt v' env) o = opdValue (envAt v env) o := by
    intro o ho
    cases o with
    | lit k => rfl
    | sym l =>
      simp only [opdValue, lookup_at]
      have := h l ho
      cases hl : env.lookup l with
      | none => rfl
      | some x =>
        cases x with
        | none => exact absurd hl this
        | some k => rfl
  unfold encodeLow operandBytesLow
  cases ho : it.opd with
  | none => rcases mode_bytes_cases it.mode with hb | hb | hb <;> rw [hb] <;> rfl
  | some o =>
    have := key o ho
    rcases mode_bytes_cases it.mode with hb | hb | hb <;> rw [hb] <;> simp [this]

/-! ### One instruction -/

def T.write (t : T) (f : List Spot) : T :=
  { t with pc := t.pc + f.length, total := t.total + f.length, filePos := t.pc + f.length, writes := t.writes ++ [(t.pc, f)] }

/-- A reference to a label that is not known yet. -/
def T.pend (t : T) (n : Nat) (r : Pending) : T :=
  { t with writes := t.writes ++ [(t.filePos, List.replicate n (.fixed 0))], pending := t.pending ++ [r] }

theorem write_at (v : Nat) (t : T) (f : List Spot) : (t.write f).at v = (t.at v).write (f.map (Spot.at v)) := by
  simp [T.write, T.at, State.write, TChunk.at]

theorem fixed_at (v : Nat) (bs : List Byte) : (bs.map Spot.fixed).map (Spot.at v) = bs := by
  rw [List.map_map]
  exact List.map_id' bs

/-- An offset of a branch at `a` is written. -/
def Has (W : List TChunk) (a : Nat) : Prop := ∃ c ∈ W, Spot.offset a ∈ c.2

theorem has_append {W : List TChunk} {c : TChunk} {a : Nat} (h : Has (W ++ [c]) a) : Has W a ∨ .offset a ∈ c.2 := by
  obtain ⟨d, hd, ha⟩ := h
  rcases List.mem_append.1 hd with hd | hd
  · exact .inl ⟨d, hd, ha⟩
  · rw [List.mem_singleton] at hd
    subst hd
    exact .inr ha

/-- The result for every value: this state, if the branches reach. -/
def Outcome (v : Nat) {ε : Type} (r : Nat → Except ε State) (t : T) (near : List Nat) : Prop :=
  ∀ v', Same v v' → if ∀ c ∈ near, Reaches c v' then r v' = .ok (t.at v') else ∃ e, r v' = .error e

/-- The symbols that are the constant. -/
def Only (L : Str) (env : List (Str × Option Nat)) : Prop := ∀ l, env.lookup l = some none → l = L

theorem sizing_same {env : List (Str × Option Nat)} {v v' : Nat} (hs : Same v v') (m : Mnemonic) (a : Arg) :
    (sizingValue (envAt v' env) m a.opd).bind (modeFor m a) = (sizingValue (envAt v env) m a.opd).bind (modeFor m a) ∧
    (sizingValue (envAt v' env) m a.opd).isSome = (sizingValue (envAt v env) m a.opd).isSome := by
  cases a.opd with
  | none => exact ⟨rfl, rfl⟩
  | some o =>
    cases o with
    | lit k => exact ⟨rfl, rfl⟩
    | sym l =>
      simp only [sizingValue, lookup_at]
      cases env.lookup l with
      | none => exact ⟨rfl, rfl⟩
      | some x =>
        cases x with
        | none => exact ⟨modeFor_same hs m a, rfl⟩
        | some k => exact ⟨rfl, rfl⟩

theorem unknown_same (env : List (Str × Option Nat)) (v v' : Nat) (o : Option Opd) : unknown (envAt v' env) o = unknown (envAt v env) o := by
  cases o with
  | none => rfl
  | some o => cases o <;> simp only [unknown, isSome_at]

theorem instruction_out {L : Str} {text : Str} {ls : List (Nat × Lexeme)} {m : Mnemonic} {a : Arg} {odd : Bool} {t : T} {v : Nat} {s : State} (hL : Only L t.env)
    (h : instruction text ls m a odd (t.at v) = .ok s) : ∃ (t' : T) (near : List Nat), t'.env = t.env ∧ t'.line = t.line ∧ s = t'.at v ∧ (∀ c ∈ near, Reaches c v) ∧
      Outcome v (fun v' => instruction text ls m a odd (t.at v')) t' near ∧ (∀ a, Has t'.writes a → Has t.writes a ∨ a ∈ near) ∧
      ((∀ l, a.opd = some (.sym l) → l = L → Spec.isBranch m = false) → near = [] ∧
        ((∀ r ∈ t.pending, r.label = L → Spec.isBranch r.mnemonic = false) → ∀ r ∈ t'.pending, r.label = L → Spec.isBranch r.mnemonic = false)) := by
  have hsz := fun v' (hs : Same v v') => sizing_same (env := t.env) hs m a
  have hun := fun v' => unknown_same t.env v v' a.opd
  unfold instruction at h
  simp only [show ∀ v, (t.at v).env = envAt v t.env from fun _ => rfl] at h
  cases hv : sizingValue (envAt v t.env) m a.opd with
  | none => rw [hv] at h; cases h
  | some k =>
    rw [hv] at h
    have hk : ∀ v', Same v v' → ∃ k', sizingValue (envAt v' t.env) m a.opd = some k' ∧ modeFor m a k' = modeFor m a k := by
      intro v' hs
      obtain ⟨h1, h2⟩ := hsz v' hs
      rw [hv] at h1 h2
      obtain ⟨k', hk'⟩ := Option.isSome_iff_exists.1 h2
      rw [hk'] at h1
      exact ⟨k', hk', h1⟩
    simp only at h
    split at h
    · rename_i hu
      split at h
      · cases h
      rename_i md hmd
      split at h
      · cases h
      rename_i bs hbs
      cases h
      have hodd : odd = false := by
        cases odd with
        | false => rfl
        | true => cases hmd
      subst hodd
      simp only [Bool.false_eq_true, if_false] at hmd
      have red : ∀ v', Same v v' → instruction text ls m a false (t.at v') =
          match encodeLow (envAt v' t.env) ⟨t.pc, m, md, a.opd⟩ with
          | none => .error (.tooBigOffset, (nameOffsets ls.tail).head?)
          | some bs => .ok ((t.at v').write bs) := by
        intro v' hs
        obtain ⟨k', h1, h2⟩ := hk v' hs
        unfold instruction
        simp only [show (t.at v').env = envAt v' t.env from rfl, h1, hun v', hu, h2, hmd, Bool.false_eq_true, if_false]
        rfl
      by_cases hc : ∃ l, a.opd = some (.sym l) ∧ t.env.lookup l = some none
      · obtain ⟨l, hl1, hl2⟩ := hc
        obtain rfl := hL l hl2
        obtain ⟨f, near, e1, e2, e3, e5, e4⟩ := encode_spots (it := ⟨t.pc, m, md, a.opd⟩) hl1 hl2 hbs
        refine ⟨t.write f, near, rfl, rfl, by rw [write_at, e1], e2, ?_, fun a h => (has_append h).imp id (e5 a), fun hb => ⟨e3 ?_, fun hp => hp⟩⟩
        · intro v' hs
          simp only [red v' hs, e4 v']
          by_cases hn : ∀ c ∈ near, Reaches c v'
          · rw [if_pos hn, if_pos hn, write_at]
          · rw [if_neg hn, if_neg hn]
            exact ⟨_, rfl⟩
        · rintro (rfl : md = .rel)
          have h1 := hb l hl1 rfl
          unfold modeFor at hmd
          rw [Option.filter_eq_some_iff] at hmd
          have h2 : Spec.isBranch m = true := hmd.2
          rw [h1] at h2
          cases h2
      · refine ⟨t.write (bs.map .fixed), [], rfl, rfl, by rw [write_at, fixed_at], by simp, ?_, fun a h => (has_append h).imp id (by simp), fun _ => ⟨rfl, fun hp => hp⟩⟩
        intro v' hs
        have : encodeLow (envAt v' t.env) ⟨t.pc, m, md, a.opd⟩ = some bs := by
          rw [encode_fixed (fun l h1 h2 => hc ⟨l, h1, h2⟩) v v']
          exact hbs
        simp only [red v' hs, this, write_at, fixed_at]
        simp
    · rename_i l hu
      split at h
      · cases h
      rename_i op n hf
      cases h
      refine ⟨T.write (t.pend n ⟨t.line, text, ((nameOffsets ls.tail).head?).getD 0, l, t.pc, m, op⟩) (.fixed op :: List.replicate (n - 1) (.fixed 0)),
        [], rfl, rfl, ?_, by simp, ?_, fun a h => ?_, fun hb => ⟨rfl, fun hp => ?_⟩⟩
      · rw [write_at]; simp [T.pend, T.at, TChunk.at, Spot.at]
      · intro v' hs
        obtain ⟨k', h1, h2⟩ := hk v' hs
        simp only [List.not_mem_nil, false_imp_iff, implies_true, if_true]
        unfold instruction
        simp only [show (t.at v').env = envAt v' t.env from rfl, h1, hun v', hu, hf]
        rw [write_at]
        simp [T.pend, T.at, TChunk.at, Spot.at]
      · rcases has_append h with h | h
        · rcases has_append h with h | h
          · exact .inl h
          · simp [List.mem_replicate] at h
        · simp [List.mem_replicate] at h
      · intro r hr hl
        simp only [T.write, T.pend, List.mem_append, List.mem_singleton] at hr
        rcases hr with hr | rfl
        · exact hp r hr hl
        · have ho : a.opd = some (.sym l) := by
            unfold unknown at hu
            split at hu
            · rename_i x hx
              split at hu
              · cases hu
              · cases hu; exact hx
            · cases hu
          exact hb l ho hl

/-! ### One statement -/

/-- The statement is no branch to `L`. -/
def Clean (L : Str) (st : Stmt) : Prop := ∀ lab m a, st = .instr lab m a → a.opd = some (.sym L) → Spec.isBranch m = false

/-- No pending branch to `L`. -/
def NoPending (L : Str) (rs : List Pending) : Prop := ∀ r ∈ rs, r.label = L → Spec.isBranch r.mnemonic = false

theorem only_cons {L l : Str} {k : Nat} {env : List (Str × Option Nat)} (h : Only L env) : Only L ((l, some k) :: env) := by
  intro x hx
  rw [List.lookup_cons] at hx
  split at hx
  · cases hx
  · exact h x hx

theorem define_out {ls : List (Nat × Lexeme)} {l : Str} {k : Nat} {t : T} {v : Nat} {s : State} (h : defineLabel ls l k (t.at v) = .ok s) :
    ∀ v', defineLabel ls l k (t.at v') = .ok (T.at v' { t with env := (l, some k) :: t.env }) := by
  intro v'
  unfold defineLabel at h ⊢
  simp only [show ∀ v, (t.at v).env = envAt v t.env from fun _ => rfl, isSome_at] at h ⊢
  split at h
  · cases h
  · rename_i hn
    rw [if_neg hn]
    rfl

theorem execute_out {L : Str} {text : Str} {ls : List (Nat × Lexeme)} {odd : Bool} {st : Stmt} {t : T} {v : Nat} {s : State} (hL : Only L t.env)
    (h : execute text ls odd (t.at v) st = .ok s) : ∃ (t' : T) (near : List Nat), Only L t'.env ∧ t'.line = t.line ∧ s = t'.at v ∧ (∀ c ∈ near, Reaches c v) ∧
      Outcome v (fun v' => execute text ls odd (t.at v') st) t' near ∧ (∀ a, Has t'.writes a → Has t.writes a ∨ a ∈ near) ∧
      (Clean L st → near = [] ∧ (NoPending L t.pending → NoPending L t'.pending)) := by
  have simple : ∀ t' : T, (∀ v', execute text ls odd (t.at v') st = .ok (t'.at v')) → Only L t'.env → t'.line = t.line → t'.pending = t.pending → t'.writes = t.writes →
      ∃ (t' : T) (near : List Nat), Only L t'.env ∧ t'.line = t.line ∧ s = t'.at v ∧ (∀ c ∈ near, Reaches c v) ∧
      Outcome v (fun v' => execute text ls odd (t.at v') st) t' near ∧ (∀ a, Has t'.writes a → Has t.writes a ∨ a ∈ near) ∧
      (Clean L st → near = [] ∧ (NoPending L t.pending → NoPending L t'.pending)) := by
    intro t' h1 h2 h3 h4 h5
    refine ⟨t', [], h2, h3, ?_, by simp, fun v' _ => by simpa using h1 v', fun a h => .inl (by rw [← h5]; exact h), fun _ => ⟨rfl, fun hp => by rw [h4]; exact hp⟩⟩
    rw [h1 v] at h
    exact (Except.ok.inj h).symm
  cases st with
  | empty => exact simple t (fun _ => rfl) hL rfl rfl rfl
  | stop => exact simple t (fun _ => rfl) hL rfl rfl rfl
  | label l => exact simple _ (define_out h) (only_cons hL) rfl rfl rfl
  | const l k => exact simple _ (define_out h) (only_cons hL) rfl rfl rfl
  | org k => exact simple { t with pc := k } (fun _ => rfl) hL rfl rfl rfl
  | instr lab m a =>
    have key : ∀ {t0 : T}, Only L t0.env → t0.line = t.line → t0.pending = t.pending → t0.writes = t.writes →
        (∀ v', execute text ls odd (t.at v') (.instr lab m a) = instruction text ls m a odd (t0.at v')) →
        ∃ (t' : T) (near : List Nat), Only L t'.env ∧ t'.line = t.line ∧ s = t'.at v ∧ (∀ c ∈ near, Reaches c v) ∧
        Outcome v (fun v' => execute text ls odd (t.at v') (.instr lab m a)) t' near ∧ (∀ a, Has t'.writes a → Has t.writes a ∨ a ∈ near) ∧
        (Clean L (.instr lab m a) → near = [] ∧ (NoPending L t.pending → NoPending L t'.pending)) := by
      intro t0 h1 h2 h3 h5 h4
      rw [h4 v] at h
      obtain ⟨t', near, g1, g2, g3, g4, g5, g7, g6⟩ := instruction_out h1 h
      refine ⟨t', near, by rw [g1]; exact h1, g2.trans h2, g3, g4, ?_, by rw [← h5]; exact g7, fun hc => ?_⟩
      · simp only [h4]
        exact g5
      · obtain ⟨k1, k2⟩ := g6 fun l hl1 hl2 => hc lab m a rfl (hl2 ▸ hl1)
        exact ⟨k1, by rw [← h3]; exact k2⟩
    cases lab with
    | none => exact key hL rfl rfl rfl fun _ => rfl
    | some l =>
      cases hd : defineLabel ls l t.pc (t.at v) with
      | error f =>
        have : execute text ls odd (t.at v) (.instr (some l) m a) = .error f := by
          show (match defineLabel ls l t.pc (t.at v) with | .error f => Except.error f | .ok s => instruction text ls m a odd s) = _
          rw [hd]
        rw [this] at h
        cases h
      | ok s1 =>
        refine key (t0 := { t with env := (l, some t.pc) :: t.env }) (only_cons hL) rfl rfl rfl fun v' => ?_
        show (match defineLabel ls l t.pc (t.at v') with | .error f => Except.error f | .ok s => instruction text ls m a odd s) = _
        rw [define_out hd v']

/-! ### All pieces -/

theorem run_out {L : Str} {fn : Str} {v : Nat} : ∀ {ps : List (List Byte)} {t : T} {s : State}, Only L t.env → runPieces fn ps (t.at v) = .ok s →
    ∃ (t' : T) (near : List Nat), Only L t'.env ∧ s = t'.at v ∧ (∀ c ∈ near, Reaches c v) ∧ Outcome v (fun v' => runPieces fn ps (t.at v')) t' near ∧
      (∀ a, Has t'.writes a → Has t.writes a ∨ a ∈ near) ∧ ((∀ p ∈ ps, ∀ st, stmtOf p = some st → Clean L st) → near = [] ∧ (NoPending L t.pending → NoPending L t'.pending))
  | [], t, s, hL, h => ⟨t, [], hL, (Except.ok.inj h).symm, by simp, fun v' _ => by simp [runPieces], fun _ => .inl, fun _ => ⟨rfl, id⟩⟩
  | p :: ps, t, s, hL, h => by
    rw [runPieces] at h
    simp only at h
    split at h
    · cases h
    · cases h
    rename_i ls h1
    split at h
    · cases h
    rename_i st odd h2
    split at h
    · cases h
    rename_i s1 h3
    obtain ⟨t1, near1, g1, g2, g3, g4, g5, g7, g6⟩ := execute_out hL h3
    have hst : stmtOf p = some st := by simp [stmtOf, h1, h2]
    have red : ∀ v', runPieces fn (p :: ps) (t.at v') =
        match execute (p.takeWhile (· != 0)) ls odd (t.at v') st with
        | .error (e, pos) => .error (diag (p.takeWhile (· != 0)) e pos fn t.line, (t.at v').writes)
        | .ok s => if st = .stop then .ok s else runPieces fn ps { s with line := s.line + 1 } := by
      intro v'
      rw [runPieces]
      simp only [h1, h2]
      rfl
    split at h
    · rename_i hs
      cases h
      refine ⟨t1, near1, g1, g3, g4, ?_, g7, fun hc => g6 (hc p (by simp) st hst)⟩
      intro v' hv
      have := g5 v' hv
      simp only at this
      simp only [red]
      split at this
      · rename_i hn
        rw [if_pos hn, this]
        simp [hs]
      · rename_i hn
        rw [if_neg hn]
        obtain ⟨e, he⟩ := this
        rw [he]
        exact ⟨_, rfl⟩
    · rename_i hs
      subst g3
      obtain ⟨t2, near2, k1, k2, k3, k4, k7, k5⟩ := run_out (t := { t1 with line := t1.line + 1 }) g1 h
      refine ⟨t2, near1 ++ near2, k1, k2, ?_, ?_, fun a h => ?_, fun hc => ?_⟩
      · intro c hc
        rcases List.mem_append.1 hc with hc | hc
        · exact g4 c hc
        · exact k3 c hc
      · intro v' hv
        have h5 := g5 v' hv
        have h6 := k4 v' hv
        simp only at h5 h6
        simp only [red, List.forall_mem_append]
        by_cases hn : ∀ c ∈ near1, Reaches c v'
        · rw [if_pos hn] at h5
          rw [h5]
          simp only [hs, if_false]
          by_cases hn2 : ∀ c ∈ near2, Reaches c v'
          · rw [if_pos hn2] at h6
            rw [if_pos ⟨hn, hn2⟩]
            exact h6
          · rw [if_neg hn2] at h6
            rw [if_neg fun h => hn2 h.2]
            exact h6
        · rw [if_neg hn] at h5
          obtain ⟨e, he⟩ := h5
          rw [if_neg fun h => hn h.1, he]
          exact ⟨_, rfl⟩
      · rw [List.mem_append]
        rcases k7 a h with h | h
        · rcases g7 a h with h | h
          · exact .inl h
          · exact .inr (.inl h)
        · exact .inr (.inr h)
      · obtain ⟨a1, a2⟩ := g6 (hc p (by simp) st hst)
        obtain ⟨b1, b2⟩ := k5 fun q hq => hc q (by simp [hq])
        exact ⟨by simp [a1, b1], fun hp => b2 (a2 hp)⟩

/-! ### The references -/

theorem resolve_out {fn : Str} {env : List (Str × Option Nat)} {v : Nat} : ∀ {rs : List Pending} {W : List TChunk} {V : List Chunk},
    resolve fn (envAt v env) rs (W.map (TChunk.at v)) = .ok V →
    ∃ (W' : List TChunk) (near : List Nat), V = W'.map (TChunk.at v) ∧ (∀ c ∈ near, Reaches c v) ∧
      (∀ v', if ∀ c ∈ near, Reaches c v' then resolve fn (envAt v' env) rs (W.map (TChunk.at v')) = .ok (W'.map (TChunk.at v'))
        else ∃ e, resolve fn (envAt v' env) rs (W.map (TChunk.at v')) = .error e) ∧ (∀ a, Has W' a → Has W a ∨ a ∈ near) ∧
      ((∀ r ∈ rs, env.lookup r.label = some none → Spec.isBranch r.mnemonic = false) → near = [])
  | [], W, V, h => ⟨W, [], (Except.ok.inj h).symm, by simp, fun v' => by simp [resolve], fun _ => .inl, fun _ => rfl⟩
  | r :: rs, W, V, h => by
    -- the same chunk for every value
    have go : ∀ (f : List Spot) (near0 : List Nat), (∀ c ∈ near0, Reaches c v) → (∀ a, .offset a ∈ f → a ∈ near0) →
        (∀ v', if ∀ c ∈ near0, Reaches c v' then resolve fn (envAt v' env) (r :: rs) (W.map (TChunk.at v')) =
            resolve fn (envAt v' env) rs ((W ++ [(r.addr, f)]).map (TChunk.at v'))
          else ∃ e, resolve fn (envAt v' env) (r :: rs) (W.map (TChunk.at v')) = .error e) →
        ((env.lookup r.label = some none → Spec.isBranch r.mnemonic = false) → near0 = []) →
        ∃ (W' : List TChunk) (near : List Nat), V = W'.map (TChunk.at v) ∧ (∀ c ∈ near, Reaches c v) ∧
          (∀ v', if ∀ c ∈ near, Reaches c v' then resolve fn (envAt v' env) (r :: rs) (W.map (TChunk.at v')) = .ok (W'.map (TChunk.at v'))
            else ∃ e, resolve fn (envAt v' env) (r :: rs) (W.map (TChunk.at v')) = .error e) ∧ (∀ a, Has W' a → Has W a ∨ a ∈ near) ∧
          ((∀ r' ∈ r :: rs, env.lookup r'.label = some none → Spec.isBranch r'.mnemonic = false) → near = []) := by
      intro f near0 h1 h0 h2 h3
      have h4 := h2 v
      rw [if_pos h1] at h4
      rw [h4] at h
      obtain ⟨W', near, k1, k2, k3, k5, k4⟩ := resolve_out h
      refine ⟨W', near0 ++ near, k1, ?_, ?_, fun a h => ?_, fun hc => ?_⟩
      · intro c hc
        rcases List.mem_append.1 hc with hc | hc
        · exact h1 c hc
        · exact k2 c hc
      · intro v'
        have h5 := h2 v'
        have h6 := k3 v'
        simp only [List.forall_mem_append]
        by_cases hn : ∀ c ∈ near0, Reaches c v'
        · rw [if_pos hn] at h5
          rw [h5]
          by_cases hn2 : ∀ c ∈ near, Reaches c v'
          · rw [if_pos hn2] at h6
            rw [if_pos ⟨hn, hn2⟩]
            exact h6
          · rw [if_neg hn2] at h6
            rw [if_neg fun h => hn2 h.2]
            exact h6
        · rw [if_neg hn] at h5
          rw [if_neg fun h => hn h.1]
          exact h5
      · rw [List.mem_append]
        rcases k5 a h with h | h
        · rcases has_append h with h | h
          · exact .inl h
          · exact .inr (.inl (h0 a h))
        · exact .inr (.inr h)
      · rw [h3 (hc r (by simp)), k4 fun r' hr' => hc r' (by simp [hr'])]
        rfl
    cases hl : env.lookup r.label with
    | none =>
      unfold resolve at h
      simp only [lookup_at, hl, Option.map_none] at h
      cases h
    | some x =>
      have red : ∀ v', resolve fn (envAt v' env) (r :: rs) (W.map (TChunk.at v')) =
          if Spec.isBranch r.mnemonic then
            match branchByte r.addr (value v' x) with
            | none => .error (diag r.text .tooBigOffset (some r.pos) fn r.line, W.map (TChunk.at v'))
            | some b => resolve fn (envAt v' env) rs (W.map (TChunk.at v') ++ [(r.addr, [r.opcode, b])])
          else resolve fn (envAt v' env) rs (W.map (TChunk.at v') ++ [(r.addr, [r.opcode, UInt8.ofNat (value v' x % 256), UInt8.ofNat (value v' x / 256 % 256)])]) := by
        intro v'
        rw [resolve]
        simp only [lookup_at, hl, Option.map_some]
        rfl
      by_cases hb : Spec.isBranch r.mnemonic = true
      · simp only [hb, if_true] at red
        cases x with
        | none =>
          have hn : Reaches r.addr v := by
            by_contra hn
            rw [red v, branchByte_eq, value, if_neg hn] at h
            cases h
          refine go [.fixed r.opcode, .offset r.addr] [r.addr] (by simpa using hn) (by simp) (fun v' => ?_) fun h => ?_
          · rw [red v', branchByte_eq, value]
            by_cases hn' : Reaches r.addr v'
            · simp [hn', TChunk.at, Spot.at]
            · simp [hn']
          · rw [h hl] at hb
            cases hb
        | some k =>
          cases hk : branchByte r.addr k with
          | none =>
            rw [red v, value, hk] at h
            cases h
          | some b =>
            refine go [.fixed r.opcode, .fixed b] [] (by simp) (by simp) (fun v' => ?_) fun _ => rfl
            simp [red v', value, hk, TChunk.at, Spot.at]
      · simp only [hb, Bool.false_eq_true, if_false] at red
        cases x with
        | none =>
          refine go [.fixed r.opcode, .low, .high] [] (by simp) (by simp) (fun v' => ?_) fun _ => rfl
          simp [red v', value, TChunk.at, Spot.at]
        | some k =>
          refine go [.fixed r.opcode, .fixed (UInt8.ofNat (k % 256)), .fixed (UInt8.ofNat (k / 256 % 256))] [] (by simp) (by simp) (fun v' => ?_) fun _ => rfl
          simp [red v', value, TChunk.at, Spot.at]

/-! ### The image -/

def spotAt (W : List TChunk) (i : Nat) : Spot := (W.reverse.findSome? fun c => if c.1 ≤ i then c.2[i - c.1]? else none).getD (.fixed 0)

def spots (W : List TChunk) : List Spot := (List.range (imageEnd (W.map (TChunk.at 0)))).map (spotAt W)

theorem image_spots (W : List TChunk) (v : Nat) : image (W.map (TChunk.at v)) = (spots W).map (Spot.at v) := by
  have he : imageEnd (W.map (TChunk.at v)) = imageEnd (W.map (TChunk.at 0)) := by
    simp [imageEnd, TChunk.at, Function.comp_def]
  have hb : ∀ i, byteAt (W.map (TChunk.at v)) i = (spotAt W i).at v := by
    intro i
    unfold byteAt spotAt
    rw [← List.map_reverse]
    induction W.reverse with
    | nil => rfl
    | cons c W ih =>
      rw [List.map_cons, List.findSome?_cons, List.findSome?_cons]
      have : Chunk.at (TChunk.at v c) i = (if c.1 ≤ i then c.2[i - c.1]? else none).map (Spot.at v) := by
        unfold Chunk.at TChunk.at
        split <;> simp
      rw [this]
      cases (if c.1 ≤ i then c.2[i - c.1]? else none) with
      | none => exact ih
      | some x => rfl
  unfold image spots
  rw [he, List.map_map]
  exact List.map_congr_left fun i _ => hb i

theorem spots_offset {W : List TChunk} {a : Nat} (h : .offset a ∈ spots W) : Has W a := by
  unfold spots at h
  obtain ⟨i, _, hi⟩ := List.mem_map.1 h
  unfold spotAt at hi
  cases hf : W.reverse.findSome? fun c => if c.1 ≤ i then c.2[i - c.1]? else none with
  | none => rw [hf] at hi; cases hi
  | some x =>
    rw [hf] at hi
    obtain rfl : x = .offset a := hi
    obtain ⟨c, hc, hx⟩ := List.exists_of_findSome?_eq_some hf
    split at hx
    · exact ⟨c, List.mem_reverse.1 hc, List.mem_of_getElem? hx⟩
    · cases hx

end Change
end Gaia

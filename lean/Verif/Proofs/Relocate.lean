import Verif.Spec.Relocate
import Verif.Proofs.Result

/-! Code that can be put anywhere: the reference assembler with an unknown origin. -/
namespace Gaia
open Spec Spec.Reference

namespace Reloc

/-- A symbol: a constant, or an offset from the origin. -/
abbrev Val := Bool × Nat

def val (x : Nat) (v : Val) : Nat := if v.1 then v.2 else x + v.2

/-- Bytes to be written: at an offset from the origin, or at the start of the file. -/
abbrev Piece := Option Nat × List Cell

def piece (x : Nat) (c : Piece) : Chunk := ((c.1.map (x + ·)).getD 0, c.2.map (Cell.at x))

/-- A state of the assembler with an unknown origin. -/
structure S where
  off : Nat
  line : Nat
  env : List (Str × Val)
  started : Bool
  writes : List Piece
  pending : List Pending

def pend (x : Nat) (r : Pending) : Pending := { r with addr := x + r.addr }

/-- The state for the origin `x`. -/
def inst (x : Nat) (s : S) : State :=
  { pc := x + s.off, line := s.line, env := s.env.map fun p => (p.1, val x p.2), total := s.off,
    filePos := if s.started then x + s.off else 0, writes := s.writes.map (piece x), pending := s.pending.map (pend x) }

theorem lookup_map (x : Nat) (l : Str) : ∀ env : List (Str × Val),
    (env.map fun p => (p.1, val x p.2)).lookup l = (env.lookup l).map (val x)
  | [] => rfl
  | (k, v) :: env => by
    simp only [List.map_cons, List.lookup_cons]
    cases l == k with
    | true => rfl
    | false => exact lookup_map x l env

/-- Write an instruction. -/
def S.write (s : S) (cs : List Cell) : S :=
  { s with off := s.off + cs.length, started := true, writes := s.writes ++ [(some s.off, cs)] }

theorem inst_write (x : Nat) (s : S) (cs : List Cell) : (inst x s).write (cs.map (Cell.at x)) = inst x (s.write cs) := by
  unfold State.write inst S.write
  simp only [List.length_map, List.map_append, List.map_cons, List.map_nil, if_true, Nat.add_assoc]
  rfl

theorem modeFor_small {m : Mnemonic} {a : Arg} {v w : Nat} (h : v ≤ 0xFF ↔ w ≤ 0xFF) : modeFor m a v = modeFor m a w := by
  unfold modeFor wantedMode
  rw [decide_eq_decide.2 h]

theorem branchByte_shift (x a t : Nat) : branchByte (x + a) (x + t) = branchByte a t := by
  unfold branchByte
  have : ((x + t : Nat) : Int) - ((x + a : Nat) + 2) = (t : Int) - (a + 2) := by push_cast; omega
  rw [this]

/-- An address above page zero is never a one-byte operand, but in a branch. -/
theorem modeFor_large {m : Mnemonic} {a : Arg} {v : Nat} {md : Mode} (hv : 0xFF < v) (ha : a.opd.isSome = true) (h : modeFor m a v = some md) :
    (md = .rel ∧ Spec.isBranch m = true) ∨ (md ≠ .rel ∧ md.bytes = 3) := by
  unfold modeFor at h
  rw [Option.filter_eq_some_iff] at h
  obtain ⟨h, h2⟩ := h
  unfold wantedMode at h
  have hs : decide (v ≤ 0xFF) = false := decide_eq_false (by omega)
  rw [hs] at h
  cases a with
  | none => cases ha
  | acc => cases ha
  | imm o => cases h
  | plain o =>
    simp only at h
    split at h
    · cases h; exact .inl ⟨rfl, by assumption⟩
    · split at h <;> cases h <;> exact .inr ⟨by decide, rfl⟩
  | idxX o => cases h; exact .inr ⟨by decide, rfl⟩
  | idxY o => cases h; exact .inr ⟨by decide, rfl⟩
  | ind o => cases h; exact .inr ⟨by decide, rfl⟩
  | indX o => cases h
  | indY o => cases h

theorem rel_isBranch {m : Mnemonic} {a : Arg} {v : Nat} (h : modeFor m a v = some .rel) : Spec.isBranch m = true := by
  unfold modeFor at h
  rw [Option.filter_eq_some_iff] at h
  exact h.2

theorem rows_rel : ∀ r ∈ opTable, Spec.isBranch r.mnemonic = true → r.mode = .rel := by decide +kernel

theorem rows_jump : ∀ r ∈ opTable, Spec.isJump r.mnemonic = true → r.mode.bytes = 3 := by decide +kernel

theorem opcode_row {m : Mnemonic} {md : Mode} (h : (opcode? m md).isSome = true) : ∃ r ∈ opTable, r.mnemonic = m ∧ r.mode = md := by
  unfold opcode? at h
  rw [Option.isSome_map] at h
  obtain ⟨r, hr⟩ := Option.isSome_iff_exists.1 h
  have h1 := List.find?_some hr
  simp only [Bool.and_eq_true, beq_iff_eq] at h1
  exact ⟨r, List.mem_of_find?_eq_some hr, h1⟩

theorem modeFor_row {m : Mnemonic} {a : Arg} {v : Nat} {md : Mode} (h : modeFor m a v = some md) :
    ∃ r ∈ opTable, r.mnemonic = m ∧ r.mode = md := by
  unfold modeFor at h
  rw [Option.filter_eq_some_iff] at h
  exact opcode_row h.2

theorem branch_rel {m : Mnemonic} {a : Arg} {v : Nat} {md : Mode} (hb : Spec.isBranch m = true) (h : modeFor m a v = some md) : md = .rel := by
  obtain ⟨r, hr, rfl, rfl⟩ := modeFor_row h
  exact rows_rel r hr hb

/-- The length of a branch or jump to an unknown label. -/
theorem forward_len {m : Mnemonic} {a : Arg} {op : Byte} {n : Nat} (hm : (Spec.isBranch m || Spec.isJump m) = true)
    (h : forwardCode m a = some (op, n)) : n = if Spec.isBranch m then 2 else 3 := by
  have coded : ((modeFor m a 0).bind fun md => (opcode? m md).map fun op => (UInt8.ofNat op, md.bytes)) = some (op, n) →
      n = if Spec.isBranch m then 2 else 3 := by
    intro h
    obtain ⟨md, hmd, h⟩ := Option.bind_eq_some_iff.1 h
    obtain ⟨o, ho, h⟩ := Option.map_eq_some_iff.1 h
    cases h
    cases hb : Spec.isBranch m with
    | true => rw [branch_rel hb hmd]; rfl
    | false =>
      obtain ⟨r, hr, rfl, rfl⟩ := modeFor_row hmd
      rw [hb] at hm
      exact rows_jump r hr hm
  unfold forwardCode at h
  simp only at h
  split at h
  · split at h
    · rename_i hj; subst hj; cases h; decide +kernel
    · exact coded h
  · split at h
    · rename_i hj; subst hj; cases h; decide +kernel
    · exact coded h
  · exact coded h

/-- What holds of the state. `abs`: addresses in the code are allowed. -/
structure Ok (con adr : Str → Prop) (abs : Prop) (s : S) : Prop where
  start : s.started = false → s.off = 0 ∧ s.writes = []
  last : s.started = true → ∃ o cs, (some o, cs) ∈ s.writes ∧ o + cs.length = s.off ∧ cs ≠ []
  within : ∀ o cs, (some o, cs) ∈ s.writes → o + cs.length ≤ s.off
  zeros : ∀ cs, (none, cs) ∈ s.writes → ∃ n, n ≤ 3 ∧ cs = List.replicate n (.fixed 0)
  fixed : ¬ abs → ∀ c ∈ s.writes, ∀ b ∈ c.2, ∃ v, b = .fixed v
  cons : ∀ l v, s.env.lookup l = some (true, v) → con l
  adrs : ∀ l v, s.env.lookup l = some (false, v) → adr l
  branches : ∀ r ∈ s.pending, Spec.isBranch r.mnemonic = true → ¬ con r.label
  jumps : ¬ abs → ∀ r ∈ s.pending, Spec.isBranch r.mnemonic = false → ¬ adr r.label
  fits : ∀ r ∈ s.pending, r.addr + (if Spec.isBranch r.mnemonic then 2 else 3) ≤ s.off

theorem Ok.write {con adr : Str → Prop} {abs : Prop} {s : S} (h : Ok con adr abs s) {cs : List Cell} (hc : cs ≠ [])
    (hf : ¬ abs → ∀ b ∈ cs, ∃ v, b = .fixed v) : Ok con adr abs (s.write cs) where
  start := by intro h; cases h
  last := fun _ => ⟨s.off, cs, by simp [S.write], rfl, hc⟩
  within := by
    intro o ds hm
    have : (some o, ds) ∈ s.writes ++ [(some s.off, cs)] := hm
    rcases List.mem_append.1 this with hm | hm
    · have := h.within o ds hm; show _ ≤ s.off + _; omega
    · cases List.mem_singleton.1 hm; exact le_rfl
  zeros := by
    intro ds hm
    have : (none, ds) ∈ s.writes ++ [(some s.off, cs)] := hm
    rcases List.mem_append.1 this with hm | hm
    · exact h.zeros ds hm
    · cases List.mem_singleton.1 hm
  fixed := by
    intro ha c hm
    have : c ∈ s.writes ++ [(some s.off, cs)] := hm
    rcases List.mem_append.1 this with hm | hm
    · exact h.fixed ha c hm
    · cases List.mem_singleton.1 hm; exact hf ha
  cons := h.cons
  adrs := h.adrs
  branches := h.branches
  jumps := h.jumps
  fits := by intro r hr; have := h.fits r hr; show _ ≤ s.off + _; omega

/-- The value of an operand. -/
def sval (env : List (Str × Val)) : Option Opd → Option Val
  | none => some (true, 0)
  | some (.lit v) => some (true, v)
  | some (.sym l) => env.lookup l

/-- The bytes of an operand. -/
def field (off : Nat) (md : Mode) (o : Opd) (v : Val) : Option (List Cell) :=
  if md = .rel then
    match o with
    | .lit w => some [.fixed (UInt8.ofNat (w % 256))]
    | .sym _ => (branchByte off v.2).map fun b => [.fixed b]
  else if v.1 then
    if md.bytes = 2 then some [.fixed (UInt8.ofNat (v.2 % 256))]
    else some [.fixed (UInt8.ofNat (v.2 % 256)), .fixed (UInt8.ofNat (v.2 / 256 % 256))]
  else some [.low v.2, .high v.2]

def code? (off : Nat) (m : Mnemonic) (md : Mode) (o : Option Opd) (v : Val) : Option (List Cell) :=
  match opcode? m md with
  | none => none
  | some op =>
    if md.bytes = 1 then some [.fixed (UInt8.ofNat op)]
    else match o with
      | none => none
      | some o => (field off md o v).map (.fixed (UInt8.ofNat op) :: ·)

theorem opdValue_inst (x : Nat) (env : List (Str × Val)) (o : Opd) :
    opdValue (env.map fun p => (p.1, val x p.2)) o = (sval env (some o)).map (val x) := by
  cases o with
  | lit v => rfl
  | sym l => exact lookup_map x l env

theorem encode_eq {x : Nat} {env : List (Str × Val)} {off : Nat} {m : Mnemonic} {md : Mode} {o : Option Opd} {v : Val}
    (hv : sval env o = some v) (hb : md = .rel → ∀ l, o = some (.sym l) → v.1 = false)
    (h3 : v.1 = false → md = .rel ∨ md.bytes = 1 ∨ md.bytes = 3) (hlit : ∀ w, o = some (.lit w) → v = (true, w)) :
    encodeLow (env.map fun p => (p.1, val x p.2)) ⟨x + off, m, md, o⟩ = (code? off m md o v).map (·.map (Cell.at x)) := by
  unfold encodeLow code?
  cases h1 : opcode? m md with
  | none => simp
  | some op =>
    simp only
    unfold operandBytesLow
    by_cases hm1 : md.bytes = 1
    · simp [hm1, Cell.at]
    · have hb3 : md.bytes = 2 ∨ md.bytes = 3 := by cases md <;> simp [Mode.bytes] at hm1 ⊢
      cases o with
      | none => rcases hb3 with e | e <;> simp [e]
      | some o =>
        have hov := opdValue_inst x env o
        rw [hv] at hov
        rcases hb3 with e | e
        · have hf : md = .rel ∨ v.1 = true := by
            cases hv1 : v.1 with
            | true => exact .inr rfl
            | false => rcases h3 hv1 with h | h | h <;> first | exact .inl h | omega
          simp only [e, hov, Option.map_some]
          unfold field
          by_cases hr : md = .rel
          · subst hr
            cases o with
            | lit w => simp [Cell.at]
            | sym l =>
              have hv1 := hb rfl l rfl
              have hs : branchByte (x + off) (val x v) = branchByte off v.2 := by
                rw [show val x v = x + v.2 by simp [val, hv1]]; exact branchByte_shift ..
              simp only [Option.bind_eq_bind, Option.bind_some, if_true, hs]
              cases branchByte off v.2 <;> simp [Cell.at]
          · have hv1 : v.1 = true := by rcases hf with h | h; exact absurd h hr; exact h
            simp [hr, hv1, e, val, Cell.at]
        · have hr : md ≠ .rel := by rintro rfl; simp [Mode.bytes] at e
          simp only [e, hov, Option.map_some]
          unfold field
          cases hv1 : v.1 with
          | true => simp [hr, hv1, e, val, Cell.at]
          | false => simp [hr, hv1, val, Cell.at]

/-- The step of an instruction with a known operand. -/
theorem known {con adr : Str → Prop} {abs : Prop} {σ : S} (h : Ok con adr abs σ) {text : Str} {ls : List (Nat × Lexeme)} {m : Mnemonic} {a : Arg}
    {odd : Bool} {v : Val} (hv : sval σ.env a.opd = some v)
    (hb : ∀ l, a.opd = some (.sym l) → Spec.isBranch m = true → ¬ con l)
    (hj : ¬ abs → ∀ l, a.opd = some (.sym l) → Spec.isBranch m = false → ¬ adr l) :
    (∃ f, ∀ x, 256 ≤ x → instruction text ls m a odd (inst x σ) = .error f) ∨
    (∃ σ', Ok con adr abs σ' ∧ ∀ x, 256 ≤ x → instruction text ls m a odd (inst x σ) = .ok (inst x σ')) := by
  have hsz : ∀ x, sizingValue (inst x σ).env m a.opd = some (val x v) := by
    intro x
    cases ho : a.opd with
    | none => rw [ho] at hv; cases hv; rfl
    | some o =>
      cases o with
      | lit w => rw [ho] at hv; cases hv; rfl
      | sym l =>
        rw [ho] at hv
        have : (inst x σ).env.lookup l = some (val x v) := by
          show (σ.env.map _).lookup l = _
          rw [lookup_map]; rw [show σ.env.lookup l = some v from hv]; rfl
        simp [sizingValue, this]
  have hun : ∀ x, unknown (inst x σ).env a.opd = none := by
    intro x
    cases ho : a.opd with
    | none => rfl
    | some o =>
      cases o with
      | lit w => rfl
      | sym l =>
        rw [ho] at hv
        have : (inst x σ).env.lookup l = some (val x v) := by
          show (σ.env.map _).lookup l = _
          rw [lookup_map]; rw [show σ.env.lookup l = some v from hv]; rfl
        simp [unknown, this]
  have hmode : ∀ x, 256 ≤ x → modeFor m a (val x v) = modeFor m a (val 256 v) := by
    intro x hx
    apply modeFor_small
    unfold val
    split
    · exact Iff.rfl
    · constructor <;> intro <;> omega
  have hsym : v.1 = false → ∃ l, a.opd = some (.sym l) ∧ σ.env.lookup l = some v := by
    intro hv1
    cases ho : a.opd with
    | none => rw [ho] at hv; cases hv; cases hv1
    | some o =>
      cases o with
      | lit w => rw [ho] at hv; cases hv; cases hv1
      | sym l => rw [ho] at hv; exact ⟨l, rfl, hv⟩
  cases hmd : (if odd then none else modeFor m a (val 256 v)) with
  | none =>
    refine .inl ⟨(.illegalAddressingMode, none), fun x hx => ?_⟩
    unfold instruction
    simp only [hsz, hun, hmode x hx, hmd]
  | some md =>
    have hmd' : modeFor m a (val 256 v) = some md := by
      cases odd with
      | true => cases hmd
      | false => exact hmd
    have hb' : md = .rel → ∀ l, a.opd = some (.sym l) → v.1 = false := by
      rintro rfl l ho
      have hbr := rel_isBranch hmd'
      cases hv1 : v.1 with
      | false => rfl
      | true =>
        rw [ho] at hv
        exact absurd (h.cons l v.2 (by rw [← hv1]; exact hv)) (hb l ho hbr)
    have h3 : v.1 = false → md = .rel ∨ md.bytes = 1 ∨ md.bytes = 3 := by
      intro hv1
      obtain ⟨l, ho, _⟩ := hsym hv1
      have := modeFor_large (v := val 256 v) (by simp only [val, hv1]; simp; omega) (by rw [ho]; rfl) hmd'
      rcases this with h | h
      · exact .inl h.1
      · exact .inr (.inr h.2)
    have henc := fun x => encode_eq (x := x) (off := σ.off) (m := m) hv hb' h3
      (by intro w ho; rw [ho] at hv; cases hv; rfl)
    cases hc : code? σ.off m md a.opd v with
    | none =>
      refine .inl ⟨(.tooBigOffset, (nameOffsets ls.tail).head?), fun x hx => ?_⟩
      have := henc x
      rw [hc] at this
      unfold instruction
      simp only [hsz, hun, hmode x hx, hmd]
      rw [show encodeLow (inst x σ).env ⟨(inst x σ).pc, m, md, a.opd⟩ = none from this]
    | some cs =>
      refine .inr ⟨σ.write cs, ?_, fun x hx => ?_⟩
      · apply h.write
        · unfold code? at hc
          split at hc
          · cases hc
          · split at hc
            · cases hc; simp
            · split at hc
              · cases hc
              · obtain ⟨_, _, rfl⟩ := Option.map_eq_some_iff.1 hc; simp
        · intro ha
          unfold code? at hc
          split at hc
          · cases hc
          · split at hc
            · cases hc; intro b hb; exact ⟨_, List.mem_singleton.1 hb⟩
            · split at hc
              · cases hc
              · rename_i o ho
                obtain ⟨fs, hfs, rfl⟩ := Option.map_eq_some_iff.1 hc
                intro b hb2
                rcases List.mem_cons.1 hb2 with rfl | hb2
                · exact ⟨_, rfl⟩
                · unfold field at hfs
                  split at hfs
                  · split at hfs
                    · cases hfs; exact ⟨_, List.mem_singleton.1 hb2⟩
                    · obtain ⟨_, _, rfl⟩ := Option.map_eq_some_iff.1 hfs
                      exact ⟨_, List.mem_singleton.1 hb2⟩
                  · rename_i hr
                    split at hfs
                    · split at hfs
                      · cases hfs; exact ⟨_, List.mem_singleton.1 hb2⟩
                      · cases hfs
                        simp only [List.mem_cons, List.not_mem_nil, or_false] at hb2
                        rcases hb2 with rfl | rfl <;> exact ⟨_, rfl⟩
                    · rename_i hv1
                      have hv1 : v.1 = false := by simpa using hv1
                      obtain ⟨l, ho', hl⟩ := hsym hv1
                      have hnb : Spec.isBranch m = false := by
                        cases hbr : Spec.isBranch m with
                        | false => rfl
                        | true =>
                          exact absurd (branch_rel hbr hmd') hr
                      exact absurd (h.adrs l v.2 (by rw [← hv1]; exact hl)) (hj ha l ho' hnb)
      · have := henc x
        rw [hc] at this
        unfold instruction
        simp only [hsz, hun, hmode x hx, hmd]
        rw [show encodeLow (inst x σ).env ⟨(inst x σ).pc, m, md, a.opd⟩ = some (cs.map (Cell.at x)) from this]
        simp only [inst_write]

/-- Keep the place of a reference. -/
def S.forward (s : S) (r : Pending) (op : Byte) (n : Nat) : S :=
  S.write { s with writes := s.writes ++ [(if s.started then some s.off else none, List.replicate n (.fixed 0))],
                   pending := s.pending ++ [r] } (.fixed op :: List.replicate (n - 1) (.fixed 0))

theorem Ok.forward {con adr : Str → Prop} {abs : Prop} {s : S} (h : Ok con adr abs s) {r : Pending} {op : Byte} {n : Nat} (hr : r.addr = s.off)
    (hn : n = if Spec.isBranch r.mnemonic then 2 else 3) (hb : Spec.isBranch r.mnemonic = true → ¬ con r.label)
    (hj : ¬ abs → Spec.isBranch r.mnemonic = false → ¬ adr r.label) : Ok con adr abs (s.forward r op n) := by
  have hn3 : n = 2 ∨ n = 3 := by rw [hn]; split <;> simp
  have hl : (.fixed op :: List.replicate (n - 1) (.fixed 0) : List Cell).length = n := by
    simp only [List.length_cons, List.length_replicate]; omega
  have hoff : (s.forward r op n).off = s.off + n := by
    show s.off + _ = _; rw [hl]
  have hw : (s.forward r op n).writes = s.writes ++ [(if s.started then some s.off else none, List.replicate n (.fixed 0)),
      (some s.off, .fixed op :: List.replicate (n - 1) (.fixed 0))] := by
    show (s.writes ++ [_]) ++ [_] = _
    rw [List.append_assoc]; rfl
  have hp : (s.forward r op n).pending = s.pending ++ [r] := rfl
  refine { start := (by intro h; cases h), last := ?_, within := ?_, zeros := ?_, fixed := ?_, cons := h.cons, adrs := h.adrs, branches := ?_, jumps := ?_, fits := ?_ }
  · intro _
    exact ⟨s.off, .fixed op :: List.replicate (n - 1) (.fixed 0), by rw [hw]; simp, by rw [hoff, hl], by simp⟩
  · intro o cs hm
    rw [hw] at hm
    rw [hoff]
    simp only [List.mem_append, List.mem_cons, List.not_mem_nil, or_false] at hm
    rcases hm with hm | hm | hm
    · have := h.within o cs hm; omega
    · split at hm
      · cases hm; simp
      · cases hm
    · cases hm; rw [hl]
  · intro cs hm
    rw [hw] at hm
    simp only [List.mem_append, List.mem_cons, List.not_mem_nil, or_false] at hm
    rcases hm with hm | hm | hm
    · exact h.zeros cs hm
    · split at hm
      · cases hm
      · cases hm; exact ⟨n, by omega, rfl⟩
    · cases hm
  · intro ha c hm
    rw [hw] at hm
    simp only [List.mem_append, List.mem_cons, List.not_mem_nil, or_false] at hm
    rcases hm with hm | rfl | rfl
    · exact h.fixed ha c hm
    · intro b hb; exact ⟨_, List.eq_of_mem_replicate hb⟩
    · intro b hb
      rcases List.mem_cons.1 hb with rfl | hb
      · exact ⟨_, rfl⟩
      · exact ⟨_, List.eq_of_mem_replicate hb⟩
  · intro q hq
    rw [hp] at hq
    rcases List.mem_append.1 hq with hq | hq
    · exact h.branches q hq
    · cases List.mem_singleton.1 hq; exact hb
  · intro ha q hq
    rw [hp] at hq
    rcases List.mem_append.1 hq with hq | hq
    · exact h.jumps ha q hq
    · cases List.mem_singleton.1 hq; exact hj ha
  · intro q hq
    rw [hp] at hq
    rw [hoff]
    rcases List.mem_append.1 hq with hq | hq
    · have := h.fits q hq; omega
    · cases List.mem_singleton.1 hq; rw [hr, hn]

theorem inst_forward (x : Nat) (s : S) (r : Pending) (op : Byte) (n : Nat) :
    State.write { inst x s with writes := (inst x s).writes ++ [((inst x s).filePos, List.replicate n 0)],
                                pending := (inst x s).pending ++ [pend x r] } (op :: List.replicate (n - 1) 0) =
      inst x (s.forward r op n) := by
  unfold S.forward
  rw [← inst_write]
  have e : (.fixed op :: List.replicate (n - 1) (.fixed 0) : List Cell).map (Cell.at x) = op :: List.replicate (n - 1) 0 := by
    simp [Cell.at]
  rw [e]
  congr 1
  unfold inst
  simp only [List.map_append, List.map_cons, List.map_nil, piece, List.map_replicate, Cell.at]
  cases s.started <;> rfl

/-- The step of an instruction. -/
theorem instruction_step {con adr : Str → Prop} {abs : Prop} {σ : S} (h : Ok con adr abs σ) (text : Str) (ls : List (Nat × Lexeme)) {m : Mnemonic}
    {a : Arg} (odd : Bool) (hb : ∀ l, a.opd = some (.sym l) → Spec.isBranch m = true → ¬ con l)
    (hj : ¬ abs → ∀ l, a.opd = some (.sym l) → Spec.isBranch m = false → ¬ adr l) :
    (∃ f, ∀ x, 256 ≤ x → instruction text ls m a odd (inst x σ) = .error f) ∨
    (∃ σ', Ok con adr abs σ' ∧ ∀ x, 256 ≤ x → instruction text ls m a odd (inst x σ) = .ok (inst x σ')) := by
  cases hv : sval σ.env a.opd with
  | some v => exact known h hv hb hj
  | none =>
    obtain ⟨l, ho, hl⟩ : ∃ l, a.opd = some (.sym l) ∧ σ.env.lookup l = none := by
      cases ho : a.opd with
      | none => rw [ho] at hv; cases hv
      | some o =>
        cases o with
        | lit w => rw [ho] at hv; cases hv
        | sym l => rw [ho] at hv; exact ⟨l, rfl, hv⟩
    have hlx : ∀ x, (inst x σ).env.lookup l = none := by
      intro x
      show (σ.env.map _).lookup l = _
      rw [lookup_map, hl]; rfl
    cases hbj : (Spec.isBranch m || Spec.isJump m) with
    | false =>
      refine .inl ⟨(.illegalForwardReference, (nameOffsets ls.tail).head?), fun x hx => ?_⟩
      unfold instruction
      simp only [ho, sizingValue, hlx, hbj]
      rfl
    | true =>
      cases hf : (if odd then none else forwardCode m a) with
      | none =>
        refine .inl ⟨(.illegalAddressingMode, none), fun x hx => ?_⟩
        unfold instruction
        simp only [ho, sizingValue, hlx, hbj, unknown, if_true, hf]
        rfl
      | some q =>
        obtain ⟨op, n⟩ := q
        have hf' : forwardCode m a = some (op, n) := by
          cases odd with
          | true => cases hf
          | false => exact hf
        have hn := forward_len hbj hf'
        refine .inr ⟨σ.forward ⟨σ.line, text, ((nameOffsets ls.tail).head?).getD 0, l, σ.off, m, op⟩ op n,
          h.forward rfl hn (hb l ho) (fun ha => hj ha l ho), fun x hx => ?_⟩
        rw [← inst_forward]
        unfold instruction
        simp only [ho, sizingValue, hlx, hbj, unknown, if_true, hf]
        rfl

theorem define_step {con adr : Str → Prop} {abs : Prop} {σ : S} (h : Ok con adr abs σ) (ls : List (Nat × Lexeme)) (l : Str) (v : Val)
    (hc : v.1 = true → con l) (ha : v.1 = false → adr l) :
    (∃ f, ∀ x, 256 ≤ x → defineLabel ls l (val x v) (inst x σ) = .error f) ∨
    (∃ σ', Ok con adr abs σ' ∧ ∀ x, 256 ≤ x → defineLabel ls l (val x v) (inst x σ) = .ok (inst x σ')) := by
  have hlx : ∀ x, (inst x σ).env.lookup l = (σ.env.lookup l).map (val x) := fun x => lookup_map x l σ.env
  cases hl : σ.env.lookup l with
  | some w =>
    refine .inl ⟨(.labelRedefinition, (nameOffsets ls).head?), fun x _ => ?_⟩
    unfold defineLabel
    rw [hlx, hl]
    rfl
  | none =>
    refine .inr ⟨{ σ with env := (l, v) :: σ.env }, ?_, fun x _ => ?_⟩
    · refine { start := h.start, last := h.last, within := h.within, zeros := h.zeros, fixed := h.fixed, branches := h.branches,
               jumps := h.jumps, fits := h.fits, cons := ?_, adrs := ?_ }
      · intro k u hk
        simp only [List.lookup_cons] at hk
        split at hk
        · rename_i he
          cases hk
          rw [beq_iff_eq] at he; subst he; exact hc rfl
        · exact h.cons k u hk
      · intro k u hk
        simp only [List.lookup_cons] at hk
        split at hk
        · rename_i he
          cases hk
          rw [beq_iff_eq] at he; subst he; exact ha rfl
        · exact h.adrs k u hk
    · unfold defineLabel
      rw [hlx, hl]
      rfl

/-- What a statement may be. -/
structure Fine (con adr : Str → Prop) (abs : Prop) (st : Stmt) : Prop where
  org : st.isOrg = false
  defs : ∀ l, st.constant = some l → con l
  labels : ∀ l, st.addressLabel = some l → adr l
  branch : ∀ l, st.branchTarget = some l → ¬ con l
  used : ¬ abs → ∀ l, st.usedLabel = some l → ¬ adr l

theorem execute_step {con adr : Str → Prop} {abs : Prop} {σ : S} (h : Ok con adr abs σ) (text : Str) (ls : List (Nat × Lexeme)) (odd : Bool) {st : Stmt}
    (hs : Fine con adr abs st) :
    (∃ f, ∀ x, 256 ≤ x → execute text ls odd (inst x σ) st = .error f) ∨
    (∃ σ', Ok con adr abs σ' ∧ ∀ x, 256 ≤ x → execute text ls odd (inst x σ) st = .ok (inst x σ')) := by
  have ins : ∀ lab m a, st = .instr lab m a → ∀ {σ : S}, Ok con adr abs σ →
      (∃ f, ∀ x, 256 ≤ x → instruction text ls m a odd (inst x σ) = .error f) ∨
      (∃ σ', Ok con adr abs σ' ∧ ∀ x, 256 ≤ x → instruction text ls m a odd (inst x σ) = .ok (inst x σ')) := by
    rintro lab m a rfl σ h
    refine instruction_step h text ls odd ?_ ?_
    · intro l ho hb
      exact hs.branch l (by simp [Stmt.branchTarget, ho, hb])
    · intro ha l ho hb
      exact hs.used ha l (by simp [Stmt.usedLabel, ho, hb])
  cases st with
  | empty => exact .inr ⟨σ, h, fun x _ => rfl⟩
  | stop => exact .inr ⟨σ, h, fun x _ => rfl⟩
  | label l => exact define_step h ls l (false, σ.off) (by intro h; cases h) (fun _ => hs.labels l rfl)
  | const l v => exact define_step h ls l (true, v) (fun _ => hs.defs l rfl) (by intro h; cases h)
  | org v => exact absurd hs.org (by simp [Stmt.isOrg])
  | instr lab m a =>
    cases lab with
    | none => exact ins none m a rfl h
    | some l =>
      rcases define_step h ls l (false, σ.off) (by intro h; cases h) (fun _ => hs.labels l rfl) with ⟨f, hf⟩ | ⟨σ', h', hf⟩
      · refine .inl ⟨f, fun x hx => ?_⟩
        have : defineLabel ls l (inst x σ).pc (inst x σ) = .error f := hf x hx
        show (match defineLabel ls l (inst x σ).pc (inst x σ) with | .error f => _ | .ok s => _) = _
        rw [this]
      · have e : ∀ x, 256 ≤ x → execute text ls odd (inst x σ) (.instr (some l) m a) = instruction text ls m a odd (inst x σ') := by
          intro x hx
          have : defineLabel ls l (inst x σ).pc (inst x σ) = .ok (inst x σ') := hf x hx
          show (match defineLabel ls l (inst x σ).pc (inst x σ) with | .error f => _ | .ok s => _) = _
          rw [this]
        rcases ins (some l) m a rfl h' with ⟨f, hf⟩ | ⟨σ'', h'', hf⟩
        · exact .inl ⟨f, fun x hx => by rw [e x hx]; exact hf x hx⟩
        · exact .inr ⟨σ'', h'', fun x hx => by rw [e x hx]; exact hf x hx⟩

theorem Ok.next {con adr : Str → Prop} {abs : Prop} {σ : S} (h : Ok con adr abs σ) : Ok con adr abs { σ with line := σ.line + 1 } :=
  { start := h.start, last := h.last, within := h.within, zeros := h.zeros, fixed := h.fixed, branches := h.branches, jumps := h.jumps,
    fits := h.fits, cons := h.cons, adrs := h.adrs }

/-- All pieces. -/
theorem runPieces_step {con adr : Str → Prop} {abs : Prop} (fn : Str) : ∀ (ps : List (List Byte)) (σ : S), Ok con adr abs σ →
    (∀ st ∈ ps.filterMap stmtOf, Fine con adr abs st) →
    (∃ t, ∀ x, 256 ≤ x → ∃ W, runPieces fn ps (inst x σ) = .error (t, W)) ∨
    (∃ σ', Ok con adr abs σ' ∧ ∀ x, 256 ≤ x → runPieces fn ps (inst x σ) = .ok (inst x σ'))
  | [], σ, h, _ => .inr ⟨σ, h, fun _ _ => rfl⟩
  | p :: ps, σ, h, hst => by
    have hrest : ∀ st ∈ ps.filterMap stmtOf, Fine con adr abs st := by
      intro st hm
      apply hst
      rw [List.filterMap_cons]
      split
      · exact hm
      · exact List.mem_cons_of_mem _ hm
    cases h1 : lexemesOf p with
    | error e =>
      cases e with
      | tooMany => exact .inl ⟨[], fun x _ => ⟨(inst x σ).writes, by unfold runPieces; simp only [h1]⟩⟩
      | «at» e pos =>
        exact .inl ⟨diag (p.takeWhile (· != 0)) e (some pos) fn σ.line, fun x _ => ⟨(inst x σ).writes, by
          unfold runPieces; simp only [h1]; rfl⟩⟩
    | ok ls =>
      cases h2 : statement (ls.map (·.2)) with
      | error q =>
        obtain ⟨e, i⟩ := q
        exact .inl ⟨diag (p.takeWhile (· != 0)) e (ls[i]?.map (·.1)) fn σ.line, fun x _ => ⟨(inst x σ).writes, by
          unfold runPieces; simp only [h1, h2]; rfl⟩⟩
      | ok q =>
        obtain ⟨st, odd⟩ := q
        have hfine : Fine con adr abs st := by
          apply hst
          rw [List.filterMap_cons]
          have : stmtOf p = some st := by unfold stmtOf; simp only [h1, h2]
          rw [this]
          simp
        rcases execute_step h (p.takeWhile (· != 0)) ls odd hfine with ⟨f, hf⟩ | ⟨σ', h', hf⟩
        · obtain ⟨e, pos⟩ := f
          exact .inl ⟨diag (p.takeWhile (· != 0)) e pos fn σ.line, fun x hx => ⟨(inst x σ).writes, by
            unfold runPieces; simp only [h1, h2, hf x hx]; rfl⟩⟩
        · by_cases hstop : st = .stop
          · exact .inr ⟨σ', h', fun x hx => by unfold runPieces; simp only [h1, h2, hf x hx, if_pos hstop]⟩
          · have e : ∀ x, 256 ≤ x → runPieces fn (p :: ps) (inst x σ) = runPieces fn ps (inst x { σ' with line := σ'.line + 1 }) := by
              intro x hx
              conv_lhs => unfold runPieces
              simp only [h1, h2, hf x hx, if_neg hstop]
              rfl
            rcases runPieces_step fn ps _ h'.next hrest with ⟨t, ht⟩ | ⟨σ'', h'', ht⟩
            · exact .inl ⟨t, fun x hx => by rw [e x hx]; exact ht x hx⟩
            · exact .inr ⟨σ'', h'', fun x hx => by rw [e x hx]; exact ht x hx⟩

/-- What holds of the pieces. -/
structure Wrote (abs : Prop) (off : Nat) (W : List Piece) : Prop where
  last : (off = 0 ∧ W = []) ∨ ∃ o cs, (some o, cs) ∈ W ∧ o + cs.length = off ∧ cs ≠ []
  within : ∀ o cs, (some o, cs) ∈ W → o + cs.length ≤ off
  zeros : ∀ cs, (none, cs) ∈ W → ∃ n, n ≤ 3 ∧ cs = List.replicate n (.fixed 0)
  fixed : ¬ abs → ∀ c ∈ W, ∀ b ∈ c.2, ∃ v, b = .fixed v

theorem Ok.wrote {con adr : Str → Prop} {abs : Prop} {σ : S} (h : Ok con adr abs σ) : Wrote abs σ.off σ.writes where
  last := by
    cases hs : σ.started with
    | false => exact .inl (h.start hs)
    | true => exact .inr (h.last hs)
  within := h.within
  zeros := h.zeros
  fixed := h.fixed

theorem Wrote.add {abs : Prop} {off o : Nat} {W : List Piece} {cs : List Cell} (h : Wrote abs off W) (ho : o + cs.length ≤ off) (hc : cs ≠ [])
    (hf : ¬ abs → ∀ b ∈ cs, ∃ v, b = .fixed v) : Wrote abs off (W ++ [(some o, cs)]) where
  last := by
    rcases h.last with ⟨h1, h2⟩ | ⟨o', cs', h1, h2⟩
    · exfalso
      have := List.length_pos_iff.2 hc
      omega
    · exact .inr ⟨o', cs', List.mem_append_left _ h1, h2⟩
  within := by
    intro o' ds hm
    rcases List.mem_append.1 hm with hm | hm
    · exact h.within o' ds hm
    · cases List.mem_singleton.1 hm; exact ho
  zeros := by
    intro ds hm
    rcases List.mem_append.1 hm with hm | hm
    · exact h.zeros ds hm
    · cases List.mem_singleton.1 hm
  fixed := by
    intro ha c hm
    rcases List.mem_append.1 hm with hm | hm
    · exact h.fixed ha c hm
    · cases List.mem_singleton.1 hm; exact hf ha

/-- The references. -/
theorem resolve_step {con adr : Str → Prop} {abs : Prop} (fn : Str) {env : List (Str × Val)} {off : Nat}
    (hcon : ∀ l v, env.lookup l = some (true, v) → con l) (hadr : ∀ l v, env.lookup l = some (false, v) → adr l) :
    ∀ (rs : List Pending) (W : List Piece), (∀ r ∈ rs, Spec.isBranch r.mnemonic = true → ¬ con r.label) →
    (¬ abs → ∀ r ∈ rs, Spec.isBranch r.mnemonic = false → ¬ adr r.label) →
    (∀ r ∈ rs, r.addr + (if Spec.isBranch r.mnemonic then 2 else 3) ≤ off) → Wrote abs off W →
    (∃ t, ∀ x, 256 ≤ x → ∃ W', resolve fn (env.map fun p => (p.1, val x p.2)) (rs.map (pend x)) (W.map (piece x)) = .error (t, W')) ∨
    (∃ W', Wrote abs off W' ∧ ∀ x, 256 ≤ x →
      resolve fn (env.map fun p => (p.1, val x p.2)) (rs.map (pend x)) (W.map (piece x)) = .ok (W'.map (piece x)))
  | [], W, _, _, _, hW => .inr ⟨W, hW, fun _ _ => rfl⟩
  | r :: rs, W, hb, hj, hf, hW => by
    have ih := fun W' => resolve_step (abs := abs) fn hcon hadr rs W' (fun q hq => hb q (List.mem_cons_of_mem _ hq))
      (fun ha q hq => hj ha q (List.mem_cons_of_mem _ hq)) (fun q hq => hf q (List.mem_cons_of_mem _ hq))
    have hlx := fun x => lookup_map x r.label env
    have hfr := hf r List.mem_cons_self
    cases hl : env.lookup r.label with
    | none =>
      refine .inl ⟨diag r.text .missingLabelDefinition (some r.pos) fn r.line, fun x _ => ⟨W.map (piece x), ?_⟩⟩
      have hlx := hlx x
      rw [hl] at hlx
      rw [List.map_cons]
      unfold resolve
      rw [show (pend x r).label = r.label from rfl, hlx]
      rfl
    | some v =>
      cases hbr : Spec.isBranch r.mnemonic with
      | true =>
        have hv1 : v.1 = false := by
          cases hv1 : v.1 with
          | false => rfl
          | true => exact absurd (hcon r.label v.2 (by rw [← hv1]; exact hl)) (hb r List.mem_cons_self hbr)
        have hs : ∀ x, branchByte (pend x r).addr (val x v) = branchByte r.addr v.2 := by
          intro x
          rw [show val x v = x + v.2 by simp [val, hv1]]; exact branchByte_shift ..
        cases hbb : branchByte r.addr v.2 with
        | none =>
          refine .inl ⟨diag r.text .tooBigOffset (some r.pos) fn r.line, fun x _ => ⟨W.map (piece x), ?_⟩⟩
          have hlx := hlx x
          rw [hl] at hlx
          rw [List.map_cons]
          unfold resolve
          rw [show (pend x r).label = r.label from rfl, hlx]
          simp only [Option.map_some, show (pend x r).mnemonic = r.mnemonic from rfl, hbr, if_true, hs, hbb]
          rfl
        | some b =>
          have e : ∀ x, resolve fn (env.map fun p => (p.1, val x p.2)) ((r :: rs).map (pend x)) (W.map (piece x)) =
              resolve fn (env.map fun p => (p.1, val x p.2)) (rs.map (pend x))
                ((W ++ [(some r.addr, ([.fixed r.opcode, .fixed b] : List Cell))]).map (piece x)) := by
            intro x
            have hlx := hlx x
            rw [hl] at hlx
            rw [List.map_cons]
            conv_lhs => unfold resolve
            rw [show (pend x r).label = r.label from rfl, hlx]
            simp only [Option.map_some, show (pend x r).mnemonic = r.mnemonic from rfl, hbr, if_true, hs, hbb]
            rw [List.map_append]
            rfl
          rw [hbr] at hfr
          have := ih _ (hW.add (o := r.addr) (cs := [.fixed r.opcode, .fixed b]) hfr (by simp) (by
            intro _ c hc
            simp only [List.mem_cons, List.not_mem_nil, or_false] at hc
            rcases hc with rfl | rfl <;> exact ⟨_, rfl⟩))
          simpa only [e] using this
      | false =>
        rw [hbr] at hfr
        cases hv1 : v.1 with
        | true =>
          have e : ∀ x, resolve fn (env.map fun p => (p.1, val x p.2)) ((r :: rs).map (pend x)) (W.map (piece x)) =
              resolve fn (env.map fun p => (p.1, val x p.2)) (rs.map (pend x))
                ((W ++ [(some r.addr, ([.fixed r.opcode, .fixed (UInt8.ofNat (v.2 % 256)), .fixed (UInt8.ofNat (v.2 / 256 % 256))] : List Cell))]).map (piece x)) := by
            intro x
            have hlx := hlx x
            rw [hl] at hlx
            rw [List.map_cons]
            conv_lhs => unfold resolve
            rw [show (pend x r).label = r.label from rfl, hlx]
            simp only [Option.map_some, show (pend x r).mnemonic = r.mnemonic from rfl, hbr, show val x v = v.2 by simp [val, hv1]]
            rw [List.map_append]
            rfl
          have := ih _ (hW.add (o := r.addr) (cs := [.fixed r.opcode, .fixed (UInt8.ofNat (v.2 % 256)), .fixed (UInt8.ofNat (v.2 / 256 % 256))]) hfr (by simp) (by
            intro _ c hc
            simp only [List.mem_cons, List.not_mem_nil, or_false] at hc
            rcases hc with rfl | rfl | rfl <;> exact ⟨_, rfl⟩))
          simpa only [e] using this
        | false =>
          have e : ∀ x, resolve fn (env.map fun p => (p.1, val x p.2)) ((r :: rs).map (pend x)) (W.map (piece x)) =
              resolve fn (env.map fun p => (p.1, val x p.2)) (rs.map (pend x))
                ((W ++ [(some r.addr, ([.fixed r.opcode, .low v.2, .high v.2] : List Cell))]).map (piece x)) := by
            intro x
            have hlx := hlx x
            rw [hl] at hlx
            rw [List.map_cons]
            conv_lhs => unfold resolve
            rw [show (pend x r).label = r.label from rfl, hlx]
            simp only [Option.map_some, show (pend x r).mnemonic = r.mnemonic from rfl, hbr, show val x v = x + v.2 by simp [val, hv1]]
            rw [List.map_append]
            rfl
          have := ih _ (hW.add (o := r.addr) (cs := [.fixed r.opcode, .low v.2, .high v.2]) hfr (by simp) (by
            intro ha
            exact absurd (hadr r.label v.2 (by rw [← hv1]; exact hl)) (hj ha r List.mem_cons_self hbr)))
          simpa only [e] using this

/-- The cell a piece puts at an offset. -/
def cellAt (i : Nat) : Piece → Option Cell
  | (none, _) => none
  | (some o, cs) => if o ≤ i then cs[i - o]? else none

/-- The code. -/
def codeOf (off : Nat) (W : List Piece) : List Cell := (List.range off).map fun i => (W.reverse.findSome? (cellAt i)).getD (.fixed 0)

theorem findSome_map {x : Nat} {i : Nat} : ∀ W : List Piece, (∀ c ∈ W, Chunk.at (piece x c) (x + i) = (cellAt i c).map (Cell.at x)) →
    (W.map (piece x)).findSome? (Chunk.at · (x + i)) = (W.findSome? (cellAt i)).map (Cell.at x)
  | [], _ => rfl
  | c :: W, h => by
    rw [List.map_cons, List.findSome?_cons, List.findSome?_cons, h c List.mem_cons_self]
    cases cellAt i c with
    | some b => rfl
    | none => exact findSome_map W fun d hd => h d (List.mem_cons_of_mem _ hd)

theorem image_eq {abs : Prop} {off : Nat} {W : List Piece} (h : Wrote abs off W) {x : Nat} (hx : 256 ≤ x) :
    image (W.map (piece x)) = placedAt x ((codeOf off W).map (Cell.at x)) := by
  have hlen : (codeOf off W).length = off := by simp [codeOf]
  rcases h.last with ⟨rfl, rfl⟩ | ⟨o, cs, h1, h2, h3⟩
  · rfl
  have hpos := List.length_pos_iff.2 h3
  have hend : imageEnd (W.map (piece x)) = x + off := by
    apply Nat.le_antisymm
    · have : ∀ (V : List Piece) (a : Nat), a ≤ x + off → (∀ c ∈ V, (piece x c).1 + (piece x c).2.length ≤ x + off) →
          ((V.map (piece x)).map fun c => c.1 + c.2.length).foldl max a ≤ x + off := by
        intro V
        induction V with
        | nil => intro a ha _; exact ha
        | cons c V ih =>
          intro a ha hc
          exact ih _ (max_le ha (hc c List.mem_cons_self)) fun d hd => hc d (List.mem_cons_of_mem _ hd)
      refine this W 0 (Nat.zero_le _) ?_
      rintro ⟨o', ds⟩ hm
      cases o' with
      | none =>
        obtain ⟨n, hn, rfl⟩ := h.zeros ds hm
        simp [piece]; omega
      | some o' =>
        have := h.within o' ds hm
        simp [piece]; omega
    · have := le_imageEnd (W := W.map (piece x)) (c := piece x (some o, cs)) (List.mem_map_of_mem h1)
      simp only [piece, Option.map_some, Option.getD_some, List.length_map] at this
      omega
  have hne : (codeOf off W).map (Cell.at x) ≠ [] := by
    intro h0
    have := congrArg List.length h0
    simp [hlen] at this
    omega
  unfold placedAt
  rw [if_neg hne]
  apply List.ext_getElem?
  intro i
  by_cases hi : i < x + off
  · rw [image_get (by rw [hend]; exact hi)]
    by_cases hix : i < x
    · rw [List.getElem?_append_left (by simpa using hix), List.getElem?_replicate, if_pos hix]
      unfold byteAt
      have key : ∀ V : List Piece, (∀ c ∈ V, c ∈ W) → ((V.map (piece x)).findSome? (Chunk.at · i)).getD 0 = 0 := by
        intro V
        induction V with
        | nil => intro _; rfl
        | cons c V ih =>
          intro hV
          rw [List.map_cons, List.findSome?_cons]
          have hc := hV c List.mem_cons_self
          have : Chunk.at (piece x c) i = none ∨ Chunk.at (piece x c) i = some 0 := by
            obtain ⟨o', ds⟩ := c
            cases o' with
            | none =>
              obtain ⟨n, hn, rfl⟩ := h.zeros ds hc
              by_cases hin : i < n
              · right; simp [Chunk.at, piece, Cell.at, hin]
              · left; simp [Chunk.at, piece, Cell.at, hin]
            | some o' =>
              left
              have : ¬ x + o' ≤ i := by omega
              simp [Chunk.at, piece, this]
          rcases this with e | e
          · rw [e]; exact ih fun d hd => hV d (List.mem_cons_of_mem _ hd)
          · rw [e]; rfl
      rw [← List.map_reverse, key _ (fun c hc => List.mem_reverse.1 hc)]
    · obtain ⟨j, rfl⟩ : ∃ j, i = x + j := ⟨i - x, by omega⟩
      rw [List.getElem?_append_right (by simp)]
      have hj : j < off := by omega
      simp only [List.length_replicate, Nat.add_sub_cancel_left, codeOf, List.getElem?_map, List.getElem?_range hj, Option.map_some]
      unfold byteAt
      rw [← List.map_reverse, findSome_map]
      · cases W.reverse.findSome? (cellAt j) <;> rfl
      · rintro ⟨o', ds⟩ hc
        have hc := List.mem_reverse.1 hc
        cases o' with
        | none =>
          obtain ⟨n, hn, rfl⟩ := h.zeros ds hc
          have : ¬ x + j < n := by omega
          simp [Chunk.at, piece, cellAt, this]
        | some o' =>
          by_cases ho : o' ≤ j
          · have e : x + j - (x + o') = j - o' := by omega
            simp [Chunk.at, piece, cellAt, ho, e]
          · simp [Chunk.at, piece, cellAt, ho]
  · rw [List.getElem?_eq_none (by rw [image_length, hend]; omega), List.getElem?_eq_none (by simp [hlen]; omega)]

theorem codeOf_fixed {abs : Prop} {off : Nat} {W : List Piece} (h : Wrote abs off W) (ha : ¬ abs) : ∀ c ∈ codeOf off W, ∃ b, c = .fixed b := by
  intro c hc
  obtain ⟨i, _, rfl⟩ := List.mem_map.1 hc
  cases hf : W.reverse.findSome? (cellAt i) with
  | none => exact ⟨0, rfl⟩
  | some b =>
    obtain ⟨p, hp, hb⟩ := List.exists_of_findSome?_eq_some hf
    obtain ⟨o, cs⟩ := p
    cases o with
    | none => cases hb
    | some o =>
      simp only [cellAt] at hb
      split at hb
      · exact h.fixed ha _ (List.mem_reverse.1 hp) b (List.mem_of_getElem? hb)
      · cases hb

end Reloc
end Gaia

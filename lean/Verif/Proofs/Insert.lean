import Verif.Spec.Insert
import Verif.Proofs.Linked
import Verif.Proofs.Relocate
import Verif.Props.C50_Disassembly

/-! Instructions put into a program: the two-pass assembler. -/
set_option maxRecDepth 20000
namespace Gaia
open Spec

namespace Insert

/-- A value that stays (`true`), or an offset from the place (`false`). -/
abbrev Val := Bool × Nat

def val (y : Nat) (v : Val) : Nat := if v.1 then v.2 else y + v.2

def shift (y : Nat) (it : Item) : Item := { it with addr := y + it.addr }

/-- The first pass over the statements behind the place, for any place. -/
structure Sym where
  off : Nat
  env : List (Str × Val)
  items : List Item

def envAt (y : Nat) (e : List (Str × Val)) : Env := e.map fun q => (q.1, val y q.2)

def inst (y : Nat) (E : Env) (I : List Item) (σ : Sym) : Pass1 := ⟨y + σ.off, envAt y σ.env ++ E, I ++ σ.items.map (shift y)⟩

/-- The value of a name. -/
def look (e : List (Str × Val)) (E : Env) (l : Str) : Option Val :=
  match e.lookup l with
  | some v => some v
  | none => (E.lookup l).map fun v => (true, v)

theorem lookup_at (y : Nat) (E : Env) (l : Str) : ∀ e : List (Str × Val), (envAt y e ++ E).lookup l = (look e E l).map (val y)
  | [] => by
    unfold look envAt
    simp only [List.map_nil, List.nil_append, List.lookup_nil, Option.map_map]
    cases E.lookup l <;> rfl
  | (m, v) :: e => by
    have ih := lookup_at y E l e
    unfold look envAt at ih ⊢
    simp only [List.map_cons, List.cons_append, List.lookup_cons]
    cases l == m with
    | true => rfl
    | false => exact ih

/-- Only the names `Adr` move. -/
def Moves (Adr : Str → Prop) (e : List (Str × Val)) : Prop := ∀ q ∈ e, q.2.1 = false → Adr q.1

theorem look_moves {Adr : Str → Prop} {e : List (Str × Val)} {E : Env} {l : Str} {n : Nat} (h : Moves Adr e) (hl : look e E l = some (false, n)) : Adr l := by
  unfold look at hl
  cases he : e.lookup l with
  | none =>
    rw [he] at hl
    cases hE : E.lookup l with
    | none => rw [hE] at hl; cases hl
    | some v => rw [hE] at hl; cases hl
  | some v =>
    rw [he] at hl
    cases hl
    have hm : (l, (false, n)) ∈ e := by
      clear h
      induction e with
      | nil => cases he
      | cons q e ih =>
        obtain ⟨m, v⟩ := q
        rw [List.lookup_cons] at he
        cases hb : l == m with
        | true =>
          rw [hb] at he
          cases he
          rw [eq_of_beq hb]
          exact List.mem_cons_self
        | false =>
          rw [hb] at he
          exact List.mem_cons_of_mem _ (ih he)
    exact h _ hm rfl

/-- Known names keep their values. -/
def Keeps (e e' : List (Str × Val)) : Prop := ∀ l q, e.lookup l = some q → e'.lookup l = some q

theorem look_none {e : List (Str × Val)} {E : Env} {l : Str} (h : look e E l = none) : e.lookup l = none := by
  unfold look at h
  cases he : e.lookup l with
  | none => rfl
  | some q => rw [he] at h; cases h

theorem keeps_cons {e : List (Str × Val)} {l : Str} {v : Val} (h : e.lookup l = none) : Keeps e ((l, v) :: e) := by
  intro m q hm
  rw [List.lookup_cons]
  cases hb : m == l with
  | false => exact hm
  | true => rw [eq_of_beq hb, h] at hm; cases hm

theorem lookup_self {e : List (Str × Val)} {l : Str} {v : Val} : ((l, v) :: e).lookup l = some v := by simp

theorem define_at {y : Nat} {E : Env} {I : List Item} {σ : Sym} {l : Str} {v : Val} {t : Pass1} (h : define (inst y E I σ) l (val y v) = some t) :
    t = inst y E I { σ with env := (l, v) :: σ.env } ∧ Keeps σ.env ((l, v) :: σ.env) ∧
    ∀ y' I', define (inst y' E I' σ) l (val y' v) = some (inst y' E I' { σ with env := (l, v) :: σ.env }) := by
  obtain ⟨h1, rfl⟩ := define_some h
  unfold inst at h1
  simp only [lookup_at, Option.map_eq_none_iff] at h1
  refine ⟨rfl, keeps_cons (look_none h1), fun y' I' => ?_⟩
  unfold define inst
  simp only [lookup_at, h1, Option.map_none]
  rfl

theorem place_at {Adr : Str → Prop} {y : Nat} {E : Env} {I : List Item} {σ : Sym} {lab : Option Str} {m : Mnemonic} {a : Arg} {t : Pass1} (hM : Moves Adr σ.env)
    (h : place (inst y E I σ) m a = some t) :
    ∃ md, t = inst y E I { σ with off := σ.off + md.bytes, items := σ.items ++ [⟨σ.off, m, md, a.opd⟩] } ∧
      ∀ y' I', ((256 ≤ y ∧ 256 ≤ y') ∨ ∀ l ∈ (Stmt.instr lab m a).needs, ¬ Adr l) →
      place (inst y' E I' σ) m a = some (inst y' E I' { σ with off := σ.off + md.bytes, items := σ.items ++ [⟨σ.off, m, md, a.opd⟩] }) := by
  obtain ⟨v, md, h1, h2, rfl⟩ := place_some h
  refine ⟨md, ?_, fun y' I' hs => ?_⟩
  · unfold inst shift
    simp [Nat.add_assoc]
  · have : ∃ v', sizingValue (inst y' E I' σ).env m a.opd = some v' ∧ modeFor m a v' = some md := by
      cases ho : a.opd with
      | none => rw [ho] at h1; exact ⟨0, rfl, by cases h1; exact h2⟩
      | some o =>
        cases o with
        | lit w => rw [ho] at h1; exact ⟨w, rfl, by cases h1; exact h2⟩
        | sym l =>
          rw [ho] at h1
          cases hb : (Spec.isBranch m || Spec.isJump m) with
          | true =>
            have hv : ∃ v', sizingValue (inst y' E I' σ).env m (some (.sym l)) = some v' := by
              unfold sizingValue
              simp only
              cases List.lookup l (inst y' E I' σ).env with
              | none => exact ⟨0, by simp only [hb, if_true]⟩
              | some v => exact ⟨v, rfl⟩
            obtain ⟨v', g⟩ := hv
            exact ⟨v', g, by rw [modeFor_fixed ho (by simpa using hb) v' v]; exact h2⟩
          | false =>
            unfold sizingValue inst at h1
            simp only [lookup_at, hb] at h1
            cases hl : look σ.env E l with
            | none => rw [hl] at h1; cases h1
            | some q =>
              rw [hl] at h1
              simp only [Option.map_some, Option.some.injEq] at h1
              obtain ⟨fx, n⟩ := q
              have g : sizingValue (inst y' E I' σ).env m (some (.sym l)) = some (val y' (fx, n)) := by
                unfold sizingValue inst
                simp only [lookup_at, hl, Option.map_some]
              refine ⟨_, g, ?_⟩
              cases fx with
              | true => rw [← h2, ← h1]; rfl
              | false =>
                rcases hs with ⟨k1, k2⟩ | hs
                · rw [← h2, ← h1]
                  apply Reloc.modeFor_small
                  simp only [val, Bool.false_eq_true, if_false]
                  omega
                · exact absurd (look_moves hM hl) (hs l (by simp [Stmt.needs, ho, hb]))
    obtain ⟨v', g1, g2⟩ := this
    unfold place
    simp only [g1, g2, Option.bind_eq_bind, Option.bind_some]
    unfold inst shift
    simp [Nat.add_assoc]

theorem stmt_at {Adr : Str → Prop} {y : Nat} {E : Env} {I : List Item} {σ : Sym} {st : Stmt} {t : Pass1} (hM : Moves Adr σ.env)
    (ho : st.isOrg = false) (ha : ∀ l ∈ st.addressLabel, Adr l) (h : pass1Stmt (inst y E I σ) st = some t) :
    ∃ σ', t = inst y E I σ' ∧ Moves Adr σ'.env ∧ (Keeps σ.env σ'.env ∧ ∀ l ∈ st.addressLabel, σ'.env.lookup l = some (false, σ.off)) ∧
      ∀ y' I', ((256 ≤ y ∧ 256 ≤ y') ∨ ∀ l ∈ st.needs, ¬ Adr l) →
      pass1Stmt (inst y' E I' σ) st = some (inst y' E I' σ') := by
  have mv : ∀ l, Adr l → Moves Adr ((l, (false, σ.off)) :: σ.env) := by
    intro l hl q hq
    rcases List.mem_cons.1 hq with rfl | hq
    · exact fun _ => hl
    · exact hM q hq
  cases st with
  | empty => cases h; exact ⟨σ, rfl, hM, ⟨fun _ _ h => h, fun _ h => nomatch h⟩, fun _ _ _ => rfl⟩
  | stop => cases h; exact ⟨σ, rfl, hM, ⟨fun _ _ h => h, fun _ h => nomatch h⟩, fun _ _ _ => rfl⟩
  | org v => cases ho
  | label l =>
    obtain ⟨h1, hk, h2⟩ := define_at (v := (false, σ.off)) h
    exact ⟨_, h1, mv l (ha l rfl), ⟨hk, fun k hk => by cases hk; exact lookup_self⟩, fun y' I' _ => h2 y' I'⟩
  | const l v =>
    obtain ⟨h1, hk, h2⟩ := define_at (v := (true, v)) h
    refine ⟨_, h1, ?_, ⟨hk, fun _ h => nomatch h⟩, fun y' I' _ => h2 y' I'⟩
    intro q hq
    rcases List.mem_cons.1 hq with rfl | hq
    · intro h; cases h
    · exact hM q hq
  | instr lab m a =>
    cases lab with
    | none =>
      obtain ⟨md, h1, h2⟩ := place_at (lab := none) hM h
      exact ⟨_, h1, hM, ⟨fun _ _ h => h, fun _ h => nomatch h⟩, h2⟩
    | some l =>
      have h : (define (inst y E I σ) l (val y (false, σ.off))).bind (place · m a) = some t := h
      obtain ⟨u, h1, h2⟩ := Option.bind_eq_some_iff.1 h
      obtain ⟨rfl, hk, h3⟩ := define_at h1
      obtain ⟨md, h4, h5⟩ := place_at (lab := some l) (mv l (ha l rfl)) h2
      refine ⟨_, h4, mv l (ha l rfl), ⟨hk, fun k hk => by cases hk; exact lookup_self⟩, fun y' I' hs => ?_⟩
      show (define (inst y' E I' σ) l (val y' (false, σ.off))).bind (place · m a) = _
      rw [h3 y' I']
      exact h5 y' I' hs

/-- The first pass behind the place is the same for every place. -/
theorem pass1_at {Adr : Str → Prop} {y : Nat} {E : Env} {I : List Item} : ∀ {after : List Stmt} {σ : Sym} {t : Pass1}, Moves Adr σ.env →
    (∀ st ∈ after, st.isOrg = false ∧ st ≠ .stop) → (∀ st ∈ after, ∀ l ∈ st.addressLabel, Adr l) →
    pass1 after (inst y E I σ) = some t →
    ∃ σ', t = inst y E I σ' ∧ Moves Adr σ'.env ∧ (Keeps σ.env σ'.env ∧ ∀ l ∈ after.filterMap Stmt.addressLabel, ∃ n, σ'.env.lookup l = some (false, n)) ∧
      ∀ y' I', ((256 ≤ y ∧ 256 ≤ y') ∨ ∀ st ∈ after, ∀ l ∈ st.needs, ¬ Adr l) →
      pass1 after (inst y' E I' σ) = some (inst y' E I' σ')
  | [], σ, t, hM, _, _, h => by
    cases h
    exact ⟨σ, rfl, hM, ⟨fun _ _ h => h, fun _ h => by simp at h⟩, fun _ _ _ => rfl⟩
  | st :: after, σ, t, hM, h1, h2, h => by
    have hst := (h1 st List.mem_cons_self).2
    rw [pass1_cons hst] at h
    obtain ⟨u, g1, g2⟩ := Option.bind_eq_some_iff.1 h
    obtain ⟨σ1, rfl, k2, ⟨k4, k5⟩, k3⟩ := stmt_at hM (h1 st List.mem_cons_self).1 (h2 st List.mem_cons_self) g1
    obtain ⟨σ2, rfl, j2, ⟨j4, j5⟩, j3⟩ := pass1_at k2 (fun q hq => h1 q (List.mem_cons_of_mem _ hq)) (fun q hq => h2 q (List.mem_cons_of_mem _ hq)) g2
    refine ⟨σ2, rfl, j2, ⟨fun l q h => j4 l q (k4 l q h), fun l hl => ?_⟩, fun y' I' hs => ?_⟩
    · rw [List.filterMap_cons] at hl
      cases hq : st.addressLabel with
      | none => rw [hq] at hl; exact j5 l hl
      | some m =>
        rw [hq] at hl
        rcases List.mem_cons.1 hl with rfl | hl
        · exact ⟨σ.off, j4 _ _ (k5 l hq)⟩
        · exact j5 l hl
    rw [pass1_cons hst, k3 y' I' (hs.imp_right fun h => h st List.mem_cons_self)]
    exact j3 y' I' (hs.imp_right fun h q hq => h q (List.mem_cons_of_mem _ hq))

/-! The second pass. -/

/-- The slots of an item at position `pos`, when the place is `y0`. -/
def operandSlots (e : List (Str × Val)) (E : Env) (y0 : Nat) (pos : Val) (it : Item) : Option (List Slot) :=
  match it.mode.bytes, it.opd with
  | 1, _ => some []
  | _, none => none
  | n, some (.lit v) =>
    if it.mode = .rel ∨ n = 2 then some [.fixed (UInt8.ofNat (v % 256))]
    else some [.fixed (UInt8.ofNat (v % 256)), .fixed (UInt8.ofNat (v / 256 % 256))]
  | n, some (.sym l) =>
    match look e E l with
    | none => none
    | some (true, v) =>
      if it.mode = .rel then
        if pos.1 then (branchByte pos.2 v).map fun b => [.fixed b]
        else some [.back ((v : Int) - (y0 + pos.2 + 2))]
      else if n = 2 then some [.fixed (UInt8.ofNat (v % 256))]
      else some [.fixed (UInt8.ofNat (v % 256)), .fixed (UInt8.ofNat (v / 256 % 256))]
    | some (false, v) =>
      if it.mode = .rel then
        if pos.1 then some [.ahead (((y0 + v : Nat) : Int) - (pos.2 + 2))]
        else (branchByte pos.2 v).map fun b => [.fixed b]
      else if n = 2 then some [.low (y0 + v)]
      else some [.low (y0 + v), .high (y0 + v)]

def slots (e : List (Str × Val)) (E : Env) (y0 : Nat) (pos : Val) (it : Item) : Option (List Slot) := do
  let op ← opcode? it.mnemonic it.mode
  let bs ← operandSlots e E y0 pos it
  some (.fixed (UInt8.ofNat op) :: bs)

/-- The bytes, if all branches reach their targets. -/
def fill (k : Nat) (cs : List Slot) : Option (List Byte) := if ∀ c ∈ cs, c.Fits k then some (cs.map (Slot.at k)) else none

theorem fill_pos {k : Nat} {cs : List Slot} (h : ∀ c ∈ cs, c.Fits k) : fill k cs = some (cs.map (Slot.at k)) := if_pos h
theorem fill_neg {k : Nat} {cs : List Slot} (h : ¬ ∀ c ∈ cs, c.Fits k) : fill k cs = none := if_neg h
theorem fill_nil (k : Nat) : fill k [] = some [] := rfl
theorem fill_fixed (k : Nat) (b : Byte) : fill k [.fixed b] = some [b] := by simp [fill, Slot.Fits, Slot.at]
theorem fill_fixed2 (k : Nat) (b c : Byte) : fill k [.fixed b, .fixed c] = some [b, c] := by simp [fill, Slot.Fits, Slot.at]
theorem fill_low (k a : Nat) : fill k [.low a] = some [UInt8.ofNat ((a + k) % 256)] := by simp [fill, Slot.Fits, Slot.at]
theorem fill_addr (k a : Nat) : fill k [.low a, .high a] = some [UInt8.ofNat ((a + k) % 256), UInt8.ofNat ((a + k) / 256 % 256)] := by
  simp [fill, Slot.Fits, Slot.at]
theorem fill_ahead (k a t : Nat) (d : Int) (h : (t : Int) - (a + 2) = d + k) : fill k [.ahead d] = (branchByte a t).map fun b => [b] := by
  unfold fill branchByte
  simp only [List.mem_singleton, forall_eq, Slot.Fits, List.map_cons, List.map_nil, Slot.at, offsetByte, h]
  split <;> rfl
theorem fill_back (k a t : Nat) (d : Int) (h : (t : Int) - (a + 2) = d - k) : fill k [.back d] = (branchByte a t).map fun b => [b] := by
  unfold fill branchByte
  simp only [List.mem_singleton, forall_eq, Slot.Fits, List.map_cons, List.map_nil, Slot.at, offsetByte, h]
  split <;> rfl

theorem fill_branch (k : Nat) (b : Option Byte) : ((b.map fun b => [Slot.fixed b]).bind (fill k)) = b.map fun b => [b] := by
  cases b with
  | none => rfl
  | some b => exact fill_fixed k b

theorem operand_fill (e : List (Str × Val)) (E : Env) (y0 k : Nat) (pos : Val) (it : Item) (ha : it.addr = val (y0 + k) pos) :
    operandBytesLow (envAt (y0 + k) e ++ E) it = (operandSlots e E y0 pos it).bind (fill k) := by
  obtain ⟨fx, p⟩ := pos
  obtain ⟨addr, m, md, o⟩ := it
  simp only at ha
  subst ha
  unfold operandBytesLow operandSlots
  rcases o with _ | v | l
  · cases md <;> simp [Mode.bytes, fill_nil]
  · cases md <;> simp [Mode.bytes, fill_nil, fill_fixed, fill_fixed2, opdValue]
  · simp only [opdValue, lookup_at]
    rcases hl : look e E l with _ | ⟨fx', v⟩
    · cases md <;> simp [Mode.bytes, fill_nil, hl]
    · have e1 : y0 + k + v = y0 + v + k := by omega
      cases fx'
      · by_cases hr : md = .rel
        · subst hr
          simp only [Mode.bytes, hl, Option.map_some, Option.bind_eq_bind, Option.bind_some, if_true]
          cases fx
          · simp only [val, Bool.false_eq_true, if_false, Reloc.branchByte_shift, fill_branch]
          · simp only [val, Bool.false_eq_true, if_false, if_true, Option.bind_some]
            rw [fill_ahead k p (y0 + k + v)]
            push_cast; ring
        · cases md <;> first | exact absurd rfl hr | simp [Mode.bytes, fill_nil, fill_low, fill_addr, val, e1, hl]
      · by_cases hr : md = .rel
        · subst hr
          simp only [Mode.bytes, hl, Option.map_some, Option.bind_eq_bind, Option.bind_some, if_true]
          cases fx
          · simp only [val, Bool.false_eq_true, if_false, if_true, Option.bind_some]
            rw [fill_back k (y0 + k + p) v]
            push_cast; ring
          · simp only [val, if_true, fill_branch]
        · cases md <;> first | exact absurd rfl hr | simp [Mode.bytes, fill_nil, fill_fixed, fill_fixed2, val, hl]

theorem encode_fill (e : List (Str × Val)) (E : Env) (y0 k : Nat) (pos : Val) (it : Item) (ha : it.addr = val (y0 + k) pos) :
    encodeLow (envAt (y0 + k) e ++ E) it = (slots e E y0 pos it).bind (fill k) := by
  unfold encodeLow slots
  rw [operand_fill e E y0 k pos it ha]
  cases opcode? it.mnemonic it.mode with
  | none => rfl
  | some op =>
    simp only [Option.bind_eq_bind, Option.bind_some]
    cases operandSlots e E y0 pos it with
    | none => rfl
    | some cs =>
      simp only [Option.bind_some]
      by_cases h : ∀ c ∈ cs, c.Fits k
      · rw [fill_pos h, fill_pos (by
          intro c hc
          rcases List.mem_cons.1 hc with rfl | hc
          · trivial
          · exact h c hc)]
        rfl
      · rw [fill_neg h, fill_neg (fun g => h fun c hc => g c (List.mem_cons_of_mem _ hc))]
        rfl

/-- The slots of a list of items, each with its position. -/
def allSlots (e : List (Str × Val)) (E : Env) (y0 : Nat) : List (Val × Item) → Option (List (List Slot))
  | [] => some []
  | q :: qs => do
    let c ← slots e E y0 q.1 q.2
    let cs ← allSlots e E y0 qs
    some (c :: cs)

/-- The bytes of the second pass. -/
theorem pass2_fill {e : List (Str × Val)} {E : Env} {y0 k : Nat} : ∀ {qs : List (Val × Item)}, (∀ q ∈ qs, q.2.addr = val (y0 + k) q.1) →
    ∀ cs, allSlots e E y0 qs = some cs →
    pass2Low (envAt (y0 + k) e ++ E) (qs.map (·.2)) =
      if ∀ c ∈ cs.flatten, c.Fits k then some ((qs.map (·.2.addr)).zip (cs.map fun c => c.map (Slot.at k))) else none
  | [], _, cs, h => by cases h; rfl
  | q :: qs, ha, cs, h => by
    unfold allSlots at h
    simp only [Option.bind_eq_bind, Option.bind_eq_some_iff, Option.some.injEq] at h
    obtain ⟨c, h1, cs', h2, rfl⟩ := h
    have ih := pass2_fill (fun q hq => ha q (List.mem_cons_of_mem _ hq)) cs' h2 (k := k)
    have e1 := encode_fill e E y0 k q.1 q.2 (ha q List.mem_cons_self)
    rw [h1] at e1
    simp only [List.map_cons, pass2Low, ih, e1, Option.bind_eq_bind, Option.bind_some]
    by_cases hc : ∀ c' ∈ c, c'.Fits k
    · by_cases hcs : ∀ c' ∈ cs'.flatten, c'.Fits k
      · have : ∀ c' ∈ (c :: cs').flatten, c'.Fits k := by
          intro c' hm
          rw [List.flatten_cons, List.mem_append] at hm
          exact hm.elim (hc c') (hcs c')
        rw [if_pos this, if_pos hcs, fill_pos hc]
        simp
      · have : ¬ ∀ c' ∈ (c :: cs').flatten, c'.Fits k := fun h => hcs fun c' hm => h c' (by rw [List.flatten_cons, List.mem_append]; exact .inr hm)
        rw [if_neg this, if_neg hcs]
        simp
    · have : ¬ ∀ c' ∈ (c :: cs').flatten, c'.Fits k := fun h => hc fun c' hm => h c' (by rw [List.flatten_cons, List.mem_append]; exact .inl hm)
      rw [if_neg this, fill_neg hc]
      simp

/-- If the second pass succeeds for one place, there are slots. -/
theorem pass2_slots {e : List (Str × Val)} {E : Env} {y0 k : Nat} : ∀ {qs : List (Val × Item)}, (∀ q ∈ qs, q.2.addr = val (y0 + k) q.1) →
    ∀ {out}, pass2Low (envAt (y0 + k) e ++ E) (qs.map (·.2)) = some out → ∃ cs, allSlots e E y0 qs = some cs
  | [], _, _, _ => ⟨[], rfl⟩
  | q :: qs, ha, out, h => by
    simp only [List.map_cons, pass2Low, Option.bind_eq_bind, Option.bind_eq_some_iff] at h
    obtain ⟨bs, h1, cs, h2, _⟩ := h
    rw [encode_fill e E y0 k q.1 q.2 (ha q List.mem_cons_self)] at h1
    obtain ⟨c, h3, _⟩ := Option.bind_eq_some_iff.1 h1
    obtain ⟨cs', h4⟩ := pass2_slots (fun q hq => ha q (List.mem_cons_of_mem _ hq)) h2
    exact ⟨c :: cs', by unfold allSlots; simp [h3, h4]⟩

theorem slots_length {e : List (Str × Val)} {E : Env} {y0 : Nat} {pos : Val} {it : Item} {c : List Slot} (h : slots e E y0 pos it = some c) :
    c.length = it.mode.bytes := by
  unfold slots at h
  simp only [Option.bind_eq_bind, Option.bind_eq_some_iff, Option.some.injEq] at h
  obtain ⟨op, _, bs, h2, rfl⟩ := h
  rw [List.length_cons]
  obtain ⟨addr, m, md, o⟩ := it
  obtain ⟨fx, p⟩ := pos
  unfold operandSlots at h2
  rcases o with _ | v | l
  · cases md <;> simp [Mode.bytes] at h2 ⊢ <;> (subst h2; rfl)
  · cases md <;> simp [Mode.bytes] at h2 ⊢ <;> (subst h2; rfl)
  · rcases hl : look e E l with _ | ⟨fx', v⟩
    · cases md <;> simp [Mode.bytes, hl] at h2 ⊢ <;> (subst h2; rfl)
    · cases fx'
      · cases md <;> simp [Mode.bytes, hl] at h2 ⊢ <;> first
          | (subst h2; rfl)
          | (cases fx <;> simp at h2 <;> first | (subst h2; rfl) | (obtain ⟨_, _, rfl⟩ := h2; rfl))
      · cases md <;> simp [Mode.bytes, hl] at h2 ⊢ <;> first
          | (subst h2; rfl)
          | (cases fx <;> simp at h2 <;> first | (subst h2; rfl) | (obtain ⟨_, _, rfl⟩ := h2; rfl))

/-- An item that uses no name. -/
theorem slots_nameless {e : List (Str × Val)} {E : Env} {y0 : Nat} {pos : Val} {it it' : Item} (hl : ∀ l, it.opd ≠ some (.sym l))
    (h1 : it'.mnemonic = it.mnemonic) (h2 : it'.mode = it.mode) (h3 : it'.opd = it.opd) : slots e E y0 pos it' = slots [] [] 0 (true, 0) it := by
  unfold slots operandSlots
  rw [h1, h2, h3]
  rcases ho : it.opd with _ | v | l
  · generalize it.mode = md
    cases md <;> rfl
  · generalize it.mode = md
    cases md <;> rfl
  · exact absurd ho (hl l)

theorem slots_fixed {it : Item} {c : List Slot} (hl : ∀ l, it.opd ≠ some (.sym l)) (h : slots [] [] 0 (true, 0) it = some c) : ∀ q ∈ c, ∃ b, q = .fixed b := by
  unfold slots at h
  simp only [Option.bind_eq_bind, Option.bind_eq_some_iff, Option.some.injEq] at h
  obtain ⟨op, _, bs, h2, rfl⟩ := h
  intro q hq
  rcases List.mem_cons.1 hq with rfl | hq
  · exact ⟨_, rfl⟩
  obtain ⟨addr, m, md, o⟩ := it
  unfold operandSlots at h2
  rcases o with _ | v | l
  · cases md <;> simp [Mode.bytes] at h2 <;> (subst h2; simp at hq)
  · cases md <;> simp [Mode.bytes] at h2 <;> (subst h2; simp at hq) <;> first | exact ⟨_, hq⟩ | (rcases hq with h | h <;> exact ⟨_, h⟩)
  · exact absurd rfl (hl l)

theorem allSlots_append {e : List (Str × Val)} {E : Env} {y0 : Nat} (qs' : List (Val × Item)) : ∀ qs : List (Val × Item),
    allSlots e E y0 (qs ++ qs') = (allSlots e E y0 qs).bind fun cs => (allSlots e E y0 qs').map fun cs' => cs ++ cs'
  | [] => by
    show allSlots e E y0 qs' = (some []).bind _
    simp
  | q :: qs => by
    have eq : ∀ qs, allSlots e E y0 (q :: qs) = (slots e E y0 q.1 q.2).bind fun c => (allSlots e E y0 qs).bind fun cs => some (c :: cs) := fun _ => rfl
    rw [List.cons_append, eq, eq, allSlots_append qs' qs]
    cases slots e E y0 q.1 q.2 with
    | none => rfl
    | some c =>
      simp only [Option.bind_some]
      cases allSlots e E y0 qs with
      | none => rfl
      | some cs =>
        simp only [Option.bind_some]
        cases allSlots e E y0 qs' with
        | none => rfl
        | some cs' => rfl

theorem allSlots_congr {e e' : List (Str × Val)} {E E' : Env} {y0 y0' : Nat} {f g : Item → Val × Item} : ∀ {its : List Item},
    (∀ it ∈ its, slots e E y0 (f it).1 (f it).2 = slots e' E' y0' (g it).1 (g it).2) → allSlots e E y0 (its.map f) = allSlots e' E' y0' (its.map g)
  | [], _ => rfl
  | it :: its, h => by
    simp only [List.map_cons]
    unfold allSlots
    rw [h it List.mem_cons_self, allSlots_congr fun q hq => h q (List.mem_cons_of_mem _ hq)]

theorem allSlots_all {e : List (Str × Val)} {E : Env} {y0 : Nat} {P : Slot → Prop} : ∀ {qs : List (Val × Item)} {cs : List (List Slot)},
    allSlots e E y0 qs = some cs → (∀ q ∈ qs, ∀ c, slots e E y0 q.1 q.2 = some c → ∀ d ∈ c, P d) → ∀ d ∈ cs.flatten, P d
  | [], cs, h, _ => by cases h; simp
  | q :: qs, cs, h, hP => by
    unfold allSlots at h
    simp only [Option.bind_eq_bind, Option.bind_eq_some_iff, Option.some.injEq] at h
    obtain ⟨c, h1, cs', h2, rfl⟩ := h
    intro d hd
    rw [List.flatten_cons, List.mem_append] at hd
    rcases hd with hd | hd
    · exact hP q List.mem_cons_self c h1 d hd
    · exact allSlots_all h2 (fun q hq => hP q (List.mem_cons_of_mem _ hq)) d hd

/-! Code without gaps. -/

/-- Each stretch starts where the one before ends. -/
def Gapless : Nat → List Chunk → Prop
  | _, [] => True
  | x, c :: cs => c.1 = x ∧ c.2 ≠ [] ∧ Gapless (x + c.2.length) cs

theorem gapless_find (i : Nat) : ∀ {cs : List Chunk} {x : Nat}, Gapless x cs →
    cs.reverse.findSome? (Chunk.at · i) = if x ≤ i then (cs.flatMap (·.2))[i - x]? else none
  | [], x, _ => by simp
  | c :: cs, x, ⟨h1, h2, h3⟩ => by
    rw [List.reverse_cons, List.findSome?_append, gapless_find i h3, List.flatMap_cons]
    simp only [List.findSome?_cons, List.findSome?_nil]
    unfold Chunk.at
    rw [h1]
    by_cases a : x ≤ i
    · rw [if_pos a, if_pos a]
      by_cases b : x + c.2.length ≤ i
      · rw [if_pos b, List.getElem?_append_right (by omega), List.getElem?_eq_none (l := c.2) (by omega), show i - (x + c.2.length) = i - x - c.2.length by omega]
        simp
      · rw [if_neg b, List.getElem?_append_left (by omega)]
        cases c.2[i - x]? <;> rfl
    · rw [if_neg a, if_neg a, if_neg (by omega)]
      rfl

theorem gapless_end : ∀ {cs : List Chunk} {x b : Nat}, Gapless x cs → b ≤ x →
    (cs.map fun c => c.1 + c.2.length).foldl max b = if cs.flatMap (·.2) = [] then b else x + (cs.flatMap (·.2)).length
  | [], x, b, _, _ => by simp
  | c :: cs, x, b, ⟨h1, h2, h3⟩, hb => by
    rw [List.map_cons, List.foldl_cons, h1, show max b (x + c.2.length) = x + c.2.length by omega, gapless_end h3 (Nat.le_refl _), List.flatMap_cons]
    rw [if_neg (c := c.2 ++ cs.flatMap (·.2) = []) (fun h => h2 (List.append_eq_nil_iff.1 h).1), List.length_append]
    split
    · rename_i h
      rw [h]; simp
    · omega

theorem gapless_image {cs : List Chunk} {x : Nat} (h : Gapless x cs) : image cs = placedAt x (cs.flatMap (·.2)) := by
  have he : imageEnd cs = if cs.flatMap (·.2) = [] then 0 else x + (cs.flatMap (·.2)).length := gapless_end h (Nat.zero_le _)
  unfold image placedAt
  rw [he]
  by_cases hn : cs.flatMap (·.2) = []
  · rw [if_pos hn, if_pos hn]; rfl
  · rw [if_neg hn, if_neg hn]
    apply List.ext_getElem
    · simp
    · intro i h1 h2
      simp only [List.getElem_map, List.getElem_range]
      unfold byteAt
      rw [gapless_find i h]
      by_cases hx : x ≤ i
      · rw [if_pos hx, List.getElem_append_right (by simpa using hx)]
        simp only [List.length_replicate]
        rw [List.getElem?_eq_getElem]; rfl
      · rw [if_neg hx, List.getElem_append_left (by simpa using hx)]
        simp

theorem gapless_slots {e : List (Str × Val)} {E : Env} {y0 k : Nat} : ∀ {qs : List (Val × Item)} {cs : List (List Slot)} {x : Nat}, Contiguous x (qs.map (·.2)) →
    allSlots e E y0 qs = some cs →
    Gapless x ((qs.map (·.2.addr)).zip (cs.map fun c => c.map (Slot.at k))) ∧
    ((qs.map (·.2.addr)).zip (cs.map fun c => c.map (Slot.at k))).flatMap (·.2) = cs.flatten.map (Slot.at k) ∧
    (cs.flatten).length = ((qs.map (·.2)).map (·.mode.bytes)).sum
  | [], cs, x, _, h => by cases h; exact ⟨trivial, rfl, rfl⟩
  | q :: qs, cs, x, ⟨h1, h2⟩, h => by
    unfold allSlots at h
    simp only [Option.bind_eq_bind, Option.bind_eq_some_iff, Option.some.injEq] at h
    obtain ⟨c, g1, cs', g2, rfl⟩ := h
    have hlen := slots_length g1
    obtain ⟨i1, i2, i3⟩ := gapless_slots (k := k) h2 g2
    have hpos : 0 < q.2.mode.bytes := by rcases mode_bytes_cases q.2.mode with h | h | h <;> omega
    refine ⟨⟨h1, ?_, ?_⟩, ?_, ?_⟩
    · intro h
      rw [← List.length_eq_zero_iff, List.length_map, hlen] at h
      omega
    · rw [List.length_map, hlen]; exact i1
    · rw [List.map_cons, List.map_cons, List.zip_cons_cons, List.flatMap_cons, i2]; simp
    · simp [hlen, i3]

/-- The first pass puts straight code without gaps. -/
theorem pass1_straight : ∀ {p : List Stmt} {s t : Pass1}, (∀ st ∈ p, st.isOrg = false ∧ st ≠ .stop) → pass1 p s = some t →
    ∃ its, t.items = s.items ++ its ∧ Contiguous s.pc its ∧ t.pc = s.pc + (its.map (·.mode.bytes)).sum
  | [], s, t, _, h => by cases h; exact ⟨[], by simp, trivial, rfl⟩
  | st :: p, s, t, h1, h => by
    rw [pass1_cons (h1 st List.mem_cons_self).2] at h
    obtain ⟨u, g1, g2⟩ := Option.bind_eq_some_iff.1 h
    obtain ⟨its, k1, k2, k3⟩ := pass1_straight (fun q hq => h1 q (List.mem_cons_of_mem _ hq)) g2
    have pl : ∀ {s u : Pass1} {m : Mnemonic} {a : Arg}, place s m a = some u → ∃ it, u.items = s.items ++ [it] ∧ it.addr = s.pc ∧ u.pc = s.pc + it.mode.bytes := by
      intro s u m a h
      obtain ⟨v, md, _, _, rfl⟩ := place_some h
      exact ⟨_, rfl, rfl, rfl⟩
    have step : (u.items = s.items ∧ u.pc = s.pc) ∨ ∃ it, u.items = s.items ++ [it] ∧ it.addr = s.pc ∧ u.pc = s.pc + it.mode.bytes := by
      cases st with
      | empty => cases g1; exact .inl ⟨rfl, rfl⟩
      | stop => cases g1; exact .inl ⟨rfl, rfl⟩
      | org v => cases (h1 _ List.mem_cons_self).1
      | label l => obtain ⟨_, rfl⟩ := define_some (show define s l s.pc = some u from g1); exact .inl ⟨rfl, rfl⟩
      | const l v => obtain ⟨_, rfl⟩ := define_some (show define s l v = some u from g1); exact .inl ⟨rfl, rfl⟩
      | instr lab m a =>
        cases lab with
        | none => exact .inr (pl g1)
        | some l =>
          have g1 : (define s l s.pc).bind (place · m a) = some u := g1
          obtain ⟨w, j1, j2⟩ := Option.bind_eq_some_iff.1 g1
          obtain ⟨_, rfl⟩ := define_some j1
          obtain ⟨it, e1, e2, e3⟩ := pl j2
          exact .inr ⟨it, e1, e2, e3⟩
    rcases step with ⟨e1, e2⟩ | ⟨it, e1, e2, e3⟩
    · exact ⟨its, by rw [k1, e1], by rw [← e2]; exact k2, by rw [k3, e2]⟩
    · refine ⟨it :: its, by rw [k1, e1]; simp, ⟨e2, by rw [← e3]; exact k2⟩, ?_⟩
      rw [k3, e3, List.map_cons, List.sum_cons]; omega

/-- The first pass over instructions without names. -/
theorem pass1_nameless : ∀ {mid : List Stmt} {s t : Pass1}, (∀ st ∈ mid, st.Nameless) → pass1 mid s = some t →
    ∃ (its : List Item) (n : Nat), (∀ it ∈ its, ∀ l, it.opd ≠ some (.sym l)) ∧ t = ⟨s.pc + n, s.env, s.items ++ its.map (shift s.pc)⟩ ∧
      ∀ s' : Pass1, pass1 mid s' = some ⟨s'.pc + n, s'.env, s'.items ++ its.map (shift s'.pc)⟩
  | [], s, t, _, h => by
    cases h
    exact ⟨[], 0, by simp, by simp, fun s' => by simp [pass1]⟩
  | st :: mid, s, t, h1, h => by
    have hn := h1 st List.mem_cons_self
    have hst : st ≠ .stop := by rintro rfl; exact hn
    rw [pass1_cons hst] at h
    obtain ⟨u, g1, g2⟩ := Option.bind_eq_some_iff.1 h
    obtain ⟨its, n, k1, k2, k3⟩ := pass1_nameless (fun q hq => h1 q (List.mem_cons_of_mem _ hq)) g2
    cases st with
    | empty =>
      cases g1
      exact ⟨its, n, k1, k2, fun s' => by rw [pass1_cons hst]; exact k3 s'⟩
    | stop => exact absurd rfl hst
    | org v => exact hn.elim
    | label l => exact hn.elim
    | const l v => exact hn.elim
    | instr lab m a =>
      cases lab with
      | some l => exact hn.elim
      | none =>
        have hn : ∀ l, a.opd ≠ some (.sym l) := hn
        obtain ⟨v, md, j1, j2, rfl⟩ := place_some (show place s m a = some u from g1)
        have js : ∀ env, sizingValue env m a.opd = some v := by
          intro env
          rcases ho : a.opd with _ | w | l
          · rw [ho] at j1; exact j1
          · rw [ho] at j1; exact j1
          · exact absurd ho (hn l)
        refine ⟨⟨0, m, md, a.opd⟩ :: its.map (shift md.bytes), md.bytes + n, ?_, ?_, fun s' => ?_⟩
        · intro it hit
          rcases List.mem_cons.1 hit with rfl | hit
          · exact hn
          · obtain ⟨it', h', rfl⟩ := List.mem_map.1 hit
            exact k1 it' h'
        · rw [k2]
          simp [shift, Nat.add_assoc, Function.comp_def]
        · rw [pass1_cons hst]
          show (place s' m a).bind _ = _
          unfold place
          simp only [js, j2, Option.bind_eq_bind, Option.bind_some, k3]
          simp [shift, Nat.add_assoc, Function.comp_def]

/-- The instructions come from the statements. -/
theorem pass1_origin : ∀ {p : List Stmt} {s t : Pass1}, (∀ st ∈ p, st ≠ .stop) → pass1 p s = some t →
    ∃ new : List Item, t.items = s.items ++ new ∧ ∀ it ∈ new, ∃ st ∈ p, ∃ lab a, st = .instr lab it.mnemonic a ∧ it.opd = a.opd
  | [], s, t, _, h => by cases h; exact ⟨[], by simp, fun _ h => nomatch h⟩
  | st :: p, s, t, h1, h => by
    rw [pass1_cons (h1 st List.mem_cons_self)] at h
    obtain ⟨u, g1, g2⟩ := Option.bind_eq_some_iff.1 h
    clear h
    have pl : ∀ {s u : Pass1} {m : Mnemonic} {a : Arg}, place s m a = some u → ∃ it : Item, u.items = s.items ++ [it] ∧ it.mnemonic = m ∧ it.opd = a.opd := by
      intro s u m a h
      obtain ⟨v, md, _, _, rfl⟩ := place_some h
      exact ⟨_, rfl, rfl, rfl⟩
    obtain ⟨new, n1, n2⟩ := pass1_origin (fun q hq => h1 q (List.mem_cons_of_mem _ hq)) g2
    have same : u.items = s.items → ∃ new : List Item, t.items = s.items ++ new ∧
        ∀ it ∈ new, ∃ st' ∈ st :: p, ∃ lab a, st' = .instr lab it.mnemonic a ∧ it.opd = a.opd := by
      intro e
      refine ⟨new, by rw [n1, e], fun it hit => ?_⟩
      obtain ⟨q, hq, h⟩ := n2 it hit
      exact ⟨q, List.mem_cons_of_mem _ hq, h⟩
    have one : ∀ lab m a, st = .instr lab m a → (∃ it : Item, u.items = s.items ++ [it] ∧ it.mnemonic = m ∧ it.opd = a.opd) → ∃ new : List Item, t.items = s.items ++ new ∧
        ∀ it ∈ new, ∃ st' ∈ st :: p, ∃ lab a, st' = .instr lab it.mnemonic a ∧ it.opd = a.opd := by
      rintro lab m a rfl ⟨it, e, rfl, e3⟩
      refine ⟨it :: new, by rw [n1, e]; simp, fun it' hit => ?_⟩
      rcases List.mem_cons.1 hit with rfl | hit
      · exact ⟨_, List.mem_cons_self, lab, a, rfl, e3⟩
      · obtain ⟨q, hq, h⟩ := n2 it' hit
        exact ⟨q, List.mem_cons_of_mem _ hq, h⟩
    cases st with
    | empty => cases g1; exact same rfl
    | stop => cases g1; exact same rfl
    | org v => cases g1; exact same rfl
    | label l => obtain ⟨_, rfl⟩ := define_some (show define s l s.pc = some u from g1); exact same rfl
    | const l v => obtain ⟨_, rfl⟩ := define_some (show define s l v = some u from g1); exact same rfl
    | instr lab m a =>
      cases lab with
      | none => exact one _ _ _ rfl (pl g1)
      | some l =>
        have g1 : (define s l s.pc).bind (place · m a) = some u := g1
        obtain ⟨w, j1, j2⟩ := Option.bind_eq_some_iff.1 g1
        obtain ⟨_, rfl⟩ := define_some j1
        obtain ⟨it, e1, e2, e3⟩ := pl j2
        exact one _ _ _ rfl ⟨it, e1, e2, e3⟩

/-- The slots of an item are bytes that stay, if its reference does not cross the place. -/
theorem slots_stay {e : List (Str × Val)} {E : Env} {y0 : Nat} {pos : Val} {it : Item} {c : List Slot} (h : slots e E y0 pos it = some c)
    (hs : ∀ l q, it.opd = some (.sym l) → look e E l = some q → if it.mode = .rel then q.1 = pos.1 else q.1 = true) : ∀ d ∈ c, ∃ b, d = .fixed b := by
  unfold slots at h
  simp only [Option.bind_eq_bind, Option.bind_eq_some_iff, Option.some.injEq] at h
  obtain ⟨op, _, bs, h2, rfl⟩ := h
  intro d hd
  rcases List.mem_cons.1 hd with rfl | hd
  · exact ⟨_, rfl⟩
  obtain ⟨addr, m, md, o⟩ := it
  obtain ⟨fx, p⟩ := pos
  unfold operandSlots at h2
  rcases o with _ | v | l
  · cases md <;> simp [Mode.bytes] at h2 <;> (subst h2; simp at hd)
  · cases md <;> simp [Mode.bytes] at h2 <;> (subst h2; simp at hd) <;> first | exact ⟨_, hd⟩ | (rcases hd with h | h <;> exact ⟨_, h⟩)
  · rcases hl : look e E l with _ | ⟨fx', v⟩
    · cases md <;> simp [Mode.bytes, hl] at h2 <;> (subst h2; simp at hd)
    · have hq := hs l _ rfl hl
      simp only at hq
      by_cases hr : md = .rel
      · subst hr
        simp only [if_true] at hq
        subst hq
        cases fx' <;> simp [Mode.bytes, hl] at h2 <;> (obtain ⟨b, _, rfl⟩ := h2; simp at hd; exact ⟨_, hd⟩)
      · rw [if_neg hr] at hq
        subst hq
        cases md <;> simp [Mode.bytes, hl] at h2 hr <;> (subst h2; simp at hd) <;> first | exact ⟨_, hd⟩ | (rcases hd with h | h <;> exact ⟨_, h⟩)

theorem nameless_straight {mid : List Stmt} (h : ∀ st ∈ mid, st.Nameless) : ∀ st ∈ mid, st.isOrg = false ∧ st ≠ .stop := by
  intro st hst
  have := h st hst
  cases st with
  | empty => exact ⟨rfl, by simp⟩
  | instr lab m a => exact ⟨rfl, by simp⟩
  | label l => exact this.elim
  | const l v => exact this.elim
  | org v => exact this.elim
  | stop => exact this.elim

theorem placedAt_zero (l : List Byte) : placedAt 0 l = l := by
  unfold placedAt
  split
  · rename_i h; rw [h]
  · rfl

/-- The code of instructions without names. -/
theorem assemble_nameless {mid : List Stmt} (hm : ∀ st ∈ mid, st.Nameless) {rm : Result} (h : assembleLow mid = some rm) :
    ∃ (its : List Item) (n : Nat) (cs : List (List Slot)), (∀ it ∈ its, ∀ l, it.opd ≠ some (.sym l)) ∧
      (∀ s' : Pass1, pass1 mid s' = some ⟨s'.pc + n, s'.env, s'.items ++ its.map (shift s'.pc)⟩) ∧
      allSlots [] [] 0 (its.map fun it => ((true, 0), it)) = some cs ∧ (∀ d ∈ cs.flatten, ∃ b, d = .fixed b) ∧
      cs.flatten.length = n ∧ image rm.chunks = cs.flatten.map (Slot.at 0) := by
  unfold assembleLow at h
  simp only [Option.bind_eq_bind, Option.bind_eq_some_iff, Option.some.injEq] at h
  obtain ⟨t, h1, ch, h2, rfl⟩ := h
  obtain ⟨its, n, k1, rfl, k3⟩ := pass1_nameless hm h1
  obtain ⟨its', g1, g2, g3⟩ := pass1_straight (nameless_straight hm) h1
  simp only [List.nil_append, Nat.zero_add] at g1 g2 g3 h2
  subst g1
  let qs : List (Val × Item) := its.map fun it => ((true, 0 + it.addr), shift 0 it)
  have hq : ∀ q ∈ qs, q.2.addr = val (0 + 0) q.1 := by
    intro q hq
    obtain ⟨it, _, rfl⟩ := List.mem_map.1 hq
    rfl
  have hmap : qs.map (·.2) = its.map (shift 0) := by simp [qs, Function.comp_def]
  have h2' : pass2Low (envAt (0 + 0) [] ++ []) (qs.map (·.2)) = some ch := by rw [hmap]; exact h2
  obtain ⟨cs, hcs⟩ := pass2_slots hq h2'
  have hcs' : allSlots [] [] 0 (its.map fun it => ((true, 0), it)) = some cs := by
    rw [← hcs]
    exact allSlots_congr fun it hit => (slots_nameless (it := it) (it' := it) (k1 it hit) rfl rfl rfl).trans (slots_nameless (it := it) (it' := shift 0 it) (k1 it hit) rfl rfl rfl).symm
  have hfix : ∀ d ∈ cs.flatten, ∃ b, d = .fixed b := allSlots_all hcs' (by
    intro q hq c hc
    obtain ⟨it, hit, rfl⟩ := List.mem_map.1 hq
    exact slots_fixed (k1 it hit) hc)
  obtain ⟨j1, j2, j3⟩ := gapless_slots (k := 0) (by rw [hmap]; exact g2) hcs
  have e := pass2_fill hq cs hcs
  rw [h2', if_pos (fun c hc => by obtain ⟨b, rfl⟩ := hfix c hc; trivial)] at e
  cases e
  refine ⟨its, n, cs, k1, k3, hcs', hfix, ?_, ?_⟩
  · rw [j3, hmap, ← g3]
  · simp only
    rw [gapless_image j1, placedAt_zero, j2]

theorem assemble_insert {x : Nat} {before mid0 after : List Stmt} (hi : Insertable x before after) (hm0 : ∀ st ∈ mid0, st.Nameless) {r : Result}
    (h : assembleLow (.org x :: (before ++ mid0 ++ after)) = some r) :
    ∃ A B : List Slot, (∃ s, pass1 (.org x :: before) .init = some s ∧ s.pc = x + A.length) ∧
      (NothingCrosses before after → ∀ c ∈ A ++ B, ∃ b, c = .fixed b) ∧
      ∀ mid rm, (∀ st ∈ mid, st.Nameless) → assembleLow mid = some rm →
        ((∀ c ∈ A ++ B, c.Fits (image rm.chunks).length) → ∃ r', assembleLow (.org x :: (before ++ mid ++ after)) = some r' ∧
          image r'.chunks = placedAt x (A.map (Slot.at (image rm.chunks).length) ++ image rm.chunks ++ B.map (Slot.at (image rm.chunks).length)) ∧
          totalBytes r'.chunks = A.length + (image rm.chunks).length + B.length ∧ r'.env.length = r.env.length) ∧
        (¬ (∀ c ∈ A ++ B, c.Fits (image rm.chunks).length) → assembleLow (.org x :: (before ++ mid ++ after)) = none) := by
  have hbs : ∀ st ∈ before, st.isOrg = false ∧ st ≠ .stop := fun st hst => hi.straight st (List.mem_append_left _ hst)
  have has : ∀ st ∈ after, st.isOrg = false ∧ st ≠ .stop := fun st hst => hi.straight st (List.mem_append_right _ hst)
  have nostop : Stmt.stop ∉ before := fun h => (hbs _ h).2 rfl
  unfold assembleLow at h
  simp only [Option.bind_eq_bind, Option.bind_eq_some_iff, Option.some.injEq] at h
  obtain ⟨s, h1, ch, h2, rfl⟩ := h
  have h1 : pass1 (before ++ (mid0 ++ after)) ⟨x, [], []⟩ = some s := by rw [← List.append_assoc]; exact h1
  obtain ⟨sB, g1, g2⟩ := pass1_append before (mid0 ++ after) nostop h1
  obtain ⟨I, i1, i2, i3⟩ := pass1_straight hbs g1
  obtain ⟨y0, E, I'⟩ := sB
  simp only [List.nil_append] at i1 i2 i3
  subst i1
  obtain ⟨sM, gm, g2⟩ := pass1_append mid0 after (fun h => (nameless_straight hm0 _ h).2 rfl) g2
  obtain ⟨its0, n0, _, rfl, _⟩ := pass1_nameless hm0 gm
  simp only at g2
  have gs : (⟨y0 + n0, E, I' ++ its0.map (shift y0)⟩ : Pass1) = inst (y0 + n0) E (I' ++ its0.map (shift y0)) ⟨0, [], []⟩ := by simp [inst, envAt]
  rw [gs] at g2
  obtain ⟨σ, rfl, k2, ⟨k3, k4⟩, k5⟩ := pass1_at (Adr := fun l => l ∈ after.filterMap Stmt.addressLabel) (σ := ⟨0, [], []⟩) (fun q hq => nomatch hq) has
    (fun st hst l hl => List.mem_filterMap.2 ⟨st, hst, hl⟩) g2
  have k5 : ∀ n J, pass1 after (inst (y0 + n) E J ⟨0, [], []⟩) = some (inst (y0 + n) E J σ) := by
    intro n J
    refine k5 _ _ ?_
    rcases hi.sizes with h | h
    · exact .inl (by omega)
    · refine .inr fun st hst l hl hm => ?_
      obtain ⟨st', h3, h4⟩ := List.mem_filterMap.1 hm
      exact h st hst l hl st' h3 h4
  have g2 : pass1 after (inst y0 E I' ⟨0, [], []⟩) = some (inst y0 E I' σ) := k5 0 I'
  have h1 : pass1 (before ++ after) ⟨x, [], []⟩ = some (inst y0 E I' σ) := by
    refine pass1_append_some before _ nostop g1 ?_
    have : (⟨y0, E, I'⟩ : Pass1) = inst y0 E I' ⟨0, [], []⟩ := by simp [inst, envAt]
    rw [this]
    exact g2
  -- the slots
  let qA : List (Val × Item) := I'.map fun it => ((true, it.addr), it)
  let qB : Nat → List (Val × Item) := fun k => σ.items.map fun it => ((false, it.addr), shift (y0 + k) it)
  have qAa : ∀ k, ∀ q ∈ qA, q.2.addr = val (y0 + k) q.1 := by
    intro k q hq
    obtain ⟨it, _, rfl⟩ := List.mem_map.1 hq
    rfl
  have qBa : ∀ k, ∀ q ∈ qB k, q.2.addr = val (y0 + k) q.1 := by
    intro k q hq
    obtain ⟨it, _, rfl⟩ := List.mem_map.1 hq
    rfl
  have hA : qA.map (·.2) = I' := by simp [qA, Function.comp_def]
  have hB : ∀ k, (qB k).map (·.2) = σ.items.map (shift (y0 + k)) := by intro k; simp [qB, Function.comp_def]
  let qM0 : List (Val × Item) := its0.map fun it => ((true, y0 + it.addr), shift y0 it)
  have hM0 : qM0.map (·.2) = its0.map (shift y0) := by simp [qM0, Function.comp_def]
  have h2' : pass2Low (envAt (y0 + n0) σ.env ++ E) ((qA ++ (qM0 ++ qB n0)).map (·.2)) = some ch := by
    rw [List.map_append, List.map_append, hA, hM0, hB, ← List.append_assoc]
    exact h2
  obtain ⟨cs, hcs⟩ := pass2_slots (k := n0) (by
    intro q hq
    rcases List.mem_append.1 hq with hq | hq
    · exact qAa n0 q hq
    · rcases List.mem_append.1 hq with hq | hq
      · obtain ⟨it, _, rfl⟩ := List.mem_map.1 hq
        rfl
      · exact qBa n0 q hq) h2'
  rw [allSlots_append] at hcs
  obtain ⟨cA, hcA, hcs⟩ := Option.bind_eq_some_iff.1 hcs
  obtain ⟨cMB, hcMB, _⟩ := Option.map_eq_some_iff.1 hcs
  rw [allSlots_append] at hcMB
  obtain ⟨_, _, hcMB⟩ := Option.bind_eq_some_iff.1 hcMB
  obtain ⟨cB, hcB, _⟩ := Option.map_eq_some_iff.1 hcMB
  have hcBk : ∀ k, allSlots σ.env E y0 (qB k) = some cB := by
    intro k
    rw [← hcB]
    exact allSlots_congr fun it _ => rfl
  have lenA : cA.flatten.length = (I'.map (·.mode.bytes)).sum := by
    have := (gapless_slots (k := 0) (x := x) (by rw [hA]; exact i2) hcA).2.2
    rwa [hA] at this
  refine ⟨cA.flatten, cB.flatten, ⟨⟨y0, E, I'⟩, g1, by rw [lenA]; exact i3⟩, ?_, ?_⟩
  · intro hn c hc
    have hok : ∀ it ∈ (inst y0 E I' σ).items, ItemOK it := by
      intro it hm
      have hs : pass1 (.org x :: (before ++ after)) .init = some (inst y0 E I' σ) := h1
      have := (placed_made _ 1 hs).1
      rw [this] at hm
      simp only [Pass1.init, List.nil_append, List.mem_map] at hm
      obtain ⟨e, he, rfl⟩ := hm
      exact placed_ok hs e he
    have hkeys : σ.env.map (·.1) = (after.filterMap Stmt.defines).reverse := by
      have := (Linked.pass1_keys (fun st hst => (has st hst).2) g2).1
      simp only [Linked.keys, inst, envAt, List.map_append, List.map_map, List.map_nil, List.nil_append] at this
      have := List.append_cancel_right this
      rw [← this]
      rfl
    rcases List.mem_append.1 hc with hc | hc
    · refine allSlots_all (P := fun c => ∃ b, c = .fixed b) hcA ?_ c hc
      intro q hq c hc
      obtain ⟨it, hit, rfl⟩ := List.mem_map.1 hq
      refine slots_stay hc ?_
      intro l q ho hl
      have hq1 : q.1 = true := by
        obtain ⟨new, n1, n2⟩ := pass1_origin (fun st hst => (hbs st hst).2) g1
        simp only [List.nil_append] at n1
        obtain ⟨st, hst, lab, a, rfl, h⟩ := n2 it (n1 ▸ hit)
        · have hnot := hn.before _ hst l (by
            have ho : it.opd = some (.sym l) := ho
            simp [Stmt.reference, ← h, ho])
          have : σ.env.lookup l = none := by
            rw [List.lookup_eq_none_iff]
            intro p hp
            simp only [bne_iff_ne, ne_eq, beq_iff_eq] at *
            intro h
            apply hnot
            have : l ∈ σ.env.map (·.1) := List.mem_map.2 ⟨p, hp, h.symm⟩
            rw [hkeys] at this
            simpa using this
          unfold look at hl
          rw [this] at hl
          cases hE : E.lookup l with
          | none => rw [hE] at hl; cases hl
          | some v => rw [hE] at hl; cases hl; rfl
      split <;> exact hq1
    · refine allSlots_all (P := fun c => ∃ b, c = .fixed b) hcB ?_ c hc
      intro q hq c hc
      obtain ⟨it, hit, rfl⟩ := List.mem_map.1 hq
      refine slots_stay hc ?_
      intro l q ho hl
      have hit' : shift y0 it ∈ (inst y0 E I' σ).items := List.mem_append_right _ (List.mem_map.2 ⟨it, hit, rfl⟩)
      have hokit := hok _ hit'
      obtain ⟨new, n1, n2⟩ := pass1_origin (fun st hst => (has st hst).2) g2
      have n1 : I' ++ σ.items.map (shift y0) = (I' ++ []) ++ new := n1
      rw [List.append_nil] at n1
      have n1 := List.append_cancel_left n1
      obtain ⟨st, hst, lab, a, rfl, h⟩ := n2 (shift y0 it) (n1 ▸ List.mem_map.2 ⟨it, hit, rfl⟩)
      have h : it.opd = a.opd := h
      have ho : it.opd = some (.sym l) := ho
      by_cases hb : Spec.isBranch it.mnemonic = true
      · have hr : it.mode = .rel := hokit.2.2.2 ⟨by show it.opd ≠ none; rw [ho]; simp, hb⟩
        rw [show (shift (y0 + n0) it).mode = it.mode from rfl, if_pos hr]
        obtain ⟨n, hn'⟩ := k4 l (hn.branches _ hst l (by
          show (match a.opd with | some (.sym l) => if Spec.isBranch it.mnemonic then some l else none | _ => none) = some l
          rw [← h, show it.opd = some (.sym l) from ho]
          simp [hb]))
        unfold look at hl
        rw [hn'] at hl
        cases hl
        rfl
      · have hr : it.mode ≠ .rel := fun e => hb (hokit.2.2.1 e).2
        rw [show (shift (y0 + n0) it).mode = it.mode from rfl, if_neg hr]
        have hnot := hn.others _ hst l (by
          show (match a.opd with | some (.sym l) => if Spec.isBranch it.mnemonic then none else some l | _ => none) = some l
          rw [← h, show it.opd = some (.sym l) from ho]
          simp [hb])
        obtain ⟨fx, n⟩ := q
        cases fx with
        | true => rfl
        | false => exact absurd (look_moves k2 hl) hnot
  · intro mid rm hm hrm
    obtain ⟨its, n, cM, m1, m2, m3, m4, m5, m6⟩ := assemble_nameless hm hrm
    have hk : (image rm.chunks).length = n := by rw [m6, List.length_map, m5]
    rw [hk]
    let qM : List (Val × Item) := its.map fun it => ((true, y0 + it.addr), shift y0 it)
    have hM : qM.map (·.2) = its.map (shift y0) := by simp [qM, Function.comp_def]
    have hcM : allSlots σ.env E y0 qM = some cM := by
      rw [← m3]
      exact allSlots_congr fun it hit => slots_nameless (it := it) (it' := shift y0 it) (m1 it hit) rfl rfl rfl
    have hp : pass1 (before ++ mid ++ after) ⟨x, [], []⟩ = some (inst (y0 + n) E (I' ++ its.map (shift y0)) σ) := by
      rw [List.append_assoc]
      refine pass1_append_some before _ nostop g1 ?_
      refine pass1_append_some mid _ (fun h => (nameless_straight hm _ h).2 rfl) (m2 _) ?_
      have : (⟨y0 + n, E, I' ++ its.map (shift y0)⟩ : Pass1) = inst (y0 + n) E (I' ++ its.map (shift y0)) ⟨0, [], []⟩ := by simp [inst, envAt]
      rw [this]
      exact k5 n _
    have hcont : Contiguous x ((qA ++ qM ++ qB n).map (·.2)) := by
      obtain ⟨J, j1, j2, _⟩ := pass1_straight (by
        intro st hst
        rcases List.mem_append.1 hst with hst | hst
        · rcases List.mem_append.1 hst with hst | hst
          · exact hbs st hst
          · exact nameless_straight hm st hst
        · exact has st hst) hp
      rw [List.map_append, List.map_append, hA, hM, hB]
      simp only [List.nil_append] at j1
      rw [← show (inst (y0 + n) E (I' ++ its.map (shift y0)) σ).items = I' ++ its.map (shift y0) ++ σ.items.map (shift (y0 + n)) from rfl, j1]
      exact j2
    have hcAll : allSlots σ.env E y0 (qA ++ qM ++ qB n) = some (cA ++ cM ++ cB) := by
      rw [allSlots_append, allSlots_append, hcA, hcM, hcBk n]; rfl
    have hf := pass2_fill (k := n) (by
      intro q hq
      rcases List.mem_append.1 hq with hq | hq
      · rcases List.mem_append.1 hq with hq | hq
        · exact qAa n q hq
        · obtain ⟨it, _, rfl⟩ := List.mem_map.1 hq
          rfl
      · exact qBa n q hq) _ hcAll
    obtain ⟨j1, j2, j3⟩ := gapless_slots (k := n) hcont hcAll
    have hfits : (∀ c ∈ (cA ++ cM ++ cB).flatten, c.Fits n) ↔ ∀ c ∈ cA.flatten ++ cB.flatten, c.Fits n := by
      rw [List.flatten_append, List.flatten_append]
      constructor
      · intro h c hc
        apply h
        rcases List.mem_append.1 hc with hc | hc <;> simp only [List.mem_append] <;> tauto
      · intro h c hc
        simp only [List.mem_append] at hc
        rcases hc with (hc | hc) | hc
        · exact h c (List.mem_append_left _ hc)
        · obtain ⟨b, rfl⟩ := m4 c hc
          trivial
        · exact h c (List.mem_append_right _ hc)
    have hmapM : cM.flatten.map (Slot.at n) = image rm.chunks := by
      rw [m6]
      apply List.map_congr_left
      intro c hc
      obtain ⟨b, rfl⟩ := m4 c hc
      rfl
    have hits : (qA ++ qM ++ qB n).map (·.2) = I' ++ its.map (shift y0) ++ σ.items.map (shift (y0 + n)) := by
      rw [List.map_append, List.map_append, hA, hM, hB]
    have hass : assembleLow (.org x :: (before ++ mid ++ after)) =
        (pass2Low (envAt (y0 + n) σ.env ++ E) ((qA ++ qM ++ qB n).map (·.2))).map fun c => ⟨c, envAt (y0 + n) σ.env ++ E⟩ := by
      unfold assembleLow
      rw [show pass1 (.org x :: (before ++ mid ++ after)) ⟨0, [], []⟩ = some _ from hp, hits]
      simp only [Option.bind_eq_bind, Option.bind_some]
      show (pass2Low (envAt (y0 + n) σ.env ++ E) (I' ++ its.map (shift y0) ++ σ.items.map (shift (y0 + n)))).bind _ = _
      cases pass2Low (envAt (y0 + n) σ.env ++ E) (I' ++ its.map (shift y0) ++ σ.items.map (shift (y0 + n))) <;> rfl
    rw [hass, hf]
    constructor
    · intro hc
      rw [if_pos (hfits.2 hc)]
      refine ⟨_, rfl, ?_, ?_, ?_⟩
      · simp only
        rw [gapless_image j1, j2]
        simp only [List.flatten_append, List.map_append, hmapM]
      · have : ∀ cs : List Chunk, totalBytes cs = (cs.flatMap (·.2)).length := fun cs => by simp [totalBytes, List.length_flatMap]
        rw [this]
        simp only
        rw [j2]
        simp only [List.flatten_append, List.map_append, List.length_append, List.length_map, m5]
      · simp [inst, envAt]
    · intro hc
      rw [if_neg (fun h => hc (hfits.1 h))]
      rfl

end Insert
end Gaia

import Verif.Props.C20_Uses

/-!
C21 for whole runs: where a label leads to, in the binary.
-/
namespace Gaia
open Gaia.Spec

/-- The statement assembles nothing and does not set the origin. -/
def Noiseless : Stmt → Prop
  | .empty | .label _ | .const _ _ => True
  | _ => False

/-- `Marks p l m arg`: an instruction `m arg` of `p` has the label `l`, or `l` stands on a line of its own before it, with only further
labels, constants and empty lines in between; there is no `.END` before it. -/
structure Marks (p : List Stmt) (l : Str) (m : Mnemonic) (arg : Arg) : Prop where
  is : ∃ pre mid post lab, p = pre ++ mid ++ .instr lab m arg :: post ∧ .stop ∉ pre ∧ (∀ st ∈ mid, Noiseless st) ∧
    (lab = some l ∨ .label l ∈ mid)

theorem pass1_append : ∀ (p q : List Stmt) {s s' : Pass1}, .stop ∉ p → pass1 (p ++ q) s = some s' →
    ∃ t, pass1 p s = some t ∧ pass1 q t = some s'
  | [], q, s, s', _, h => ⟨s, rfl, h⟩
  | st :: p, q, s, s', hs, h => by
    have hst : st ≠ .stop := fun e => hs (by simp [e])
    rw [List.cons_append, pass1_cons hst] at h
    obtain ⟨t, h1, h2⟩ := Option.bind_eq_some_iff.1 h
    obtain ⟨u, h3, h4⟩ := pass1_append p q (fun hm => hs (by simp [hm])) h2
    exact ⟨u, by rw [pass1_cons hst, h1]; exact h3, h4⟩

theorem silent_pass1 : ∀ (p : List Stmt) {s s' : Pass1}, (∀ st ∈ p, Noiseless st) → pass1 p s = some s' →
    s'.pc = s.pc ∧ s'.items = s.items ∧ ∀ l, .label l ∈ p → s'.env.lookup l = some s.pc
  | [], s, s', _, h => by
    obtain rfl : s = s' := by simpa [pass1] using h
    exact ⟨rfl, rfl, by simp⟩
  | st :: p, s, s', hq, h => by
    have h0 : Noiseless st := hq st (by simp)
    have hst : st ≠ .stop := by rintro rfl; exact h0
    rw [pass1_cons hst] at h
    obtain ⟨t, h1, h2⟩ := Option.bind_eq_some_iff.1 h
    obtain ⟨k1, k2, k3⟩ := silent_pass1 p (fun x hx => hq x (by simp [hx])) h2
    have ht : t.pc = s.pc ∧ t.items = s.items ∧ ∀ l, st = .label l → t.env.lookup l = some s.pc := by
      match st, h0, h1 with
      | .empty, _, h1 => obtain rfl : s = t := by simpa [pass1Stmt] using h1
                         exact ⟨rfl, rfl, fun l hl => by cases hl⟩
      | .label x, _, h1 => obtain ⟨_, rfl⟩ := define_some h1
                           exact ⟨rfl, rfl, fun l hl => by cases hl; simp⟩
      | .const x v, _, h1 => obtain ⟨_, rfl⟩ := define_some h1
                             exact ⟨rfl, rfl, fun l hl => by cases hl⟩
    refine ⟨by rw [k1, ht.1], by rw [k2, ht.2.1], fun l hl => ?_⟩
    rcases List.mem_cons.1 hl with hl | hl
    · exact (pass1_extends p h2).1 l _ (ht.2.2 l hl.symm)
    · rw [k3 l hl, ht.1]

/-- **C21, whole run.** In a successful assembly (ascending addresses) the value of an address label is the address of the instruction
written at the label or after it: at that offset the binary has the opcode of that instruction. Every use of the label, before or after,
holds this address; so jumps and branches to the label lead to that instruction. -/
theorem C21_lands {w : World} {srcName outName : Str} {src : List Byte} {p : List Stmt} (hw : Setup w srcName outName src)
    (hp : IsProgram src p) (ha : AscendingProgram p) {bin : List Byte} {total symbols : Nat}
    (hs : Succeeds w srcName outName bin total symbols) {l : Str} {m : Mnemonic} {arg : Arg} (hl : Marks p l m arg) :
    ∃ s it op, pass1 p .init = some s ∧ it ∈ s.items ∧ it.mnemonic = m ∧ it.opd = arg.opd ∧ s.env.lookup l = some it.addr ∧
      opcode? m it.mode = some op ∧ bin[it.addr]? = some (UInt8.ofNat op) ∧
      ∀ use ∈ s.items, use.opd = some (.sym l) → OperandIs bin use it.addr := by
  obtain ⟨pre, mid, post, lab, rfl, hpre, hmid, hlab⟩ := hl.is
  obtain ⟨_, s, h1, _, h3⟩ := C20_uses hw hp ha hs
  obtain ⟨s2, h1', h4, _⟩ := C28_image hw hp ha hs
  obtain rfl : s = s2 := by rw [h1] at h1'; exact Option.some.inj h1'
  have hms : .stop ∉ mid := fun h => hmid _ h
  obtain ⟨t, g1, g2⟩ := pass1_append (pre ++ mid) _ (by simp [hpre, hms]) h1
  obtain ⟨t0, g0, g1⟩ := pass1_append pre mid hpre g1
  obtain ⟨k1, k2, k3⟩ := silent_pass1 mid hmid g1
  rw [pass1_cons (by simp)] at g2
  obtain ⟨t2, g3, g4⟩ := Option.bind_eq_some_iff.1 g2
  have key : ∃ it ∈ t2.items, it.mnemonic = m ∧ it.opd = arg.opd ∧ it.addr = t.pc ∧ t2.env.lookup l = some t.pc := by
    have fin : ∀ u : Pass1, u.pc = t.pc → u.env.lookup l = some t.pc → place u m arg = some t2 →
        ∃ it ∈ t2.items, it.mnemonic = m ∧ it.opd = arg.opd ∧ it.addr = t.pc ∧ t2.env.lookup l = some t.pc := by
      intro u hu hlu hpl
      obtain ⟨v, md, _, _, rfl⟩ := place_some hpl
      exact ⟨⟨u.pc, m, md, arg.opd⟩, by simp, rfl, rfl, hu, hlu⟩
    rcases hlab with rfl | hlab
    · simp only [pass1Stmt, Option.bind_eq_bind, Option.bind_eq_some_iff] at g3
      obtain ⟨u, hu, g3⟩ := g3
      obtain ⟨_, rfl⟩ := define_some hu
      exact fin ⟨t.pc, (l, t.pc) :: t.env, t.items⟩ rfl (by simp) g3
    · have hlt : t.env.lookup l = some t.pc := by rw [k3 l hlab, k1]
      cases lab with
      | none => exact fin t rfl hlt g3
      | some x =>
        simp only [pass1Stmt, Option.bind_eq_bind, Option.bind_eq_some_iff] at g3
        obtain ⟨u, hu, g3⟩ := g3
        have := (define_extends hu).1 l _ hlt
        obtain ⟨_, rfl⟩ := define_some hu
        exact fin ⟨t.pc, (x, t.pc) :: t.env, t.items⟩ rfl this g3
  obtain ⟨it, q1, rfl, q3, q4, q5⟩ := key
  obtain ⟨e1, new, e2⟩ := pass1_extends post g4
  have hit : it ∈ s.items := by rw [e2]; exact List.mem_append_left _ q1
  have hlk : s.env.lookup l = some it.addr := by rw [q4]; exact e1 l _ q5
  obtain ⟨bs, m1, _, m3⟩ := h4 it hit
  unfold encodeLow at m1
  simp only [Option.bind_eq_bind, Option.bind_eq_some_iff, Option.some.injEq] at m1
  obtain ⟨op, ho, bs', _, rfl⟩ := m1
  refine ⟨s, it, op, h1, hit, rfl, q3, hlk, ho, ?_, fun use hu ho => ?_⟩
  · exact drop_take_get (j := 0) m3 rfl
  · obtain ⟨_, t, ht, hop⟩ := h3 use hu l ho
    rw [hlk] at ht
    obtain rfl := Option.some.inj ht
    exact hop

/-- A constant is its literal wherever it is used. -/
theorem C21_constant {w : World} {srcName outName : Str} {src : List Byte} {p : List Stmt} (hw : Setup w srcName outName src)
    (hp : IsProgram src p) (ha : AscendingProgram p) {bin : List Byte} {total symbols : Nat}
    (hs : Succeeds w srcName outName bin total symbols) {pre post : List Stmt} {l : Str} {v : Nat}
    (hl : p = pre ++ .const l v :: post) (hpre : .stop ∉ pre) :
    ∃ s, pass1 p .init = some s ∧ s.env.lookup l = some v ∧ ∀ use ∈ s.items, use.opd = some (.sym l) → OperandIs bin use v := by
  subst hl
  obtain ⟨_, s, h1, _, h3⟩ := C20_uses hw hp ha hs
  obtain ⟨t, g1, g2⟩ := pass1_append pre _ hpre h1
  rw [pass1_cons (by simp)] at g2
  obtain ⟨t2, g3, g4⟩ := Option.bind_eq_some_iff.1 g2
  obtain ⟨_, rfl⟩ := define_some (show define t l v = some t2 from g3)
  have hlk := (pass1_extends post g4).1 l v (by simp)
  refine ⟨s, h1, hlk, fun use hu ho => ?_⟩
  obtain ⟨_, t, ht, hop⟩ := h3 use hu l ho
  rw [hlk] at ht
  obtain rfl := Option.some.inj ht
  exact hop

theorem pass1_sum : ∀ (p : List Stmt) {s s' : Pass1}, .stop ∉ p → (∀ v, .org v ∉ p) → pass1 p s = some s' →
    ∃ new, s'.items = s.items ++ new ∧ s'.pc = s.pc + (new.map fun it => it.mode.bytes).sum
  | [], s, s', _, _, h => by
    obtain rfl : s = s' := by simpa [pass1] using h
    exact ⟨[], by simp, by simp⟩
  | st :: p, s, s', hs, ho, h => by
    have hst : st ≠ .stop := fun e => hs (by simp [e])
    rw [pass1_cons hst] at h
    obtain ⟨t, h1, h2⟩ := Option.bind_eq_some_iff.1 h
    obtain ⟨new, k1, k2⟩ := pass1_sum p (fun hm => hs (by simp [hm])) (fun v hm => ho v (by simp [hm])) h2
    have pl : ∀ u : Pass1, ∀ m a, u.pc = s.pc → u.items = s.items → place u m a = some t →
        ∃ n, t.items = s.items ++ n ∧ t.pc = s.pc + (n.map fun it => it.mode.bytes).sum := by
      intro u m a e1 e2 e3
      obtain ⟨v, md, _, _, rfl⟩ := place_some e3
      exact ⟨[⟨u.pc, m, md, a.opd⟩], by simp [e2], by simp [e1]⟩
    have ht : ∃ n, t.items = s.items ++ n ∧ t.pc = s.pc + (n.map fun it => it.mode.bytes).sum := by
      match st, h1, ho with
      | .empty, h1, _ => obtain rfl : s = t := by simpa [pass1Stmt] using h1
                         exact ⟨[], by simp, by simp⟩
      | .stop, _, _ => exact absurd rfl hst
      | .org v, _, ho => exact absurd (List.mem_cons_self) (ho v)
      | .label x, h1, _ => obtain ⟨_, rfl⟩ := define_some h1; exact ⟨[], by simp, by simp⟩
      | .const x v, h1, _ => obtain ⟨_, rfl⟩ := define_some h1; exact ⟨[], by simp, by simp⟩
      | .instr none m a, h1, _ => exact pl s m a rfl rfl h1
      | .instr (some x) m a, h1, _ =>
        simp only [pass1Stmt, Option.bind_eq_bind, Option.bind_eq_some_iff] at h1
        obtain ⟨u, hu, h1⟩ := h1
        obtain ⟨_, rfl⟩ := define_some hu
        exact pl ⟨s.pc, (x, s.pc) :: s.env, s.items⟩ m a rfl rfl h1
    obtain ⟨n, k3, k4⟩ := ht
    exact ⟨n ++ new, by rw [k1, k3, List.append_assoc], by rw [k2, k4, List.map_append, List.sum_append, Nat.add_assoc]⟩

/-- An address is the last origin plus the lengths of the instructions since: if a label stands on its own behind an origin line `v` and
instructions `seg` without a further origin line, its value is `v` plus the sum of the lengths of the instructions `new` of `seg`, which
are in the binary in this order, each at the address where the one before ends. -/
theorem C21_sum {w : World} {srcName outName : Str} {src : List Byte} {p : List Stmt} (hw : Setup w srcName outName src)
    (hp : IsProgram src p) {bin : List Byte} {total symbols : Nat}
    (hs : Succeeds w srcName outName bin total symbols) {pre seg post : List Stmt} {l : Str} {v : Nat}
    (hl : p = pre ++ .org v :: seg ++ .label l :: post) (hpre : .stop ∉ pre) (hseg : .stop ∉ seg) (ho : ∀ v, .org v ∉ seg) :
    ∃ s before new after, pass1 p .init = some s ∧ s.items = before ++ new ++ after ∧
      new.map (fun it => (it.mnemonic, it.opd)) = seg.filterMap (fun st => match st with | .instr _ m a => some (m, a.opd) | _ => none) ∧
      s.env.lookup l = some (v + (new.map fun it => it.mode.bytes).sum) ∧
      ∀ i (hi : i < new.length), new[i].addr = v + ((new.take i).map fun it => it.mode.bytes).sum := by
  subst hl
  obtain ⟨s, h1, _⟩ := succeeded hw hp hs
  obtain ⟨t, g1, g2⟩ := pass1_append (pre ++ .org v :: seg) _ (by simp [hpre, hseg]) h1
  obtain ⟨t0, g0, g1⟩ := pass1_append pre _ hpre g1
  rw [pass1_cons (by simp)] at g1 g2
  obtain ⟨t1, g3, g4⟩ := Option.bind_eq_some_iff.1 g1
  obtain rfl : { t0 with pc := v } = t1 := Option.some.inj g3
  obtain ⟨new, k1, k2⟩ := pass1_sum seg hseg ho g4
  obtain ⟨t2, g5, g6⟩ := Option.bind_eq_some_iff.1 g2
  obtain ⟨_, rfl⟩ := define_some (show define t l t.pc = some t2 from g5)
  obtain ⟨e1, after, e2⟩ := pass1_extends post g6
  refine ⟨s, t0.items, new, after, h1, by rw [e2]; simp only; rw [k1], ?_, by rw [e1 l t.pc (by simp), k2], ?_⟩
  · clear e1 e2 g5 g6 g2 h1 hs hp hw g0 g1 g3 k2
    have key : ∀ (q : List Stmt) (a b : Pass1) (n : List Item), .stop ∉ q → pass1 q a = some b → b.items = a.items ++ n →
        n.map (fun it => (it.mnemonic, it.opd)) = q.filterMap (fun st => match st with | .instr _ m a => some (m, a.opd) | _ => none) := by
      intro q
      induction q with
      | nil =>
        intro a b n _ h hn
        obtain rfl : a = b := by simpa [pass1] using h
        have : n = [] := by simpa using hn
        subst this; rfl
      | cons st q ih =>
        intro a b n hst h hn
        have hst' : st ≠ .stop := fun e => hst (by simp [e])
        rw [pass1_cons hst'] at h
        obtain ⟨c, h1, h2⟩ := Option.bind_eq_some_iff.1 h
        obtain ⟨_, n2, e2⟩ := pass1_extends q h2
        have hq := ih c b n2 (fun hm => hst (by simp [hm])) h2 e2
        have pl : ∀ u : Pass1, ∀ m x, u.items = a.items → place u m x = some c → n.map (fun it => (it.mnemonic, it.opd)) =
            (m, x.opd) :: q.filterMap (fun st => match st with | .instr _ m a => some (m, a.opd) | _ => none) := by
          intro u m x e3 e4
          obtain ⟨w, md, _, _, rfl⟩ := place_some e4
          rw [e2] at hn
          simp only [e3, List.append_assoc, List.append_cancel_left_eq] at hn
          subst hn
          simpa using hq
        have same : c.items = a.items → n = n2 := by
          intro hc
          rw [e2, hc] at hn
          exact (List.append_cancel_left hn).symm
        match st, h1, hst' with
        | .empty, h1, _ => obtain rfl : a = c := by simpa [pass1Stmt] using h1
                           rw [same rfl, hq]; rfl
        | .stop, _, hst' => exact absurd rfl hst'
        | .org _, h1, _ => obtain rfl := Option.some.inj h1; rw [same rfl, hq]; rfl
        | .label _, h1, _ => obtain ⟨_, rfl⟩ := define_some h1; rw [same rfl, hq]; rfl
        | .const _ _, h1, _ => obtain ⟨_, rfl⟩ := define_some h1; rw [same rfl, hq]; rfl
        | .instr none m x, h1, _ => exact pl a m x rfl h1
        | .instr (some y) m x, h1, _ =>
          simp only [pass1Stmt, Option.bind_eq_bind, Option.bind_eq_some_iff] at h1
          obtain ⟨u, hu, h1⟩ := h1
          obtain ⟨_, rfl⟩ := define_some hu
          exact pl ⟨a.pc, (y, a.pc) :: a.env, a.items⟩ m x rfl h1
    exact key seg _ _ _ hseg g4 k1
  · have key : ∀ (q : List Stmt) (a b : Pass1) (n : List Item), .stop ∉ q → (∀ v, .org v ∉ q) → pass1 q a = some b → b.items = a.items ++ n →
        ∀ i (hi : i < n.length), n[i].addr = a.pc + ((n.take i).map fun it => it.mode.bytes).sum := by
      intro q
      induction q with
      | nil =>
        intro a b n _ _ h hn i hi
        obtain rfl : a = b := by simpa [pass1] using h
        have : n = [] := by simpa using hn
        subst this; simp at hi
      | cons st q ih =>
        intro a b n hst ho h hn
        have hst' : st ≠ .stop := fun e => hst (by simp [e])
        rw [pass1_cons hst'] at h
        obtain ⟨c, h1, h2⟩ := Option.bind_eq_some_iff.1 h
        obtain ⟨_, n2, e2⟩ := pass1_extends q h2
        have hq := ih c b n2 (fun hm => hst (by simp [hm])) (fun v hm => ho v (by simp [hm])) h2 e2
        have pl : ∀ u : Pass1, ∀ m x, u.items = a.items → u.pc = a.pc → place u m x = some c →
            ∀ i (hi : i < n.length), n[i].addr = a.pc + ((n.take i).map fun it => it.mode.bytes).sum := by
          intro u m x e3 e3' e4
          obtain ⟨w, md, _, _, rfl⟩ := place_some e4
          rw [e2] at hn
          simp only [e3, List.append_assoc, List.append_cancel_left_eq] at hn
          subst hn
          intro i hi
          cases i with
          | zero => simp [e3']
          | succ i =>
            have hi' : i < n2.length := by simp at hi; omega
            have := hq i hi'
            simp only [List.singleton_append, List.getElem_cons_succ, List.take_succ_cons, List.map_cons, List.sum_cons] at this ⊢
            rw [this, e3']; omega
        have same : c.items = a.items → c.pc = a.pc → ∀ i (hi : i < n.length), n[i].addr = a.pc + ((n.take i).map fun it => it.mode.bytes).sum := by
          intro hc hpc
          rw [e2, hc] at hn
          obtain rfl := (List.append_cancel_left hn)
          rw [← hpc]; exact hq
        match st, h1, hst', ho with
        | .empty, h1, _, _ => obtain rfl : a = c := by simpa [pass1Stmt] using h1
                              exact same rfl rfl
        | .stop, _, hst', _ => exact absurd rfl hst'
        | .org v, _, _, ho => exact absurd List.mem_cons_self (ho v)
        | .label _, h1, _, _ => obtain ⟨_, rfl⟩ := define_some h1; exact same rfl rfl
        | .const _ _, h1, _, _ => obtain ⟨_, rfl⟩ := define_some h1; exact same rfl rfl
        | .instr none m x, h1, _, _ => exact pl a m x rfl rfl h1
        | .instr (some y) m x, h1, _, _ =>
          simp only [pass1Stmt, Option.bind_eq_bind, Option.bind_eq_some_iff] at h1
          obtain ⟨u, hu, h1⟩ := h1
          obtain ⟨_, rfl⟩ := define_some hu
          exact pl ⟨a.pc, (y, a.pc) :: a.env, a.items⟩ m x rfl rfl h1
    exact key seg _ _ _ hseg ho g4 k1

/-! ### A case -/

/-- `M`, on its own line before a further label and a constant, leads to the `BNE`; so do the `JMP` before it and the branch after it. -/
def landsSrc : List Byte := b! "*=$300\n JMP M\n LDA #1\nM\n\nK =$5\nQ BNE M\n STA K\n"
def landsProg : List Stmt := [.org 0x300, .instr none .JMP (.plain (.sym (b! "M"))), .instr none .LDA (.imm (.lit 1)), .label (b! "M"), .empty,
  .const (b! "K") 5, .instr (some (b! "Q")) .BNE (.plain (.sym (b! "M"))), .instr none .STA (.plain (.sym (b! "K")))]
def landsBin : List Byte := List.replicate 0x300 0 ++ [0x4C, 5, 3, 0xA9, 1, 0xD0, 0xFE, 0x85, 5]

theorem lands_isProgram : IsProgram landsSrc landsProg :=
  isProgram_eval (by decide) (by decide +kernel) (by decide +kernel) (by
    intro st hst h
    simp only [landsProg, List.mem_cons, List.not_mem_nil, or_false] at hst
    rcases hst with rfl | rfl | rfl | rfl | rfl | rfl | rfl | rfl <;> simp [IndexedJump, Stmt.jumpsIndexed] at h)

theorem lands_succeeds : Succeeds (demo landsSrc) (b! "p.asm") (b! "p.bin") landsBin 9 3 := demo_succeeds (by decide +kernel)

theorem lands_marks : Marks landsProg (b! "M") .BNE (.plain (.sym (b! "M"))) :=
  ⟨landsProg.take 3, (landsProg.drop 3).take 3, [.instr none .STA (.plain (.sym (b! "K")))], some (b! "Q"), rfl, by decide +kernel,
    by intro st hst; simp only [landsProg, List.drop, List.take, List.mem_cons, List.not_mem_nil, or_false] at hst
       rcases hst with rfl | rfl | rfl <;> trivial, .inr (by decide +kernel)⟩

example : ∃ s it op, pass1 landsProg .init = some s ∧ it ∈ s.items ∧ it.mnemonic = .BNE ∧ it.opd = some (.sym (b! "M")) ∧
    s.env.lookup (b! "M") = some it.addr ∧ opcode? .BNE it.mode = some op ∧ landsBin[it.addr]? = some (UInt8.ofNat op) ∧
    ∀ use ∈ s.items, use.opd = some (.sym (b! "M")) → OperandIs landsBin use it.addr :=
  C21_lands (demo_setup _) lands_isProgram (ascendingProgram_eval (by decide +kernel)) lands_succeeds lands_marks

example : ∃ s, pass1 landsProg .init = some s ∧ s.env.lookup (b! "K") = some 5 ∧
    ∀ use ∈ s.items, use.opd = some (.sym (b! "K")) → OperandIs landsBin use 5 :=
  C21_constant (demo_setup _) lands_isProgram (ascendingProgram_eval (by decide +kernel)) lands_succeeds
    (pre := landsProg.take 5) (post := landsProg.drop 6) rfl (by decide +kernel)

example : ∃ s before new after, pass1 landsProg .init = some s ∧ s.items = before ++ new ++ after ∧
    new.map (fun it => (it.mnemonic, it.opd)) = [(.JMP, some (.sym (b! "M"))), (.LDA, some (.lit 1))] ∧
    s.env.lookup (b! "M") = some (0x300 + (new.map fun it => it.mode.bytes).sum) ∧
    ∀ i (hi : i < new.length), new[i].addr = 0x300 + ((new.take i).map fun it => it.mode.bytes).sum :=
  C21_sum (demo_setup _) lands_isProgram lands_succeeds (pre := []) (seg := (landsProg.drop 1).take 2) (post := landsProg.drop 4)
    rfl (by decide) (by decide +kernel) (by
      intro v hv
      simp only [landsProg, List.drop, List.take, List.mem_cons, List.not_mem_nil, or_false] at hv
      rcases hv with hv | hv <;> cases hv)

end Gaia

import Verif.Props.C15_Encoding

/-! C20, C21, C22, C25: labels, origins, branches, forward references, in every state gaia can be in. -/
set_option maxRecDepth 10000
namespace Gaia
open Spec

/-- The label a statement defines at location `pc`, with its value. -/
def Defines (pc : Nat) : Stmt → Str → Nat → Prop
  | .label l, x, v => x = l ∧ v = pc
  | .const l n, x, v => x = l ∧ v = n
  | .instr (some l) _ _, x, v => x = l ∧ v = pc
  | _, _, _ => False

theorem declared_stmt {ls : List (Nat × Lexeme)} {s : Stmt} (hp : parse (ls.map (·.2)) = some s) {pc : Nat} {x : Str} {v : Nat}
    (hd : Defines pc s x v) : ∃ p, declared pc ls = some (p, x, v) ∧ (nameOffsets ls).head? = some p := by
  have hf := other_facts hp
  cases s with
  | empty => cases hd
  | stop => cases hd
  | org v => cases hd
  | label l =>
    obtain ⟨rfl, rfl⟩ := hd
    obtain ⟨p, rfl⟩ := hf
    exact ⟨p, rfl, rfl⟩
  | const l n =>
    obtain ⟨rfl, rfl⟩ := hd
    rcases hf with ⟨p, q, r, rfl⟩ | ⟨p, q, r, rfl⟩ | ⟨p, q, r, rfl⟩
    · exact ⟨p, rfl, rfl⟩
    · exact ⟨p, rfl, rfl⟩
    · exact ⟨q, rfl, rfl⟩
  | instr lab m arg =>
    cases lab with
    | none => cases hd
    | some l =>
      obtain ⟨rfl, rfl⟩ := hd
      rcases parse_instr hp with ⟨h, _⟩ | ⟨l', r, h1, h2, _⟩
      · cases h
      · cases h1
        match ls, h2 with
        | (p', y) :: ls', h2 =>
          simp only [List.map_cons, List.cons.injEq] at h2
          obtain ⟨rfl, h2⟩ := h2
          match ls', h2 with
          | (p'', y') :: ls'', h2 =>
            simp only [List.map_cons, List.cons.injEq] at h2
            obtain ⟨rfl, _⟩ := h2
            exact ⟨p', rfl, rfl⟩

/-- **C20, no second definition.** In every state gaia can be in, a line that defines a label which already has a value,
in any of the forms, is refused with 'no redefinition of labels', pointing at the label. -/
theorem C20_redefinition {fn : Str} {raws : List (List Byte)} {st : St} (h : Reached fn raws st) {raw : List Byte}
    {ls : List (Nat × Lexeme)} (hl : Lexes raw ls) {s : Stmt} (hp : parse (ls.map (·.2)) = some s) {x : Str} {v w : Nat}
    (hd : Defines st.pc s x v) (hx : symbol st x = some w) :
    lineStep raw st = .err ⟨⟨.labelRedefinition,
      diag (cstr raw) .labelRedefinition (nameOffsets ls).head? fn (raws.length + 1)⟩, st.out⟩ := by
  obtain ⟨a, hr, hb, _, hn, _⟩ := h.rel
  have hsim := line_sim_few (raw := raw) hr hb h.few
  rw [line_stmt hl hp] at hsim
  obtain ⟨p, h1, h2⟩ := declared_stmt hp hd
  have hstep : step (cstr raw) ls a = .error (.labelRedefinition, some p) := by
    unfold step declare
    rw [← hr.pc, h1]
    simp only
    rw [← hr.symbol, hx]
  rw [hstep] at hsim
  simp only at hsim
  rw [hsim, hr.out, h2]
  simp only [faultAt, hn]

/-- **C20, C21: a label gets its value** - the location counter for an address label, the literal for a constant - when
its line is accepted, and it had none before. -/
theorem C21_defined {fn : Str} {raws : List (List Byte)} {st : St} (h : Reached fn raws st) {raw : List Byte}
    {ls : List (Nat × Lexeme)} (hl : Lexes raw ls) {s : Stmt} (hp : parse (ls.map (·.2)) = some s) {x : Str} {v : Nat}
    (hd : Defines st.pc s x v) {st' : St} (hs : lineStep raw st = .ok (.continue st')) :
    symbol st x = none ∧ symbol st' x = some v ∧ ∀ y, y ≠ x → symbol st' y = symbol st y := by
  have hnew : symbol st x = none := by
    cases hx : symbol st x with
    | none => rfl
    | some w => rw [C20_redefinition h hl hp hd hx] at hs; cases hs
  obtain ⟨a, hr, hb, _, hn, _⟩ := h.rel
  have hsim := line_sim_few (raw := raw) hr hb h.few
  cases hli : line fn raw a with
  | error e => rw [hli] at hsim; simp only at hsim; rw [hsim] at hs; cases hs
  | ok q =>
    obtain ⟨b, a'⟩ := q
    rw [hli] at hsim
    obtain ⟨st'', g1, g2, _, _⟩ := hsim
    rw [g1] at hs
    cases b with
    | true => simp [nextOf] at hs
    | false =>
      obtain rfl : st'' = st' := by simpa [nextOf] using hs
      obtain ⟨ls', a1, k1, _, k2, k3⟩ := line_ok hli
      rw [(stmt_lexemes hl hp).1] at k1
      obtain rfl : ls = ls' := by simpa using k1
      obtain ⟨p, h1, _⟩ := declared_stmt hp hd
      have henv : a'.env = (x, v) :: a.env := by
        have h2 : a1.env = (x, v) :: a.env := by
          obtain ⟨_, _, _, _, hh⟩ := declare_ok k2
          rw [← hr.pc, h1] at hh
          rcases hh with ⟨p', l', v', e1, _, e2, _⟩ | ⟨e1, _⟩
          · cases e1; exact e2
          · cases e1
        rcases k3 with ⟨_, hb, _⟩ | ⟨_, _, _, rfl⟩ | ⟨_, _, m, _, hi⟩
        · cases hb
        · exact h2
        · rcases instrStep_cases hi with ⟨bs, _, _, rfl⟩ | ⟨p, l, bs, _, _, _, _, _, rfl⟩ <;> exact h2
      refine ⟨hnew, ?_, fun y hy => ?_⟩
      · rw [g2.symbol, henv]; simp
      · rw [g2.symbol, henv, hr.symbol, List.lookup_cons]
        have : (y == x) = false := by simpa using hy
        rw [this]

/-- **C20, a value never changes**: whatever lines follow (of any shape), a symbol keeps the value it has. -/
theorem C20_value_kept {fn : Str} {raws : List (List Byte)} {st st' : St} (h : Reached fn raws st) {raw : List Byte} {x : Str}
    {v : Nat} (hx : symbol st x = some v) {nx : Next} (hs : lineStep raw st = .ok nx)
    (hn : nx = .continue st' ∨ nx = .stop st') : symbol st' x = some v := by
  obtain ⟨a, hr, hb, _, _, _⟩ := h.rel
  have hsim := line_sim_few (raw := raw) hr hb h.few
  cases hli : line fn raw a with
  | error e => rw [hli] at hsim; simp only at hsim; rw [hsim] at hs; cases hs
  | ok q =>
    obtain ⟨b, a'⟩ := q
    rw [hli] at hsim
    obtain ⟨st'', g1, g2, _, _⟩ := hsim
    rw [g1] at hs
    obtain rfl : st'' = st' := by
      have := C.ok.inj hs
      rw [← this] at hn
      cases b <;> rcases hn with hn | hn <;> simp [nextOf] at hn <;> exact hn
    rw [hr.symbol] at hx
    rw [g2.symbol]
    obtain ⟨ls, a1, _, _, k2, k3⟩ := line_ok hli
    have henv : a'.env = a1.env := by
      rcases k3 with ⟨_, _, rfl⟩ | ⟨_, _, _, rfl⟩ | ⟨_, _, m, _, hi⟩
      · rfl
      · rfl
      · rcases instrStep_cases hi with ⟨bs, _, _, rfl⟩ | ⟨p, l, bs, _, _, _, _, _, rfl⟩ <;> rfl
    rw [henv]
    obtain ⟨_, _, _, _, hh⟩ := declare_ok k2
    rcases hh with ⟨p, l, w, _, e1, e2, _⟩ | ⟨_, e2, _⟩
    · rw [e2, List.lookup_cons]
      have : (x == l) = false := by
        simp only [beq_eq_false_iff_ne, ne_eq]
        rintro rfl
        rw [e1] at hx; cases hx
      rw [this]; exact hx
    · rw [e2]; exact hx

/-- A statement without an instruction. -/
def Plain : Stmt → Prop
  | .instr _ _ _ | .stop => False
  | _ => True

/-- The location counter after a statement without an instruction. -/
def originAfter (pc : Nat) : Stmt → Nat
  | .org v => v
  | _ => pc

/-- **C21, origins and empty lines.** An accepted line without an instruction assembles nothing; it moves the location
counter exactly if it sets the origin. (`.ORG` and `*=` are the same statement, and so are `=`, `.EQU` and `.DEFINE`:
`C21_forms`.) -/
theorem C21_origin {fn : Str} {raws : List (List Byte)} {st : St} (h : Reached fn raws st) {raw : List Byte}
    {ls : List (Nat × Lexeme)} (hl : Lexes raw ls) {s : Stmt} (hp : parse (ls.map (·.2)) = some s) (hpl : Plain s)
    (hnew : ∀ x v, Defines st.pc s x v → symbol st x = none) :
    ∃ st', lineStep raw st = .ok (.continue st') ∧ st'.pc = originAfter st.pc s ∧ st'.out = st.out ∧ st'.total = st.total ∧
      (∀ y, (∀ v, ¬ Defines st.pc s y v) → symbol st' y = symbol st y) := by
  obtain ⟨a, hr, hb, _, hn, _⟩ := h.rel
  have hsim := line_sim_few (raw := raw) hr hb h.few
  have key : ∃ a', line fn raw a = .ok (false, a') ∧ a'.pc = originAfter a.pc s ∧ a'.out = a.out ∧ a'.total = a.total ∧
      ∀ y, (∀ v, ¬ Defines a.pc s y v) → a'.env.lookup y = a.env.lookup y := by
    rw [line_stmt hl hp]
    have hf := other_facts hp
    cases s with
    | empty =>
      obtain rfl : ls = [] := hf
      exact ⟨{ a with lineNum := a.lineNum + 1 }, rfl, rfl, rfl, rfl, fun _ _ => rfl⟩
    | stop => cases hpl
    | instr _ _ _ => cases hpl
    | org v =>
      rcases hf with ⟨p, q, rfl⟩ | ⟨p, q, r, rfl⟩
      · exact ⟨{ a with pc := v, lineNum := a.lineNum + 1 }, rfl, rfl, rfl, rfl, fun _ _ => rfl⟩
      · exact ⟨{ a with pc := v, lineNum := a.lineNum + 1 }, rfl, rfl, rfl, rfl, fun _ _ => rfl⟩
    | label l =>
      have hno : a.env.lookup l = none := by rw [← hr.symbol]; exact hnew l st.pc ⟨rfl, rfl⟩
      obtain ⟨p, rfl⟩ := hf
      refine ⟨{ a with env := (l, a.pc) :: a.env, lineNum := a.lineNum + 1 }, ?_, rfl, rfl, rfl, fun y hy => ?_⟩
      · simp [step, declare, declared, hno, isStop, lastMnem]
      · have : (y == l) = false := by simpa using fun hyl => hy a.pc ⟨hyl, rfl⟩
        simp only [List.lookup_cons, this]
    | const l n =>
      have hno : a.env.lookup l = none := by rw [← hr.symbol]; exact hnew l n ⟨rfl, rfl⟩
      refine ⟨{ a with env := (l, n) :: a.env, lineNum := a.lineNum + 1 }, ?_, rfl, rfl, rfl, fun y hy => ?_⟩
      · rcases hf with ⟨p, q, r, rfl⟩ | ⟨p, q, r, rfl⟩ | ⟨p, q, r, rfl⟩ <;>
          simp [step, declare, declared, hno, isStop, lastMnem]
      · have : (y == l) = false := by simpa using fun hyl => hy n ⟨hyl, rfl⟩
        simp only [List.lookup_cons, this]
  obtain ⟨a', k1, k2, k3, k4, k5⟩ := key
  rw [k1] at hsim
  obtain ⟨st', g1, g2, _, _⟩ := hsim
  refine ⟨st', g1, ?_, ?_, ?_, ?_⟩
  · rw [g2.pc, k2, hr.pc]
  · rw [g2.out, k3, hr.out]
  · rw [g2.total, k4, hr.total]
  · intro y hy
    rw [g2.symbol, hr.symbol]
    exact k5 y (by rw [← hr.pc]; exact hy)

/-- **C21, the forms are interchangeable.** -/
theorem C21_forms (l : Str) (v : Nat) :
    parse [.name l, .eq, .lit v] = some (.const l v) ∧ parse [.name l, .equ, .lit v] = some (.const l v) ∧
    parse [.define, .name l, .lit v] = some (.const l v) ∧
    parse [.org, .lit v] = some (.org v) ∧ parse [.star, .eq, .lit v] = some (.org v) := ⟨rfl, rfl, rfl, rfl, rfl⟩

/-- **C25.** An instruction that is neither a branch nor a jump, with an operand label that is not defined by an earlier
line or on the line itself, is refused with 'illegal forward reference', pointing at the label, whatever follows. -/
theorem C25_forward {fn : Str} {raws : List (List Byte)} {st : St} (h : Reached fn raws st) {raw : List Byte}
    {ls : List (Nat × Lexeme)} (hl : Lexes raw ls) {lab : Option Str} {m : Mnemonic} {arg : Arg}
    (hp : parse (ls.map (·.2)) = some (.instr lab m arg)) (hlab : ∀ l, lab = some l → symbol st l = none)
    {l : Str} (ho : arg.opd = some (.sym l)) (hu : visible st lab l = none)
    (hb : Spec.isBranch m = false) (hj : Spec.isJump m = false) :
    lineStep raw st = .err ⟨⟨.illegalForwardReference,
      diag (cstr raw) .illegalForwardReference (nameOffsets ls).getLast? fn (raws.length + 1)⟩, st.out⟩ := by
  obtain ⟨a, hr, hbd, _, hn, _⟩ := h.rel
  have hsim := line_sim_few (raw := raw) hr hbd h.few
  rw [line_new_instr hl hp (fun l hh => by rw [← hr.symbol]; exact hlab l hh)] at hsim
  have hlk : (labelled lab a).env.lookup l = none := by rw [lookup_labelled hr]; exact hu
  have hspec := instr_spec (buf := cstr raw) (a := labelled lab a) hp (by
    rintro _ ⟨rfl, _⟩
    revert hj; decide)
  have hfault : instrFault (labelled lab a).pc (labelled lab a).env m arg = some .illegalForwardReference := by
    unfold instrFault
    rw [ho]
    simp only [sizingValue, hlk, hb, hj, Bool.false_or]
    rfl
  rw [hfault] at hspec
  rw [hspec] at hsim
  simp only at hsim
  rw [hsim, hr.out]
  simp only [faultAt, hn]
  rfl

/-- **C20, C25, C12: the run fails.** If a line is refused in the state its predecessors lead to, gaia exits with status 1
and prints exactly the message of that line. -/
theorem C20_run_fails {w : World} {srcName outName : Str} {src : List Byte} (hw : Setup w srcName outName src)
    {raws rest : List (List Byte)} {raw : List Byte} {st : St} (hc : chunks src = raws ++ raw :: rest)
    (h : Reached srcName raws st) {ls : List (Nat × Lexeme)} (hl : Lexes raw ls) {s : Stmt}
    (hp : parse (ls.map (·.2)) = some s) {x : Str} {v u : Nat} (hd : Defines st.pc s x v) (hx : symbol st x = some u) :
    FailsPrinting w srcName outName
      (diag (cstr raw) .labelRedefinition (nameOffsets ls).head? srcName (raws.length + 1)) :=
  h.fails hw hc (C20_redefinition h hl hp hd hx)

theorem C25_run_fails {w : World} {srcName outName : Str} {src : List Byte} (hw : Setup w srcName outName src)
    {raws rest : List (List Byte)} {raw : List Byte} {st : St} (hc : chunks src = raws ++ raw :: rest)
    (h : Reached srcName raws st) {ls : List (Nat × Lexeme)} (hl : Lexes raw ls) {lab : Option Str} {m : Mnemonic} {arg : Arg}
    (hp : parse (ls.map (·.2)) = some (.instr lab m arg)) (hlab : ∀ l, lab = some l → symbol st l = none)
    {l : Str} (ho : arg.opd = some (.sym l)) (hu : visible st lab l = none)
    (hb : Spec.isBranch m = false) (hj : Spec.isJump m = false) :
    FailsPrinting w srcName outName
      (diag (cstr raw) .illegalForwardReference (nameOffsets ls).getLast? srcName (raws.length + 1)) :=
  h.fails hw hc (C25_forward h hl hp hlab ho hu hb hj)

/-- **C22, known targets.** A branch to a label with value `t` is accepted if and only if `t` is between 126 bytes before
and 129 bytes after the branch, and then address + 2 + signed offset byte = target. Otherwise the message is 'branch
offset too far away', pointing at the label. (Branches to labels defined later: `C23_branches`.) -/
theorem C22_branch {fn : Str} {raws : List (List Byte)} {st : St} (h : Reached fn raws st) {raw : List Byte}
    {ls : List (Nat × Lexeme)} (hl : Lexes raw ls) {lab : Option Str} {m : Mnemonic} {l : Str}
    (hp : parse (ls.map (·.2)) = some (.instr lab m (.plain (.sym l)))) (hlab : ∀ l, lab = some l → symbol st l = none)
    (hb : Spec.isBranch m = true) {t : Nat} (ht : visible st lab l = some t) :
    ((∃ st', lineStep raw st = .ok (.continue st')) ↔ st.pc ≤ t + 126 ∧ t ≤ st.pc + 129) ∧
    (∀ st', lineStep raw st = .ok (.continue st') → (st.pc : Int) + 2 + signed (fileByte st' (st.pc + 1)) = t ∧
      st'.pc = st.pc + 2) ∧
    (¬ (st.pc ≤ t + 126 ∧ t ≤ st.pc + 129) → lineStep raw st = .err ⟨⟨.tooBigOffset,
      diag (cstr raw) .tooBigOffset (nameOffsets ls).getLast? fn (raws.length + 1)⟩, st.out⟩) := by
  have hv : OperandValue st lab (Arg.opd (.plain (.sym l))) t := ht
  obtain ⟨k1, k2⟩ := known_instruction h hl hp hlab hv
  have hm : modeFor m (.plain (.sym l)) t = some .rel := by
    have hw : wantedMode m (.plain (.sym l)) t = some .rel := by simp [wantedMode, hb]
    unfold modeFor
    rw [hw, Option.filter_eq_some_iff]
    exact ⟨rfl, hb⟩
  obtain ⟨g1, g2⟩ := k2 .rel hm
  have hfar : TooFar st.pc m (Arg.opd (.plain (.sym l))) t ↔ ¬ (st.pc ≤ t + 126 ∧ t ≤ st.pc + 129) :=
    ⟨fun hh => hh.2.2, fun hh => ⟨hb, ⟨l, rfl⟩, hh⟩⟩
  refine ⟨⟨?_, ?_⟩, ?_, ?_⟩
  · rintro ⟨st', hs⟩
    by_contra hn
    rw [g1 (hfar.2 hn)] at hs
    cases hs
  · intro hin
    obtain ⟨st', _, hs, _⟩ := g2 (fun hh => hfar.1 hh hin)
    exact ⟨st', hs⟩
  · intro st' hs
    obtain ⟨row, _, _, d3, d4, _, _, _, d5⟩ := C15_decodes h hl hp hlab hv hs
    have hrow : row.bytes = 2 := by
      obtain ⟨md, op, f1, _, _, f4, _, _⟩ := assembled_known h hl hp hlab hv hs
      rw [hm] at f1
      obtain rfl : Mode.rel = md := Option.some.inj f1
      have := f4.pc
      rw [d4, fieldBytes_length hm] at this
      have : row.bytes = 2 := by
        have h2 : Mode.bytes .rel = 2 := rfl
        omega
      exact this
    have := d5 hb l rfl
    rw [hrow] at this d4
    exact ⟨by exact_mod_cast this, d4⟩
  · intro hn
    exact g1 (hfar.2 hn)

/-! Concrete cases. -/

/-- After `*=$200`, `L NOP` and `K =$30`: `L` and `K` are defined, the location counter is $201. -/
example : ∃ st, Reached (b! "p.asm") [b! " *=$200\n", b! "L NOP\n", b! "K =$30\n"] st ∧ symbol st (b! "L") = some 0x200 ∧
    symbol st (b! "K") = some 0x30 ∧ symbol st (b! "M") = none ∧ st.pc = 0x201 :=
  reach_eval (fun st => symbol st (b! "L") = some 0x200 ∧ symbol st (b! "K") = some 0x30 ∧ symbol st (b! "M") = none ∧
    st.pc = 0x201) (by decide) (by decide +kernel)

/-- The lines `.DEFINE K $31`, `M LDA Z` and `M BNE L` have the forms the theorems speak of. -/
example : (∃ ls, Lexes (b! ".DEFINE K $31\n") ls ∧ parse (ls.map (·.2)) = some (.const (b! "K") 0x31)) ∧
    (∃ ls, Lexes (b! "M LDA Z\n") ls ∧ parse (ls.map (·.2)) = some (.instr (some (b! "M")) .LDA (.plain (.sym (b! "Z"))))) ∧
    (∃ ls, Lexes (b! "M BNE L\n") ls ∧ parse (ls.map (·.2)) = some (.instr (some (b! "M")) .BNE (.plain (.sym (b! "L"))))) :=
  ⟨lineStmt_some (by decide +kernel), lineStmt_some (by decide +kernel), lineStmt_some (by decide +kernel)⟩

example : Spec.isBranch .BNE = true ∧ Spec.isBranch .LDA = false ∧ Spec.isJump .LDA = false := by decide

/-- A state as in `C16_label_cut`: after `*=$FFFF` and `NOP` the location counter is 0x10000. -/
theorem C16_label_cut_reached : ∃ st, Reached (b! "p.asm") [b! " *=$FFFF\n", b! " NOP\n"] st ∧ st.pc = 0x10000 ∧
    symbol st (b! "L") = none := by
  obtain ⟨ls1, a1, a2⟩ := lineStmt_some (l := b! " *=$FFFF\n") (st := .org 0xFFFF) (by decide +kernel)
  obtain ⟨ls2, b1, b2⟩ := lineStmt_some (l := b! " NOP\n") (st := .instr none .NOP .none) (by decide +kernel)
  have h0 : Reached (b! "p.asm") [] (initSt (b! "p.asm")) := .start
  have s0 : symbol (initSt (b! "p.asm")) (b! "L") = none := by decide +kernel
  obtain ⟨st1, c1, c2, _, _, c3⟩ := C21_origin h0 a1 a2 trivial (fun x v h => h.elim)
  have h1 : Reached (b! "p.asm") [b! " *=$FFFF\n"] st1 := by
    have := Reached.next _ h0 (by decide) c1
    simpa using this
  have hv : OperandValue st1 none (Arg.opd .none) 0 := rfl
  obtain ⟨_, k⟩ := known_instruction h1 b1 b2 (by simp) hv
  obtain ⟨st2, op, e1, _, e2, e3, _⟩ := (k .imp (by decide +kernel)).2 (by rintro ⟨hb, _⟩; revert hb; decide)
  have h2 := Reached.next _ h1 (by decide) e1
  refine ⟨st2, by simpa using h2, ?_, ?_⟩
  · rw [e2.pc, c2]; rfl
  · rw [e3]
    unfold visible
    rw [if_neg (by simp), c3 _ (fun v h => h), s0]

end Gaia

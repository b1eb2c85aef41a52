import Verif.Props.Reach

/-! C12, C15, C16, C22, C25: what a line with an instruction does, in every state gaia can be in. -/
set_option maxRecDepth 10000
namespace Gaia
open Spec

/-- The symbols a line can use: those defined by earlier lines, and its own label. -/
def visible (st : St) (lab : Option Str) (x : Str) : Option Nat := if lab = some x then some st.pc else symbol st x

/-- `OperandValue st lab o v`: the operand `o` has the value `v` (0 if there is no operand). -/
def OperandValue (st : St) (lab : Option Str) : Option Opd → Nat → Prop
  | none, v => v = 0
  | some (.lit n), v => v = n
  | some (.sym l), v => visible st lab l = some v

/-- The bytes after the opcode: the distance of a branch to a label, or the value in one or two bytes, low byte first. -/
def fieldBytes (pc : Nat) (md : Mode) (o : Option Opd) (v : Nat) : List Byte :=
  match o with
  | none => []
  | some (.sym _) =>
    if md = .rel then [(branchByte pc v).getD 0]
    else if md.bytes = 3 then [UInt8.ofNat v, UInt8.ofNat (v / 256)] else [UInt8.ofNat v]
  | some (.lit _) => if md.bytes = 3 then [UInt8.ofNat v, UInt8.ofNat (v / 256)] else [UInt8.ofNat v]

/-- A branch to a label that is out of reach. -/
def TooFar (pc : Nat) (m : Mnemonic) (o : Option Opd) (v : Nat) : Prop :=
  Spec.isBranch m = true ∧ (∃ l, o = some (.sym l)) ∧ ¬ (pc ≤ v + 126 ∧ v ≤ pc + 129)

theorem branchByte_none {pc v : Nat} : branchByte pc v = none ↔ ¬ (pc ≤ v + 126 ∧ v ≤ pc + 129) := by
  unfold branchByte
  simp only
  split_ifs with h
  · simp only [reduceCtorEq, false_iff, not_not]; omega
  · simp only [true_iff]; omega

theorem lookup_labelled {fn : Str} {st : St} {a : A} (h : Rel fn st a) (lab : Option Str) (x : Str) :
    (labelled lab a).env.lookup x = visible st lab x := by
  unfold labelled visible
  cases lab with
  | none => simp [h.symbol]
  | some l =>
    simp only [List.lookup_cons, h.symbol, h.pc, Option.some.injEq]
    by_cases hx : l = x
    · subst hx; simp
    · have : (x == l) = false := by simpa using fun h => hx h.symm
      simp [this, hx]

theorem labelled_same (lab : Option Str) (a : A) : (labelled lab a).pc = a.pc ∧ (labelled lab a).total = a.total ∧
    (labelled lab a).lineNum = a.lineNum ∧ (labelled lab a).out = a.out ∧ (labelled lab a).refs = a.refs := by
  cases lab <;> exact ⟨rfl, rfl, rfl, rfl, rfl⟩

theorem rawBytes_field {env : Env} {pc : Nat} {m : Mnemonic} {md : Mode} {o : Option Opd} {v op : Nat}
    (hop : opcode? m md = some op)
    (hv : ∀ o', o = some o' → (match o' with | .lit n => v = n | .sym l => env.lookup l = some v)) :
    rawBytes env ⟨pc, m, md, o⟩ = UInt8.ofNat op :: fieldBytes pc md o v := by
  unfold rawBytes fieldBytes
  simp only [hop, Option.getD_some]
  cases o with
  | none => rfl
  | some o' =>
    have := hv o' rfl
    cases o' with
    | lit n => simp only at this; subst this; rfl
    | sym l => simp only at this; simp only [this]

theorem fieldBytes_length {m : Mnemonic} {arg : Arg} {v : Nat} {md : Mode} (h : modeFor m arg v = some md) (pc : Nat) (op : Byte) :
    (op :: fieldBytes pc md arg.opd v).length = md.bytes := by
  obtain ⟨_, hno, _⟩ := itemOK_of h pc
  simp only at hno
  have := mode_bytes_cases md
  unfold fieldBytes
  cases ho : arg.opd with
  | none => have := hno.1 ho; simp [this]
  | some o =>
    have h1 : md.bytes ≠ 1 := fun h => by have := hno.2 h; rw [ho] at this; cases this
    have hrel : md = .rel → md.bytes = 2 := by rintro rfl; rfl
    cases o with
    | lit n => simp only; split_ifs <;> simp <;> omega
    | sym l => simp only; split_ifs with g1 g2 <;> simp <;> first | exact (hrel g1).symm | omega

/-- **An instruction whose operand is known**, in every state gaia can be in: the line is refused if the 6502 does not
have the mode asked for, or if it is a branch out of reach; otherwise exactly its bytes are assembled at the location
counter. -/
theorem known_instruction {fn : Str} {raws : List (List Byte)} {st : St} (h : Reached fn raws st) {raw : List Byte}
    {ls : List (Nat × Lexeme)} (hl : Lexes raw ls) {lab : Option Str} {m : Mnemonic} {arg : Arg}
    (hp : parse (ls.map (·.2)) = some (.instr lab m arg)) (hlab : ∀ l, lab = some l → symbol st l = none)
    {v : Nat} (hv : OperandValue st lab arg.opd v) :
    (modeFor m arg v = none → lineStep raw st =
      .err ⟨⟨.illegalAddressingMode, diag (cstr raw) .illegalAddressingMode none fn (raws.length + 1)⟩, st.out⟩) ∧
    (∀ md, modeFor m arg v = some md →
      (TooFar st.pc m arg.opd v → lineStep raw st =
        .err ⟨⟨.tooBigOffset, diag (cstr raw) .tooBigOffset (nameOffsets ls).getLast? fn (raws.length + 1)⟩, st.out⟩) ∧
      (¬ TooFar st.pc m arg.opd v → ∃ st' op, lineStep raw st = .ok (.continue st') ∧ opcode? m md = some op ∧
        Assembled st st' (UInt8.ofNat op :: fieldBytes st.pc md arg.opd v) ∧
        (∀ x, symbol st' x = visible st lab x) ∧ st'.unres.curr = st.unres.curr)) := by
  obtain ⟨a, hr, hb, _, hn, _⟩ := h.rel
  have hk := h.few
  have hM : maxSymbols = 21474836 := rfl
  have hsim := line_sim_few (raw := raw) hr hb (by omega)
  have hlab' : ∀ l, lab = some l → a.env.lookup l = none := fun l hh => by rw [← hr.symbol]; exact hlab l hh
  have hline := line_new_instr (fn := fn) hl hp hlab'
  obtain ⟨e1, e2, e3, e4, e5⟩ := labelled_same lab a
  have hspec := instr_spec (buf := cstr raw) (a := labelled lab a) hp
  have hfwd : fwdOf (labelled lab a).env arg = none := by
    unfold fwdOf
    cases ho : arg.opd with
    | none => rfl
    | some o =>
      rw [ho] at hv
      cases o with
      | lit n => rfl
      | sym l =>
        simp only [lookup_labelled hr]
        have : visible st lab l = some v := hv
        simp [this]
  have hsize : sizingValue (labelled lab a).env m arg.opd = some v := by
    cases ho : arg.opd with
    | none => rw [ho] at hv; obtain rfl : v = 0 := hv; rfl
    | some o =>
      rw [ho] at hv
      cases o with
      | lit n => obtain rfl : v = n := hv; rfl
      | sym l =>
        have : visible st lab l = some v := hv
        simp only [sizingValue, lookup_labelled hr, this]
  have hspec := hspec (fun hh => absurd hfwd hh)
  have err : ∀ e, instrFault (labelled lab a).pc (labelled lab a).env m arg = some e → lineStep raw st =
      .err ⟨⟨e, diag (cstr raw) e (faultPos ls e) fn (raws.length + 1)⟩, st.out⟩ := by
    intro e he
    rw [he] at hspec
    rw [hspec] at hline
    rw [hline] at hsim
    simp only at hsim
    rw [hsim, hr.out]
    simp only [faultAt, hn]
  constructor
  · intro hm
    refine err .illegalAddressingMode ?_
    unfold instrFault
    rw [hsize]
    simp only [hm]
  · intro md hm
    have hfar : ∀ l w, arg.opd = some (.sym l) → (labelled lab a).env.lookup l = some w → w = v := by
      intro l w ho hw
      rw [ho] at hv
      have : visible st lab l = some v := hv
      rw [lookup_labelled hr, this] at hw
      exact (Option.some.inj hw).symm
    constructor
    · rintro ⟨hbr, ⟨l, ho⟩, hfar'⟩
      have hlk : (labelled lab a).env.lookup l = some v := by
        rw [ho] at hv; rw [lookup_labelled hr]; exact hv
      refine err .tooBigOffset ?_
      unfold instrFault
      rw [hsize]
      simp only [hm, ho, hlk]
      rw [if_pos ⟨hbr, by rw [branchByte_none, e1, ← hr.pc]; exact hfar'⟩]
    · intro hnf
      have hno : instrFault (labelled lab a).pc (labelled lab a).env m arg = none := by
        unfold instrFault
        rw [hsize]
        simp only [hm]
        cases ho : arg.opd with
        | none => rfl
        | some o =>
          cases o with
          | lit n => rfl
          | sym l =>
            have hlk : (labelled lab a).env.lookup l = some v := by
              rw [ho] at hv; rw [lookup_labelled hr]; exact hv
            simp only [hlk]
            rw [if_neg]
            rintro ⟨g1, g2⟩
            rw [branchByte_none, e1, ← hr.pc] at g2
            exact hnf ⟨g1, ⟨l, ho⟩, g2⟩
      rw [hno] at hspec
      obtain ⟨v', md', g1, g2, g3⟩ := hspec
      rw [hsize] at g1
      obtain rfl : v = v' := Option.some.inj g1
      rw [hm] at g2
      obtain rfl : md = md' := Option.some.inj g2
      rw [hfwd] at g3
      simp only at g3
      rw [g3] at hline
      rw [hline] at hsim
      obtain ⟨st', k1, k2, _, _⟩ := hsim
      obtain ⟨op, hop⟩ := (modeFor_some hm).2
      have hraw : rawBytes (labelled lab a).env ⟨(labelled lab a).pc, m, md, arg.opd⟩ =
          UInt8.ofNat op :: fieldBytes st.pc md arg.opd v := by
        rw [e1, hr.pc]
        refine rawBytes_field hop fun o ho => ?_
        rw [ho] at hv
        cases o with
        | lit n => exact hv
        | sym l => simp only; rw [lookup_labelled hr]; exact hv
      rw [hraw] at k2
      refine ⟨st', op, k1, hop, assembled_of hr k2 e1 e2 e3 e4 (by simp), fun x => ?_, ?_⟩
      · rw [k2.symbol]
        exact lookup_labelled hr lab x
      · have r1 := k2.refs.curr
        have r2 := hr.refs.curr
        rw [r1, r2]
        simp [A.emit, e5]

/-- **C12, accepted exactly if the mode exists.** In every state gaia can be in, a line with an instruction whose operand
is known (and, for a branch to a label, within reach) is accepted if and only if the 6502 has the mnemonic in the mode
that the written form and the size of the value ask for. -/
theorem C12_accepted_iff {fn : Str} {raws : List (List Byte)} {st : St} (h : Reached fn raws st) {raw : List Byte}
    {ls : List (Nat × Lexeme)} (hl : Lexes raw ls) {lab : Option Str} {m : Mnemonic} {arg : Arg}
    (hp : parse (ls.map (·.2)) = some (.instr lab m arg)) (hlab : ∀ l, lab = some l → symbol st l = none)
    {v : Nat} (hv : OperandValue st lab arg.opd v) (hnear : ¬ TooFar st.pc m arg.opd v) :
    (∃ st', lineStep raw st = .ok (.continue st')) ↔ ∃ md op, wantedMode m arg v = some md ∧ opcode? m md = some op := by
  obtain ⟨k1, k2⟩ := known_instruction h hl hp hlab hv
  constructor
  · rintro ⟨st', hs⟩
    cases hm : modeFor m arg v with
    | none => rw [k1 hm] at hs; cases hs
    | some md =>
      obtain ⟨g1, g2⟩ := modeFor_some hm
      obtain ⟨op, hop⟩ := g2
      refine ⟨md, op, ?_, hop⟩
      unfold modeFor at hm
      exact (Option.filter_eq_some_iff.1 hm).1
  · rintro ⟨md, op, hw, hop⟩
    have hm : modeFor m arg v = some md := by
      unfold modeFor
      rw [hw, Option.filter_eq_some_iff]
      exact ⟨rfl, by rw [hop]; rfl⟩
    obtain ⟨st', _, hs, _⟩ := (k2 md hm).2 hnear
    exact ⟨st', hs⟩

/-- **C12, the mode assembled.** The opcode byte is that of the mode asked for. -/
theorem C12_mode {fn : Str} {raws : List (List Byte)} {st : St} (h : Reached fn raws st) {raw : List Byte}
    {ls : List (Nat × Lexeme)} (hl : Lexes raw ls) {lab : Option Str} {m : Mnemonic} {arg : Arg}
    (hp : parse (ls.map (·.2)) = some (.instr lab m arg)) (hlab : ∀ l, lab = some l → symbol st l = none)
    {v : Nat} (hv : OperandValue st lab arg.opd v) {st' : St} (hs : lineStep raw st = .ok (.continue st')) :
    ∃ md op, wantedMode m arg v = some md ∧ opcode? m md = some op ∧ st'.out.bytes[st.pc]? = some (UInt8.ofNat op) ∧
      st'.pc = st.pc + md.bytes := by
  obtain ⟨k1, k2⟩ := known_instruction h hl hp hlab hv
  cases hm : modeFor m arg v with
  | none => rw [k1 hm] at hs; cases hs
  | some md =>
    by_cases hf : TooFar st.pc m arg.opd v
    · rw [(k2 md hm).1 hf] at hs; cases hs
    · obtain ⟨st'', op, hs', hop, has, _⟩ := (k2 md hm).2 hf
      rw [hs'] at hs
      obtain rfl : st'' = st' := by simpa using hs
      refine ⟨md, op, ?_, hop, ?_, ?_⟩
      · unfold modeFor at hm
        exact (Option.filter_eq_some_iff.1 hm).1
      · have := has.inside 0 (by simp)
        simpa using this
      · have := has.pc
        rw [this]
        rw [fieldBytes_length hm]

/-- **C12, refused otherwise**, with the message 'illegal addressing mode' for that line (and no arrow). -/
theorem C12_refused {fn : Str} {raws : List (List Byte)} {st : St} (h : Reached fn raws st) {raw : List Byte}
    {ls : List (Nat × Lexeme)} (hl : Lexes raw ls) {lab : Option Str} {m : Mnemonic} {arg : Arg}
    (hp : parse (ls.map (·.2)) = some (.instr lab m arg)) (hlab : ∀ l, lab = some l → symbol st l = none)
    {v : Nat} (hv : OperandValue st lab arg.opd v)
    (hm : ∀ md op, wantedMode m arg v = some md → opcode? m md ≠ some op) :
    lineStep raw st =
      .err ⟨⟨.illegalAddressingMode, diag (cstr raw) .illegalAddressingMode none fn (raws.length + 1)⟩, st.out⟩ := by
  refine (known_instruction h hl hp hlab hv).1 ?_
  unfold modeFor
  cases hw : wantedMode m arg v with
  | none => rfl
  | some md =>
    rw [Option.filter_eq_none_iff]
    rintro md' hmd'
    obtain rfl : md = md' := by simpa using hmd'
    cases ho : opcode? m md with
    | none => simp
    | some op => exact absurd ho (hm md op hw)

/-! Concrete cases: after the line ` *=$200` and `BIG: NOP`, the line `K STA BIG,X` is accepted (mode absolute,X) and
`STX BIG,Y` is refused (there is no absolute,Y for STX), while `STX $10,Y` is accepted. -/

example : ∃ st, Reached (b! "p.asm") [b! " *=$200\n", b! "BIG: NOP\n"] st ∧ symbol st (b! "BIG") = some 0x200 ∧
    symbol st (b! "K") = none ∧ st.pc = 0x201 :=
  reach_eval (fun st => symbol st (b! "BIG") = some 0x200 ∧ symbol st (b! "K") = none ∧ st.pc = 0x201) (by decide) (by decide +kernel)

example : ∃ ls, Lexes (b! "K STA BIG,X\n") ls ∧
    parse (ls.map (·.2)) = some (.instr (some (b! "K")) .STA (.idxX (.sym (b! "BIG")))) := by
  exact ⟨[(0, .name (b! "K")), (2, .mnem .STA), (6, .name (b! "BIG")), (9, .comma), (10, .regX)],
    lexes_eval (by decide +kernel) (by decide +kernel), by decide +kernel⟩

example : wantedMode .STA (.idxX (.sym (b! "BIG"))) 0x200 = some .absX ∧ opcode? .STA .absX = some 0x9D ∧
    wantedMode .STX (.idxY (.sym (b! "BIG"))) 0x200 = some .absY ∧ opcode? .STX .absY = none ∧
    wantedMode .STX (.idxY (.lit 0x10)) 0x10 = some .zpY ∧ opcode? .STX .zpY = some 0x96 := by decide +kernel

end Gaia

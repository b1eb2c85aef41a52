import Verif.Props.C12_Modes

/-! C15, C16, C22, C25. -/
set_option maxRecDepth 10000
namespace Gaia
open Spec

theorem decode_fin : ∀ m ∈ Mnemonic.all, ∀ md ∈ Mode.all, ∀ op, opcode? m md = some op →
    op < 256 ∧ decode? op = some ⟨op, m, md, md.bytes⟩ := by
  decide +kernel

/-- Decoding an opcode gives back its mnemonic, mode and length. -/
theorem decode_opcode {m : Mnemonic} {md : Mode} {op : Nat} (h : opcode? m md = some op) :
    op < 256 ∧ decode? op = some ⟨op, m, md, md.bytes⟩ :=
  decode_fin m m.mem_all md (Mode.mem_all md) op h

/-- The number in a two's complement byte. -/
def signed (b : Byte) : Int := if b.toNat < 128 then b.toNat else (b.toNat : Int) - 256

/-- The operand in the bytes of an instruction with `n` bytes: little-endian. -/
def operandIn (st : St) (addr n : Nat) : Nat :=
  if n = 1 then 0
  else if n = 2 then (fileByte st (addr + 1)).toNat
  else (fileByte st (addr + 1)).toNat + 256 * (fileByte st (addr + 2)).toNat

theorem ofNat_toNat {v : Nat} (h : v ≤ 0xFF) : (UInt8.ofNat v).toNat = v := by
  rw [UInt8.toNat_ofNat']; omega

theorem lowhigh {v : Nat} (h : v ≤ 0xFFFF) : (UInt8.ofNat v).toNat + 256 * (UInt8.ofNat (v / 256)).toNat = v := by
  rw [UInt8.toNat_ofNat', UInt8.toNat_ofNat']; omega

theorem branchByte_signed {pc t : Nat} {b : Byte} (h : branchByte pc t = some b) : (pc : Int) + 2 + signed b = t := by
  unfold branchByte at h
  simp only at h
  split_ifs at h with hd
  obtain rfl := Option.some.inj h
  unfold signed
  rw [UInt8.toNat_ofNat']
  split_ifs <;> omega

/-- What an accepted line with a known operand leaves at the location counter. -/
theorem assembled_known {fn : Str} {raws : List (List Byte)} {st : St} (h : Reached fn raws st) {raw : List Byte}
    {ls : List (Nat × Lexeme)} (hl : Lexes raw ls) {lab : Option Str} {m : Mnemonic} {arg : Arg}
    (hp : parse (ls.map (·.2)) = some (.instr lab m arg)) (hlab : ∀ l, lab = some l → symbol st l = none)
    {v : Nat} (hv : OperandValue st lab arg.opd v) {st' : St} (hs : lineStep raw st = .ok (.continue st')) :
    ∃ md op, modeFor m arg v = some md ∧ ¬ TooFar st.pc m arg.opd v ∧ opcode? m md = some op ∧
      Assembled st st' (UInt8.ofNat op :: fieldBytes st.pc md arg.opd v) ∧ (∀ x, symbol st' x = visible st lab x) ∧
      st'.unres.curr = st.unres.curr := by
  obtain ⟨k1, k2⟩ := known_instruction h hl hp hlab hv
  cases hm : modeFor m arg v with
  | none => rw [k1 hm] at hs; cases hs
  | some md =>
    by_cases hf : TooFar st.pc m arg.opd v
    · rw [(k2 md hm).1 hf] at hs; cases hs
    · obtain ⟨st'', op, hs', hop, has, hsym, hun⟩ := (k2 md hm).2 hf
      rw [hs'] at hs
      obtain rfl : st'' = st' := by simpa using hs
      exact ⟨md, op, rfl, hf, hop, has, hsym, hun⟩

theorem Assembled.byte {st st' : St} {bs : List Byte} (h : Assembled st st' bs) {i : Nat} (hi : i < bs.length) :
    fileByte st' (st.pc + i) = bs[i] := by
  have := h.inside i hi
  unfold fileByte
  rw [List.getD_eq_getElem?_getD, this, List.getElem?_eq_getElem hi]
  rfl

/-- **C15.** Whenever a line with an instruction whose operand is known is accepted, in any state gaia can be in: decoding
the byte at the location counter with the published table gives the mnemonic of the line and the mode asked for; the
location counter and the byte count advance by the length in the table; and reading the operand field of that length
low byte first gives back the operand - or, for a branch to a label, the signed distance from the next instruction to the
label. (Operand values up to 0xFFFF; literal branch operands, which are offsets, up to 0xFF. See C16 for bigger ones.) -/
theorem C15_decodes {fn : Str} {raws : List (List Byte)} {st : St} (h : Reached fn raws st) {raw : List Byte}
    {ls : List (Nat × Lexeme)} (hl : Lexes raw ls) {lab : Option Str} {m : Mnemonic} {arg : Arg}
    (hp : parse (ls.map (·.2)) = some (.instr lab m arg)) (hlab : ∀ l, lab = some l → symbol st l = none)
    {v : Nat} (hv : OperandValue st lab arg.opd v) {st' : St} (hs : lineStep raw st = .ok (.continue st')) :
    ∃ row, decode? (fileByte st' st.pc).toNat = some row ∧ row.mnemonic = m ∧ wantedMode m arg v = some row.mode ∧
      st'.pc = st.pc + row.bytes ∧ st'.total = st.total + row.bytes ∧
      (Spec.isBranch m = false → v ≤ 0xFFFF → operandIn st' st.pc row.bytes = v) ∧
      (Spec.isBranch m = true → ∀ n, arg.opd = some (.lit n) → n ≤ 0xFF → operandIn st' st.pc row.bytes = n) ∧
      (Spec.isBranch m = true → ∀ l, arg.opd = some (.sym l) →
        (st.pc : Int) + row.bytes + signed (fileByte st' (st.pc + 1)) = v) := by
  obtain ⟨md, op, hm, hf, hop, has, _, _⟩ := assembled_known h hl hp hlab hv hs
  obtain ⟨hlt, hdec⟩ := decode_opcode hop
  have hlen := fieldBytes_length hm st.pc (UInt8.ofNat op)
  have hw : wantedMode m arg v = some md := by
    unfold modeFor at hm
    exact (Option.filter_eq_some_iff.1 hm).1
  have h0 : fileByte st' st.pc = UInt8.ofNat op := by
    have := has.byte (i := 0) (by simp)
    simpa using this
  have hby : ∀ i, i + 1 < md.bytes → ∀ b, (fieldBytes st.pc md arg.opd v)[i]? = some b →
      fileByte st' (st.pc + (i + 1)) = b := by
    intro i hi b hb
    have := has.byte (i := i + 1) (by rw [hlen]; exact hi)
    rw [this, List.getElem_cons_succ]
    rw [List.getElem?_eq_some_iff] at hb
    exact hb.2
  obtain ⟨_, hno, _, hrel'⟩ := itemOK_of hm st.pc
  simp only at hno hrel'
  refine ⟨⟨op, m, md, md.bytes⟩, ?_, rfl, hw, ?_, ?_, ?_, ?_, ?_⟩
  · rw [h0, ofNat_toNat (by omega)]; exact hdec
  · rw [has.pc, hlen]
  · rw [has.total, hlen]
  · intro hb hv'
    simp only
    unfold operandIn
    rcases mode_bytes_cases md with h1 | h1 | h1
    · rw [if_pos h1]
      have ho := hno.2 h1
      rw [ho] at hv
      exact hv.symm
    · rw [if_neg (by omega), if_pos h1]
      have hne : arg.opd ≠ none := fun ho => by have := hno.1 ho; omega
      obtain ⟨o, ho⟩ := Option.ne_none_iff_exists'.1 hne
      have hmd : md ≠ .rel := by
        rintro rfl
        have : (opcode? m .rel).isSome = true := by rw [hop]; rfl
        unfold Spec.isBranch at hb
        rw [this] at hb; cases hb
      have hfit := modeFor_fits ho hm h1 hmd
      have hfb : (fieldBytes st.pc md arg.opd v)[0]? = some (UInt8.ofNat v) := by
        unfold fieldBytes
        rw [ho]
        cases o <;> simp [hmd, h1]
      rw [hby 0 (by omega) _ hfb, ofNat_toNat hfit]
    · rw [if_neg (by omega), if_neg (by omega)]
      have hne : arg.opd ≠ none := fun ho => by have := hno.1 ho; omega
      obtain ⟨o, ho⟩ := Option.ne_none_iff_exists'.1 hne
      have hmd : md ≠ .rel := by rintro rfl; cases h1
      have hfb : fieldBytes st.pc md arg.opd v = [UInt8.ofNat v, UInt8.ofNat (v / 256)] := by
        unfold fieldBytes
        rw [ho]
        cases o <;> simp [hmd, h1]
      rw [hby 0 (by omega) _ (by rw [hfb]; rfl), hby 1 (by omega) _ (by rw [hfb]; rfl), lowhigh hv']
  · intro hb n ho hn
    have hmd : md = .rel := hrel' ⟨by rw [ho]; simp, hb⟩
    rw [ho] at hv
    obtain rfl : v = n := hv
    subst hmd
    show operandIn st' st.pc 2 = v
    unfold operandIn
    rw [if_neg (by omega), if_pos rfl, hby 0 (by decide) (UInt8.ofNat v) (by rw [ho]; rfl), ofNat_toNat hn]
  · intro hb l ho
    have hmd : md = .rel := hrel' ⟨by rw [ho]; simp, hb⟩
    subst hmd
    have hin : branchByte st.pc v ≠ none := fun hn => hf ⟨hb, ⟨l, ho⟩, branchByte_none.1 hn⟩
    obtain ⟨b, hbb⟩ := Option.ne_none_iff_exists'.1 hin
    have := hby 0 (by decide) b (by rw [ho]; simp [fieldBytes, hbb])
    rw [Nat.zero_add] at this
    rw [this]
    exact branchByte_signed hbb

/-! Concrete cases: in the state after `BIG=$1234`, the lines `JMP (BIG)` and `LDA $12` meet the hypotheses; so does
`HERE BNE HERE`. -/
example : ∃ st, Reached (b! "p.asm") [b! "BIG =$1234\n"] st ∧ (symbol st (b! "BIG") = some 0x1234 ∧
    OperandValue st none (Arg.opd (.ind (.sym (b! "BIG")))) 0x1234 ∧
    (∃ st', lineStep (b! " JMP (BIG)\n") st = .ok (.continue st') ∧ fileByte st' 0 = 0x6C ∧ fileByte st' 1 = 0x34 ∧
      fileByte st' 2 = 0x12)) := by
  obtain ⟨st, h1, h2, h3⟩ := reach_eval (fn := b! "p.asm") (raws := [b! "BIG =$1234\n"])
    (fun st => symbol st (b! "BIG") = some 0x1234 ∧ (match lineStep (b! " JMP (BIG)\n") st with
      | .ok (.continue st') => decide (fileByte st' 0 = 0x6C ∧ fileByte st' 1 = 0x34 ∧ fileByte st' 2 = 0x12)
      | _ => false) = true) (by decide) (by decide +kernel)
  refine ⟨st, h1, h2, ?_, ?_⟩
  · show visible st none (b! "BIG") = _
    unfold visible; rw [if_neg (by simp)]; exact h2
  · split at h3
    · rename_i st' hs
      exact ⟨st', hs, by simpa using h3⟩
    · cases h3

/-- **C16, as far as it holds.** Take any two accepted lines with instructions other than branches and with operand values
up to 0xFFFF, in any two states. If they leave the same bytes, then they have the same mnemonic and the same operand
value. What is missing: literal branch operands above 0xFF and label values above 0xFFFF are cut off
(`C16_branch_cut`, `C16_label_cut`). -/
theorem C16_bytes_determine_partial {fn₁ fn₂ : Str} {raws₁ raws₂ : List (List Byte)} {st₁ st₂ : St} (h₁ : Reached fn₁ raws₁ st₁)
    (h₂ : Reached fn₂ raws₂ st₂) {raw₁ raw₂ : List Byte} {ls₁ ls₂ : List (Nat × Lexeme)} (hl₁ : Lexes raw₁ ls₁) (hl₂ : Lexes raw₂ ls₂)
    {lab₁ lab₂ : Option Str} {m₁ m₂ : Mnemonic} {arg₁ arg₂ : Arg}
    (hp₁ : parse (ls₁.map (·.2)) = some (.instr lab₁ m₁ arg₁)) (hp₂ : parse (ls₂.map (·.2)) = some (.instr lab₂ m₂ arg₂))
    (hlab₁ : ∀ l, lab₁ = some l → symbol st₁ l = none) (hlab₂ : ∀ l, lab₂ = some l → symbol st₂ l = none)
    {v₁ v₂ : Nat} (hv₁ : OperandValue st₁ lab₁ arg₁.opd v₁) (hv₂ : OperandValue st₂ lab₂ arg₂.opd v₂)
    (hb₁ : Spec.isBranch m₁ = false) (hb₂ : Spec.isBranch m₂ = false) (hr₁ : v₁ ≤ 0xFFFF) (hr₂ : v₂ ≤ 0xFFFF)
    {st₁' st₂' : St} (hs₁ : lineStep raw₁ st₁ = .ok (.continue st₁')) (hs₂ : lineStep raw₂ st₂ = .ok (.continue st₂'))
    (same : ∀ i, st₁.pc + i < st₁'.pc → fileByte st₁' (st₁.pc + i) = fileByte st₂' (st₂.pc + i)) :
    m₁ = m₂ ∧ v₁ = v₂ := by
  obtain ⟨r₁, d₁, e₁, _, p₁, _, o₁, _⟩ := C15_decodes h₁ hl₁ hp₁ hlab₁ hv₁ hs₁
  obtain ⟨r₂, d₂, e₂, _, p₂, _, o₂, _⟩ := C15_decodes h₂ hl₂ hp₂ hlab₂ hv₂ hs₂
  obtain ⟨md, op, hm, _, hop, has, _, _⟩ := assembled_known h₁ hl₁ hp₁ hlab₁ hv₁ hs₁
  have hpos : 0 < r₁.bytes := by
    have := has.pc
    rw [p₁, fieldBytes_length hm] at this
    have := mode_bytes_cases md
    omega
  have h0 := same 0 (by omega)
  simp only [Nat.add_zero] at h0
  rw [h0, d₂] at d₁
  obtain rfl : r₂ = r₁ := Option.some.inj d₁
  refine ⟨by rw [← e₁, ← e₂], ?_⟩
  have k₁ := o₁ hb₁ hr₁
  have k₂ := o₂ hb₂ hr₂
  rw [← k₁, ← k₂]
  have hb3 : r₂.bytes ≤ 3 := by
    have := has.pc
    rw [p₁, fieldBytes_length hm] at this
    have := mode_bytes_cases md
    omega
  unfold operandIn
  split_ifs with g1 g2
  · rfl
  · rw [same 1 (by omega)]
  · rw [same 1 (by omega), same 2 (by omega)]

theorem branch_bytes : ∀ r ∈ opTable, Spec.isBranch r.mnemonic = true → r.bytes = 2 := by decide +kernel

/-- **C16 for branches, as far as it holds.** Take any two accepted lines with the operand known, in any two states, the
first of them with a branch. If they leave the same bytes, then the second is the same branch; if both operands are
literals up to 0xFF, they are equal; and if both are labels, the labels are at the same distance. What is missing: literal
branch operands above 0xFF are cut off (`C16_branch_cut`). -/
theorem C16_branch_determine_partial {fn₁ fn₂ : Str} {raws₁ raws₂ : List (List Byte)} {st₁ st₂ : St} (h₁ : Reached fn₁ raws₁ st₁)
    (h₂ : Reached fn₂ raws₂ st₂) {raw₁ raw₂ : List Byte} {ls₁ ls₂ : List (Nat × Lexeme)} (hl₁ : Lexes raw₁ ls₁) (hl₂ : Lexes raw₂ ls₂)
    {lab₁ lab₂ : Option Str} {m₁ m₂ : Mnemonic} {arg₁ arg₂ : Arg}
    (hp₁ : parse (ls₁.map (·.2)) = some (.instr lab₁ m₁ arg₁)) (hp₂ : parse (ls₂.map (·.2)) = some (.instr lab₂ m₂ arg₂))
    (hlab₁ : ∀ l, lab₁ = some l → symbol st₁ l = none) (hlab₂ : ∀ l, lab₂ = some l → symbol st₂ l = none)
    {v₁ v₂ : Nat} (hv₁ : OperandValue st₁ lab₁ arg₁.opd v₁) (hv₂ : OperandValue st₂ lab₂ arg₂.opd v₂)
    (hb₁ : Spec.isBranch m₁ = true)
    {st₁' st₂' : St} (hs₁ : lineStep raw₁ st₁ = .ok (.continue st₁')) (hs₂ : lineStep raw₂ st₂ = .ok (.continue st₂'))
    (same : ∀ i, st₁.pc + i < st₁'.pc → fileByte st₁' (st₁.pc + i) = fileByte st₂' (st₂.pc + i)) :
    m₁ = m₂ ∧
    (∀ n₁ n₂, arg₁.opd = some (.lit n₁) → arg₂.opd = some (.lit n₂) → n₁ ≤ 0xFF → n₂ ≤ 0xFF → n₁ = n₂) ∧
    (∀ l₁ l₂, arg₁.opd = some (.sym l₁) → arg₂.opd = some (.sym l₂) → (v₁ : Int) - st₁.pc = v₂ - st₂.pc) := by
  obtain ⟨r₁, d₁, e₁, _, p₁, _, _, o₁, q₁⟩ := C15_decodes h₁ hl₁ hp₁ hlab₁ hv₁ hs₁
  obtain ⟨r₂, d₂, e₂, _, p₂, _, _, o₂, q₂⟩ := C15_decodes h₂ hl₂ hp₂ hlab₂ hv₂ hs₂
  have hby : r₁.bytes = 2 := branch_bytes r₁ (List.mem_of_find?_eq_some d₁) (by rw [e₁]; exact hb₁)
  have h0 := same 0 (by omega)
  have h1 := same 1 (by omega)
  simp only [Nat.add_zero] at h0
  rw [h0, d₂] at d₁
  obtain rfl : r₂ = r₁ := Option.some.inj d₁
  have hm : m₁ = m₂ := by rw [← e₁, ← e₂]
  refine ⟨hm, ?_, ?_⟩
  · intro n₁ n₂ a₁ a₂ b₁ b₂
    rw [← o₁ hb₁ n₁ a₁ b₁, ← o₂ (hm ▸ hb₁) n₂ a₂ b₂]
    unfold operandIn
    rw [hby, if_neg (by omega), if_pos rfl, if_neg (by omega), if_pos rfl, h1]
  · intro l₁ l₂ a₁ a₂
    have k₁ := q₁ hb₁ l₁ a₁
    have k₂ := q₂ (hm ▸ hb₁) l₂ a₂
    rw [h1] at k₁
    omega

/-- **C16 fails for literal branch operands**: `BNE $1234` is accepted, and the output is that of `BNE $34`. -/
theorem C16_branch_cut : Succeeds (demo (b! " BNE $1234\n")) (b! "p.asm") (b! "p.bin") [0xD0, 0x34] 2 0 ∧
    Succeeds (demo (b! " BNE $34\n")) (b! "p.asm") (b! "p.bin") [0xD0, 0x34] 2 0 :=
  ⟨demo_succeeds (by decide +kernel), demo_succeeds (by decide +kernel)⟩

/-- **C16 fails for labels above 0xFFFF**: an instruction assembled at 0xFFFF leaves the location counter at 0x10000; a
jump to a label there is accepted, with operand bytes 0, 0 (the value modulo 2^16), although the value does not fit the
field. -/
theorem C16_label_cut {fn : Str} {raws : List (List Byte)} {st : St} (h : Reached fn raws st) (hpc : st.pc = 0x10000)
    (hnew : symbol st (b! "L") = none) : ∃ st', lineStep (b! "L JMP L\n") st = .ok (.continue st') ∧
      symbol st' (b! "L") = some 0x10000 ∧ fileByte st' 0x10000 = 0x4C ∧ operandIn st' 0x10000 3 = 0 := by
  have hl : Lexes (b! "L JMP L\n") [(0, .name (b! "L")), (2, .mnem .JMP), (6, .name (b! "L"))] :=
    lexes_eval (by decide +kernel) (by decide +kernel)
  have hp : parse ([(0, Lexeme.name (b! "L")), (2, .mnem .JMP), (6, .name (b! "L"))].map (·.2)) =
      some (.instr (some (b! "L")) .JMP (.plain (.sym (b! "L")))) := by decide +kernel
  have hv : OperandValue st (some (b! "L")) (Arg.opd (.plain (.sym (b! "L")))) 0x10000 := by
    show visible st _ _ = _
    unfold visible
    rw [if_pos rfl, hpc]
  obtain ⟨_, k⟩ := known_instruction h hl hp (by rintro l hh; cases hh; exact hnew) hv
  obtain ⟨st', op, hs, hop, has, hsym, _⟩ := (k .abs (by decide +kernel)).2 (by rintro ⟨hb, _⟩; revert hb; decide)
  have hop' : op = 0x4C := by
    have : opcode? .JMP .abs = some 0x4C := by decide +kernel
    rw [this] at hop; exact (Option.some.inj hop).symm
  subst hop'
  refine ⟨st', hs, ?_, ?_, ?_⟩
  · rw [hsym]
    unfold visible
    rw [if_pos rfl, hpc]
  · have := has.byte (i := 0) (by simp)
    rw [hpc] at this
    simpa using this
  · have h1 := has.byte (i := 1) (by simp [fieldBytes, Arg.opd, Mode.bytes])
    have h2 := has.byte (i := 2) (by simp [fieldBytes, Arg.opd, Mode.bytes])
    rw [hpc] at h1 h2
    unfold operandIn
    rw [if_neg (by omega), if_neg (by omega), h1, h2]
    rfl

end Gaia

import Verif.Proofs.Step
import Verif.Proofs.Pieces

/-! Simulation of `instructionStep`, `lineStep`, the main loop and the patching by the pure machine. -/
namespace Gaia
open Spec

/-- The model's state and the pure machine's state agree. -/
structure Rel (fn : Str) (st : St) (a : A) : Prop where
  pc : st.pc = a.pc
  lineNum : st.lineNum = a.lineNum
  total : st.total = a.total
  out : st.out = a.out
  tab : TabInv st.symtab
  count : st.symtab.count = a.env.length
  look : ∀ x, lookup st.symtab x = (a.env.lookup x).map (fun v : Nat => (v : Int))
  refs : Holds st.unres a.refs
  seq : st.lexer.seq.length = 8
  fileName : st.lexer.fileName = fn

/-- How far the counters can have got after `k` lines. -/
structure Bound (k : Nat) (a : A) : Prop where
  pc : a.pc ≤ 65535 + 3 * k
  lineNum : a.lineNum ≤ k + 1
  total : a.total ≤ 3 * k
  env : a.env.length ≤ k
  vals : ∀ x v, a.env.lookup x = some v → v ≤ 65535 + 3 * k
  refs : a.refs.length ≤ k
  refpc : ∀ r ∈ a.refs, r.pc ≤ 65535 + 3 * k

theorem search_eq {fn : Str} {st : St} {a : A} (h : Rel fn st a) (x : Str) :
    searchSymbol st.symtab x = .ok (match a.env.lookup x with | some v => (v : Int) | none => -2) := by
  unfold searchSymbol
  rw [searchOpt_eq h.tab, h.look]
  cases a.env.lookup x <;> rfl

theorem toInt32_small {v : Nat} (h : v < 2 ^ 31) : toInt32 v = v := by
  unfold toInt32
  rw [Nat.mod_eq_of_lt (by omega), if_pos h]

theorem toUInt32_small {v : Nat} (h : v < 2 ^ 31) : toUInt32 (v : Int) = v := by
  unfold toUInt32
  omega

theorem byte_small (v : Nat) : UInt8.ofNat (((v : Int) % 256 % 256).toNat) = UInt8.ofNat v := by
  have : ((v : Int) % 256 % 256).toNat = v % 256 := by omega
  rw [this]
  exact (UInt8.ofNat_eq_iff_mod_eq_toNat _ _).2 (by simp)

theorem byte_mod (v : Nat) : UInt8.ofNat (((v : Int) % 256).toNat) = UInt8.ofNat v := by
  have : ((v : Int) % 256).toNat = v % 256 := by omega
  rw [this]
  exact (UInt8.ofNat_eq_iff_mod_eq_toNat _ _).2 (by simp)

theorem byte_high (v : Nat) : UInt8.ofNat ((((v : Int) / 256) % 256).toNat) = UInt8.ofNat (v / 256) := by
  have : (v : Int) / 256 = ((v / 256 : Nat) : Int) := by omega
  rw [this, byte_mod]

theorem generate_some {f : OutFile} {m : Mnemonic} {bf fl : Flags} {op : Token} {pc v : Nat}
    (ht : op.type ≠ .accumulator) (hv : op.value = v) (hs : v < 2 ^ 31) :
    generateCode f ⟨some m, bf, fl, 0⟩ (some op) pc =
      ((f.seek pc).puts (opByte m fl :: argBytes fl v), (opByte m fl :: argBytes fl v).length) := by
  unfold generateCode
  simp only [if_neg ht, hv, toInt32_small hs]
  unfold argBytes
  by_cases h : fl &&& ABSOLUTE_FIELD ≠ 0
  · simp only [if_pos h, fputc_eq, byte_small, byte_high]
    rfl
  · simp only [if_neg h, fputc_eq, byte_small]
    rfl

theorem generate_acc {f : OutFile} {m : Mnemonic} {bf fl : Flags} {op : Token} {pc : Nat}
    (ht : op.type = .accumulator) :
    generateCode f ⟨some m, bf, fl, 0⟩ (some op) pc = ((f.seek pc).puts [opByte m fl], 1) := by
  unfold generateCode
  simp only [if_pos ht]
  rfl

theorem generate_none {f : OutFile} {m : Mnemonic} {bf fl : Flags} {pc : Nat} :
    generateCode f ⟨some m, bf, fl, 0⟩ none pc = ((f.seek pc).puts [opByte m fl], 1) := rfl

/-! ### Branch offsets -/

theorem calc_eq {pc dest : Nat} (h1 : pc < 2 ^ 30) (h2 : dest < 2 ^ 30) :
    calcBranchOffset pc dest = .ok ((branchByte pc dest).map UInt8.toNat) := by
  unfold calcBranchOffset branchByte
  simp only
  have hb : ((dest : Int) - pc - 2) = (dest : Int) - (pc + 2) := by omega
  rw [hb, if_neg (by omega)]
  have key : ∀ d : Int, (UInt8.ofNat (d % 256).toNat).toNat = (d % 256).toNat := by
    intro d
    rw [UInt8.toNat_ofNat']
    omega
  split_ifs <;> first | rfl | (exfalso; omega) | (simp only [Option.map_some, key])

theorem byte_offset (b : Byte) : UInt8.ofNat (((b.toNat : Nat) : Int) % 256).toNat = b := by
  rw [byte_mod]; exact UInt8.ofNat_toNat

/-! ### Finite facts about the mode flags -/

theorem Mnemonic.mem_all (m : Mnemonic) : m ∈ Mnemonic.all := by cases m <;> decide

theorem flag_branch_fin : ∀ m ∈ Mnemonic.all, ∀ x y p i a acc big : Bool, Gaia.isBranch m = true →
    knownFlag m acc big ⟨x, y, p, i, a⟩ &&& ABSOLUTE_FIELD = 0 := by decide +kernel

theorem flag_branch {m : Mnemonic} (h : Gaia.isBranch m = true) (acc big : Bool) (s : Shape) :
    knownFlag m acc big s &&& ABSOLUTE_FIELD = 0 := by
  obtain ⟨x, y, p, i, a⟩ := s
  exact flag_branch_fin m m.mem_all x y p i a acc big h

theorem fwd_len_fin : ∀ m ∈ Mnemonic.all, ∀ x y p i a : Bool, (Gaia.isBranch m = true ∨ Gaia.isJump m = true) →
    fwdFlag m ⟨x, y, p, i, a⟩ ≠ 0 →
    (fwdFlag m ⟨x, y, p, i, a⟩ &&& ABSOLUTE_FIELD ≠ 0 ↔ Gaia.isBranch m = false) := by decide +kernel

theorem fwd_len {m : Mnemonic} (h : Gaia.isBranch m = true ∨ Gaia.isJump m = true) (s : Shape) (hf : fwdFlag m s ≠ 0) :
    fwdFlag m s &&& ABSOLUTE_FIELD ≠ 0 ↔ Gaia.isBranch m = false := by
  obtain ⟨x, y, p, i, a⟩ := s
  exact fwd_len_fin m m.mem_all x y p i a h hf

theorem branch_not_jump {m : Mnemonic} (h : Gaia.isBranch m = true) : Gaia.isJump m = false := by
  cases m <;> first | rfl | (simp [Gaia.isBranch] at h)

/-! ### `parse_addr_mode` -/

/-- The instruction structure after lexing a line with mnemonic `m`. -/
def instrOf (m : Mnemonic) : Instr := ⟨some m, getAddrBitfield m, 0, 0⟩

theorem instrOf_branch (m : Mnemonic) : (instrOf m).isBranch = Gaia.isBranch m := rfl
theorem instrOf_jump (m : Mnemonic) : (instrOf m).isJump = Gaia.isJump m := rfl

/-- Everything `instructionStep` reads, in terms of the lexemes. -/
structure Ctx (lx : Lexer) (buf fn : Str) (n : Nat) (ls : List (Nat × Lexeme)) : Prop extends
    LexFacts lx buf n fn ls where
  short : ls.length ≤ 8
  shows : Shows buf none
  showsAt : ∀ p ∈ ls, Shows buf (some p.1)
  chars : ∀ p ∈ ls, ∃ c, buf[p.1]? = some c ∧ isTerm c = false ∧ isBlank c = false

theorem Ctx.raise {α} {lx : Lexer} {buf fn : Str} {n : Nat} {ls : List (Nat × Lexeme)} (h : Ctx lx buf fn n ls)
    {e : Err} (he : errorMessage fn e = some (message e)) {pos : Option Nat} (hp : Shows buf pos) :
    (Gaia.raise lx.line e pos lx.fileName lx.lineNum : Res α) = .err ⟨e, diag buf e pos fn n⟩ := by
  rw [h.line, h.fileName, h.lineNum]
  exact raise_eq fn n hp he

theorem addrMode_none {lx : Lexer} {buf fn : Str} {n : Nat} {ls : List (Nat × Lexeme)} (h : Ctx lx buf fn n ls)
    (m : Mnemonic) {status : OpStatus} (hs : ¬ (status = .branchForwardReference ∨ status = .jumpForwardReference)) :
    parseAddrMode lx (instrOf m) none status =
      if noneFlag m = 0 then .err ⟨.illegalAddressingMode, diag buf .illegalAddressingMode none fn n⟩
      else .ok (.flag, ⟨some m, getAddrBitfield m, noneFlag m, 0⟩) := by
  unfold parseAddrMode
  rw [if_neg hs]
  have hfl : (if (instrOf m).mnemonic = some .ASL ∨ (instrOf m).mnemonic = some .LSR ∨
      (instrOf m).mnemonic = some .ROL ∨ (instrOf m).mnemonic = some .ROR
      then (instrOf m).addrBitfield &&& ADDR_MODE_ACCUMULATOR
      else (instrOf m).addrBitfield &&& ADDR_MODE_IMPLIED) = noneFlag m := by
    unfold noneFlag instrOf
    simp only [Option.some.injEq]
  simp only [hfl]
  by_cases h0 : noneFlag m = 0
  · rw [if_pos h0, if_pos h0]
    exact h.raise rfl h.shows
  · rw [if_neg h0, if_neg h0]; rfl

theorem addrMode_some {lx : Lexer} {buf fn : Str} {n : Nat} {ls : List (Nat × Lexeme)} (h : Ctx lx buf fn n ls)
    (m : Mnemonic) (op : Token) {status : OpStatus}
    (hs : ¬ (status = .branchForwardReference ∨ status = .jumpForwardReference)) (acc big : Bool)
    (ha : op.type = .accumulator ↔ acc = true) (hb : acc = false → (op.value > 0xFF ↔ big = true)) :
    parseAddrMode lx (instrOf m) (some op) status =
      if knownFlag m acc big (shape (ls.map (·.2))) = 0 then
        .err ⟨.illegalAddressingMode, diag buf .illegalAddressingMode none fn n⟩
      else .ok (.flag, ⟨some m, getAddrBitfield m, knownFlag m acc big (shape (ls.map (·.2))), 0⟩) := by
  unfold parseAddrMode
  rw [if_neg hs]
  have key : ∀ F : Flags, F = masks (shape (ls.map (·.2))) (if Gaia.isBranch m then
        (if acc then 0x1FFF &&& ADDR_MODE_ACCUMULATOR
          else if big then if !Gaia.isBranch m then ABSOLUTE_FIELD else ZERO_PAGE_FIELD
          else if !Gaia.isJump m then ZERO_PAGE_FIELD else ABSOLUTE_FIELD) &&& ADDR_MODE_RELATIVE
        else (if acc then 0x1FFF &&& ADDR_MODE_ACCUMULATOR
          else if big then if !Gaia.isBranch m then ABSOLUTE_FIELD else ZERO_PAGE_FIELD
          else if !Gaia.isJump m then ZERO_PAGE_FIELD else ABSOLUTE_FIELD) &&& ~~~ADDR_MODE_RELATIVE) &&&
        getAddrBitfield m →
      (if F = 0 then Gaia.raise lx.line .illegalAddressingMode none lx.fileName lx.lineNum
        else .ok (AddrRes.flag, { instrOf m with addrBitflag := F }) : Res (AddrRes × Instr)) =
      if knownFlag m acc big (shape (ls.map (·.2))) = 0 then
        .err ⟨.illegalAddressingMode, diag buf .illegalAddressingMode none fn n⟩
      else .ok (.flag, ⟨some m, getAddrBitfield m, knownFlag m acc big (shape (ls.map (·.2))), 0⟩) := by
    intro F hF
    have hk : F = knownFlag m acc big (shape (ls.map (·.2))) := hF
    rw [hk, h.raise rfl h.shows]; rfl
  apply key
  rw [applyMasks_eq h.toLexFacts h.short]
  simp only [instrOf_branch, instrOf_jump]
  cases acc with
  | true => rw [if_pos (ha.2 rfl)]; rfl
  | false =>
    rw [if_neg (fun h => by simpa using ha.1 h)]
    have := hb rfl
    by_cases hv : op.value > 0xFF
    · rw [if_pos hv, this.1 hv]; rfl
    · have : big = false := by
        cases big with
        | false => rfl
        | true => exact absurd (this.2 rfl) hv
      rw [if_neg hv, this]; rfl

theorem addrMode_fwd {lx : Lexer} {buf fn : Str} {n : Nat} {ls : List (Nat × Lexeme)} (h : Ctx lx buf fn n ls)
    (m : Mnemonic) (hm : Gaia.isBranch m = true ∨ Gaia.isJump m = true) (op : Option Token) {status : OpStatus}
    (hs : status = .branchForwardReference ∨ status = .jumpForwardReference) :
    parseAddrMode lx (instrOf m) op status =
      if fwdFlag m (shape (ls.map (·.2))) = 0 then
        .err ⟨.illegalAddressingMode, diag buf .illegalAddressingMode none fn n⟩
      else .ok (.forwardReference, ⟨some m, getAddrBitfield m, fwdFlag m (shape (ls.map (·.2))), 0⟩) := by
  unfold parseAddrMode
  rw [if_pos hs]
  unfold parseForwardRefAddrMode
  simp only [instrOf_branch, applyMasks_eq h.toLexFacts h.short]
  have hi : (if Gaia.isBranch m = true then
        { instrOf m with addrBitflag := masks (shape (ls.map (·.2))) 0x1FFF &&& ADDR_MODE_RELATIVE }
      else if (instrOf m).mnemonic = some .JMP then
        { instrOf m with addrBitflag := masks (shape (ls.map (·.2))) 0x1FFF &&& ABSOLUTE_FIELD }
      else if (instrOf m).mnemonic = some .JSR then
        { instrOf m with addrBitflag := masks (shape (ls.map (·.2))) 0x1FFF &&& ADDR_MODE_ABSOLUTE }
      else instrOf m) = ⟨some m, getAddrBitfield m, fwdFlag m (shape (ls.map (·.2))), 0⟩ := by
    unfold fwdFlag instrOf
    simp only [Option.some.injEq]
    by_cases hb : Gaia.isBranch m = true
    · simp [hb]
    · have hj : m = .JMP ∨ m = .JSR := by
        rcases hm with hm | hm
        · exact absurd hm hb
        · simpa [Gaia.isJump] using hm
      rcases hj with rfl | rfl <;> rfl
  rw [hi]
  simp only
  by_cases h0 : fwdFlag m (shape (ls.map (·.2))) = 0
  · rw [if_pos h0, if_pos h0]
    exact h.raise rfl h.shows
  · rw [if_neg h0, if_neg h0]

end Gaia

import Verif.Spec.Assembler

/-!
Specification: the two-pass assembler of `Spec/Assembler.lean` with one change. An operand value that does not fit the
operand field (a label above 0xFFFF in a two-byte field, a literal above 0xFF as branch offset) is not an error: the
field holds its low bytes. This is what gaia does.
-/
namespace Gaia.Spec
open Gaia

/-- Second pass: the operand bytes of an item, low bytes of the value only. -/
def operandBytesLow (env : Env) (it : Item) : Option (List Byte) :=
  match it.mode.bytes, it.opd with
  | 1, _ => some []
  | _, Option.none => Option.none
  | n, some o => do
    let v ← opdValue env o
    if it.mode = .rel then
      match o with
      | .lit v => some [UInt8.ofNat (v % 256)]
      | .sym _ => (branchByte it.addr v).map fun b => [b]
    else if n = 2 then some [UInt8.ofNat (v % 256)]
    else some [UInt8.ofNat (v % 256), UInt8.ofNat (v / 256 % 256)]

/-- Second pass: the bytes of an item. -/
def encodeLow (env : Env) (it : Item) : Option (List Byte) := do
  let op ← opcode? it.mnemonic it.mode
  let bs ← operandBytesLow env it
  some (UInt8.ofNat op :: bs)

/-- Second pass over all items, in program order. -/
def pass2Low (env : Env) : List Item → Option (List Chunk)
  | [] => some []
  | it :: rest => do
    let bs ← encodeLow env it
    let cs ← pass2Low env rest
    some ((it.addr, bs) :: cs)

/-- The two-pass assembler that cuts operand values. -/
def assembleLow (stmts : List Stmt) : Option Result := do
  let s ← pass1 stmts ⟨0, [], []⟩
  let chunks ← pass2Low s.env s.items
  some ⟨chunks, s.env⟩

end Gaia.Spec

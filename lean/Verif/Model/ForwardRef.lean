import Verif.Model.Parser

/-! Model of src/forward_reference.c -/
namespace Gaia

/-- forward_reference.h:16-25. `operandLocation` is the offset of `operand_location` in `source_line`. -/
structure ForwardRef where
  label : Str
  sourceLine : Str
  instr : Instr
  pc : Nat
  lineNum : Nat
  status : OpStatus
  operandLocation : Nat
  deriving DecidableEq, Repr

/-- forward_reference.h:27-31. `size` is the length of `refs`; `none` is a NULL slot. -/
structure Unresolved where
  refs : List (Option ForwardRef)
  curr : Nat
  deriving DecidableEq, Repr

/-- forward_reference.h:29 `size` -/
def Unresolved.size (u : Unresolved) : Nat := u.refs.length

/-- forward_reference.c:20 -/
def FWD_BASE_SIZE : Nat := 8

/-- forward_reference.c:28-43 `init_unresolved` (allocations succeed) -/
def initUnresolved : Unresolved := { refs := List.replicate FWD_BASE_SIZE none, curr := 0 }

/-- forward_reference.c:114-115 on the reversed line: skip blanks and tabs, `none` when the scan runs below the
start of the buffer. -/
def dropBlankRev : Str → Option Str
  | [] => none
  | c :: r => if isBlank c then dropBlankRev r else some (c :: r)

/-- forward_reference.c:107-124: the saved source line, without one final newline and without the blanks before
it. `none`: the backwards scan leaves the buffer. -/
def savedLine (buffer : Str) : Option Str :=
  let r := match buffer.reverse with
    | 10 :: r => r
    | r => r
  (dropBlankRev r).map List.reverse

/-- forward_reference.c:98-156 `create_forward_ref` (allocations succeed). `buffer` is the source line. -/
def createForwardRef (buffer : Str) (instr : Instr) (operand : Option Token) (status : OpStatus)
    (pc lineNum : Nat) : Res ForwardRef :=
  match savedLine buffer with
  | none => .ub .underrun
  | some line =>
    match operand with
    | none => .ub .nullDeref
    | some op =>
      match op.bufferLocation with
      | none => .ub .nullDeref
      | some loc =>
        .ok { label := op.str, sourceLine := line, instr := instr, pc := pc, lineNum := lineNum,
              status := status, operandLocation := loc }

/-- forward_reference.c:166-179 `resize_unresolved` (reallocation succeeds): the size doubles, the new half is
NULL. -/
def resizeUnresolved (u : Unresolved) : Res Unresolved :=
  if u.size * 2 > INT_MAX then .ub .signedOverflow
  else .ok { u with refs := u.refs ++ List.replicate u.size none }

/-- forward_reference.c:190-200 `add_forward_ref` -/
def addForwardRef (u : Unresolved) (ref : ForwardRef) : Res Unresolved := do
  let u ← if u.curr + 1 = u.size then resizeUnresolved u else pure u
  if u.curr < u.size then pure { refs := u.refs.set u.curr (some ref), curr := u.curr + 1 }
  else .ub .outOfBounds

/-- forward_reference.c:74-75: the clean-up walk of `destroy_unresolved`, from slot `i`; returns the references it
frees. Leaving the array is undefined behaviour. -/
def destroyWalk (refs : List (Option ForwardRef)) : (fuel i : Nat) → Res (List ForwardRef)
  | 0, _ => .ub .infiniteLoop
  | fuel + 1, i =>
    match refs[i]? with
    | none => .ub .outOfBounds
    | some none => .ok []
    | some (some r) => do
      let rest ← destroyWalk refs fuel (i + 1)
      pure (r :: rest)

/-- forward_reference.c:66-78 `destroy_unresolved`: the references freed. -/
def destroyUnresolved (u : Unresolved) : Res (List ForwardRef) := destroyWalk u.refs (u.size + 1) 0

end Gaia

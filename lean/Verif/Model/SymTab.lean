import Verif.Model.Prime

/-! Model of src/symbol_table.c -/
namespace Gaia

/-- symbol_table.h:13-17 -/
structure Symbol where
  label : Str
  value : Int
  deriving DecidableEq, Repr

/-- symbol_table.h:19-23. `size` is the length of `symbols`; `none` is a NULL slot. -/
structure SymTab where
  symbols : List (Option Symbol)
  count : Nat
  deriving DecidableEq, Repr

/-- symbol_table.h:20 `size` -/
def SymTab.size (t : SymTab) : Nat := t.symbols.length

/-- symbol_table.c:23 -/
def SYM_BASE_SIZE : Nat := 17

/-- symbol_table.c:31-44 `init_symbol_table` (allocation succeeds). -/
def initSymbolTable : SymTab := { symbols := List.replicate SYM_BASE_SIZE none, count := 0 }

/-- A `char` converted to `unsigned long`: sign extension (`char` is signed). (symbol_table.c:82) -/
def charToULong (c : Byte) : Nat := if c.toNat < 128 then c.toNat else c.toNat + (2 ^ 64 - 256)

/-- symbol_table.c:78-84 `djb2_hash`: 64-bit `unsigned long` arithmetic. -/
def djb2 (label : Str) : Nat :=
  label.foldl (fun h c => (h * 32 + h + charToULong c) % 2 ^ 64) 5381

/-- symbol_table.c:115-119 and 183-187: linear probing for an open slot, starting at `h`.
`fuel` is the table size: after that many steps every slot has been seen and the C loop would
never end. -/
def probeFree (slots : List (Option Symbol)) : (fuel h : Nat) → Res Nat
  | 0, _ => .ub .infiniteLoop
  | fuel + 1, h =>
    match slots[h]? with
    | none => .ub .outOfBounds
    | some none => .ok h
    | some (some _) => probeFree slots fuel ((h + 1) % slots.length)

/-- One iteration of the loop at symbol_table.c:109-122: transfer `sym` into the new array. -/
def rehashOne (newSlots : List (Option Symbol)) (sym : Symbol) : Res (List (Option Symbol)) := do
  let h ← probeFree newSlots newSlots.length (djb2 sym.label % newSlots.length)
  pure (newSlots.set h (some sym))

/-- symbol_table.c:109-122: the transfer loop, in slot order. -/
def rehashAll : List (Option Symbol) → List (Option Symbol) → Res (List (Option Symbol))
  | [], new => .ok new
  | none :: old, new => rehashAll old new
  | some sym :: old, new => do
    let new ← rehashOne new sym
    rehashAll old new

/-- symbol_table.c:96-127 `resize_symbols` (allocation succeeds). -/
def resizeSymbols (t : SymTab) : Res SymTab :=
  if t.size * 2 > INT_MAX then .ub .signedOverflow
  else do
    let newSize ← nextPrime (t.size * 2)
    let slots ← rehashAll t.symbols (List.replicate newSize none)
    pure { t with symbols := slots }

/-- symbol_table.c:170-171: `load = ((count + 1) * 100) / size; if (load > 50)` -/
def overLoaded (t : SymTab) : Bool := decide ((t.count + 1) * 100 / t.size > 50)

/-- symbol_table.c:180-190: place a new symbol in the (already grown) table. -/
def placeSymbol (t : SymTab) (label : Str) (value : Int) : Res SymTab := do
  let h ← probeFree t.symbols t.size (djb2 label % t.size)
  pure { symbols := t.symbols.set h (some ⟨label, value⟩), count := t.count + 1 }

/-- symbol_table.c:165-191 `insert_symbol` (allocations succeed; see `insertSymbolAlloc` for failures). -/
def insertSymbol (t : SymTab) (label : Str) (value : Int) : Res SymTab :=
  if (t.count + 1) * 100 > INT_MAX then .ub .signedOverflow
  else do
    let t ← if overLoaded t then resizeSymbols t else pure t
    placeSymbol t label value

/-- symbol_table.c:165-191 `insert_symbol` with explicit allocation outcomes: `growOk` is whether the
`calloc` at line 100 succeeds, `symOk` whether `init_symbol` (lines 139-152) succeeds. Returns the table left
behind and whether `SYMBOL_INSERTION_SUCCESS` was returned. -/
def insertSymbolAlloc (growOk symOk : Bool) (t : SymTab) (label : Str) (value : Int) :
    Res (SymTab × Bool) :=
  if (t.count + 1) * 100 > INT_MAX then .ub .signedOverflow
  else if overLoaded t && !growOk then
    if t.size * 2 > INT_MAX then .ub .signedOverflow
    else do
      let _ ← nextPrime (t.size * 2)
      pure (t, false)
  else do
    let t ← if overLoaded t then resizeSymbols t else pure t
    if !symOk then pure (t, false)
    else do
      let t ← placeSymbol t label value
      pure (t, true)

/-- symbol_table.c:205-210: probing for a label. -/
def probeLabel (slots : List (Option Symbol)) (label : Str) : (fuel h : Nat) → Res (Option Int)
  | 0, _ => .ub .infiniteLoop
  | fuel + 1, h =>
    match slots[h]? with
    | none => .ub .outOfBounds
    | some none => .ok none
    | some (some s) =>
      if label = s.label then .ok (some s.value)
      else probeLabel slots label fuel ((h + 1) % slots.length)

/-- symbol_table.c:201-213 `search_symbol`, with `ERROR_SYMBOL_NOT_FOUND` as `none`. -/
def searchOpt (t : SymTab) (label : Str) : Res (Option Int) :=
  probeLabel t.symbols label t.size (djb2 label % t.size)

/-- symbol_table.c:201-213 `search_symbol` as the C function returns it: an `int`, -2 if not found. -/
def searchSymbol (t : SymTab) (label : Str) : Res Int := do
  match ← searchOpt t label with
  | some v => pure v
  | none => pure Err.symbolNotFound.code

end Gaia

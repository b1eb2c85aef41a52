import Verif.Model.Base

/-!
Specification: how a source is read, and how large it may be.
-/
namespace Gaia.Spec
open Gaia

/-- Cut a text after every newline, and after 127 bytes without one. `room`: what is left of the 127. -/
def cut : (room : Nat) → List Byte → List (List Byte)
  | _, [] => []
  | room, c :: s =>
    if c = 10 ∨ room ≤ 1 then [c] :: cut 127 s
    else match cut (room - 1) s with
      | [] => [[c]]
      | l :: ls => (c :: l) :: ls

/-- The pieces a source is read in: its lines, longer ones in several pieces. -/
def pieces (src : List Byte) : List (List Byte) := cut 127 src

/-- The number of symbols gaia can handle: with one more, `(count + 1) * 100` (symbol_table.c:171) overflows an `int`, and the
behaviour is undefined (`C35_limit`). -/
def maxSymbols : Nat := 21474836

/-- The source has fewer than 21474836 lines (a line of more than 127 bytes counts as several), so that with it, and one line
more, no more symbols can be defined than gaia can handle. -/
def Sized (src : List Byte) : Prop := (pieces src).length < maxSymbols

instance (src : List Byte) : Decidable (Sized src) := inferInstanceAs (Decidable (_ < _))

end Gaia.Spec

import Verif.Spec.Equivalence
import Verif.Spec.Cut

/-! Specification: sources that differ in the names of their labels, or in symbols nobody uses. -/
namespace Gaia.Spec
open Gaia

/-- The lexeme with another name. -/
def Lexeme.rename (ρ : Str → Str) : Lexeme → Lexeme
  | .name l => .name (ρ l)
  | x => x

/-- The line `l'` is the line `l` with the names changed by `ρ`; a line that cannot be cut into lexemes is unchanged. -/
def RenamedLine (ρ : Str → Str) (l l' : List Byte) : Prop :=
  (∃ x x', Cuts l x ∧ Cuts l' x' ∧ x'.map (·.2) = x.map (·.2.rename ρ)) ∨ (l = l' ∧ ¬ ∃ x, Cuts l x)

/-- The name `n` occurs in the lines. -/
def Mentions (ls : List (List Byte)) (n : Str) : Prop := ∃ l ∈ ls, ∃ x p, Cuts l x ∧ (p, Lexeme.name n) ∈ x

/-- The operand with the constant `L` replaced by its value. -/
def Opd.inline (L : Str) (v : Nat) : Opd → Opd
  | .sym l => if l = L then .lit v else .sym l
  | o => o

/-- The argument with the constant `L` replaced by its value. -/
def Arg.inline (L : Str) (v : Nat) : Arg → Arg
  | .none => .none
  | .acc => .acc
  | .imm o => .imm (o.inline L v)
  | .plain o => .plain (o.inline L v)
  | .idxX o => .idxX (o.inline L v)
  | .idxY o => .idxY (o.inline L v)
  | .ind o => .ind (o.inline L v)
  | .indX o => .indX (o.inline L v)
  | .indY o => .indY (o.inline L v)

end Gaia.Spec

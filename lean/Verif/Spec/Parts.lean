import Verif.Spec.Modules
import Verif.Spec.Program
import Verif.Spec.Equivalence

/-! Specification: sections of code, each behind a line that sets the origin. -/
namespace Gaia.Spec
open Gaia

/-- An instruction. -/
def Stmt.isInstr : Stmt → Bool
  | .instr .. => true
  | _ => false

/-- The first instruction of a text, if it refers to a label, refers to one that was defined above or on the same line. -/
def StartsPlainly (src : List Byte) : Prop :=
  ∀ st ∈ ((stmtsOf src).dropWhile fun st => !st.isInstr).head?, ∀ l ∈ st.reference,
    l ∈ (((stmtsOf src).takeWhile fun st => !st.isInstr) ++ [st]).filterMap Reference.defined

instance (src : List Byte) : Decidable (StartsPlainly src) := by unfold StartsPlainly; infer_instance

/-- A section: a line that sets the origin, the lines behind it, and what they are assembled to: the code and the number of symbols. -/
structure Part where
  line : List Byte
  origin : Nat
  body : List Byte
  code : List Byte
  symbols : Nat

/-- The text of the section. -/
def Part.text (p : Part) : List Byte := p.line ++ p.body

/-- The address belongs to the code of the section. -/
def Part.Covers (p : Part) (i : Nat) : Prop := p.origin ≤ i ∧ i < p.origin + p.code.length

/-- Complete lines, without `.END`; only the first sets the origin; the first instruction is no forward reference; and gaia, given the section alone,
assembles it to `code` at `origin`. -/
structure Part.Alone (srcName outName : Str) (p : Part) : Prop where
  sets : SetsOrigin p.line p.origin
  whole : WholeLines p.body
  free : OriginFree p.body
  noEnd : WithoutEnd p.body
  plain : StartsPlainly p.body
  alone : ∃ w, Setup w srcName outName p.text ∧ Succeeds w srcName outName (placedAt p.origin p.code) p.code.length p.symbols

/-- The sections have no name and no address in common. -/
def Part.Apart (p q : Part) : Prop := (∀ l ∈ definedIn p.body, l ∉ definedIn q.body) ∧ ∀ i, ¬ (p.Covers i ∧ q.Covers i)

/-- `binary` holds the code of each section at its origin and zeros elsewhere, and ends with the last byte of code. -/
structure Combined (parts : List Part) (binary : List Byte) : Prop where
  code : ∀ p ∈ parts, ∀ i < p.code.length, binary[p.origin + i]? = p.code[i]?
  zeros : ∀ i < binary.length, (∀ p ∈ parts, ¬ p.Covers i) → binary[i]? = some 0
  last : ∀ n < binary.length, ∃ p ∈ parts, ∃ i, n ≤ i ∧ p.Covers i

end Gaia.Spec

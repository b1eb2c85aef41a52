import Verif.Model.Process

/-! Specification: what is read from a file that changes. -/
namespace Gaia.Spec
open Gaia Proc

/-- The contents the file `src` has one after the other: `c` at first, then what other programs write to it. -/
def versions (src : Str) (c : List Byte) : List Event → List (List Byte)
  | [] => [c]
  | .write name content :: es => if name = src then c :: versions src content es else versions src c es
  | .step _ :: es => versions src c es

/-- Every byte of `S` is the byte at its place in one of the versions, and the bytes come from versions that follow each other in time: the byte at `i`
is from version number `k i`. -/
structure Spliced (h : List (List Byte)) (k : Nat → Nat) (S : List Byte) : Prop where
  later : ∀ i i', i ≤ i' → i' < S.length → k i ≤ k i'
  byte : ∀ i, i < S.length → ∃ v, h[k i]? = some v ∧ v[i]? = S[i]?

/-- `S` ends where the version from which its last byte comes, or a later one, ends. -/
def Whole (h : List (List Byte)) (k : Nat → Nat) (S : List Byte) : Prop :=
  ∃ m v, h[m]? = some v ∧ v.length ≤ S.length ∧ ∀ i, i < S.length → k i ≤ m

/-- The file is only ever appended to: every version begins with all earlier ones. -/
def Grows (h : List (List Byte)) : Prop := ∀ (a b : Nat) (v v' : List Byte), a ≤ b → h[a]? = some v → h[b]? = some v' → v <+: v'

/-- The result of gaia on the source text `S`: status, text, output. -/
def Yields (w : World) (j : Job) (S : List Byte) (status : Nat) (text : Str) (binary : List Byte) : Prop :=
  ∃ w', gaia j.src j.out (w.write j.src S) = .exited ⟨status, text, w'⟩ ∧ w'.files j.out = some binary

end Gaia.Spec

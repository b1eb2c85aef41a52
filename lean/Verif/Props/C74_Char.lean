import Verif.Proofs.UnsignedAcc
import Verif.Props.Example

/-!
C74: gaia does the same on a platform where `char` is signed and on one where it is not, for every source without the byte 0xFF, in particular for
every UTF-8 text; and a source that is accepted where `char` is unsigned is accepted, with the same result, where it is signed.

`Uns.gaia` (Model/Unsigned.lean) is the program compiled with an unsigned `char`, `gaia` the one with a signed `char`.
-/
namespace Gaia
open Spec

/-- Exit status, text printed and files are the same for every source without the byte 0xFF, and when there is no source. -/
theorem C74_same (srcName outName : Str) (w : World) (h : ∀ src, w.files srcName = some src → 255 ∉ src) :
    Uns.gaia srcName outName w = gaia srcName outName w := Uns.gaia_eq srcName outName w h

/-- A UTF-8 text: the encodings of its characters. -/
def utf8 (text : List Char) : List Byte := text.flatMap String.utf8EncodeChar

theorem utf8_clean (text : List Char) : (255 : Byte) ∉ utf8 text := by
  intro h
  obtain ⟨c, _, h⟩ := List.mem_flatMap.1 h
  have key : ∀ n : Nat, n < 255 → (255 : Byte) ≠ UInt8.ofNat n := by
    intro n hn e
    have := congrArg UInt8.toNat e
    rw [UInt8.toNat_ofNat'] at this
    have e255 : (255 : Byte).toNat = 255 := rfl
    omega
  unfold String.utf8EncodeChar at h
  simp only at h
  split at h
  · rcases List.mem_cons.1 h with h | h
    · exact key _ (by omega) h
    · cases h
  · split at h
    · simp only [List.mem_cons, List.not_mem_nil, or_false] at h
      rcases h with h | h <;> exact key _ (by omega) h
    · split at h
      · simp only [List.mem_cons, List.not_mem_nil, or_false] at h
        rcases h with h | h | h <;> exact key _ (by omega) h
      · simp only [List.mem_cons, List.not_mem_nil, or_false] at h
        rcases h with h | h | h | h <;> exact key _ (by omega) h

/-- In particular for every UTF-8 text. -/
theorem C74_utf8 (srcName outName : Str) (w : World) (text : List Char) (h : w.files srcName = some (utf8 text)) :
    Uns.gaia srcName outName w = gaia srcName outName w :=
  C74_same srcName outName w fun src e => by
    rw [h] at e
    cases e
    exact utf8_clean text

/-- Whatever the source: if gaia accepts it with an unsigned `char`, it does with a signed one, and prints and writes the same. -/
theorem C74_accepted {srcName outName : Str} {w w' : World} {out : Str} (h : Uns.gaia srcName outName w = .exited ⟨0, out, w'⟩) :
    gaia srcName outName w = .exited ⟨0, out, w'⟩ := by
  unfold Uns.gaia at h
  unfold gaia
  cases hs : w.files srcName with
  | none =>
    rw [hs] at h
    simp only at h
    split at h <;> simp at h
  | some content =>
    rw [hs] at h
    simp only at h ⊢
    by_cases hc : w.creatable outName = false
    · rw [if_pos hc] at h
      split at h <;> simp at h
    · rw [if_neg hc] at h ⊢
      cases hr : Uns.assembleBytes srcName (if srcName = outName then [] else content) with
      | ok st =>
        rw [hr] at h
        rw [((Uns.Acc.assembleBytes_imp ..).imp st hr).1]
        exact h
      | err a => rw [hr] at h; simp at h
      | ub u => rw [hr] at h; cases h

/-! ### Cases -/

/-- What gaia does with a source where `char` is unsigned. -/
def demoRunUnsigned (src : List Byte) : Option (Nat × Str × Option (List Byte)) :=
  match Uns.gaia (b! "p.asm") (b! "p.bin") (demo src) with
  | .exited e => some (e.status, e.stdout, e.world.files (b! "p.bin"))
  | .undefined _ => none

/-- The converse of `C74_accepted` fails, and so does `C74_same` with the byte 0xFF: where `char` is signed, 0xFF ends the line, elsewhere it is an
illegal character. -/
theorem C74_differs : demoRun (b! " NOP" ++ [255] ++ b! "\n") = some (0, b! "Assembly successful.\n1 (0x0001) bytes assembled.\n0 symbols.\n", some [234]) ∧
    demoRunUnsigned (b! " NOP" ++ [255] ++ b! "\n") =
      some (1, b! "p.asm:1: ERROR: illegal character\n NOP" ++ [255] ++ b! "\n    ^~~~~~\n\n", some []) := by
  constructor <;> decide +kernel

/-- A program with labels (which are hashed), a reference ahead and a comment in UTF-8. -/
def c74Text : List Char := "LOOP: LDX #1 ; größer\n BNE DONE\n JMP LOOP\nDONE: NOP\n".toList

example : Uns.gaia (b! "p.asm") (b! "p.bin") (demo (utf8 c74Text)) = gaia (b! "p.asm") (b! "p.bin") (demo (utf8 c74Text)) :=
  C74_utf8 _ _ _ c74Text rfl

example : demoRunUnsigned (utf8 c74Text) =
    some (0, b! "Assembly successful.\n8 (0x0008) bytes assembled.\n2 symbols.\n", some [0xA2, 1, 0xD0, 3, 0x4C, 0, 0, 0xEA]) := by decide +kernel

/-- Refused alike: a character beyond ASCII outside a comment. -/
example : demoRunUnsigned (utf8 "größer: NOP\n".toList) = demoRun (utf8 "größer: NOP\n".toList) ∧
    (demoRun (utf8 "größer: NOP\n".toList)).map (·.1) = some 1 := by constructor <;> decide +kernel

/-- `C74_accepted` on a source with 0xFF in a comment. -/
example : demoRunUnsigned (b! " NOP ;" ++ [255] ++ b! "\n") = some (0, b! "Assembly successful.\n1 (0x0001) bytes assembled.\n0 symbols.\n", some [234]) ∧
    demoRun (b! " NOP ;" ++ [255] ++ b! "\n") = demoRunUnsigned (b! " NOP ;" ++ [255] ++ b! "\n") := by
  constructor <;> decide +kernel

end Gaia

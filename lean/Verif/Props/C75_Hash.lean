import Verif.Proofs.HashRun
import Verif.Props.Example

/-!
C75: the hash function of the symbol table cannot be observed: with any other function in its place gaia exits with the same status, prints the same
and writes the same file, whatever the source.

`Hash.gaia hash` (Model/Hash.lean) is the program with `hash` in place of `djb2_hash`.
-/
namespace Gaia
open Spec

/-- Any hash function, any source, any file system: the same outcome. -/
theorem C75_any_hash (hash : Str → Nat) (srcName outName : Str) (w : World) : Hash.gaia hash srcName outName w = gaia srcName outName w :=
  Hash.gaia_eq hash srcName outName w

/-- `djb2_hash` where `unsigned long` has 32 bits and `char` has any signedness: `conv` is the conversion of `char` to `unsigned long`. -/
def djb2Bits (bits : Nat) (conv : Byte → Nat) (label : Str) : Nat := label.foldl (fun h c => (h * 32 + h + conv c) % 2 ^ bits) 5381

/-- In particular `unsigned long` may have 32 bits (or any number of bits). -/
theorem C75_bits (bits : Nat) (conv : Byte → Nat) (srcName outName : Str) (w : World) :
    Hash.gaia (djb2Bits bits conv) srcName outName w = gaia srcName outName w := C75_any_hash _ srcName outName w

/-- The table itself, with any hash function: put labels, all different and fewer than 21474836, into an empty table. Every insertion succeeds, and every
label looked up gives its value if it was put there, and "not found" (-2) otherwise. -/
theorem C75_table (hash : Str → Nat) : ∀ (l : List (Str × Int)), (l.map (·.1)).Nodup → l.length < 21474836 →
    ∃ t, l.foldl (fun t x => t >>= fun t => Hash.insertSymbol hash t x.1 x.2) (.ok initSymbolTable) = .ok t ∧ t.count = l.length ∧
      (∀ x ∈ l, Hash.searchSymbol hash t x.1 = .ok x.2) ∧ ∀ label, label ∉ l.map (·.1) → Hash.searchSymbol hash t label = .ok (-2) := by
  have find : ∀ {t : SymTab}, Hash.TabInv hash t → ∀ label, Hash.searchSymbol hash t label = .ok ((lookup t label).getD (-2)) := by
    intro t h label
    unfold Hash.searchSymbol
    rw [Hash.searchOpt_eq h]
    cases lookup t label <;> rfl
  intro l hn hlen
  have key : ∃ t, l.foldl (fun t x => t >>= fun t => Hash.insertSymbol hash t x.1 x.2) (.ok initSymbolTable) = .ok t ∧ t.count = l.length ∧
      Hash.TabInv hash t ∧ (∀ x ∈ l, lookup t x.1 = some x.2) ∧ ∀ label, label ∉ l.map (·.1) → lookup t label = none := by
    induction l using List.reverseRecOn with
    | nil =>
      refine ⟨initSymbolTable, rfl, rfl, Hash.TabInv_init, fun x hx => (nomatch hx), fun label _ => ?_⟩
      unfold lookup initSymbolTable
      rw [entries_replicate]
      rfl
    | append_singleton l x ih =>
      rw [List.map_append, List.nodup_append] at hn
      obtain ⟨hn1, _, hn2⟩ := hn
      rw [List.length_append, List.length_singleton] at hlen
      obtain ⟨t, e, hc, hi, h1, h2⟩ := ih hn1 (by omega)
      have hx : x.1 ∉ l.map (·.1) := fun h => hn2 _ h _ (by simp) rfl
      have hmax : INT_MAX = 2147483647 := rfl
      obtain ⟨t', i1, i2, i3, i4⟩ := Hash.insertSymbol_spec hi x.1 x.2 (by omega) (h2 _ hx)
      refine ⟨t', ?_, ?_, i2, ?_, ?_⟩
      · rw [List.foldl_append, e]
        exact i1
      · rw [List.length_append, List.length_singleton, i3, hc]
      · intro y hy
        rw [i4]
        rcases List.mem_append.1 hy with hy | hy
        · rw [if_neg (fun (he : y.1 = x.1) => hx (he ▸ List.mem_map_of_mem hy))]
          exact h1 y hy
        · rw [List.mem_singleton.1 hy, if_pos rfl]
      · intro label hl
        rw [List.map_append, List.mem_append, not_or] at hl
        rw [i4, if_neg (fun he => hl.2 (by rw [he]; simp))]
        exact h2 label hl.1
  obtain ⟨t, e, hc, hi, h1, h2⟩ := key
  refine ⟨t, e, hc, fun x hx => ?_, fun label hl => ?_⟩
  · rw [find hi, h1 x hx]; rfl
  · rw [find hi, h2 label hl]; rfl

/-! ### Cases -/

/-- A program whose labels are hashed, looked up and patched. -/
def c75Text : List Byte := b! "LOOP: LDX #1\n BNE DONE\n JMP LOOP\nDONE: NOP\n"

/-- What gaia does with the hash function `hash`. -/
def demoRunHash (hash : Str → Nat) (src : List Byte) : Option (Nat × Str × Option (List Byte)) :=
  match Hash.gaia hash (b! "p.asm") (b! "p.bin") (demo src) with
  | .exited e => some (e.status, e.stdout, e.world.files (b! "p.bin"))
  | .undefined _ => none

/-- All labels in one slot. -/
example : demoRunHash (fun _ => 0) c75Text =
    some (0, b! "Assembly successful.\n8 (0x0008) bytes assembled.\n2 symbols.\n", some [0xA2, 1, 0xD0, 3, 0x4C, 0, 0, 0xEA]) := by decide +kernel

example : Hash.gaia (fun _ => 0) (b! "p.asm") (b! "p.bin") (demo c75Text) = gaia (b! "p.asm") (b! "p.bin") (demo c75Text) :=
  C75_any_hash _ _ _ _

/-- With 32 bits the hash is another one (of a label of eight letters), and the symbol goes to another slot. -/
theorem C75_other : djb2 (b! "CONSTANT") ≠ djb2Bits 32 charToULong (b! "CONSTANT") ∧
    insertSymbol initSymbolTable (b! "CONSTANT") 7 ≠ Hash.insertSymbol (djb2Bits 32 charToULong) initSymbolTable (b! "CONSTANT") 7 := by
  constructor <;> decide +kernel

/-- `C75_table` for three labels that all collide. -/
example : ∃ t, [(b! "A1", (1 : Int)), (b! "B1", 2), (b! "C1", 3)].foldl (fun t x => t >>= fun t => Hash.insertSymbol (fun _ => 16) t x.1 x.2) (.ok initSymbolTable) = .ok t ∧
    t.count = 3 ∧ (∀ x ∈ [(b! "A1", (1 : Int)), (b! "B1", 2), (b! "C1", 3)], Hash.searchSymbol (fun _ => 16) t x.1 = .ok x.2) ∧
    ∀ label, label ∉ [(b! "A1", (1 : Int)), (b! "B1", 2), (b! "C1", 3)].map (·.1) → Hash.searchSymbol (fun _ => 16) t label = .ok (-2) :=
  C75_table (fun _ => 16) _ (by decide) (by decide)

end Gaia

import Verif.Proofs.MemoryCost
import Verif.Props.C42_Memory
import Verif.Props.Reach

/-!
C61: the memory gaia asks for grows at most linearly with the source.
-/
namespace Gaia
open Spec

/-- **C61.** For every source, of any size, all names, every file system and every environment: a run that ends has made at most 25
requests for memory, and 8 more for each line of the source (lines of more than 127 bytes counting as several), whatever was granted. -/
theorem C61_requests (o : Memory.Oracle) (w : World) (srcName outName : Str) (e : Exit) (heap : Memory.Heap)
    (hr : Memory.gaia o srcName outName w = .exited e heap) :
    heap.asked ≤ 25 + 8 * ((w.files srcName).map fun content => (pieces content).length).getD 0 := by
  have hi := Memory.asks_initAll o Memory.Heap.start
  have h0 : Memory.Heap.start.asked = 0 := rfl
  unfold Memory.gaia at hr
  rcases hx : Memory.initAll o Memory.Heap.start with ⟨r, h⟩
  rw [hx] at hi hr
  have hi : h.asked ≤ 25 := by simpa [h0] using hi
  match r with
  | .err _ => cases hr
  | .ub _ => cases hr
  | .ok (some lexer, some tk, some instr, some symtab, some unres) =>
    simp only at hr
    cases hf : w.files srcName with
    | none =>
      rw [hf] at hr
      have := Memory.refuse_asked hr
      omega
    | some content =>
      rw [hf] at hr
      simp only at hr
      split at hr
      · have := Memory.refuse_asked hr
        have h3 : ((Memory.fopen 0) o h).2.asked = h.asked := rfl
        omega
      · have := Memory.assemble_asked hr
        have h2 : ((Memory.fopen 1) o ((Memory.fopen 0) o h).2).2.asked = h.asked := rfl
        simp only [h2] at this
        simp only [Option.map_some, Option.getD_some, pieces_eq]
        by_cases hn : srcName = outName
        · rw [if_pos hn] at this
          have : (chunks []).length = 0 := rfl
          omega
        · rw [if_neg hn] at this
          omega
  | .ok (none, _, _, _, _) => have := Memory.refuse_asked hr; omega
  | .ok (some _, none, _, _, _) => have := Memory.refuse_asked hr; omega
  | .ok (some _, some _, none, _, _) => have := Memory.refuse_asked hr; omega
  | .ok (some _, some _, some _, none, _) => have := Memory.refuse_asked hr; omega
  | .ok (some _, some _, some _, some _, none) => have := Memory.refuse_asked hr; omega

/-- Nor do the two arrays that grow become large: after `n` lines the symbol table has at most `max 17 (8 * n)` slots, of which at
most `n` are used, and the array of forward references at most `max 8 (2 * n)`. -/
theorem C61_arrays {fn : Str} {raws : List (List Byte)} {st : St} (h : Reached fn raws st) :
    st.symtab.count ≤ raws.length ∧ st.symtab.symbols.length ≤ max 17 (8 * raws.length) ∧
    st.unres.curr ≤ raws.length ∧ st.unres.refs.length ≤ max 8 (2 * raws.length) := by
  obtain ⟨a, h1, h2, _⟩ := h.rel
  have e1 := h1.count
  have e2 := h2.env
  have e3 : st.symtab.symbols.length ≤ max 17 (8 * st.symtab.count) := h1.tab.sizeLe
  have e4 := h1.refs.curr
  have e5 := h2.refs
  have e6 := h1.refs.sizeLe
  omega

/-! ### Concrete cases -/

/-- Eleven lines, 83 requests: both arrays have grown. -/
theorem c61_case : (memRun (fun _ => true) c42Src).map (fun r => r.2.2.2.2.2) = some 83 ∧ (pieces c42Src).length = 11 := by decide +kernel

/-- One line can make eight requests: two for its label, one for the symbol table to grow, four for its forward reference, one for the
array of references to grow. -/
theorem c61_eight : (memRun (fun _ => true) (b! "B0 =$1\nA1 JMP Z\nA2 JMP Z\nA3 JMP Z\nA4 JMP Z\nA5 JMP Z\nA6 JMP Z\nA7 JMP Z\n")).map
      (fun r => r.2.2.2.2.2) = some 69 ∧
    (memRun (fun _ => true) (b! "B0 =$1\nA1 JMP Z\nA2 JMP Z\nA3 JMP Z\nA4 JMP Z\nA5 JMP Z\nA6 JMP Z\nA7 JMP Z\nA8 JMP Z\n")).map
      (fun r => r.2.2.2.2.2) = some 77 := by decide +kernel

end Gaia

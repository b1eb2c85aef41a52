import Verif.Spec.WriteLog
import Verif.Props.C28_Image

/-!
C41: the output file of any program, whatever its addresses, is the result of a certain sequence of writes. From this: which
instructions end up intact (C23, C27, C28 without ascending addresses).
-/
set_option maxRecDepth 10000
namespace Gaia
open Spec

theorem firstBytes_eq {e : Placed} (hm : Made e) (hi : ¬ Immediate e) : rawBytes e.known e.item = e.firstBytes := by
  unfold Placed.firstBytes
  cases hf : e.forward with
  | none =>
    have hfa : Placed.fault e.known e = none := by unfold Placed.fault; rw [hf]
    rw [(encodeLow_iff hm (fun l v h => h)).1 ⟨hi, hfa⟩]
    rfl
  | some l =>
    have hbc := mode_bytes_cases e.item.mode
    have hb1 := hm.ok.2.1
    unfold Placed.forward at hf
    unfold rawBytes
    split at hf
    · rename_i l' ho
      split_ifs at hf with h
      simp only [ho]
      have hnone : e.known.lookup l' = none := by
        cases hx : e.known.lookup l' with
        | none => rfl
        | some v => rw [hx] at h; exact absurd rfl h
      rw [hnone]
      simp only
      have : e.item.mode.bytes ≠ 1 := fun h => by rw [hb1.2 h] at ho; cases ho
      rcases hbc with h | h | h
      · exact absurd h this
      · simp [h]
      · simp [h, List.replicate]
    · cases hf

theorem writeLog_eq : ∀ (es : List Placed) (pos : Nat), (∀ e ∈ es, Made e ∧ ¬ Immediate e) → writesFrom pos es = writeLog pos es
  | [], _, _ => rfl
  | e :: es, pos, h => by
    rw [writesFrom, writeLog, firstBytes_eq (h e (by simp)).1 (h e (by simp)).2, writeLog_eq es _ fun d hd => h d (by simp [hd])]
    rfl

theorem patchLog_eq {env : Env} {es : List Placed} (h : ∀ e ∈ es, encodeLow env e.item = some (rawBytes env e.item)) :
    patches env es = patchLog env es := by
  unfold patches patchLog
  apply List.map_congr_left
  intro e he
  rw [h e (List.mem_of_mem_filter he)]
  rfl

/-- Everything about the writes of a successful run. -/
theorem run_log {w : World} {srcName outName : Str} {src : List Byte} {p : List Stmt} (hw : Setup w srcName outName src)
    (hp : IsProgram src p) {bin : List Byte} {total symbols : Nat} (hs : Succeeds w srcName outName bin total symbols) :
    ∃ s, pass1 p .init = some s ∧ s.items = (placed p 1 .init).map (·.item) ∧
      bin = image (writesFrom 0 (placed p 1 .init) ++ patches s.env (placed p 1 .init)) ∧
      ∀ e ∈ placed p 1 .init, Made e ∧ ¬ Immediate e ∧ (∀ l v, e.known.lookup l = some v → s.env.lookup l = some v) ∧
        encodeLow s.env e.item = some (rawBytes s.env e.item) := by
  have hc := succeeds_check hw hp hs
  obtain ⟨s, bin', h1, h2, h3, h4, _⟩ := run_ok hw hp hc
  obtain ⟨rfl, _, _⟩ := hs.unique h3
  refine ⟨s, h1, h2, h4, ?_⟩
  obtain ⟨_, g2⟩ := placed_made p 1 h1
  have hf : firstFault p 1 .init = none := by
    unfold check at hc
    cases hf : firstFault p 1 .init with
    | none => rfl
    | some f => rw [hf] at hc; cases hc
  obtain ⟨s', h1', h5⟩ := (firstFault_none_iff p 1 .init).1 hf
  intro e he
  refine ⟨(g2 e he).1, h5 e he, (g2 e he).2, ?_⟩
  obtain ⟨_, _, _, h⟩ := item_encodes hc h1 (it := e.item) (by rw [h2]; exact List.mem_map_of_mem he)
  exact h

/-- **C41.** For every program of the documented language, whatever its addresses: if gaia succeeds, the output file is what
results from the writes of `Spec/WriteLog.lean`, done in order to an empty file (gaps are zero). -/
theorem C41_output {w : World} {srcName outName : Str} {src : List Byte} {p : List Stmt} (hw : Setup w srcName outName src)
    (hp : IsProgram src p) {bin : List Byte} {total symbols : Nat} (hs : Succeeds w srcName outName bin total symbols) :
    ∃ s, pass1 p .init = some s ∧ bin = image (writeLog 0 (placed p 1 .init) ++ patchLog s.env (placed p 1 .init)) := by
  obtain ⟨s, h1, _, h3, h4⟩ := run_log hw hp hs
  refine ⟨s, h1, ?_⟩
  rw [h3, writeLog_eq _ _ fun e he => ⟨(h4 e he).1, (h4 e he).2.1⟩, patchLog_eq fun e he => (h4 e he).2.2.2]

theorem writesFrom_split : ∀ (pre es : List Placed) (pos : Nat),
    writesFrom pos (pre ++ es) = writesFrom pos pre ++ writesFrom (endFrom pos pre) es
  | [], es, pos => rfl
  | e :: pre, es, pos => by
    rw [List.cons_append, writesFrom, writesFrom_split pre es]
    simp [writesFrom, endFrom]

/-- A chunk after which nothing is written to its addresses is in the image. -/
theorem image_last {W1 W2 : List Chunk} {c : Chunk} (h : ∀ d ∈ W2, d.1 + d.2.length ≤ c.1 ∨ c.1 + c.2.length ≤ d.1) :
    ((image (W1 ++ c :: W2)).drop c.1).take c.2.length = c.2 := by
  have hle : c.1 + c.2.length ≤ imageEnd (W1 ++ c :: W2) := le_imageEnd (by simp)
  apply List.ext_getElem?
  intro j
  by_cases hj : j < c.2.length
  · rw [List.getElem?_take, if_pos hj, List.getElem?_drop, image_get (by omega)]
    have hb : c.at (c.1 + j) = c.2[j]? := by unfold Chunk.at; simp
    rw [List.getElem?_eq_getElem hj] at hb ⊢
    congr 1
    unfold byteAt
    have : (W1 ++ c :: W2).reverse = W2.reverse ++ c :: W1.reverse := by simp
    rw [this, List.findSome?_append]
    have hn : W2.reverse.findSome? (Chunk.at · (c.1 + j)) = none := by
      rw [List.findSome?_eq_none_iff]
      intro d hd
      have := h d (by simpa using hd)
      apply Chunk.at_none
      omega
    rw [hn]
    simp [hb]
  · rw [List.getElem?_eq_none, List.getElem?_eq_none (by omega)]
    simp only [List.length_take]; omega

theorem mem_writes (es : List Placed) (hok : ∀ e ∈ es, ItemOK e.item) : ∀ pos, ∀ c ∈ writesFrom pos es,
    (∃ q ∈ dummies pos es, c.1 = q.1 ∧ c.2.length = q.2) ∨ ∃ d ∈ es, c.1 = d.item.addr ∧ c.1 + c.2.length = d.endAddr := by
  induction es with
  | nil => intro pos c hc; simp [writesFrom] at hc
  | cons e es ih =>
    intro pos c hc
    rw [writesFrom] at hc
    rcases List.mem_append.1 hc with hc | hc
    · split_ifs at hc with hf
      · obtain rfl := List.mem_singleton.1 hc
        exact .inl ⟨(pos, e.item.mode.bytes), by simp [dummies, hf], rfl, by simp⟩
      · simp at hc
    · rcases List.mem_cons.1 hc with rfl | hc
      · exact .inr ⟨e, by simp, rfl, by simp [Placed.endAddr, rawBytes_length (hok e (by simp))]⟩
      · rcases ih (fun d hd => hok d (by simp [hd])) _ c hc with ⟨q, h1, h2⟩ | ⟨d, h1, h2⟩
        · exact .inl ⟨q, by rw [dummies]; exact List.mem_append_right _ h1, h2⟩
        · exact .inr ⟨d, by simp [h1], h2⟩

/-- **C23, whatever the addresses.** A forward reference ends up in the output with the final value of its label (`encodeLow`
with all symbols), unless a later forward reference overlaps it. -/
theorem C23_any_addresses {w : World} {srcName outName : Str} {src : List Byte} {p : List Stmt} (hw : Setup w srcName outName src)
    (hp : IsProgram src p) {bin : List Byte} {total symbols : Nat} (hs : Succeeds w srcName outName bin total symbols)
    {pre post : List Placed} {e : Placed} (he : placed p 1 .init = pre ++ e :: post) (hf : e.forward.isSome = true)
    (hpost : ∀ d ∈ post, d.forward.isSome = true → Apart e d) :
    ∃ s bs, pass1 p .init = some s ∧ encodeLow s.env e.item = some bs ∧ (bin.drop e.item.addr).take e.item.mode.bytes = bs := by
  obtain ⟨s, h1, _, h3, h4⟩ := run_log hw hp hs
  have hmem : e ∈ placed p 1 .init := by rw [he]; simp
  have hok := placed_ok h1
  refine ⟨s, _, h1, (h4 e hmem).2.2.2, ?_⟩
  have hpat : patches s.env (placed p 1 .init) = patches s.env pre ++ (e.item.addr, rawBytes s.env e.item) :: patches s.env post := by
    rw [he]; unfold patches; simp [hf]
  rw [h3, hpat, ← List.append_assoc]
  have := image_last (W1 := writesFrom 0 (placed p 1 .init) ++ patches s.env pre) (c := (e.item.addr, rawBytes s.env e.item))
    (W2 := patches s.env post) (by
      intro d hd
      unfold patches at hd
      obtain ⟨x, hx, rfl⟩ := List.mem_map.1 hd
      have hxm := List.mem_of_mem_filter hx
      have := hpost x hxm (by simpa using (List.mem_filter.1 hx).2)
      simp only [rawBytes_length (hok e hmem), rawBytes_length (hok x (by rw [he]; simp [hxm]))]
      unfold Apart Placed.endAddr at this
      omega)
  simp only [rawBytes_length (hok e hmem)] at this
  exact this

/-- **C27 and C28, whatever the addresses.** An instruction that is no forward reference is in the output, with its bytes, unless
it is overlapped by a later instruction, by an earlier forward reference, or by the dummy bytes of a later forward
reference. -/
theorem C28_any_addresses {w : World} {srcName outName : Str} {src : List Byte} {p : List Stmt} (hw : Setup w srcName outName src)
    (hp : IsProgram src p) {bin : List Byte} {total symbols : Nat} (hs : Succeeds w srcName outName bin total symbols)
    {pre post : List Placed} {e : Placed} (he : placed p 1 .init = pre ++ e :: post) (hf : e.forward = none)
    (hpre : ∀ d ∈ pre, d.forward.isSome = true → Apart e d) (hpost : ∀ d ∈ post, Apart e d)
    (hdum : ∀ q ∈ dummies e.endAddr post, q.1 + q.2 ≤ e.item.addr ∨ e.endAddr ≤ q.1) :
    ∃ s bs, pass1 p .init = some s ∧ encodeLow s.env e.item = some bs ∧ (bin.drop e.item.addr).take e.item.mode.bytes = bs := by
  obtain ⟨s, h1, _, h3, h4⟩ := run_log hw hp hs
  have hmem : e ∈ placed p 1 .init := by rw [he]; simp
  have hok := placed_ok h1
  refine ⟨s, _, h1, (h4 e hmem).2.2.2, ?_⟩
  have hraw : rawBytes e.known e.item = rawBytes s.env e.item := rawBytes_known (h4 e hmem).2.2.1 (by rw [hf]; rfl)
  have hW : writesFrom 0 (placed p 1 .init) ++ patches s.env (placed p 1 .init) = writesFrom 0 pre ++
      (e.item.addr, rawBytes s.env e.item) :: (writesFrom e.endAddr post ++ patches s.env (placed p 1 .init)) := by
    rw [he, writesFrom_split, writesFrom, hf, hraw]
    simp [Placed.endAddr]
  have hokp : ∀ d ∈ post, ItemOK d.item := fun d hd => hok d (by rw [he]; simp [hd])
  rw [h3, hW]
  have := image_last (W1 := writesFrom 0 pre) (c := (e.item.addr, rawBytes s.env e.item))
    (W2 := writesFrom e.endAddr post ++ patches s.env (placed p 1 .init)) (by
      intro c hc
      simp only [rawBytes_length (hok e hmem)]
      rcases List.mem_append.1 hc with hc | hc
      · rcases mem_writes post hokp _ c hc with ⟨q, hq, h5, h6⟩ | ⟨d, hd, h5, h6⟩
        · have := hdum q hq
          unfold Placed.endAddr at this
          omega
        · have := hpost d hd
          unfold Apart at this
          simp only [Placed.endAddr] at this h6
          omega
      · unfold patches at hc
        obtain ⟨x, hx, rfl⟩ := List.mem_map.1 hc
        have hxm := List.mem_of_mem_filter hx
        have hxf : x.forward.isSome = true := by simpa using (List.mem_filter.1 hx).2
        have hap : Apart e x := by
          rw [he] at hxm
          rcases List.mem_append.1 hxm with hxm' | hxm'
          · exact hpre x hxm' hxf
          · rcases List.mem_cons.1 hxm' with rfl | hxm'
            · rw [hf] at hxf; cases hxf
            · exact hpost x hxm'
        simp only [rawBytes_length (hok x hxm)]
        unfold Apart Placed.endAddr at hap
        omega)
  simp only [rawBytes_length (hok e hmem)] at this
  exact this

/-- **C26, addresses in any order**: if the dummy bytes of the forward references do no harm (`Harmless`, a condition on the
addresses only), gaia agrees with the two-pass assembler that writes the instructions in program order. -/
theorem C26_any_addresses {w : World} {srcName outName : Str} {src : List Byte} {p : List Stmt} (hw : Setup w srcName outName src)
    (hp : IsProgram src p) (hh : Harmless (placed p 1 .init)) :
    (∀ r, assembleLow p = some r → Succeeds w srcName outName (image r.chunks) (totalBytes r.chunks) r.env.length) ∧
    (assembleLow p = none → ∃ k e pos, FailsAt w srcName outName src k e pos) := by
  refine ⟨fun r hr => ?_, (C26_accepts hw hp).2⟩
  obtain ⟨bin, h1, h2⟩ := run_assembledLow hw hp hr
  rwa [h2 hh] at h1

/-- In particular: without forward references, in any order and even with overlapping instructions. -/
theorem C26_no_forward {w : World} {srcName outName : Str} {src : List Byte} {p : List Stmt} (hw : Setup w srcName outName src)
    (hp : IsProgram src p) (hn : ∀ e ∈ placed p 1 .init, e.forward = none) {r : Result} (hr : assembleLow p = some r) :
    Succeeds w srcName outName (image r.chunks) (totalBytes r.chunks) r.env.length :=
  (C26_any_addresses hw hp (.of_none hn)).1 r hr

/-! Non-vacuity: a program with descending addresses: `*=$10`, `JMP L`, `NOP`, `*=2`, `L RTS`. -/

def c41Src : List Byte := b! "*=$10\n JMP L\n NOP\n*=2\nL RTS\n"

def c41Prog : List Stmt := [.org 0x10, .instr none .JMP (.plain (.sym (b! "L"))), .instr none .NOP .none, .org 2,
  .instr (some (b! "L")) .RTS .none]

theorem c41_isProgram : IsProgram c41Src c41Prog :=
  isProgram_eval (by decide) (by decide +kernel) (by decide +kernel) (by decide +kernel)

def c41Bin : List Byte := [0, 0, 0x60] ++ List.replicate 13 0 ++ [0x4C, 2, 0, 0xEA]

theorem c41_succeeds : Succeeds (demo c41Src) (b! "p.asm") (b! "p.bin") c41Bin 5 1 := demo_succeeds (by decide +kernel)

example : ∃ s bs, pass1 c41Prog .init = some s ∧ encodeLow s.env ⟨0x10, .JMP, .abs, some (.sym (b! "L"))⟩ = some bs ∧
    (c41Bin.drop 0x10).take 3 = bs :=
  C23_any_addresses (demo_setup _) c41_isProgram c41_succeeds (pre := [])
    (e := ⟨2, ⟨0x10, .JMP, .abs, some (.sym (b! "L"))⟩, []⟩)
    (post := [⟨3, ⟨0x13, .NOP, .imp, none⟩, []⟩, ⟨5, ⟨2, .RTS, .imp, none⟩, [(b! "L", 2)]⟩])
    (by decide +kernel) (by decide +kernel) (by decide +kernel)

example : ∃ s bs, pass1 c41Prog .init = some s ∧ encodeLow s.env ⟨0x13, .NOP, .imp, none⟩ = some bs ∧
    (c41Bin.drop 0x13).take 1 = bs :=
  C28_any_addresses (demo_setup _) c41_isProgram c41_succeeds (pre := [⟨2, ⟨0x10, .JMP, .abs, some (.sym (b! "L"))⟩, []⟩])
    (e := ⟨3, ⟨0x13, .NOP, .imp, none⟩, []⟩) (post := [⟨5, ⟨2, .RTS, .imp, none⟩, [(b! "L", 2)]⟩])
    (by decide +kernel) (by decide +kernel) (by decide +kernel) (by decide +kernel) (by decide +kernel)

end Gaia

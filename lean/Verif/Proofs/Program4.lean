import Verif.Proofs.Program3

/-! Patching the forward references, and the lines of a file. -/
set_option linter.unusedSimpArgs false
namespace Gaia
open Spec

/-- A saved line gives the same diagnostic as the line itself. -/
theorem RefOf.diag {raws : List (List Byte)} {e : Placed} {r : ForwardRef} (h : RefOf raws e r) (fn : Str) (er : Err)
    (her : er = .tooBigOffset ∨ er = .missingLabelDefinition) :
    ∃ raw ls, raws[e.line - 1]? = some raw ∧ Lexes raw ls ∧
      diag r.sourceLine er (some r.operandLocation) fn r.lineNum = diag (cstr raw) er (faultPos ls er) fn e.line := by
  obtain ⟨raw, ls, h1, ⟨h2, h2'⟩, h3, h4, h5⟩ := h.src
  refine ⟨raw, ls, h1, h2', ?_⟩
  have hfp : faultPos ls er = some r.operandLocation := by rcases her with rfl | rfl <;> exact h3
  have hmem : (r.operandLocation, Lexeme.name r.label) ∈ ls :=
    List.mem_of_mem_tail (List.mem_of_find?_eq_some h4)
  obtain ⟨c, c1, c2, c3⟩ := lexemes_char h2 _ hmem
  obtain ⟨s, suf, s1, s2, s3, s4⟩ := savedLine_spec c1 c2 c3
  rw [hfp, h5, s1, h.lineNum]
  exact diag_saved s2 s3 (Nat.le_of_lt s4)

/-- The patches of the forward references. -/
def patches (env : Env) (es : List Placed) : List Chunk :=
  (es.filter (·.forward.isSome)).map fun e => (e.item.addr, rawBytes env e.item)

theorem rawBytes_branch {it : Item} (hok : ItemOK it) {env : Env} {l : Str} {t : Nat} (ho : it.opd = some (.sym l))
    (hl : env.lookup l = some t) (hb : Spec.isBranch it.mnemonic = true) :
    rawBytes env it = [UInt8.ofNat ((opcode? it.mnemonic it.mode).getD 0), (branchByte it.addr t).getD 0] := by
  have hrel : it.mode = .rel := hok.2.2.2 ⟨by simp [ho], hb⟩
  unfold rawBytes
  simp only [ho, hl, hrel, if_true]

theorem jump_bytes {it : Item} (hok : ItemOK it) (hj : Spec.isJump it.mnemonic = true) : it.mode.bytes = 3 := by
  have hm' : it.mnemonic = .JMP ∨ it.mnemonic = .JSR := by simpa [Spec.isJump] using hj
  obtain ⟨⟨op, hop⟩, -⟩ := hok
  have : ∀ md ∈ Mode.all, ∀ m ∈ [Mnemonic.JMP, .JSR], (opcode? m md).isSome = true → md.bytes = 3 := by decide +kernel
  exact this it.mode (Mode.mem_all it.mode) it.mnemonic (by simpa using hm') (by rw [hop]; rfl)

theorem rawBytes_jump {it : Item} (hok : ItemOK it) {env : Env} {l : Str} {t : Nat} (ho : it.opd = some (.sym l))
    (hl : env.lookup l = some t) (hb : ¬ Spec.isBranch it.mnemonic = true) (hj : Spec.isJump it.mnemonic = true) :
    rawBytes env it =
      [UInt8.ofNat ((opcode? it.mnemonic it.mode).getD 0), UInt8.ofNat t, UInt8.ofNat (t / 256)] := by
  have hrel : ¬ it.mode = .rel := fun h => hb (hok.2.2.1 h).2
  unfold rawBytes
  simp only [ho, hl, hrel, if_false, jump_bytes hok hj, if_true]

theorem forward_opd {e : Placed} {l : Str} (h : e.forward = some l) : e.item.opd = some (.sym l) ∧ e.known.lookup l = none := by
  unfold Placed.forward at h
  split at h
  · rename_i l' ho
    split_ifs at h with h1
    obtain rfl : l' = l := by simpa using h
    exact ⟨ho, Option.not_isSome_iff_eq_none.1 h1⟩
  · cases h

theorem patch_spec (fn : Str) (raws : List (List Byte)) (env : Env) : ∀ (es : List Placed) (refs : List ForwardRef),
    List.Forall₂ (RefOf raws) (es.filter (·.forward.isSome)) refs → (∀ e ∈ es, ItemOK e.item) →
    (∀ e ∈ es, e.forward.isSome = true → Spec.isBranch e.item.mnemonic = true ∨ Spec.isJump e.item.mnemonic = true) →
    ∀ (out : OutFile) (W : List Chunk), Written out W →
    (∀ k er, es.findSome? (Placed.fault env) = some (k, er) → ∃ raw ls out', raws[k - 1]? = some raw ∧ Lexes raw ls ∧
      patch fn env refs out = .error ⟨⟨er, diag (cstr raw) er (faultPos ls er) fn k⟩, out'⟩ ∧
      Written out' (W ++ patches env (es.takeWhile fun e => (Placed.fault env e).isNone))) ∧
    (es.findSome? (Placed.fault env) = none → ∃ out', patch fn env refs out = .ok out' ∧
      Written out' (W ++ patches env es)) := by
  intro es
  induction es with
  | nil =>
    intro refs hr _ _ out W hw
    cases hr
    exact ⟨fun k er he => by simp at he, fun _ => ⟨out, rfl, by simpa [patches] using hw⟩⟩
  | cons e es ih =>
    intro refs hr hok hbj out W hw
    have hok' : ∀ e ∈ es, ItemOK e.item := fun e he => hok e (List.mem_cons_of_mem _ he)
    have hbj' : ∀ e ∈ es, e.forward.isSome = true → Spec.isBranch e.item.mnemonic = true ∨ Spec.isJump e.item.mnemonic = true :=
      fun e he => hbj e (List.mem_cons_of_mem _ he)
    cases hf : e.forward with
    | none =>
      have h1 : (e :: es).filter (·.forward.isSome) = es.filter (·.forward.isSome) := by
        rw [List.filter_cons, hf]; rfl
      have h2 : Placed.fault env e = none := by unfold Placed.fault; rw [hf]
      have h3 : patches env (e :: es) = patches env es := by unfold patches; rw [h1]
      rw [h1] at hr
      have h4 : patches env ((e :: es).takeWhile fun e => (Placed.fault env e).isNone) =
          patches env (es.takeWhile fun e => (Placed.fault env e).isNone) := by
        rw [List.takeWhile_cons_of_pos (by rw [h2]; rfl)]
        unfold patches
        rw [List.filter_cons, hf]
        rfl
      rw [List.findSome?_cons, h2, h3, h4]
      exact ih refs hr hok' hbj' out W hw
    | some l =>
      have h1 : (e :: es).filter (·.forward.isSome) = e :: es.filter (·.forward.isSome) := by
        rw [List.filter_cons, hf]; rfl
      have h3 : patches env (e :: es) = (e.item.addr, rawBytes env e.item) :: patches env es := by
        unfold patches; rw [h1]; rfl
      rw [h1] at hr
      obtain ⟨ho, hk⟩ := forward_opd hf
      have hoke := hok e (by simp)
      cases hr with
      | @cons _ r _ rs hrel hr =>
        have hlab : r.label = l := by have := hrel.label; rw [hf] at this; simpa using this.symm
        have hfault : Placed.fault env e = match env.lookup l with
            | none => some (e.line, .missingLabelDefinition)
            | some t => if Spec.isBranch e.item.mnemonic ∧ branchByte e.item.addr t = none then some (e.line, .tooBigOffset) else none := by
          unfold Placed.fault; simp only [hf]; cases env.lookup l <;> rfl
        have hpatch : patch fn env (r :: rs) out = match env.lookup l with
            | none => .error ⟨⟨.missingLabelDefinition, diag r.sourceLine .missingLabelDefinition (some r.operandLocation) fn r.lineNum⟩, out⟩
            | some v =>
              if Spec.isBranch e.item.mnemonic then
                match branchByte e.item.addr v with
                | none => .error ⟨⟨.tooBigOffset, diag r.sourceLine .tooBigOffset (some r.operandLocation) fn r.lineNum⟩, out⟩
                | some b => patch fn env rs ((out.seek e.item.addr).puts
                    [UInt8.ofNat ((opcode? e.item.mnemonic e.item.mode).getD 0), b])
              else patch fn env rs ((out.seek e.item.addr).puts
                [UInt8.ofNat ((opcode? e.item.mnemonic e.item.mode).getD 0), UInt8.ofNat v, UInt8.ofNat (v / 256)]) := by
          rw [patch, hlab, hrel.opcode, hrel.pc, hrel.status]
          cases env.lookup l with
          | none => rfl
          | some v =>
            cases Spec.isBranch e.item.mnemonic <;> rfl
        rw [List.findSome?_cons, hfault, hpatch, h3]
        cases hl : env.lookup l with
        | none =>
          refine ⟨fun k er he => ?_, fun he => by simp at he⟩
          obtain ⟨rfl, rfl⟩ : e.line = k ∧ Err.missingLabelDefinition = er := by simpa using he
          obtain ⟨raw, ls, d1, d2, d3⟩ := hrel.diag fn .missingLabelDefinition (.inr rfl)
          have hft : Placed.fault env e ≠ none := by rw [hfault, hl]; simp
          refine ⟨raw, ls, out, d1, d2, by simp only [d3], ?_⟩
          rw [List.takeWhile_cons_of_neg (by simpa [Option.isNone_iff_eq_none] using hft)]
          simpa [patches] using hw
        | some t =>
          simp only
          have step : Placed.fault env e = none → ∀ bs, rawBytes env e.item = bs →
              (∀ k er, es.findSome? (Placed.fault env) = some (k, er) → ∃ raw ls out', raws[k - 1]? = some raw ∧ Lexes raw ls ∧
                patch fn env rs ((out.seek e.item.addr).puts bs) = .error ⟨⟨er, diag (cstr raw) er (faultPos ls er) fn k⟩, out'⟩ ∧
                Written out' (W ++ patches env ((e :: es).takeWhile fun e => (Placed.fault env e).isNone))) ∧
              (es.findSome? (Placed.fault env) = none → ∃ out', patch fn env rs ((out.seek e.item.addr).puts bs) = .ok out' ∧
                Written out' (W ++ (e.item.addr, rawBytes env e.item) :: patches env es)) := by
            intro hft bs hbs
            have h4 : patches env ((e :: es).takeWhile fun e => (Placed.fault env e).isNone) =
                (e.item.addr, rawBytes env e.item) :: patches env (es.takeWhile fun e => (Placed.fault env e).isNone) := by
              rw [List.takeWhile_cons_of_pos (by rw [hft]; rfl)]
              unfold patches
              rw [List.filter_cons, hf]
              rfl
            rw [h4]
            have := ih rs hr hok' hbj' _ _ (hw.puts e.item.addr bs (by rw [← hbs]; exact rawBytes_ne _ _))
            simp only [List.append_assoc] at this
            rw [hbs]
            exact this
          by_cases hb : Spec.isBranch e.item.mnemonic = true
          · rw [if_pos hb]
            have hraw := rawBytes_branch hoke ho hl hb
            cases hbb : branchByte e.item.addr t with
            | none =>
              rw [if_pos ⟨hb, rfl⟩]
              refine ⟨fun k er he => ?_, fun he => by simp at he⟩
              obtain ⟨rfl, rfl⟩ : e.line = k ∧ Err.tooBigOffset = er := by simpa using he
              obtain ⟨raw, ls, d1, d2, d3⟩ := hrel.diag fn .tooBigOffset (.inl rfl)
              have hft : Placed.fault env e ≠ none := by rw [hfault, hl]; simp [hb, hbb]
              refine ⟨raw, ls, out, d1, d2, by simp only [d3], ?_⟩
              rw [List.takeWhile_cons_of_neg (by simpa [Option.isNone_iff_eq_none] using hft)]
              simpa [patches] using hw
            | some b =>
              rw [if_neg (by simp)]
              rw [hbb] at hraw
              exact step (by rw [hfault, hl]; simp [hbb]) _ hraw
          · rw [if_neg hb, if_neg (fun h => hb h.1)]
            have hj : Spec.isJump e.item.mnemonic = true := by
              rcases hbj e (by simp) (by rw [hf]; rfl) with h | h
              · exact absurd h hb
              · exact h
            exact step (by rw [hfault, hl]; simp [hb]) _ (rawBytes_jump hoke ho hl hb hj)

/-! ### Lines -/

/-- A buffer holds a line, with or without its newline. -/
def Buffers (raw l : List Byte) : Prop := raw = l ∨ raw = l ++ [10]

theorem code_newline (l : List Byte) : code (l ++ [10]) = code l := by
  induction l with
  | nil => rfl
  | cons c l ih => rw [List.cons_append, code_cons, code_cons, ih]

theorem Buffers.code {raw l : List Byte} (h : Buffers raw l) : Spec.code raw = Spec.code l := by
  rcases h with rfl | rfl
  · rfl
  · exact code_newline l

theorem Buffers.lexes {raw l : List Byte} (h : Buffers raw l) (x : List (Nat × Lexeme)) : Lexes raw x ↔ Lexes l x := by
  unfold Lexes
  rw [h.code]

theorem fgets_cut (n : Nat) (l rest : List Byte) (hl : ∀ c ∈ l, c ≠ 10) (hn : l.length < n) :
    fgets n (l ++ 10 :: rest) = (l ++ [10], rest) := by
  induction l generalizing n with
  | nil =>
    match n, hn with
    | n + 1, _ => simp [fgets]
  | cons c l ih =>
    match n, hn with
    | n + 1, hn =>
      have hc : c ≠ 10 := hl c (by simp)
      simp only [List.cons_append, fgets, if_neg hc]
      rw [ih n (fun x hx => hl x (by simp [hx])) (by simpa using hn)]

theorem fgets_last (n : Nat) (l : List Byte) (hl : ∀ c ∈ l, c ≠ 10) (hn : l.length ≤ n) : fgets n l = (l, []) := by
  induction l generalizing n with
  | nil => cases n <;> rfl
  | cons c l ih =>
    match n, hn with
    | n + 1, hn =>
      have hc : c ≠ 10 := hl c (by simp)
      simp only [fgets, if_neg hc]
      rw [ih n (fun x hx => hl x (by simp [hx])) (by simpa using hn)]

theorem lines_cut (l rest : List Byte) (hl : ∀ c ∈ l, c ≠ 10) : lines (l ++ 10 :: rest) = l :: lines rest := by
  induction l with
  | nil => rfl
  | cons c l ih =>
    have hc : c ≠ 10 := hl c (by simp)
    rw [List.cons_append, lines, if_neg hc, ih (fun x hx => hl x (by simp [hx]))]

theorem lines_last (l : List Byte) (hl : ∀ c ∈ l, c ≠ 10) (hne : l ≠ []) : lines l = [l] := by
  induction l with
  | nil => exact absurd rfl hne
  | cons c l ih =>
    have hc : c ≠ 10 := hl c (by simp)
    rw [lines, if_neg hc]
    cases l with
    | nil => rfl
    | cons d l => rw [ih (fun x hx => hl x (by simp [hx])) (by simp)]

theorem split_line (s : List Byte) : (∀ c ∈ s, c ≠ 10) ∨ ∃ l rest, s = l ++ 10 :: rest ∧ ∀ c ∈ l, c ≠ 10 := by
  induction s with
  | nil => left; simp
  | cons c s ih =>
    by_cases hc : c = 10
    · right; exact ⟨[], s, by simp [hc], by simp⟩
    · rcases ih with h | ⟨l, rest, rfl, h⟩
      · left
        intro x hx
        rcases List.mem_cons.1 hx with rfl | hx
        · exact hc
        · exact h x hx
      · right
        refine ⟨c :: l, rest, rfl, ?_⟩
        intro x hx
        rcases List.mem_cons.1 hx with rfl | hx
        · exact hc
        · exact h x hx

/-- Lines of at most 126 characters are read whole. -/
theorem chunksAux_lines : ∀ (fuel : Nat) (s : List Byte), s.length ≤ fuel → (∀ l ∈ lines s, l.length ≤ 126) →
    List.Forall₂ Buffers (chunksAux fuel s) (lines s) := by
  intro fuel
  induction fuel with
  | zero =>
    intro s hs _
    have : s = [] := List.length_eq_zero_iff.1 (by omega)
    subst this
    exact .nil
  | succ fuel ih =>
    intro s hs hl
    unfold chunksAux
    split_ifs with h0
    · subst h0; exact .nil
    rcases split_line s with h | ⟨l, rest, rfl, h⟩
    · rw [lines_last s h h0] at hl ⊢
      have hlen := hl s (by simp)
      rw [fgets_last _ s h (by simp only [MAX_BUFFER_SIZE]; omega)]
      refine .cons (.inl rfl) ?_
      have : chunksAux fuel [] = [] := by cases fuel <;> simp [chunksAux]
      simp only [this]
      exact .nil
    · rw [lines_cut l rest h] at hl ⊢
      have hlen := hl l (by simp)
      rw [fgets_cut _ l rest h (by simp only [MAX_BUFFER_SIZE]; omega)]
      refine .cons (.inr rfl) (ih rest ?_ fun x hx => hl x (by simp [hx]))
      simp at hs; omega

theorem chunks_lines (src : List Byte) (h : ∀ l ∈ lines src, l.length ≤ 126) : List.Forall₂ Buffers (chunks src) (lines src) :=
  chunksAux_lines _ src (Nat.le_refl _) h

theorem Reads_buffers {raws ls : List (List Byte)} (h : List.Forall₂ Buffers raws ls) {p : List Stmt} (hr : Reads ls p) :
    Reads raws p := by
  induction hr generalizing raws with
  | nil => cases h; exact .nil
  | stop l rest x h1 h2 =>
    cases h with
    | cons hb _ => exact .stop _ _ x ((hb.lexes x).2 h1) h2
  | cons l rest x st p h1 h2 h3 hr ih =>
    cases h with
    | cons hb ht => exact .cons _ _ x st p ((hb.lexes x).2 h1) h2 h3 (ih ht)

end Gaia

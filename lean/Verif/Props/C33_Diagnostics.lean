import Verif.Props.C31_Exit
import Verif.Proofs.LexUnique

/-!
C33: diagnostics point at the right line and column. C34: lines and buffers.
-/
set_option maxRecDepth 10000
namespace Gaia
open Spec

/-- `FirstError src k e pos`: the error to be reported for the source is `e`, in line number `k` (from 1), at offset `pos` of
that line. -/
inductive Spec.FirstError (src : List Byte) : Nat → Err → Option Nat → Prop
  /-- All lines are statements. `check` finds the first faulty statement, or else the first forward reference that cannot be
  resolved. -/
  | program (p : List Stmt) (h : IsProgram src p) (k : Nat) (e : Err) (hc : check p = some (k, e)) (l : List Byte)
      (x : List (Nat × Lexeme)) (hl : (lines src)[k - 1]? = some l) (hx : Lexes l x) : FirstError src k e (faultPos x e)
  /-- A faulty statement before the first line that is no statement. -/
  | statement (p : List Stmt) (l' : List Byte) (rest : List (List Byte)) (h : Continues src p l' rest) (k : Nat) (e : Err)
      (hc : firstFault p 1 .init = some (k, e)) (l : List Byte) (x : List (Nat × Lexeme))
      (hl : (lines src)[k - 1]? = some l) (hx : Lexes l x) : FirstError src k e (faultPos x e)
  /-- The first line that is no statement, after faultless statements. -/
  | line (p : List Stmt) (l : List Byte) (rest : List (List Byte)) (h : Continues src p l rest)
      (hc : firstFault p 1 .init = none) (e : Err) (pos : Option Nat) (hb : BadLine l e pos) : FirstError src (p.length + 1) e pos

/-- **C33.** If `e` in line `k` at offset `pos` is the error of the source, then the run fails with exactly this text:
`file:k: ` and the message of `e`, the line, and an arrow below the character at offset `pos`, after as many spaces as that
character's display column with tab stops every 8 columns. This includes the forward references that are reported at the
end. (The hypothesis excludes literals of more than 64 bits, which are mistaken for small ones, see `C01_wraps`.) -/
theorem C33_diagnostic {w : World} {srcName outName : Str} {src : List Byte} (hw : Setup w srcName outName src)
    (hh : ∀ l ∈ lines src, HugeFree l) {k : Nat} {e : Err} {pos : Option Nat} (h : FirstError src k e pos) :
    ∃ l text, 1 ≤ k ∧ (lines src)[k - 1]? = some l ∧ FailsPrinting w srcName outName text ∧
      text = srcName ++ b! ":" ++ decimal k ++ b! ": " ++ message e ++ trimEnd (l.takeWhile (· != 0)) ++ b! "\n" ++
        match (generalizing := false) pos with
        | none => b! "\n"
        | some p => List.replicate (column ((l.takeWhile (· != 0)).take p)) 32 ++ b! "^~~~~~\n\n" := by
  have key : FailsAt w srcName outName src k e pos := by
    cases h with
    | program p hp _ _ hc l x hl hx =>
      obtain ⟨l', x', h1, h2, h3⟩ := run_error hw hp hc
      rw [hl] at h1
      obtain rfl := Option.some.inj h1
      obtain rfl := Lexes_unique hx h2
      exact h3
    | statement p l' rest hp _ _ hc l x hl hx =>
      obtain ⟨l', x', h1, h2, h3⟩ := run_first_fault hw hp hc
      rw [hl] at h1
      obtain rfl := Option.some.inj h1
      obtain rfl := Lexes_unique hx h2
      exact h3
    | line p l rest hp hc _ _ hb =>
      refine run_bad_line hw hp hc (fun _ => hh l ?_) hb
      obtain ⟨pre, hsp, _⟩ := hp.splits
      rw [hsp]; simp
  obtain ⟨l, h1, h2, h3⟩ := key
  exact ⟨l, _, h1, h2, h3, by cases pos <;> rfl⟩

/-- No line is one that gaia mishandles: text after an indexed operand, or (in the statements up to some line) an indexed
jump to a label not yet defined. -/
structure Spec.NoTraps (src : List Byte) : Prop where
  junk : ∀ l ∈ lines src, ∀ x, Lexes l x → ¬ LineJunk (x.map (·.2))
  jump : ∀ pre rest p, lines src = pre ++ rest → Reads pre p → NoForwardIndexedJump p

theorem Reads_noTraps {ls : List (List Byte)} {p : List Stmt} (h : Reads ls p)
    (ht : ∀ l ∈ ls, ∀ x, Lexes l x → ∀ st, parse (x.map (·.2)) = some st → ¬ IndexedJump st) : ∀ st ∈ p, ¬ IndexedJump st := by
  induction h with
  | nil => simp
  | stop l rest x h1 h2 =>
    intro st hst
    obtain rfl := List.mem_singleton.1 hst
    exact ht l (by simp) x h1 _ h2
  | cons l rest x st p h1 h2 h3 hr ih =>
    intro st' hst
    rcases List.mem_cons.1 hst with rfl | hst
    · exact ht l (by simp) x h1 _ h2
    · exact ih (fun l hl => ht l (by simp [hl])) st' hst

/-- **C33, completeness**: whenever a run fails and prints anything, it is the diagnostic of the source's error, except for
sources with the peculiarities listed in the hypotheses (lines over 126 characters, literals over 64 bits, the two traps). -/
theorem C33_every_failure_partial {w : World} {srcName outName : Str} {src : List Byte} (hw : Setup w srcName outName src)
    (hsz : Sized src) (hshort : ∀ l ∈ lines src, l.length ≤ 126) (hh : ∀ l ∈ lines src, HugeFree l)
    (ht : NoTraps src) :
    (∃ binary total symbols, Succeeds w srcName outName binary total symbols) ∨
    (∃ k e pos, FirstError src k e pos ∧ FailsAt w srcName outName src k e pos) ∨
    (FailsPrinting w srcName outName [] ∧ ∃ l ∈ lines src, TooMany l) := by
  have fin : ∀ k e pos, FirstError src k e pos → ∃ k e pos, FirstError src k e pos ∧ FailsAt w srcName outName src k e pos := by
    intro k e pos h
    obtain ⟨l, text, h1, h2, h3, h4⟩ := C33_diagnostic hw hh h
    refine ⟨k, e, pos, h, l, h1, h2, ?_⟩
    rw [h4] at h3
    exact h3
  rcases lines_cases (lines src) hh with ⟨p, hp⟩ | ⟨pre, l, rest, p, hsp, hr, hns, hcase⟩
  · have hP : IsProgram src p := ⟨hsz, hshort, hp, ht.jump _ [] _ (by simp) hp⟩
    cases hc : check p with
    | none =>
      obtain ⟨s, bin, _, _, h, _⟩ := run_ok hw hP hc
      exact .inl ⟨_, _, _, h⟩
    | some q =>
      obtain ⟨k, e⟩ := q
      obtain ⟨l, x, h1, h2, _⟩ := run_error hw hP hc
      exact .inr (.inl (fin _ _ _ (.program p hP k e hc l x h1 h2)))
  · have hC : Continues src p l rest := ⟨hsz, hshort, ⟨pre, hsp, hr⟩, hns, ht.jump _ _ _ hsp hr⟩
    have hmem : l ∈ lines src := by rw [hsp]; simp
    cases hc : firstFault p 1 .init with
    | some q =>
      obtain ⟨k, e⟩ := q
      obtain ⟨l', x, h1, h2, _⟩ := run_first_fault hw hC hc
      exact .inr (.inl (fin _ _ _ (.statement p l rest hC k e hc l' x h1 h2)))
    | none =>
      rcases hcase with ⟨e, pos, hb⟩ | hb | ⟨x, hx, _, hj⟩
      · exact .inr (.inl (fin _ _ _ (.line p l rest hC hc e pos hb)))
      · exact .inr (.inr ⟨run_too_many hw hC hc hb, l, hmem, hb⟩)
      · exact absurd hj (ht.junk l hmem x hx)

/-- **C33, the line**: on *any* source, a line that is refused when it is read is reported with its number: the number of
lines (buffers) before it, plus one. -/
theorem C33_line_number {w : World} {srcName outName : Str} {src : List Byte} (hw : Setup w srcName outName src)
    {raws rest : List (List Byte)} {raw : List Byte} {st : St} (hc : chunks src = raws ++ raw :: rest)
    (h : Reached srcName raws st) {ab : Abort} (he : lineStep raw st = .err ab) (hp : ab.fail.out ≠ []) :
    ∃ e pos, message e ≠ [] ∧ FailsPrinting w srcName outName (diag (cstr raw) e pos srcName (raws.length + 1)) := by
  obtain ⟨a, h1, h2, _, h4, _⟩ := h.rel
  have hs := line_sim_few (fn := srcName) (raw := raw) h1 h2 h.few
  cases hl : line srcName raw a with
  | ok q =>
    rw [hl] at hs
    obtain ⟨st', hs, _⟩ := hs
    rw [he] at hs; cases hs
  | error ab' =>
    rw [hl] at hs
    simp only at hs
    rw [he] at hs
    obtain rfl : ab = ab' := by simpa using hs
    have hf := h.fails hw hc he
    rcases line_fault hl with ⟨e, pos, h5, h6, h7⟩ | ⟨_, h5⟩
    · rw [h5, h4] at hf
      exact ⟨e, pos, h6, hf⟩
    · rw [h5] at hp
      exact absurd rfl hp

/-- **C33**, for *any* source: a forward reference that cannot be resolved in the end is reported with the number and text of
its own line, and the arrow below its operand. -/
theorem C33_forward {w : World} {srcName outName : Str} {src : List Byte} (hw : Setup w srcName outName src)
    (hsz : Sized src) {st : St} (ha : AllAccepted srcName (chunks src) st) {pre post : List ForwardRef} {r : ForwardRef}
    (hp : pending st = pre ++ r :: post) (hpre : ∀ x ∈ pre, Resolvable st x) (hr : ¬ Resolvable st r) :
    ∃ raw ls p, (chunks src)[r.lineNum - 1]? = some raw ∧ lexemes raw = .ok ls ∧ (p, Lexeme.name r.label) ∈ ls ∧
      FailsPrinting w srcName outName (diag (cstr raw)
        (if symbol st r.label = none then .missingLabelDefinition else .tooBigOffset) (some p) srcName r.lineNum) := by
  have hc := hsz.chunks
  have hm := mainLoop_sim (fn := srcName) (chunks src) (initSt srcName) A.init 0 (Rel_init srcName) Bound_init (by omega)
    (by simp [A.init])
  have hsim := assemble_sim srcName src hsz
  have hsrc := runLines_fault (fn := srcName) (chunks src) (chunks src) [] A.init rfl rfl (by simp [A.init])
  have hml := (accepted_iff (fn := srcName) (raws := chunks src) (by omega) st).2 ha
  unfold assembleA at hsim
  cases hrun : runLines srcName (chunks src) A.init with
  | error ab =>
    rw [hrun] at hm
    simp only at hm
    rw [hml] at hm; cases hm
  | ok a =>
    rw [hrun] at hm hsim hsrc
    simp only at hm hsim hsrc
    obtain ⟨st', e1, e2, _, _⟩ := hm
    rw [hml] at e1
    obtain rfl : st = st' := by simpa using e1
    have hrefs : a.refs = pre ++ r :: post := by rw [← e2.pending, hp]
    have hrs := hsrc r (by rw [hrefs]; simp)
    obtain ⟨n1, raw, ls, g1, g2, g3, g4⟩ := hrs
    refine ⟨raw, ls, r.operandLocation, g1, g2, g3, ?_⟩
    obtain ⟨raw', d1, _, d3⟩ := (hsrc r (by rw [hrefs]; simp)).diag srcName
      (if symbol st r.label = none then .missingLabelDefinition else .tooBigOffset)
    rw [g1] at d1
    obtain rfl := Option.some.inj d1
    rw [← d3]
    have key : ∀ (pre : List ForwardRef) (out : OutFile), (∀ x ∈ pre, Resolvable st x) → ∃ out',
        patch srcName a.env (pre ++ r :: post) out = .error ⟨⟨(if symbol st r.label = none then .missingLabelDefinition else .tooBigOffset),
          diag r.sourceLine (if symbol st r.label = none then .missingLabelDefinition else .tooBigOffset) (some r.operandLocation) srcName r.lineNum⟩, out'⟩ := by
      intro pre
      induction pre with
      | nil =>
        intro out _
        rw [List.nil_append, patch]
        unfold Resolvable at hr
        simp only [e2.symbol] at hr ⊢
        cases hl : a.env.lookup r.label with
        | none => exact ⟨out, by simp⟩
        | some t =>
          simp only [hl, Option.some.injEq, exists_eq_left', not_forall, reduceCtorEq, if_false] at hr ⊢
          obtain ⟨h1, h2⟩ := hr
          rw [if_pos h1]
          cases hb : branchByte r.pc t with
          | none => exact ⟨out, rfl⟩
          | some b => rw [hb] at h2; exact absurd rfl h2
      | cons x pre ih =>
        intro out hpre
        obtain ⟨t, h1, h2⟩ := hpre x (by simp)
        rw [e2.symbol] at h1
        rw [List.cons_append, patch, h1]
        simp only
        by_cases hb : x.status = .branchForwardReference
        · obtain ⟨b, hb'⟩ := Option.isSome_iff_exists.1 (h2 hb)
          rw [if_pos hb, hb']
          exact ih _ fun y hy => hpre y (by simp [hy])
        · rw [if_neg hb]
          exact ih _ fun y hy => hpre y (by simp [hy])
    obtain ⟨out', hpat⟩ := key pre a.out hpre
    rw [hrefs, hpat] at hsim
    exact fails_of hw hsim

/-! Lines and buffers. -/

/-- The lines of a file, cut after each newline, with the newline. -/
def Spec.linesNl : List Byte → List (List Byte)
  | [] => []
  | c :: s =>
    if c = 10 then [10] :: linesNl s
    else match linesNl s with
      | [] => [[c]]
      | l :: ls => (c :: l) :: ls

/-- `InPieces l ps`: the text `l` cut into pieces of 127 characters; the last one may be shorter, but is not empty. -/
structure Spec.InPieces (l : List Byte) (ps : List (List Byte)) : Prop where
  whole : ps.flatten = l
  full : ∀ q ∈ ps.dropLast, q.length = 127
  size : ∀ q ∈ ps, q ≠ [] ∧ q.length ≤ 127

theorem fgets_split : ∀ (n : Nat) (s : List Byte), s ≠ [] → ∃ c rest, fgets (n + 1) s = (c, rest) ∧ s = c ++ rest ∧ c ≠ [] ∧
    c.length ≤ n + 1 ∧ ((linesNl s = c :: linesNl rest) ∨
      (c.length = n + 1 ∧ ∃ l0 ls, linesNl rest = l0 :: ls ∧ linesNl s = (c ++ l0) :: ls))
  | n, [], h => absurd rfl h
  | n, x :: s, _ => by
    by_cases hx : x = 10
    · subst hx
      refine ⟨[10], s, by simp [fgets], by simp, by simp, by simp, .inl (by simp [linesNl])⟩
    · cases n with
      | zero =>
        refine ⟨[x], s, by simp [fgets, hx], by simp, by simp, by simp, ?_⟩
        cases h : linesNl s with
        | nil => left; simp [linesNl, hx, h]
        | cons l0 ls => right; exact ⟨rfl, l0, ls, rfl, by simp [linesNl, hx, h]⟩
      | succ n =>
        by_cases hs : s = []
        · subst hs
          exact ⟨[x], [], by simp [fgets, hx], by simp, by simp, by simp, .inl (by simp [linesNl, hx])⟩
        · obtain ⟨c, rest, h1, h2, h3, h4, h5⟩ := fgets_split n s hs
          refine ⟨x :: c, rest, by rw [fgets, if_neg hx, h1], by rw [h2]; rfl, by simp, by simp; omega, ?_⟩
          rcases h5 with h5 | ⟨h5, l0, ls, h6, h7⟩
          · left; simp [linesNl, hx, h5]
          · right
            exact ⟨by simp [h5], l0, ls, h6, by simp [linesNl, hx, h7]⟩

/-- **C34, exactly**: gaia treats each line (with its newline) of up to 127 characters as one line, and cuts a longer one into
pieces of 127 characters, each of which it assembles as a line of its own; nothing is lost. -/
theorem C34_pieces (src : List Byte) : ∃ pss, chunks src = pss.flatten ∧ List.Forall₂ InPieces (linesNl src) pss := by
  suffices H : ∀ (n : Nat) (s : List Byte), s.length ≤ n → ∃ pss, chunks s = pss.flatten ∧ List.Forall₂ InPieces (linesNl s) pss from
    H _ src (Nat.le_refl _)
  intro n
  induction n with
  | zero =>
    intro s hs
    obtain rfl : s = [] := List.length_eq_zero_iff.1 (by omega)
    exact ⟨[], rfl, .nil⟩
  | succ n ih =>
    intro s hs
    by_cases h0 : s = []
    · subst h0; exact ⟨[], rfl, .nil⟩
    obtain ⟨c, rest, h1, h2, h3, h4, h5⟩ := fgets_split 126 s h0
    have hlen : rest.length ≤ n := by
      have : 0 < c.length := List.length_pos_iff.2 h3
      rw [h2, List.length_append] at hs
      omega
    obtain ⟨pss, g1, g2⟩ := ih rest hlen
    rw [chunks_cons h0, h1]
    simp only
    rw [g1]
    rcases h5 with h5 | ⟨h5, l0, ls, h6, h7⟩
    · refine ⟨[c] :: pss, rfl, ?_⟩
      rw [h5]
      exact .cons ⟨by simp, by simp, by simpa using ⟨h3, h4⟩⟩ g2
    · rw [h6] at g2
      cases g2 with
      | @cons _ ps _ pss' hp hr =>
        refine ⟨(c :: ps) :: pss', rfl, ?_⟩
        rw [h7]
        refine .cons ⟨by simp [hp.whole], ?_, ?_⟩ hr
        · intro q hq
          cases ps with
          | nil => simp at hq
          | cons p ps =>
            simp only [List.dropLast_cons₂, List.mem_cons] at hq
            rcases hq with rfl | hq
            · exact h5
            · exact hp.full q hq
        · intro q hq
          rcases List.mem_cons.1 hq with rfl | hq
          · exact ⟨h3, h4⟩
          · exact hp.size q hq

/-- **C34.** Lines of at most 126 characters are processed whole: the texts gaia works on are the lines of the file, in order,
with or without their newline. Missing from the full property (hence `_partial`): longer lines, where it is false, see
`C34_long_line`. -/
theorem C34_whole_lines_partial (src : List Byte) (h : ∀ l ∈ lines src, l.length ≤ 126) :
    List.Forall₂ (fun raw l => raw = l ∨ raw = l ++ [10]) (chunks src) (lines src) :=
  chunks_lines src h

/-- **The full C34 is false**: the end of a long comment is assembled, and the lines after it are counted wrong. -/
theorem C34_long_line : ∃ src : List Byte, lines src = [b! ";" ++ List.replicate 126 32 ++ b! "NOP", b! "?"] ∧
    demoRun src = some (1, b! "p.asm:3: ERROR: illegal character\n?\n^~~~~~\n\n", some [0xEA]) := by
  refine ⟨b! ";" ++ List.replicate 126 32 ++ b! "NOP\n?\n", ?_, ?_⟩ <;> decide +kernel

/-! Non-vacuity: a tab before a label that is defined twice; a bad literal; a branch to nowhere. -/

/-- Concrete program: the third line defines `L` again, after a tab. -/
theorem c33_redefinition : FirstError (b! "L NOP\nBNE X1\n\tL RTS\n") 3 .labelRedefinition (some 1) :=
  .program [.instr (some (b! "L")) .NOP .none, .instr none .BNE (.plain (.sym (b! "X1"))), .instr (some (b! "L")) .RTS .none]
    (isProgram_eval (by decide) (by decide +kernel) (by decide +kernel) (by decide)) 3 _ (by decide +kernel) (b! "\tL RTS")
    [(1, .name (b! "L")), (3, .mnem .RTS)] (by decide +kernel) (lexes_eval (by decide +kernel) (by decide +kernel))

/-- Concrete program: the branch in line 1 goes to a label that is never defined. -/
theorem c33_undefined : FirstError (b! "  BNE X1\nNOP\n") 1 .missingLabelDefinition (some 6) :=
  .program [.instr none .BNE (.plain (.sym (b! "X1"))), .instr none .NOP .none]
    (isProgram_eval (by decide) (by decide +kernel) (by decide +kernel) (by decide)) 1 _ (by decide +kernel) (b! "  BNE X1")
    [(2, .mnem .BNE), (6, .name (b! "X1"))] (by decide +kernel) (lexes_eval (by decide +kernel) (by decide +kernel))

example : FailsAt (demo (b! "L NOP\nBNE X1\n\tL RTS\n")) (b! "p.asm") (b! "p.bin") (b! "L NOP\nBNE X1\n\tL RTS\n") 3
    .labelRedefinition (some 1) := by
  obtain ⟨l, text, h1, h2, h3, h4⟩ := C33_diagnostic (demo_setup _)
    (fun l hl => hugeFree_of_runs ((by decide +kernel : ∀ l ∈ lines (b! "L NOP\nBNE X1\n\tL RTS\n"), runs 0 (code l) = true) l hl))
    c33_redefinition
  rw [h4] at h3
  exact ⟨l, h1, h2, h3⟩

/-- An indexed jump to a known label: refused as it should be. -/
example : FirstError (b! "L NOP\n JMP L,X\n") 2 .illegalAddressingMode none :=
  .program [.instr (some (b! "L")) .NOP .none, .instr none .JMP (.idxX (.sym (b! "L")))]
    ⟨by decide, by decide +kernel, reads_eval (by decide +kernel), noForward_eval (by decide +kernel)⟩ 2 _ (by decide +kernel)
    (b! " JMP L,X") [(1, .mnem .JMP), (5, .name (b! "L")), (6, .comma), (7, .regX)] (by decide +kernel)
    (lexes_eval (by decide +kernel) (by decide +kernel))

/-- A source without traps (and with a missing operand). -/
example : NoTraps (b! "LDA #\n") := by
  have key : ∀ l ∈ lines (b! "LDA #\n"), ∀ x, Lexes l x →
      ¬ LineJunk (x.map (·.2)) ∧ ∀ st, parse (x.map (·.2)) = some st → ¬ IndexedJump st := ?_
  · exact ⟨fun l hl x hx => (key l hl x hx).1, fun pre rest p hl hr => noForward_of (Reads_noTraps hr
      fun l hm x hx st hst => (key l (by rw [hl]; simp [hm]) x hx).2 st hst)⟩
  intro l hl x hx
  obtain rfl : l = b! "LDA #" := by
    have : lines (b! "LDA #\n") = [b! "LDA #"] := by decide +kernel
    rw [this] at hl; simpa using hl
  obtain rfl := Lexes_unique hx (lexes_eval (ls := [(0, .mnem .LDA), (4, .hash)]) (by decide +kernel) (by decide +kernel))
  refine ⟨?_, fun st h => by simp [parse, parseArg, opd] at h⟩
  rintro ⟨m, args, h | ⟨l, h⟩, o, r, more, rfl, _⟩ <;> simp at h

/-- The arrow of the redefinition is in column 8, where the tab leads. -/
example : (demoRun (b! "L NOP\nBNE X1\n\tL RTS\n")).map (·.2.1) =
    some (b! "p.asm:3: ERROR: no redefinition of labels\n\tL RTS\n        ^~~~~~\n\n") := by decide +kernel

/-- A source with one unresolvable reference, in line 2, after a good one. -/
example : ∃ st pre r post, AllAccepted (b! "p.asm") (chunks (b! "BNE L\nJMP Q\nL RTS\n")) st ∧ pending st = pre ++ r :: post ∧
    pre.length = 1 ∧ r.lineNum = 2 ∧ r.label = b! "Q" ∧ symbol st (b! "Q") = none := by
  obtain ⟨st, h1, h2⟩ := reach_eval (fn := b! "p.asm") (raws := chunks (b! "BNE L\nJMP Q\nL RTS\n"))
    (fun st => (pending st).length = 2 ∧ ((pending st)[1]?.map fun r => (r.lineNum, r.label)) = some (2, b! "Q") ∧ symbol st (b! "Q") = none)
    (by decide +kernel) (by decide +kernel)
  obtain ⟨h3, h4, h5⟩ := h2
  match hp : pending st, h3 with
  | [a, b], _ =>
    rw [hp] at h4
    simp only [List.getElem?_cons_succ, List.getElem?_cons_zero, Option.map_some, Option.some.injEq, Prod.mk.injEq] at h4
    exact ⟨st, [a], b, [], .all h1, hp, rfl, h4.1, h4.2, h5⟩

end Gaia

import Verif.Props.Example

/-!
The states gaia's main loop can be in, and what one line does to such a state, seen from outside: the location counter,
the symbols, the output file and the counters.
-/
namespace Gaia
open Spec

/-- `Reached fn raws st`: after reading the buffers `raws` (fewer than `maxSymbols` of them), none of which stopped the assembly,
gaia is in the state `st`. -/
inductive Reached (fn : Str) : List (List Byte) → St → Prop
  | start : Reached fn [] (initSt fn)
  | next {raws : List (List Byte)} {st st' : St} (raw : List Byte) (h : Reached fn raws st) (few : raws.length + 1 < maxSymbols)
      (hl : lineStep raw st = .ok (.continue st')) : Reached fn (raws ++ [raw]) st'

/-- The value of a symbol in a state, as the symbol table reports it. -/
def symbol (st : St) (x : Str) : Option Nat :=
  match searchSymbol st.symtab x with
  | .ok v => if v < 0 then none else some v.toNat
  | _ => none

/-- The byte at an offset of the output file (0 beyond its end). -/
def fileByte (st : St) (i : Nat) : Byte := st.out.bytes.getD i 0

theorem Rel.symbol {fn : Str} {st : St} {a : A} (h : Rel fn st a) (x : Str) : symbol st x = a.env.lookup x := by
  unfold Gaia.symbol
  rw [search_eq h x]
  cases a.env.lookup x with
  | none => rfl
  | some v => simp

/-- What an accepted line consists of. -/
theorem line_ok {fn : Str} {raw : List Byte} {a a' : A} {b : Bool} (h : line fn raw a = .ok (b, a')) :
    ∃ ls a1, lexemes raw = .ok ls ∧ syn (typeAt (ls.map (·.2))) = .ok () ∧ declare ls a = .ok a1 ∧
      ((isStop ls = true ∧ b = true ∧ a' = a1) ∨
       (isStop ls = false ∧ b = false ∧ lastMnem (ls.map (·.2)) = none ∧ a' = { a1 with lineNum := a1.lineNum + 1 }) ∨
       (isStop ls = false ∧ b = false ∧ ∃ m, lastMnem (ls.map (·.2)) = some m ∧ instrStep (cstr raw) ls m a1 = .ok a')) := by
  unfold line at h
  cases hl : lexemes raw with
  | error f => rw [hl] at h; cases f <;> cases h
  | ok ls =>
    rw [hl] at h
    simp only at h
    cases hs : syn (typeAt (ls.map (·.2))) with
    | error q => rw [hs] at h; cases h
    | ok u =>
      rw [hs] at h
      simp only at h
      unfold step at h
      cases hd : declare ls a with
      | error f => rw [hd] at h; cases h
      | ok a1 =>
        rw [hd] at h
        simp only at h
        refine ⟨ls, a1, rfl, hs, hd, ?_⟩
        cases hi : isStop ls with
        | true =>
          rw [hi, if_pos rfl] at h
          simp only [Except.ok.injEq, Prod.mk.injEq] at h
          exact .inl ⟨rfl, h.1.symm, h.2.symm⟩
        | false =>
          rw [hi, if_neg (by simp)] at h
          cases hm : lastMnem (ls.map (·.2)) with
          | none =>
            rw [hm] at h
            simp only [Except.ok.injEq, Prod.mk.injEq] at h
            exact .inr (.inl ⟨rfl, h.1.symm, rfl, h.2.symm⟩)
          | some m =>
            rw [hm] at h
            simp only at h
            cases hx : instrStep (cstr raw) ls m a1 with
            | error f => rw [hx] at h; cases h
            | ok a2 =>
              rw [hx] at h
              simp only [Except.ok.injEq, Prod.mk.injEq] at h
              exact .inr (.inr ⟨rfl, h.1.symm, m, rfl, by rw [← h.2]; exact hx⟩)

/-- What a declaration does. -/
theorem declare_ok {ls : List (Nat × Lexeme)} {a a1 : A} (h : declare ls a = .ok a1) :
    a1.lineNum = a.lineNum ∧ a1.total = a.total ∧ a1.refs = a.refs ∧ a1.out = a.out ∧
    ((∃ p l v, declared a.pc ls = some (p, l, v) ∧ a.env.lookup l = none ∧ a1.env = (l, v) :: a.env ∧ a1.pc = a.pc) ∨
     (declared a.pc ls = none ∧ a1.env = a.env ∧ a1.pc = (originOf ls).getD a.pc)) := by
  unfold declare at h
  cases hd : declared a.pc ls with
  | some q =>
    obtain ⟨p, l, v⟩ := q
    rw [hd] at h
    simp only at h
    cases hl : a.env.lookup l with
    | some w => rw [hl] at h; cases h
    | none =>
      rw [hl] at h
      simp only [Except.ok.injEq] at h
      subst h
      exact ⟨rfl, rfl, rfl, rfl, .inl ⟨p, l, v, rfl, hl, rfl, rfl⟩⟩
  | none =>
    rw [hd] at h
    simp only at h
    cases ho : originOf ls with
    | some v =>
      rw [ho] at h
      simp only [Except.ok.injEq] at h
      subst h
      exact ⟨rfl, rfl, rfl, rfl, .inr ⟨rfl, rfl, rfl⟩⟩
    | none =>
      rw [ho] at h
      simp only [Except.ok.injEq] at h
      subst h
      exact ⟨rfl, rfl, rfl, rfl, .inr ⟨rfl, rfl, rfl⟩⟩

theorem line_next {fn : Str} {raw : List Byte} {a a' : A} (h : line fn raw a = .ok (false, a')) : a'.lineNum = a.lineNum + 1 := by
  obtain ⟨ls, a1, _, _, hd, hc⟩ := line_ok h
  have := (declare_ok hd).1
  rcases hc with ⟨_, hb, _⟩ | ⟨_, _, _, rfl⟩ | ⟨_, _, m, _, hi⟩
  · cases hb
  · simp only [this]
  · rcases instrStep_cases hi with ⟨bs, _, _, rfl⟩ | ⟨p, l, bs, _, _, _, _, _, rfl⟩ <;> simp [A.emit, A.saveRef, this]

/-- A reached state, and the pure machine. -/
theorem Reached.rel {fn : Str} {raws : List (List Byte)} {st : St} (h : Reached fn raws st) :
    ∃ a, Rel fn st a ∧ Bound raws.length a ∧ (∀ r ∈ a.refs, GoodRef r) ∧ a.lineNum = raws.length + 1 ∧
      ∀ rest, runLines fn (raws ++ rest) A.init = runLines fn rest a := by
  induction h with
  | start => exact ⟨A.init, Rel_init fn, Bound_init, by simp [A.init], rfl, fun rest => rfl⟩
  | @next raws st st' raw h few hl ih =>
    obtain ⟨a, h1, h2, h3, h4, h5⟩ := ih
    have hM : maxSymbols = 21474836 := rfl
    have := line_sim_few (raw := raw) h1 h2 (by omega)
    cases hp : line fn raw a with
    | error e => rw [hp] at this; simp only at this; rw [this] at hl; cases hl
    | ok q =>
      obtain ⟨b, a'⟩ := q
      rw [hp] at this
      obtain ⟨st'', g1, g2, g3, g4⟩ := this
      rw [g1] at hl
      cases b with
      | true => simp [nextOf] at hl
      | false =>
        obtain rfl : st'' = st' := by simpa [nextOf] using hl
        refine ⟨a', g2, by simpa using g3, fun r hr => ?_, ?_, fun rest => ?_⟩
        · rcases g4 r hr with h | h
          · exact h3 r h
          · exact h
        · have := line_next hp
          rw [this, h4]; simp
        · rw [List.append_assoc, h5, List.singleton_append, runLines, hp]

/-- A line of the documented language is accepted by the lexer and the parser. -/
theorem stmt_lexemes {raw : List Byte} {ls : List (Nat × Lexeme)} {s : Stmt} (hl : Lexes raw ls)
    (hp : parse (ls.map (·.2)) = some s) : lexemes raw = .ok ls ∧ syn (typeAt (ls.map (·.2))) = .ok () := by
  refine ⟨?_, (syn_ok_iff _).2 (.inl (by rw [hp]; rfl))⟩
  rw [lexemes_complete hl, if_pos]
  have := parse_length (ls := ls.map (·.2)) (by rw [hp]; rfl)
  simp only [List.length_map] at this
  omega

/-- The symbols an instruction sees: those known before the line, and the label of the line itself. -/
def labelled (lab : Option Str) (a : A) : A :=
  match lab with
  | none => a
  | some l => { a with env := (l, a.pc) :: a.env }

theorem line_stmt {fn : Str} {raw : List Byte} {ls : List (Nat × Lexeme)} {s : Stmt} (hl : Lexes raw ls)
    (hp : parse (ls.map (·.2)) = some s) (a : A) :
    line fn raw a = match step (cstr raw) ls a with
      | .error f => .error (faultAt fn (cstr raw) a f)
      | .ok r => .ok r := by
  obtain ⟨h1, h2⟩ := stmt_lexemes hl hp
  unfold line
  rw [h1]
  simp only
  rw [h2]
  cases step (cstr raw) ls a <;> rfl

/-- A line with an instruction whose label, if it has one, is new. -/
theorem line_new_instr {fn : Str} {raw : List Byte} {ls : List (Nat × Lexeme)} {lab : Option Str} {m : Mnemonic} {arg : Arg}
    (hl : Lexes raw ls) (hp : parse (ls.map (·.2)) = some (.instr lab m arg)) {a : A}
    (hlab : ∀ l, lab = some l → a.env.lookup l = none) :
    line fn raw a = match instrStep (cstr raw) ls m (labelled lab a) with
      | .error f => .error (faultAt fn (cstr raw) a f)
      | .ok a' => .ok (false, a') := by
  obtain ⟨_, f2, _, f4, f5, f6⟩ := instr_facts hp
  rw [line_stmt hl hp]
  have hd : declare ls a = .ok (labelled lab a) := by
    unfold declare
    have := f5 a.pc
    cases lab with
    | none =>
      have h0 : declared a.pc ls = none := by simpa using this
      rw [h0, f6 rfl]
      rfl
    | some l =>
      obtain ⟨⟨p, q⟩, hq, he⟩ := Option.map_eq_some_iff.1 this
      simp only at he
      subst he
      rw [hq]
      simp only [hlab l rfl]
      rfl
  unfold step
  rw [hd]
  simp only
  rw [f4, if_neg (by simp), f2]
  simp only
  cases instrStep (cstr raw) ls m (labelled lab a) <;> rfl

/-- A line whose instruction has a label that is already defined. -/
theorem line_instr_dup {fn : Str} {raw : List Byte} {ls : List (Nat × Lexeme)} {l : Str} {m : Mnemonic} {arg : Arg}
    (hl : Lexes raw ls) (hp : parse (ls.map (·.2)) = some (.instr (some l) m arg)) {a : A} {v : Nat}
    (hlab : a.env.lookup l = some v) :
    line fn raw a = .error (faultAt fn (cstr raw) a (.labelRedefinition, (nameOffsets ls).head?)) := by
  obtain ⟨_, _, _, _, f5, _⟩ := instr_facts hp
  rw [line_stmt hl hp]
  obtain ⟨⟨p, q⟩, hq, he⟩ := Option.map_eq_some_iff.1 (f5 a.pc)
  simp only at he
  subst he
  have hn : (nameOffsets ls).head? = some p := by
    rcases parse_instr hp with ⟨h, _⟩ | ⟨l', r, h1, h2, _⟩
    · cases h
    · cases h1
      match ls, h2 with
      | (p', x) :: ls', h2 =>
        simp only [List.map_cons, List.cons.injEq] at h2
        obtain ⟨rfl, h2⟩ := h2
        match ls', h2 with
        | (p'', x') :: ls'', h2 =>
          simp only [List.map_cons, List.cons.injEq] at h2
          obtain ⟨rfl, _⟩ := h2
          simp only [declared, Option.some.injEq, Prod.mk.injEq] at hq
          simp [nameOffsets, hq.1]
  unfold step declare
  rw [hq]
  simp only [hlab, hn]

/-- `Assembled st st' bs`: the bytes `bs` were assembled at the location counter of `st`, and no other byte of the output
file changed. -/
structure Assembled (st st' : St) (bs : List Byte) : Prop where
  pc : st'.pc = st.pc + bs.length
  total : st'.total = st.total + bs.length
  line : st'.lineNum = st.lineNum + 1
  inside : ∀ i, i < bs.length → st'.out.bytes[st.pc + i]? = bs[i]?
  outside : ∀ i, i < st.pc ∨ st.pc + bs.length ≤ i → fileByte st' i = fileByte st i
  size : st'.out.bytes.length = max st.out.bytes.length (st.pc + bs.length)

theorem emitted {f : OutFile} {pc : Nat} {bs : List Byte} (hne : bs ≠ []) :
    ((f.seek pc).puts bs).bytes.length = max f.bytes.length (pc + bs.length) ∧
    (∀ i, i < bs.length → ((f.seek pc).puts bs).bytes[pc + i]? = bs[i]?) ∧
    ∀ i, i < pc ∨ pc + bs.length ≤ i → ((f.seek pc).puts bs).bytes.getD i 0 = f.bytes.getD i 0 := by
  have hlen : ((f.seek pc).puts bs).bytes.length = max f.bytes.length (pc + bs.length) := by
    rw [puts_length, if_neg hne]; rfl
  refine ⟨hlen, fun i hi => ?_, fun i hi => ?_⟩
  · have h := puts_get bs (f.seek pc) (pc + i)
    have hat : Chunk.at ((f.seek pc).pos, bs) (pc + i) = some bs[i] := by
      show Chunk.at (pc, bs) (pc + i) = _
      simp [Chunk.at, hi]
    rw [hat, Option.getD_some] at h
    have hlt : pc + i < ((f.seek pc).puts bs).bytes.length := by rw [hlen]; omega
    rw [List.getElem?_eq_getElem hlt, List.getElem?_eq_getElem hi]
    rw [List.getD_eq_getElem _ _ hlt] at h
    rw [h]
  · have h := puts_get bs (f.seek pc) i
    rw [Chunk.at_none (c := ((f.seek pc).pos, bs)) (by simpa [OutFile.seek] using hi)] at h
    simpa [OutFile.seek] using h

/-- Emitting bytes, seen from outside. -/
theorem assembled_of {fn : Str} {st st' : St} {a a' : A} (h : Rel fn st a) (h' : Rel fn st' (a'.emit bs)) (hpc : a'.pc = a.pc)
    (ht : a'.total = a.total) (hln : a'.lineNum = a.lineNum) (ho : a'.out = a.out) (hne : bs ≠ []) : Assembled st st' bs := by
  have hout : st'.out = (st.out.seek st.pc).puts bs := by rw [h'.out, h.out, h.pc, ← ho, ← hpc]; rfl
  obtain ⟨e1, e2, e3⟩ := emitted (f := st.out) (pc := st.pc) hne
  refine ⟨?_, ?_, ?_, ?_, ?_, ?_⟩
  · rw [h'.pc, h.pc, ← hpc]; rfl
  · rw [h'.total, h.total, ← ht]; rfl
  · rw [h'.lineNum, h.lineNum, ← hln]; rfl
  · rw [hout]; exact e2
  · unfold fileByte; rw [hout]; exact e3
  · rw [hout]; exact e1

/-! Whole runs. -/

theorem Reached.few {fn : Str} {raws : List (List Byte)} {st : St} (h : Reached fn raws st) : raws.length < maxSymbols := by
  cases h with
  | start => simp [maxSymbols]
  | next raw h few hl => simpa using few

theorem Reached.loop {fn : Str} {raws : List (List Byte)} {st : St} (h : Reached fn raws st) (rest : List (List Byte)) :
    mainLoop (raws ++ rest) (initSt fn) = mainLoop rest st := by
  induction h generalizing rest with
  | start => rfl
  | @next raws st st' raw h few hl ih =>
    rw [List.append_assoc, ih, List.singleton_append, mainLoop, hl]
    rfl

/-- If a line is refused, gaia exits with status 1, printing the message of that line and nothing else, and the output
file holds what had been assembled before. -/
theorem Reached.fails {w : World} {srcName outName : Str} {src : List Byte} (hw : Setup w srcName outName src)
    {raws rest : List (List Byte)} {raw : List Byte} {st : St} (hc : chunks src = raws ++ raw :: rest)
    (h : Reached srcName raws st) {ab : Abort} (he : lineStep raw st = .err ab) :
    FailsPrinting w srcName outName ab.fail.out := by
  have : assembleBytes srcName src = .err ab := by
    unfold assembleBytes
    rw [hc, h.loop, mainLoop, he]
    rfl
  exact fails_of hw this

/-! Reached states of concrete texts, by evaluation. -/

def stepsEval : List (List Byte) → St → Option St
  | [], st => some st
  | raw :: rest, st =>
    match lineStep raw st with
    | .ok (.continue st') => stepsEval rest st'
    | _ => none

theorem stepsEval_reached {fn : Str} : ∀ (raws pre : List (List Byte)) (st st' : St), Reached fn pre st →
    pre.length + raws.length < maxSymbols → stepsEval raws st = some st' → Reached fn (pre ++ raws) st'
  | [], pre, st, st', h, _, he => by
    obtain rfl : st = st' := by simpa [stepsEval] using he
    simpa using h
  | raw :: rest, pre, st, st', h, hf, he => by
    unfold stepsEval at he
    simp only [List.length_cons] at hf
    split at he
    · rename_i st1 hl
      have := stepsEval_reached rest (pre ++ [raw]) st1 st' (.next raw h (by omega) hl) (by simp; omega) he
      simpa using this
    · cases he

/-- There is a reached state with a property, by evaluation. -/
theorem reach_eval {fn : Str} {raws : List (List Byte)} (P : St → Prop) [DecidablePred P] (hf : raws.length < maxSymbols)
    (h : (stepsEval raws (initSt fn)).any (fun st => decide (P st)) = true) : ∃ st, Reached fn raws st ∧ P st := by
  cases hs : stepsEval raws (initSt fn) with
  | none => rw [hs] at h; cases h
  | some st =>
    rw [hs] at h
    refine ⟨st, ?_, by simpa using h⟩
    have := stepsEval_reached raws [] (initSt fn) st .start (by simpa using hf) hs
    simpa using this

end Gaia

import Verif.Model.IO

/-! The model with failing files: the run does not depend on the device. -/
set_option maxRecDepth 10000
namespace Gaia.IO
open Gaia

/-- Change errors and values of a result. -/
def mapC {ε ε' α β : Type} (e : ε → ε') (g : α → β) : C ε α → C ε' β
  | .ok a => .ok (g a)
  | .err x => .err (e x)
  | .ub u => .ub u

@[simp] theorem mapC_ok {ε ε' α β : Type} (e : ε → ε') (g : α → β) (a : α) : mapC e g (.ok a) = .ok (g a) := rfl
@[simp] theorem mapC_err {ε ε' α β : Type} (e : ε → ε') (g : α → β) (x : ε) : mapC e g (.err x) = .err (e x) := rfl
@[simp] theorem mapC_ub {ε ε' α β : Type} (e : ε → ε') (g : α → β) (u : UB) : mapC e g (.ub u) = .ub u := rfl

theorem mapC_bind {ε ε' α α' β β' : Type} {e : ε → ε'} {g : β → β'} (g1 : α → α') {x : C ε α} {x' : C ε' α'} {k : α → C ε β}
    {k' : α' → C ε' β'} (hx : x' = mapC e g1 x) (hk : ∀ a, k' (g1 a) = mapC e g (k a)) :
    (x' >>= k') = mapC e g (x >>= k) := by
  subst hx
  cases x with
  | ok a => exact hk a
  | err _ => rfl
  | ub _ => rfl

/-- A map of devices: it commutes with the operations. -/
structure Hom {D E : Type} (dev : Device D) (dev' : Device E) (h : D → E) : Prop where
  seek : ∀ d n, h (dev.seek d n) = dev'.seek (h d) n
  putc : ∀ d v, h (dev.putc d v) = dev'.putc (h d) v

def State.map {D E : Type} (h : D → E) (st : State D) : State E :=
  { pc := st.pc, lineNum := st.lineNum, total := st.total, symtab := st.symtab, unres := st.unres, out := h st.out,
    lexer := st.lexer, tk := st.tk, instr := st.instr }

def Next.map {D E : Type} (h : D → E) : Next D → Next E
  | .continue st => .continue (st.map h)
  | .stop st => .stop (st.map h)

def failMap {D E : Type} (h : D → E) (x : Fail × D) : Fail × E := (x.1, h x.2)

section
variable {D E : Type} {dev : Device D} {dev' : Device E} {h : D → E}

theorem generateCode_map (hh : Hom dev dev' h) (f : D) (instr : Instr) (operand : Option Token) (pc : Nat) :
    generateCode dev' (h f) instr operand pc = ((h (generateCode dev f instr operand pc).1), (generateCode dev f instr operand pc).2) := by
  unfold generateCode
  cases operand with
  | none => simp only [hh.putc, hh.seek]
  | some op =>
    simp only
    split_ifs <;> simp only [hh.putc, hh.seek]

theorem resolveLabelRef_map (hh : Hom dev dev' h) (f : D) (lx : Lexer) (instr : Instr) (label : Option Token) (status : OpStatus)
    (symtab : SymTab) (pc : Nat) : resolveLabelRef dev' (h f) lx instr label status symtab pc =
      mapC id (fun r => (h r.1, r.2)) (resolveLabelRef dev f lx instr label status symtab pc) := by
  have hr : ∀ {α : Type} {β : Type} {g : α → β} {l c p n k}, (raise l c p n k : Res β) = mapC id g (raise l c p n k : Res α) := by
    intros; unfold raise; exact mapC_bind id (by cases printError .. <;> rfl) fun _ => rfl
  unfold resolveLabelRef
  cases label with
  | none => exact hr
  | some label =>
    simp only
    refine mapC_bind id (by cases searchSymbol symtab label.str <;> rfl) fun dest => ?_
    simp only [id]
    split_ifs
    · refine mapC_bind id (by cases calcBranchOffset pc dest <;> rfl) fun o => ?_
      cases o with
      | none => exact hr
      | some o => simp [generateCode_map hh]
    · simp [generateCode_map hh]
    · exact hr

theorem resolveForwardRef_map (hh : Hom dev dev' h) (f : D) (ref : ForwardRef) (lx : Lexer) (dest : Int) :
    resolveForwardRef dev' (h f) ref lx dest = mapC id h (resolveForwardRef dev f ref lx dest) := by
  have hr : ∀ {α : Type} {β : Type} {g : α → β} {l c p n k}, (raise l c p n k : Res β) = mapC id g (raise l c p n k : Res α) := by
    intros; unfold raise; exact mapC_bind id (by cases printError .. <;> rfl) fun _ => rfl
  unfold resolveForwardRef
  by_cases h1 : ref.status = .branchForwardReference
  · rw [if_pos h1, if_pos h1]
    refine mapC_bind id (by cases calcBranchOffset ref.pc dest <;> rfl) fun o => ?_
    cases o with
    | none => exact hr
    | some o =>
      simp only [id]
      split_ifs
      · simp [hh.putc, hh.seek]
      · exact hr
  · rw [if_neg h1, if_neg h1]
    split_ifs
    · simp [hh.putc, hh.seek]
    · exact hr
    · exact hr

theorem orAbort_map {α β : Type} {g : α → β} (d : D) {r : Res α} {r' : Res β} (hr : r' = mapC id g r) :
    orAbort (h d) r' = mapC (failMap h) g (orAbort d r) := by
  subst hr; cases r <;> rfl

theorem orAbort_map' {α : Type} (d : D) (r : Res α) : orAbort (h d) r = mapC (failMap h) id (orAbort d r) := by
  cases r <;> rfl

theorem saveForwardRef_map (hh : Hom dev dev' h) (buffer : Str) (st : State D) (instr : Instr) (operand : Option Token)
    (status : OpStatus) : saveForwardRef dev' buffer (st.map h) instr operand status =
      mapC (failMap h) (State.map h) (saveForwardRef dev buffer st instr operand status) := by
  unfold saveForwardRef
  refine mapC_bind id (orAbort_map' st.out _) fun r => mapC_bind id (orAbort_map' st.out _) fun u => ?_
  by_cases h1 : status = .jumpForwardReference <;> simp [h1, State.map, hh.putc]

theorem bumpLine_map {α β : Type} {g : α → β} (st : State D) (k : State D → Run D α) (k' : State E → Run E β)
    (hk : ∀ s, k' (s.map h) = mapC (failMap h) g (k s)) : bumpLine (st.map h) k' = mapC (failMap h) g (bumpLine st k) := by
  unfold bumpLine
  have : (st.map h).lineNum = st.lineNum := rfl
  rw [this]
  split_ifs
  · rfl
  · exact hk { st with lineNum := st.lineNum + 1 }

theorem instructionStep_map (hh : Hom dev dev' h) (buffer : Str) (st : State D) :
    instructionStep dev' buffer (st.map h) = mapC (failMap h) (State.map h) (instructionStep dev buffer st) := by
  have fin : ∀ (s : State D) (r : D × Nat), bumpLine { s.map h with out := h r.1 } (fun st =>
      if st.pc + r.2 > INT_MAX ∨ st.total + r.2 > INT_MAX then .ub .signedOverflow
      else pure { st with pc := st.pc + r.2, total := st.total + r.2 }) = mapC (failMap h) (State.map h)
      (bumpLine { s with out := r.1 } (fun st =>
        if st.pc + r.2 > INT_MAX ∨ st.total + r.2 > INT_MAX then .ub .signedOverflow
        else pure { st with pc := st.pc + r.2, total := st.total + r.2 })) := by
    intro s r
    refine bumpLine_map (h := h) { s with out := r.1 } _ _ fun s => ?_
    by_cases h1 : s.pc + r.2 > INT_MAX ∨ s.total + r.2 > INT_MAX
    · rw [if_pos h1, if_pos (show (s.map h).pc + r.2 > INT_MAX ∨ (s.map h).total + r.2 > INT_MAX from h1)]; rfl
    · rw [if_neg h1, if_neg (show ¬ ((s.map h).pc + r.2 > INT_MAX ∨ (s.map h).total + r.2 > INT_MAX) from h1)]; rfl
  unfold instructionStep
  refine mapC_bind id (orAbort_map' st.out _) fun operand => mapC_bind id (orAbort_map' st.out _) fun so =>
    mapC_bind id (orAbort_map' st.out _) fun ri => ?_
  obtain ⟨status, operand⟩ := so
  obtain ⟨res, instr⟩ := ri
  have gen : ∀ s : State D, (do
      let (out, written) ←
        if status = .branchOperand ∨ status = .jumpOperand then
          orAbort (s.map h).out (resolveLabelRef dev' (s.map h).out (s.map h).lexer instr operand status (s.map h).symtab (s.map h).pc)
        else pure (generateCode dev' (s.map h).out instr operand (s.map h).pc)
      bumpLine { s.map h with out := out } fun st =>
        if st.pc + written > INT_MAX ∨ st.total + written > INT_MAX then .ub .signedOverflow
        else pure { st with pc := st.pc + written, total := st.total + written }) = mapC (failMap h) (State.map h) (do
      let (out, written) ←
        if status = .branchOperand ∨ status = .jumpOperand then
          orAbort s.out (resolveLabelRef dev s.out s.lexer instr operand status s.symtab s.pc)
        else pure (generateCode dev s.out instr operand s.pc)
      bumpLine { s with out := out } fun st =>
        if st.pc + written > INT_MAX ∨ st.total + written > INT_MAX then .ub .signedOverflow
        else pure { st with pc := st.pc + written, total := st.total + written }) := by
    intro s
    split_ifs
    · exact mapC_bind (fun r : D × Nat => (h r.1, r.2))
        (orAbort_map (g := fun r : D × Nat => (h r.1, r.2)) s.out (resolveLabelRef_map hh s.out s.lexer instr operand status s.symtab s.pc)) (fin s)
    · have hg : generateCode dev' (s.map h).out instr operand (s.map h).pc = _ := generateCode_map hh s.out instr operand s.pc
      rw [hg]
      exact fin s _
  cases res with
  | flag => exact gen { st with instr := instr }
  | forwardReference =>
    exact mapC_bind (State.map h) (saveForwardRef_map hh buffer { st with instr := instr } instr operand status) gen

theorem declareStep_map (first : Token) (st : State D) :
    declareStep first (st.map h) = mapC (failMap h) (State.map h) (declareStep first st) := by
  unfold declareStep
  split_ifs
  · exact mapC_bind id (orAbort_map' st.out _) fun _ => rfl
  · rfl
  · rfl

theorem lineStep_map (hh : Hom dev dev' h) (raw : List Byte) (st : State D) :
    lineStep dev' raw (st.map h) = mapC (failMap h) (Next.map h) (lineStep dev raw st) := by
  unfold lineStep
  refine mapC_bind id (orAbort_map' st.out _) fun r => mapC_bind id (orAbort_map' st.out _) fun lx =>
    mapC_bind id (orAbort_map' st.out _) fun first => ?_
  obtain ⟨lexer, tk, instr⟩ := r
  refine mapC_bind (State.map h) (declareStep_map first { st with lexer := lx, tk := tk, instr := instr }) fun s => ?_
  simp only [id]
  have : (s.map h).instr = s.instr := rfl
  rw [this]
  split_ifs
  · rfl
  · exact bumpLine_map _ _ _ fun _ => rfl
  · exact mapC_bind (State.map h) (instructionStep_map hh _ _) fun _ => rfl

theorem mainLoop_map (hh : Hom dev dev' h) : ∀ (bufs : List (List Byte)) (st : State D),
    mainLoop dev' bufs (st.map h) = mapC (failMap h) (State.map h) (mainLoop dev bufs st)
  | [], _ => rfl
  | raw :: rest, st => by
    unfold mainLoop
    refine mapC_bind (Next.map h) (lineStep_map hh raw st) fun n => ?_
    cases n with
    | «continue» s => exact mainLoop_map hh rest s
    | stop s => rfl

theorem resolveAll_map (hh : Hom dev dev' h) (st : State D) : ∀ (n i : Nat) (out : D),
    resolveAll dev' (st.map h) n i (h out) = mapC (failMap h) h (resolveAll dev st n i out)
  | 0, _, _ => rfl
  | n + 1, i, out => by
    unfold resolveAll
    have : (st.map h).unres = st.unres := rfl
    rw [this]
    cases st.unres.refs[i]? with
    | none => rfl
    | some r =>
      cases r with
      | none => rfl
      | some ref =>
        refine mapC_bind id (orAbort_map' _ _) fun dest => ?_
        simp only [id]
        split_ifs
        · refine orAbort_map _ ?_
          unfold raise
          exact mapC_bind id (by simp only [State.map]; cases printError .. <;> rfl) fun _ => rfl
        · exact mapC_bind h (orAbort_map _ (resolveForwardRef_map hh _ _ _ _)) fun o => resolveAll_map hh st n (i + 1) o

theorem assembleBuffers_map (hh : Hom dev dev' h) (d : D) (srcName : Str) (bufs : List (List Byte)) :
    assembleBuffers dev' (h d) srcName bufs = mapC (failMap h) (State.map h) (assembleBuffers dev d srcName bufs) := by
  unfold assembleBuffers
  refine mapC_bind (State.map h) (mainLoop_map hh bufs (initState d srcName)) fun st => ?_
  exact mapC_bind h (resolveAll_map hh st _ _ _) fun _ => rfl

def Outcome.map {D E : Type} (h : D → E) : Outcome D → Outcome E
  | .exited s t d => .exited s t (h d)
  | .undefined u => .undefined u

/-- The run is the same on every device. -/
theorem gaia_map (hh : Hom dev dev' h) (d : D) (srcName : Str) (bufs : List (List Byte)) :
    gaia dev' (h d) srcName bufs = (gaia dev d srcName bufs).map h := by
  unfold gaia
  rw [assembleBuffers_map hh]
  cases assembleBuffers dev d srcName bufs with
  | ok st => rfl
  | err x => rfl
  | ub u => rfl
end

/-! ### The perfect device -/

def State.toSt (st : State OutFile) : St :=
  { pc := st.pc, lineNum := st.lineNum, total := st.total, symtab := st.symtab, unres := st.unres, out := st.out,
    lexer := st.lexer, tk := st.tk, instr := st.instr }

def Next.toNext : Next OutFile → Gaia.Next
  | .continue st => .continue st.toSt
  | .stop st => .stop st.toSt

def toAbort (x : Fail × OutFile) : Abort := ⟨x.1, x.2⟩

theorem toAbort_orAbort {α : Type} (d : OutFile) (r : Res α) : Gaia.orAbort d r = mapC toAbort id (orAbort d r) := by
  cases r <;> rfl

theorem toAbort_orAbort' {α : Type} (d : OutFile) {r r' : Res α} (h : r' = r) : Gaia.orAbort d r' = mapC toAbort id (orAbort d r) := by
  subst h; cases r' <;> rfl

theorem bumpLine_perfect {α β : Type} {g : α → β} (st : State OutFile) (k : State OutFile → Run OutFile α) (k' : St → Gaia.Run β)
    (hk : ∀ s : State OutFile, k' s.toSt = mapC toAbort g (k s)) : Gaia.bumpLine st.toSt k' = mapC toAbort g (bumpLine st k) := by
  unfold bumpLine Gaia.bumpLine
  have : st.toSt.lineNum = st.lineNum := rfl
  rw [this]
  split_ifs
  · rfl
  · exact hk { st with lineNum := st.lineNum + 1 }

theorem generateCode_perfect (f : OutFile) (instr : Instr) (operand : Option Token) (pc : Nat) :
    Gaia.generateCode f instr operand pc = generateCode perfect f instr operand pc := rfl

theorem instructionStep_perfect (buffer : Str) (st : State OutFile) :
    Gaia.instructionStep buffer st.toSt = mapC toAbort State.toSt (instructionStep perfect buffer st) := by
  have fin : ∀ (s : State OutFile) (r : OutFile × Nat), Gaia.bumpLine { s.toSt with out := r.1 } (fun st =>
      if st.pc + r.2 > INT_MAX ∨ st.total + r.2 > INT_MAX then .ub .signedOverflow
      else pure { st with pc := st.pc + r.2, total := st.total + r.2 }) = mapC toAbort State.toSt
      (bumpLine { s with out := r.1 } (fun st =>
        if st.pc + r.2 > INT_MAX ∨ st.total + r.2 > INT_MAX then .ub .signedOverflow
        else pure { st with pc := st.pc + r.2, total := st.total + r.2 })) := by
    intro s r
    refine bumpLine_perfect { s with out := r.1 } _ _ fun s => ?_
    by_cases h1 : s.pc + r.2 > INT_MAX ∨ s.total + r.2 > INT_MAX
    · rw [if_pos h1, if_pos (show s.toSt.pc + r.2 > INT_MAX ∨ s.toSt.total + r.2 > INT_MAX from h1)]; rfl
    · rw [if_neg h1, if_neg (show ¬ (s.toSt.pc + r.2 > INT_MAX ∨ s.toSt.total + r.2 > INT_MAX) from h1)]; rfl
  unfold instructionStep Gaia.instructionStep
  refine mapC_bind id (toAbort_orAbort st.out _) fun operand => mapC_bind id (toAbort_orAbort st.out _) fun so =>
    mapC_bind id (toAbort_orAbort st.out _) fun ri => ?_
  obtain ⟨status, operand⟩ := so
  obtain ⟨res, instr⟩ := ri
  have gen : ∀ s : State OutFile, (do
      let (out, written) ←
        if status = .branchOperand ∨ status = .jumpOperand then
          Gaia.orAbort s.toSt.out (Gaia.resolveLabelRef s.toSt.out s.toSt.lexer instr operand status s.toSt.symtab s.toSt.pc)
        else pure (Gaia.generateCode s.toSt.out instr operand s.toSt.pc)
      Gaia.bumpLine { s.toSt with out := out } fun st =>
        if st.pc + written > INT_MAX ∨ st.total + written > INT_MAX then .ub .signedOverflow
        else pure { st with pc := st.pc + written, total := st.total + written }) = mapC toAbort State.toSt (do
      let (out, written) ←
        if status = .branchOperand ∨ status = .jumpOperand then
          orAbort s.out (resolveLabelRef perfect s.out s.lexer instr operand status s.symtab s.pc)
        else pure (generateCode perfect s.out instr operand s.pc)
      bumpLine { s with out := out } fun st =>
        if st.pc + written > INT_MAX ∨ st.total + written > INT_MAX then .ub .signedOverflow
        else pure { st with pc := st.pc + written, total := st.total + written }) := by
    intro s
    split_ifs
    · exact mapC_bind id (toAbort_orAbort' s.out rfl) (fin s)
    · exact fin s _
  cases res with
  | flag => exact gen { st with instr := instr }
  | forwardReference =>
    refine mapC_bind State.toSt ?_ gen
    unfold saveForwardRef Gaia.saveForwardRef
    exact mapC_bind id (toAbort_orAbort st.out _) fun r => mapC_bind id (toAbort_orAbort st.out _) fun u => rfl

theorem declareStep_perfect (first : Token) (st : State OutFile) :
    Gaia.declareStep first st.toSt = mapC toAbort State.toSt (declareStep first st) := by
  unfold declareStep Gaia.declareStep
  split_ifs
  · exact mapC_bind id (toAbort_orAbort _ _) fun _ => rfl
  · rfl
  · rfl

theorem lineStep_perfect (raw : List Byte) (st : State OutFile) :
    Gaia.lineStep raw st.toSt = mapC toAbort Next.toNext (lineStep perfect raw st) := by
  unfold lineStep Gaia.lineStep
  refine mapC_bind id (toAbort_orAbort _ _) fun r => mapC_bind id (toAbort_orAbort _ _) fun lx =>
    mapC_bind id (toAbort_orAbort _ _) fun first => ?_
  obtain ⟨lexer, tk, instr⟩ := r
  refine mapC_bind State.toSt (declareStep_perfect first { st with lexer := lx, tk := tk, instr := instr }) fun s => ?_
  simp only [id]
  have : s.toSt.instr = s.instr := rfl
  rw [this]
  split_ifs
  · rfl
  · exact bumpLine_perfect _ _ _ fun _ => rfl
  · exact mapC_bind State.toSt (instructionStep_perfect _ _) fun _ => rfl

theorem mainLoop_perfect : ∀ (bufs : List (List Byte)) (st : State OutFile),
    Gaia.mainLoop bufs st.toSt = mapC toAbort State.toSt (mainLoop perfect bufs st)
  | [], _ => rfl
  | raw :: rest, st => by
    unfold mainLoop Gaia.mainLoop
    refine mapC_bind Next.toNext (lineStep_perfect raw st) fun n => ?_
    cases n with
    | «continue» s => exact mainLoop_perfect rest s
    | stop s => rfl

theorem resolveAll_perfect (st : State OutFile) : ∀ (n i : Nat) (out : OutFile),
    Gaia.resolveAll st.toSt n i out = mapC toAbort id (resolveAll perfect st n i out)
  | 0, _, _ => rfl
  | n + 1, i, out => by
    unfold resolveAll Gaia.resolveAll
    have : st.toSt.unres = st.unres := rfl
    rw [this]
    cases st.unres.refs[i]? with
    | none => rfl
    | some r =>
      cases r with
      | none => rfl
      | some ref =>
        refine mapC_bind id (toAbort_orAbort _ _) fun dest => ?_
        simp only [id]
        split_ifs
        · exact toAbort_orAbort' _ rfl
        · exact mapC_bind id (toAbort_orAbort' _ rfl) fun o => resolveAll_perfect st n (i + 1) o

theorem assembleBytes_perfect (srcName : Str) (src : List Byte) :
    Gaia.assembleBytes srcName src = mapC toAbort State.toSt (assembleBuffers perfect OutFile.empty srcName (chunks src)) := by
  unfold assembleBuffers Gaia.assembleBytes
  refine mapC_bind State.toSt (mainLoop_perfect (chunks src) (initState OutFile.empty srcName)) fun st => ?_
  exact mapC_bind id (resolveAll_perfect st _ _ _) fun _ => rfl

/-- On the perfect device, the run is that of the other models. -/
theorem gaia_perfect (srcName : Str) (src : List Byte) : gaia perfect OutFile.empty srcName (chunks src) =
    match Gaia.assembleBytes srcName src with
    | .ok st => .exited 0 (report st.total st.symtab.count) st.out
    | .err a => .exited 1 a.fail.out a.out
    | .ub u => .undefined u := by
  rw [assembleBytes_perfect]
  unfold gaia
  cases assembleBuffers perfect OutFile.empty srcName (chunks src) with
  | ok st => rfl
  | err x => rfl
  | ub u => rfl

/-! ### The device that records -/

/-- What gaia asks of its output file (generator.c:39-55, 166-182; main.c:237-240). -/
inductive Op
  | seek (n : Nat)
  | putc (v : Int)
  deriving DecidableEq, Repr

def Device.op {D : Type} (dev : Device D) (d : D) : Op → D
  | .seek n => dev.seek d n
  | .putc v => dev.putc d v

/-- Do the operations in order. -/
def replay {D : Type} (dev : Device D) (d : D) (ops : List Op) : D := ops.foldl dev.op d

/-- The device that only records what it is asked to do. -/
def recorder : Device (List Op) := ⟨fun l n => l ++ [.seek n], fun l v => l ++ [.putc v]⟩

theorem replay_hom {D : Type} (dev : Device D) (d : D) : Hom recorder dev (replay dev d) where
  seek l n := by simp [recorder, replay, Device.op]
  putc l v := by simp [recorder, replay, Device.op]

/-- The run on any device: what is recorded is replayed. -/
theorem gaia_replay {D : Type} (dev : Device D) (d : D) (srcName : Str) (bufs : List (List Byte)) :
    gaia dev d srcName bufs = (gaia recorder [] srcName bufs).map (replay dev d) :=
  gaia_map (replay_hom dev d) [] srcName bufs

/-! ### Read errors -/

theorem fgetsErr_some : ∀ (n : Nat) (s : List Byte) (r : List Byte × List Byte), fgetsErr n s = some r → fgets n s = r
  | 0, _, _, h => by simpa [fgetsErr, fgets] using h
  | n + 1, [], _, h => by simp [fgetsErr] at h
  | n + 1, c :: s, r, h => by
    unfold fgetsErr at h
    unfold fgets
    split_ifs at h ⊢ with hc
    · simpa using h
    · obtain ⟨r', h1, rfl⟩ := Option.map_eq_some_iff.1 h
      rw [fgetsErr_some n s r' h1]

theorem fgetsErr_none : ∀ (n : Nat) (s : List Byte), fgetsErr n s = none ↔ s.length < n ∧ 10 ∉ s
  | 0, s => by simp [fgetsErr]
  | n + 1, [] => by simp [fgetsErr]
  | n + 1, c :: s => by
    unfold fgetsErr
    split_ifs with hc
    · simp [hc]
    · rw [Option.map_eq_none_iff, fgetsErr_none n s]
      simp only [List.length_cons, List.mem_cons, not_or]
      constructor
      · rintro ⟨h1, h2⟩; exact ⟨by omega, fun h => hc h.symm, h2⟩
      · rintro ⟨h1, _, h2⟩; exact ⟨by omega, h2⟩

/-- With more bytes in the file, a buffer that was complete is the same. -/
theorem fgetsErr_prefix : ∀ (n : Nat) (s r2 : List Byte) (r : List Byte × List Byte), fgetsErr n s = some r →
    ∃ b, r.1 ++ b = s ∧ ∀ t, fgets n (r.1 ++ t) = (r.1, t)
  | 0, s, r2, r, h => by
    obtain rfl : ([], s) = r := by simpa [fgetsErr] using h
    exact ⟨s, by simp, fun t => by simp [fgets]⟩
  | n + 1, [], _, _, h => by simp [fgetsErr] at h
  | n + 1, c :: s, r2, r, h => by
    unfold fgetsErr at h
    split_ifs at h with hc
    · obtain rfl : ([10], s) = r := by simpa using h
      exact ⟨s, by simp [hc], fun t => by simp [fgets]⟩
    · obtain ⟨r', h1, rfl⟩ := Option.map_eq_some_iff.1 h
      obtain ⟨b, h2, h3⟩ := fgetsErr_prefix n s r2 r' h1
      exact ⟨b, by simp [h2], fun t => by simp [fgets, hc, h3]⟩

end Gaia.IO

import Verif.Proofs.ProcessLog
import Verif.Proofs.Equiv
import Verif.Spec.Concurrent

/-! A process among others does what gaia does alone. -/
namespace Gaia.Proc
open Gaia Spec

/-- The result of the loop on the rest of the input. -/
def rest (inp : List Byte) (st : St) : Gaia.Run St := mainLoop (chunks inp) st

/-- What gaia does after the loop, alone. -/
def conclude (r : Gaia.Run St) : Gaia.Run St := do
  let st ← r
  let out ← resolveAll st st.unres.curr 0 st.out
  pure { st with out := out }

theorem assembleBytes_eq (fn : Str) (src : List Byte) : assembleBytes fn src = conclude (rest src (initSt fn)) := rfl

/-- The writes `log` are the first writes of the run with the result `r`. -/
def Begins (log : List (Nat × Byte)) (r : Gaia.Run St) : Prop := Ext log St.out r

theorem conclude_log {log : List (Nat × Byte)} {r : Gaia.Run St} (h : Begins log r) : Begins log (conclude r) := by
  refine Ext.seq h fun st _ h' => Ext.seq (file := id) (resolveAll_log _ _ h') fun out _ h'' => h''

/-- The file holds the first `k` writes of the whole run on `S`. -/
def Shows (fn : Str) (S : List Byte) (f : Option (List Byte)) : Prop :=
  ∃ l, Begins l (assembleBytes fn S) ∧ f = some (written l)

/-- How the process stands: `f` is the content of its output now, `w` the file system at the beginning. -/
def Good (w : World) (j : Job) (f : Option (List Byte)) : Phase → Prop
  | .start => f = w.files j.out
  | .opened => f = w.files j.out ∧ ∃ c, w.files j.src = some c
  | .reading inp pos eof st => (∃ c, w.files j.src = some c) ∧ w.creatable j.out = true ∧
      assembleBytes j.src (input w j) = conclude (rest (inp ++ (input w j).drop pos) st) ∧ (eof = true → (input w j).drop pos = []) ∧
      (j.src = j.out → inp = [] ∧ st = initSt j.src ∧ f = some []) ∧ Shows j.src (input w j) f
  | .closing status stdout out => gaia j.src j.out w = .exited ⟨status, stdout, w.write j.out out.bytes⟩ ∧ w.creatable j.out = true ∧
      (∃ c, w.files j.src = some c) ∧ Begins out.log (assembleBytes j.src (input w j)) ∧ Shows j.src (input w j) f
  | .done status stdout => ∃ w', gaia j.src j.out w = .exited ⟨status, stdout, w'⟩ ∧ f = w'.files j.out
  | .undefined u => gaia j.src j.out w = .undefined u
  | .killed => f = w.files j.out ∨ (∃ c, w.files j.src = some c) ∧ w.creatable j.out = true ∧ Shows j.src (input w j) f

theorem gaia_ran {w : World} {j : Job} {c : List Byte} (hs : w.files j.src = some c) (hc : w.creatable j.out = true) :
    gaia j.src j.out w = match assembleBytes j.src (input w j) with
      | .ok st => .exited ⟨0, report st.total st.symtab.count, w.write j.out st.out.bytes⟩
      | .err a => .exited ⟨1, a.fail.out, w.write j.out a.out.bytes⟩
      | .ub u => .undefined u := by
  unfold gaia input
  rw [hs]
  simp only [hc, Option.getD_some, Bool.true_eq_false, if_false]
  rfl

theorem Shows.empty (fn : Str) (S : List Byte) : Shows fn S (some []) := by
  refine ⟨[], ?_, rfl⟩
  rw [assembleBytes_eq]
  exact conclude_log (mainLoop_log _ (List.nil_prefix))

theorem Begins.of_prefix {l l' : List (Nat × Byte)} {r : Gaia.Run St} (h : Begins l r) (hl : l' <+: l) : Begins l' r := by
  cases r with
  | ok a => exact hl.trans h
  | err a => exact hl.trans h
  | ub u => trivial

theorem Begins.visible {fn : Str} {S : List Byte} {out : OutFile} (h : Begins out.log (assembleBytes fn S)) (k : Nat) :
    Shows fn S (some (visible out k)) :=
  ⟨_, h.of_prefix (List.take_prefix k out.log), by rw [visible_eq]⟩

/-- The end of the loop. -/
theorem Good.afterLoop {w : World} {j : Job} {f : Option (List Byte)} {c : List Byte} (hs : w.files j.src = some c) (hc : w.creatable j.out = true)
    (hf : Shows j.src (input w j) f) {st : St} (h : assembleBytes j.src (input w j) = conclude (.ok st)) : Good w j f (afterLoop st) := by
  have hg := gaia_ran hs hc
  rw [h] at hg
  unfold Proc.afterLoop
  have h2 : conclude (.ok st) = (resolveAll st st.unres.curr 0 st.out >>= fun out => pure { st with out := out }) := rfl
  rw [h2] at hg h
  cases hr : resolveAll st st.unres.curr 0 st.out with
  | ok out => rw [hr] at hg h; exact ⟨hg, hc, ⟨c, hs⟩, by rw [h]; exact List.prefix_refl _, hf⟩
  | err a => rw [hr] at hg h; exact ⟨hg, hc, ⟨c, hs⟩, by rw [h]; exact List.prefix_refl _, hf⟩
  | ub u => rw [hr] at hg; exact hg

/-- One line. -/
theorem Good.loopBody {w : World} {j : Job} {f : Option (List Byte)} {c : List Byte} (hs : w.files j.src = some c) (hc : w.creatable j.out = true)
    (hf : Shows j.src (input w j) f) (hne : j.src ≠ j.out) {r : List Byte × List Byte} {more : List Byte} {pos : Nat} {eof : Bool} {st : St}
    (hm : (input w j).drop pos = more) (he : eof = true → more = [])
    (h : assembleBytes j.src (input w j) = conclude (mainLoop (r.1 :: chunks (r.2 ++ more)) st)) : Good w j f (loopBody r pos eof st) := by
  have hg := gaia_ran hs hc
  unfold Proc.loopBody
  unfold mainLoop at h
  rw [h] at hg
  cases hr : lineStep r.1 st with
  | ok n =>
    rw [hr] at h hg
    cases n with
    | «continue» st' => exact ⟨⟨c, hs⟩, hc, by rw [hm]; exact h, by rw [hm]; exact he, fun e => absurd e hne, hf⟩
    | stop st' => exact Good.afterLoop hs hc hf h
  | err a => rw [hr] at h hg; exact ⟨hg, hc, ⟨c, hs⟩, by rw [h]; exact List.prefix_refl _, hf⟩
  | ub u => rw [hr] at hg; exact hg

theorem Good.failedOpen {w : World} {j : Job} (hs : w.files j.src = none) {f : Option (List Byte)} (hf : f = w.files j.out) :
    Good w j f (failed (printError none .fileOpenFail none j.src 0)) := by
  have : gaia j.src j.out w = match printError none .fileOpenFail none j.src 0 with
    | .ok s => .exited ⟨1, s, w⟩
    | .err _ => .undefined .internal
    | .ub u => .undefined u := by unfold gaia; rw [hs]; rfl
  unfold failed
  cases hp : printError none .fileOpenFail none j.src 0 with
  | ok s => rw [hp] at this; exact ⟨w, this, hf⟩
  | err e => rw [hp] at this; exact this
  | ub u => rw [hp] at this; exact this

theorem Good.failedCreate {w : World} {j : Job} {c : List Byte} (hs : w.files j.src = some c) (hc : w.creatable j.out = false)
    {f : Option (List Byte)} (hf : f = w.files j.out) :
    Good w j f (failed (printError none .binaryFileCreationFail none j.src 0)) := by
  have : gaia j.src j.out w = match printError none .binaryFileCreationFail none j.src 0 with
    | .ok s => .exited ⟨1, s, w⟩
    | .err _ => .undefined .internal
    | .ub u => .undefined u := by unfold gaia; rw [hs]; simp only [hc, if_true]; rfl
  unfold failed
  cases hp : printError none .binaryFileCreationFail none j.src 0 with
  | ok s => rw [hp] at this; exact ⟨w, this, hf⟩
  | err e => rw [hp] at this; exact this
  | ub u => rw [hp] at this; exact this

theorem write_self (w : World) (n : Str) (b : List Byte) : (w.write n b).files n = some b := by simp [World.write]

theorem write_other (w : World) {n m : Str} (b : List Byte) (h : m ≠ n) : (w.write n b).files m = w.files m := by simp [World.write, h]

theorem line_some {inp more : List Byte} {r : List Byte × List Byte} (h : IO.fgetsErr (MAX_BUFFER_SIZE - 1) inp = some r) :
    inp ≠ [] ∧ fgets (MAX_BUFFER_SIZE - 1) (inp ++ more) = (r.1, r.2 ++ more) := by
  have h1 := IO.fgetsErr_some _ _ _ h
  obtain ⟨b, h2, h3⟩ := IO.fgetsErr_prefix _ _ [] _ h
  refine ⟨?_, ?_⟩
  · rintro rfl; simp [IO.fgetsErr, MAX_BUFFER_SIZE] at h
  · have h4 := h3 b
    rw [h2, h1] at h4
    have h5 : r.2 = b := by rw [h4]
    rw [h5]
    have := h3 (b ++ more)
    rw [← List.append_assoc, h2] at this
    exact this

theorem conclude_line {inp more : List Byte} {r : List Byte × List Byte} (h0 : inp ≠ []) (h : fgets (MAX_BUFFER_SIZE - 1) (inp ++ more) = (r.1, r.2 ++ more))
    (st : St) : rest (inp ++ more) st = mainLoop (r.1 :: chunks (r.2 ++ more)) st := by
  unfold rest
  rw [chunks_cons (by simp [h0])]
  have h : fgets 127 (inp ++ more) = (r.1, r.2 ++ more) := h
  rw [h]

/-- One step of a process. `w` is the file system at the beginning and `w1` now; the source is as it was, unless it is the output. -/
theorem Good.act {w w1 : World} {j : Job} (hcr : w1.creatable = w.creatable) (hsrc : j.src ≠ j.out → w1.files j.src = w.files j.src)
    {p : Phase} (h : Good w j (w1.files j.out) p) (a : Act) :
    Good w j ((Proc.act j a w1 p).1.files j.out) (Proc.act j a w1 p).2 ∧ (Proc.act j a w1 p).1.creatable = w.creatable ∧
    ∀ n, n ≠ j.out → (Proc.act j a w1 p).1.files n = w1.files n := by
  cases p with
  | done status text => exact ⟨h, hcr, fun _ _ => rfl⟩
  | undefined u => exact ⟨h, hcr, fun _ _ => rfl⟩
  | killed => exact ⟨h, hcr, fun _ _ => rfl⟩
  | start =>
    have hf : w1.files j.out = w.files j.out := h
    have hs : w1.files j.src = w.files j.src := by
      by_cases e : j.src = j.out
      · rw [e]; exact hf
      · exact hsrc e
    cases a with
    | kill => exact ⟨.inl h, hcr, fun _ _ => rfl⟩
    | openSource =>
      simp only [Proc.act]
      cases hc : w1.files j.src with
      | none => exact ⟨.failedOpen (hs ▸ hc) hf, hcr, fun _ _ => rfl⟩
      | some c => exact ⟨⟨hf, c, hs ▸ hc⟩, hcr, fun _ _ => rfl⟩
    | createOutput => exact ⟨h, hcr, fun _ _ => rfl⟩
    | read n => exact ⟨h, hcr, fun _ _ => rfl⟩
    | line => exact ⟨h, hcr, fun _ _ => rfl⟩
    | finish => exact ⟨h, hcr, fun _ _ => rfl⟩
    | flush k => exact ⟨h, hcr, fun _ _ => rfl⟩
    | close => exact ⟨h, hcr, fun _ _ => rfl⟩
  | opened =>
    obtain ⟨hf, c, hs⟩ := h
    cases a with
    | kill => exact ⟨.inl hf, hcr, fun _ _ => rfl⟩
    | createOutput =>
      simp only [Proc.act, hcr]
      split_ifs with hc
      · exact ⟨.failedCreate hs hc hf, hcr, fun _ _ => rfl⟩
      · refine ⟨⟨⟨c, hs⟩, by simpa using hc, rfl, by simp, fun e => ⟨rfl, rfl, write_self ..⟩, ?_⟩, hcr, fun n hn => write_other _ _ hn⟩
        rw [write_self]; exact .empty _ _
    | openSource => exact ⟨⟨hf, c, hs⟩, hcr, fun _ _ => rfl⟩
    | read n => exact ⟨⟨hf, c, hs⟩, hcr, fun _ _ => rfl⟩
    | line => exact ⟨⟨hf, c, hs⟩, hcr, fun _ _ => rfl⟩
    | finish => exact ⟨⟨hf, c, hs⟩, hcr, fun _ _ => rfl⟩
    | flush k => exact ⟨⟨hf, c, hs⟩, hcr, fun _ _ => rfl⟩
    | close => exact ⟨⟨hf, c, hs⟩, hcr, fun _ _ => rfl⟩
  | reading inp pos eof st =>
    obtain ⟨⟨c, hs⟩, hc, hr, he, hown, hf⟩ := h
    have same : Good w j (w1.files j.out) (.reading inp pos eof st) := ⟨⟨c, hs⟩, hc, hr, he, hown, hf⟩
    have hne : inp ≠ [] → j.src ≠ j.out := fun h e => h (hown e).1
    cases a with
    | kill => exact ⟨.inr ⟨⟨c, hs⟩, hc, hf⟩, hcr, fun _ _ => rfl⟩
    | openSource => exact ⟨same, hcr, fun _ _ => rfl⟩
    | createOutput => exact ⟨same, hcr, fun _ _ => rfl⟩
    | close => exact ⟨same, hcr, fun _ _ => rfl⟩
    | read n =>
      simp only [Proc.act]
      have hnow : w1.files j.src = some (input w j) := by
        unfold input
        split_ifs with e
        · rw [e]; exact (hown e).2.2
        · rw [hsrc e, hs]; rfl
      rw [hnow]
      split_ifs with heof
      · exact ⟨same, hcr, fun _ _ => rfl⟩
      have hd : ((input w j).drop pos).take (n + 1) ++ (input w j).drop (pos + (((input w j).drop pos).take (n + 1)).length) = (input w j).drop pos := by
        rw [List.length_take, ← List.drop_drop]
        by_cases hl : n + 1 ≤ ((input w j).drop pos).length
        · rw [Nat.min_eq_left hl, List.take_append_drop]
        · rw [Nat.min_eq_right (by omega), List.drop_length, List.append_nil, List.take_of_length_le (by omega)]
      refine ⟨⟨⟨c, hs⟩, hc, ?_, ?_, ?_, hf⟩, hcr, fun _ _ => rfl⟩
      · rw [List.append_assoc, hd]; exact hr
      · intro hh
        have : (input w j).drop pos = [] := by
          rcases List.take_eq_nil_iff.1 (List.isEmpty_iff.1 hh) with h | h
          · omega
          · exact h
        rw [← List.drop_drop, this, List.drop_nil]
      · intro e
        obtain ⟨h1, h2, h3⟩ := hown e
        refine ⟨?_, h2, h3⟩
        have : input w j = [] := by unfold input; rw [if_pos e]
        rw [this, h1]; simp
    | line =>
      simp only [Proc.act]
      split_ifs with h1 h2
      · exact ⟨same, hcr, fun _ _ => rfl⟩
      · refine ⟨?_, hcr, fun _ _ => rfl⟩
        have hz := he h1
        refine Good.loopBody hs hc hf (hne h2) hz (fun _ => rfl) ?_
        rw [hr, hz]
        rw [conclude_line (r := fgets (MAX_BUFFER_SIZE - 1) inp) h2 (by simp)]
      · cases hl : IO.fgetsErr (MAX_BUFFER_SIZE - 1) inp with
        | none => exact ⟨same, hcr, fun _ _ => rfl⟩
        | some r =>
          refine ⟨?_, hcr, fun _ _ => rfl⟩
          have := line_some (more := (input w j).drop pos) hl
          refine Good.loopBody hs hc hf (hne this.1) rfl he ?_
          rw [hr, conclude_line this.1 this.2]
    | finish =>
      simp only [Proc.act]
      split_ifs with h1
      · refine ⟨?_, hcr, fun _ _ => rfl⟩
        rw [he h1.1, h1.2] at hr
        exact Good.afterLoop hs hc hf hr
      · exact ⟨same, hcr, fun _ _ => rfl⟩
    | flush k =>
      have hb : Begins st.out.log (assembleBytes j.src (input w j)) := by
        rw [hr]; exact conclude_log (mainLoop_log _ (List.prefix_refl _))
      refine ⟨⟨⟨c, hs⟩, hc, hr, he, fun e => ?_, ?_⟩, hcr, fun n hn => write_other _ _ hn⟩
      · obtain ⟨h1, h2, h3⟩ := hown e
        refine ⟨h1, h2, ?_⟩
        simp only [Proc.act]
        rw [write_self, h2]
        simp [visible, initSt, OutFile.empty]
      · simp only [Proc.act]
        rw [write_self]
        exact hb.visible k
  | closing status text out =>
    obtain ⟨hg, hc, hs, hb, hf⟩ := h
    cases a with
    | kill => exact ⟨.inr ⟨hs, hc, hf⟩, hcr, fun _ _ => rfl⟩
    | openSource => exact ⟨⟨hg, hc, hs, hb, hf⟩, hcr, fun _ _ => rfl⟩
    | createOutput => exact ⟨⟨hg, hc, hs, hb, hf⟩, hcr, fun _ _ => rfl⟩
    | read n => exact ⟨⟨hg, hc, hs, hb, hf⟩, hcr, fun _ _ => rfl⟩
    | line => exact ⟨⟨hg, hc, hs, hb, hf⟩, hcr, fun _ _ => rfl⟩
    | finish => exact ⟨⟨hg, hc, hs, hb, hf⟩, hcr, fun _ _ => rfl⟩
    | flush k =>
      refine ⟨⟨hg, hc, hs, hb, ?_⟩, hcr, fun n hn => write_other _ _ hn⟩
      simp only [Proc.act]
      rw [write_self]
      exact hb.visible k
    | close =>
      refine ⟨⟨_, hg, ?_⟩, hcr, fun n hn => write_other _ _ hn⟩
      simp only [Proc.act]
      rw [write_self, write_self]

/-! ### All processes -/

/-- The state of the whole system. -/
structure AllGood {ι : Type} (w : World) (jobs : ι → Job) (s : Sys ι) : Prop where
  creatable : s.world.creatable = w.creatable
  others : ∀ n, (∀ i, n ≠ (jobs i).out) → s.world.files n = w.files n
  good : ∀ i, Good w (jobs i) (s.world.files (jobs i).out) (s.phase i)

theorem AllGood.init {ι : Type} (w : World) (jobs : ι → Job) : AllGood w jobs (Sys.init w) :=
  ⟨rfl, fun _ _ => rfl, fun _ => rfl⟩

theorem AllGood.source {ι : Type} {w : World} {jobs : ι → Job} {s : Sys ι} (h : AllGood w jobs s) (hsep : Separate jobs) (i : ι)
    (hne : (jobs i).src ≠ (jobs i).out) : s.world.files (jobs i).src = w.files (jobs i).src := by
  refine h.others _ fun k => ?_
  by_cases e : k = i
  · rw [e]; exact hne
  · exact fun e' => (hsep k i e).2 e'.symm

theorem AllGood.step {ι : Type} [DecidableEq ι] {w : World} {jobs : ι → Job} {s : Sys ι} (hsep : Separate jobs) (h : AllGood w jobs s) (e : ι × Act) :
    AllGood w jobs (s.step jobs e) := by
  obtain ⟨i, a⟩ := e
  obtain ⟨h1, h2, h3⟩ := (h.good i).act h.creatable (h.source hsep i) a
  refine ⟨h2, fun n hn => ?_, fun k => ?_⟩
  · show (Proc.act (jobs i) a s.world (s.phase i)).1.files n = _
    rw [h3 n (hn i)]; exact h.others n hn
  · show Good w (jobs k) ((Proc.act (jobs i) a s.world (s.phase i)).1.files (jobs k).out) (if k = i then _ else _)
    split_ifs with hk
    · rw [hk]; exact h1
    · rw [h3 _ (hsep k i hk).1]; exact h.good k

theorem AllGood.run {ι : Type} [DecidableEq ι] {w : World} {jobs : ι → Job} (hsep : Separate jobs) : ∀ (l : List (ι × Act)) {s : Sys ι},
    AllGood w jobs s → AllGood w jobs (s.run jobs l)
  | [], _, h => h
  | e :: l, _, h => AllGood.run hsep l (h.step hsep e)

/-! ### What a killed process leaves -/

theorem replay_reach : ∀ (ops : List IO.Op) (f : OutFile) (l : List (Nat × Byte)), f.log <+: l → l <+: (IO.replay IO.perfect f ops).log →
    ∃ n, (IO.replay IO.perfect f (ops.take n)).log = l
  | [], f, l, h1, h2 => ⟨0, h1.eq_of_length_le h2.length_le⟩
  | op :: ops, f, l, h1, h2 => by
    by_cases e : f.log = l
    · exact ⟨0, e⟩
    · have h3 : (IO.perfect.op f op).log <+: l := by
        cases op with
        | seek n => exact h1
        | putc v =>
          have h4 : (IO.perfect.op f (.putc v)).log <+: (IO.replay IO.perfect f (.putc v :: ops)).log := replay_log ops _
          rcases List.prefix_or_prefix_of_prefix h4 h2 with h | h
          · exact h
          · obtain ⟨t, rfl⟩ := h1
            have hp : (IO.perfect.op f (.putc v)).log = f.log ++ [(f.pos, UInt8.ofNat (v % 256).toNat)] := rfl
            rw [hp] at h ⊢
            have hlen := h.length_le
            simp only [List.length_append, List.length_cons, List.length_nil] at hlen
            have ht : t ≠ [] := fun h => e (by rw [h, List.append_nil])
            have : 0 < t.length := List.length_pos_iff.2 ht
            have heq := h.eq_of_length (by simp only [List.length_append, List.length_cons, List.length_nil]; omega)
            rw [heq]
      obtain ⟨n, hn⟩ := replay_reach ops _ l h3 h2
      exact ⟨n + 1, hn⟩

theorem Shows.interrupted {fn : Str} {S : List Byte} {f : Option (List Byte)} (h : Shows fn S f) (hu : ∀ u, assembleBytes fn S ≠ .ub u) :
    ∃ left, Interrupted fn S left ∧ f = some left := by
  obtain ⟨l, h1, rfl⟩ := h
  have hp := IO.gaia_perfect fn S
  rw [IO.gaia_replay] at hp
  cases hr : IO.gaia IO.recorder [] fn (chunks S) with
  | undefined u =>
    rw [hr] at hp
    cases ha : assembleBytes fn S with
    | ok st => rw [ha] at hp; simp [IO.Outcome.map] at hp
    | err a => rw [ha] at hp; simp [IO.Outcome.map] at hp
    | ub u => exact absurd ha (hu u)
  | exited status text ops =>
    have key : l <+: (IO.replay IO.perfect OutFile.empty ops).log := by
      rw [hr] at hp
      cases ha : assembleBytes fn S with
      | ok st =>
        rw [ha] at hp h1
        simp only [IO.Outcome.map, IO.Outcome.exited.injEq] at hp
        rw [hp.2.2]; exact h1
      | err a =>
        rw [ha] at hp h1
        simp only [IO.Outcome.map, IO.Outcome.exited.injEq] at hp
        rw [hp.2.2]; exact h1
      | ub u => exact absurd ha (hu u)
    obtain ⟨n, hn⟩ := replay_reach ops OutFile.empty l List.nil_prefix key
    refine ⟨_, ⟨status, text, ops, n, hr, rfl⟩, ?_⟩
    have hb := (replay_written (ops.take n) OutFile.empty Written_empty).bytes
    rw [hn] at hb
    rw [hb]; rfl

/-! ### Every process can finish -/

theorem afterLoop_closing (st : St) : (∃ a b c, afterLoop st = .closing a b c) ∨ ∃ u, afterLoop st = .undefined u := by
  unfold afterLoop
  split
  · exact .inl ⟨_, _, _, rfl⟩
  · exact .inl ⟨_, _, _, rfl⟩
  · exact .inr ⟨_, rfl⟩

theorem run_append {ι : Type} [DecidableEq ι] (jobs : ι → Job) (s : Sys ι) (a b : List (ι × Act)) :
    s.run jobs (a ++ b) = (s.run jobs a).run jobs b := List.foldl_append

/-- The process `i` can come to an end from `s`, by its own steps. -/
def CanEnd {ι : Type} [DecidableEq ι] (jobs : ι → Job) (i : ι) (s : Sys ι) : Prop :=
  ∃ acts : List Act, Ended ((s.run jobs (acts.map fun a => (i, a))).phase i)

theorem CanEnd.step {ι : Type} [DecidableEq ι] {jobs : ι → Job} {i : ι} {s : Sys ι} (a : Act) (h : CanEnd jobs i (s.step jobs (i, a))) :
    CanEnd jobs i s := by
  obtain ⟨acts, h⟩ := h
  exact ⟨a :: acts, h⟩

theorem CanEnd.ended {ι : Type} [DecidableEq ι] {jobs : ι → Job} {i : ι} {s : Sys ι} (h : Ended (s.phase i)) : CanEnd jobs i s := ⟨[], h⟩

theorem step_phase {ι : Type} [DecidableEq ι] (jobs : ι → Job) (s : Sys ι) (i : ι) (a : Act) :
    (s.step jobs (i, a)).phase i = (Proc.act (jobs i) a s.world (s.phase i)).2 := by simp [Sys.step]

theorem CanEnd.closing {ι : Type} [DecidableEq ι] {jobs : ι → Job} {i : ι} {s : Sys ι} {a : Nat} {b : Str} {c : OutFile}
    (h : s.phase i = .closing a b c) : CanEnd jobs i s := by
  refine .step .close (.ended ?_)
  rw [step_phase, h]
  trivial

theorem CanEnd.afterLoop {ι : Type} [DecidableEq ι] {jobs : ι → Job} {i : ι} {s : Sys ι} {st : St}
    (h : s.phase i = Proc.afterLoop st) : CanEnd jobs i s := by
  rcases afterLoop_closing st with ⟨a, b, c, e⟩ | ⟨u, e⟩
  · exact .closing (h.trans e)
  · refine .ended ?_
    rw [h, e]; trivial

theorem CanEnd.failed {ι : Type} [DecidableEq ι] {jobs : ι → Job} {i : ι} {s : Sys ι} {r : Res Str}
    (h : s.phase i = Proc.failed r) : CanEnd jobs i s := by
  refine .ended ?_
  rw [h]; unfold Proc.failed
  cases r <;> trivial

theorem CanEnd.lines {ι : Type} [DecidableEq ι] {jobs : ι → Job} {i : ι} : ∀ (n : Nat) {s : Sys ι} {inp : List Byte} {pos : Nat} {st : St},
    inp.length ≤ n → s.phase i = .reading inp pos true st → CanEnd jobs i s := by
  intro n
  induction n with
  | zero =>
    intro s inp pos st hn h
    obtain rfl : inp = [] := List.length_eq_zero_iff.1 (by omega)
    refine .step .finish (.afterLoop (st := st) ?_)
    rw [step_phase, h]; simp [Proc.act]
  | succ n ih =>
    intro s inp pos st hn h
    by_cases hi : inp = []
    · subst hi; exact ih (by simp) h
    · refine .step .line ?_
      have hp := step_phase jobs s i .line
      rw [h] at hp
      simp only [Proc.act, if_true, if_neg hi, Proc.loopBody] at hp
      have hl : (fgets (MAX_BUFFER_SIZE - 1) inp).2.length < inp.length := fgets_progress 126 inp hi
      split at hp
      · exact ih (by omega) hp
      · exact .afterLoop hp
      · exact .closing hp
      · refine .ended ?_; rw [hp]; trivial

theorem AllGood.canEnd {ι : Type} [DecidableEq ι] {w : World} {jobs : ι → Job} {s : Sys ι} (hsep : Separate jobs) (h : AllGood w jobs s) (i : ι)
    (hk : s.phase i ≠ .killed) : CanEnd jobs i s := by
  have reading : ∀ {s : Sys ι} {inp : List Byte} {pos : Nat} {eof : Bool} {st : St}, AllGood w jobs s → s.phase i = .reading inp pos eof st →
      CanEnd jobs i s := by
    intro s inp pos eof st h hp
    have hg := h.good i
    rw [hp] at hg
    obtain ⟨⟨c, hs⟩, hc, hr, he, hown, hf⟩ := hg
    have hnow : ∃ c', s.world.files (jobs i).src = some c' := by
      by_cases e : (jobs i).src = (jobs i).out
      · exact ⟨_, by rw [e]; exact (hown e).2.2⟩
      · exact ⟨c, by rw [h.source hsep i e]; exact hs⟩
    obtain ⟨c', hc'⟩ := hnow
    cases eof with
    | true => exact .lines _ (Nat.le_refl _) hp
    | false =>
      have more : ∀ {s : Sys ι} {inp : List Byte} {pos : Nat}, s.world.files (jobs i).src = some c' → c'.length ≤ pos →
          s.phase i = .reading inp pos false st → CanEnd jobs i s := by
        intro s inp pos hc' hle hp
        refine .step (.read 0) ?_
        have h2 := step_phase jobs s i (.read 0)
        rw [hp] at h2
        simp only [Proc.act, hc', Bool.false_eq_true, if_false] at h2
        rw [List.drop_eq_nil_iff.2 hle] at h2
        simp only [List.take_nil, List.isEmpty_nil] at h2
        exact .lines _ (Nat.le_refl _) h2
      by_cases hle : c'.length ≤ pos
      · exact more hc' hle hp
      · refine .step (.read c'.length) ?_
        have h1 := step_phase jobs s i (.read c'.length)
        rw [hp] at h1
        simp only [Proc.act, hc', Bool.false_eq_true, if_false] at h1
        have hw : (s.step jobs (i, .read c'.length)).world = s.world := by
          simp only [Sys.step, hp, Proc.act, hc', Bool.false_eq_true, if_false]
        have hb : ((c'.drop pos).take (c'.length + 1)).isEmpty = false := by
          rw [Bool.eq_false_iff]; intro hh
          rcases List.take_eq_nil_iff.1 (List.isEmpty_iff.1 hh) with h | h
          · omega
          · rw [List.drop_eq_nil_iff] at h; exact hle h
        rw [hb] at h1
        refine more (by rw [hw]; exact hc') ?_ h1
        simp only [List.length_take, List.length_drop]
        omega
  have opened : ∀ {s : Sys ι}, AllGood w jobs s → s.phase i = .opened → CanEnd jobs i s := by
    intro s h hp
    refine .step .createOutput ?_
    have h1 := step_phase jobs s i .createOutput
    rw [hp] at h1
    simp only [Proc.act] at h1
    split_ifs at h1 with hc
    · exact .failed (r := printError none .binaryFileCreationFail none (jobs i).src 0) h1
    · exact reading (h.step hsep _) h1
  cases hp : s.phase i with
  | start =>
    refine .step .openSource ?_
    have h1 := step_phase jobs s i .openSource
    rw [hp] at h1
    simp only [Proc.act] at h1
    split at h1
    · exact .failed (r := printError none .fileOpenFail none (jobs i).src 0) h1
    · exact opened (h.step hsep _) h1
  | opened => exact opened h hp
  | reading inp pos eof st => exact reading h hp
  | closing a b c => exact .closing hp
  | done a b => refine .ended ?_; rw [hp]; trivial
  | undefined u => refine .ended ?_; rw [hp]; trivial
  | killed => exact absurd hp hk

/-! ### No process goes on forever -/

/-- A bound on what a process still has to do, with a source of `L` bytes. -/
def todo (L : Nat) : Phase → Nat
  | .start => 2 * L + 6
  | .opened => 2 * L + 5
  | .reading inp pos eof _ => 2 * (L - pos) + inp.length + (if eof then 0 else 1) + 3
  | .closing _ _ _ => 1
  | _ => 0

theorem todo_failed (L : Nat) (r : Res Str) : todo L (failed r) = 0 := by
  unfold failed
  cases r <;> rfl

theorem todo_afterLoop (L : Nat) (st : St) : todo L (afterLoop st) ≤ 1 := by
  rcases afterLoop_closing st with ⟨a, b, c, e⟩ | ⟨u, e⟩ <;> rw [e] <;> simp [todo]

theorem todo_loopBody (L : Nat) (r : List Byte × List Byte) (pos : Nat) (eof : Bool) (st : St) :
    todo L (loopBody r pos eof st) ≤ 2 * (L - pos) + r.2.length + (if eof then 0 else 1) + 3 := by
  unfold loopBody
  split
  · exact Nat.le_refl _
  · exact (todo_afterLoop L _).trans (by omega)
  · simp only [todo]; omega
  · simp [todo]

theorem todo_act {w w1 : World} {j : Job} (hsrc : j.src ≠ j.out → w1.files j.src = w.files j.src) {p : Phase} (h : Good w j (w1.files j.out) p) (a : Act) :
    (Proc.act j a w1 p).2 = p ∨ todo (input w j).length (Proc.act j a w1 p).2 < todo (input w j).length p := by
  cases p with
  | done status text => exact .inl rfl
  | undefined u => exact .inl rfl
  | killed => exact .inl rfl
  | start =>
    cases a <;> first | exact .inl rfl | (right; simp only [Proc.act]; first | (split <;> (try simp only [todo_failed]) <;> simp [todo]) | simp [todo])
  | opened =>
    cases a <;> first | exact .inl rfl | (right; simp only [Proc.act]; first | (split_ifs <;> (try simp only [todo_failed]) <;> simp [todo]) | simp [todo])
  | closing status text out =>
    cases a <;> first | exact .inl rfl | (right; simp [Proc.act, todo])
  | reading inp pos eof st =>
    obtain ⟨⟨c, hs⟩, hc, hr, he, hown, hf⟩ := h
    have hT : todo (input w j).length (.reading inp pos eof st) = 2 * ((input w j).length - pos) + inp.length + (if eof then 0 else 1) + 3 := rfl
    cases a with
    | kill => right; simp [Proc.act, todo]
    | openSource => exact .inl rfl
    | createOutput => exact .inl rfl
    | close => exact .inl rfl
    | flush k => exact .inl rfl
    | finish =>
      simp only [Proc.act]
      split_ifs
      · right
        have := todo_afterLoop (input w j).length st
        rw [hT]; show todo (input w j).length (afterLoop st) < _; omega
      · exact .inl rfl
    | line =>
      simp only [Proc.act]
      split_ifs with h1 h2
      · exact .inl rfl
      · right
        have h3 := todo_loopBody (input w j).length (fgets (MAX_BUFFER_SIZE - 1) inp) pos eof st
        have h4 : (fgets (MAX_BUFFER_SIZE - 1) inp).2.length < inp.length := fgets_progress 126 inp h2
        rw [hT]; show todo (input w j).length (loopBody (fgets (MAX_BUFFER_SIZE - 1) inp) pos eof st) < _; omega
      · cases hl : IO.fgetsErr (MAX_BUFFER_SIZE - 1) inp with
        | none => exact .inl rfl
        | some r =>
          right
          have h2 := (line_some (more := []) hl).1
          have h3 := todo_loopBody (input w j).length r pos eof st
          have h4 : (fgets (MAX_BUFFER_SIZE - 1) inp).2.length < inp.length := fgets_progress 126 inp h2
          rw [IO.fgetsErr_some _ _ _ hl] at h4
          rw [hT]; show todo (input w j).length (loopBody r pos eof st) < _; omega
    | read n =>
      simp only [Proc.act]
      have hnow : w1.files j.src = some (input w j) := by
        unfold input
        split_ifs with e
        · rw [e]; exact (hown e).2.2
        · rw [hsrc e, hs]; rfl
      rw [hnow]
      split_ifs with heof
      · exact .inl rfl
      right
      dsimp only
      by_cases hb : ((input w j).drop pos).take (n + 1) = []
      · rw [hb, hT, if_neg heof]
        simp only [todo, List.isEmpty_nil, if_true, List.append_nil, List.length_nil]
        omega
      · have h1 : 0 < (((input w j).drop pos).take (n + 1)).length := List.length_pos_iff.2 hb
        have h2 : (((input w j).drop pos).take (n + 1)).length ≤ (input w j).length - pos := by
          rw [List.length_take, List.length_drop]; omega
        have h3 : (((input w j).drop pos).take (n + 1)).isEmpty = false := by simp [hb]
        rw [hT, if_neg heof]
        simp only [todo, List.length_append, h3, Bool.false_eq_true, if_false]
        omega

theorem AllGood.progress_le {ι : Type} [DecidableEq ι] {w : World} {jobs : ι → Job} (hsep : Separate jobs) (i : ι) : ∀ (l : List (ι × Act)) {s : Sys ι},
    AllGood w jobs s → progress jobs i s l + todo (input w (jobs i)).length ((s.run jobs l).phase i) ≤ todo (input w (jobs i)).length (s.phase i)
  | [], s, h => by simp [progress, Sys.run]
  | (k, a) :: l, s, h => by
    have ih := AllGood.progress_le hsep i l (h.step hsep (k, a))
    have hr : s.run jobs ((k, a) :: l) = (s.step jobs (k, a)).run jobs l := rfl
    rw [hr]
    unfold progress
    by_cases hk : k = i
    · subst hk
      have h1 := todo_act (h.source hsep k) (h.good k) a
      rw [← step_phase] at h1
      split_ifs with h2
      · rw [h2] at ih; omega
      · rcases h1 with h1 | h1
        · exact absurd h1 h2
        · omega
    · have h2 : (s.step jobs (k, a)).phase i = s.phase i := by
        simp only [Sys.step]; rw [if_neg fun e => hk e.symm]
      rw [if_pos h2]
      rw [h2] at ih; omega

end Gaia.Proc

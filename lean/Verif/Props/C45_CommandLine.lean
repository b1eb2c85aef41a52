import Verif.Model.CommandLine
import Verif.Props.Example

/-! C45: the command line. -/
namespace Gaia
open Spec CommandLine

/-- How the words of a command line are meant: `CommandWords ws outs args` - the `-o` options in `ws` name the files `outs`, and the
other words are the arguments `args`. -/
inductive Spec.CommandWords : List Str → List Str → List Str → Prop
  | nil : CommandWords [] [] []
  | output (f : Str) {ws outs args} (h : CommandWords ws outs args) : CommandWords (b! "-o" :: f :: ws) (f :: outs) args
  | joined (f : Str) (hf : f ≠ []) {ws outs args} (h : CommandWords ws outs args) : CommandWords ((b! "-o" ++ f) :: ws) (f :: outs) args
  | long (f : Str) {ws outs args} (h : CommandWords ws outs args) : CommandWords (b! "--output" :: f :: ws) (f :: outs) args
  | longJoined (f : Str) {ws outs args} (h : CommandWords ws outs args) : CommandWords ((b! "--output=" ++ f) :: ws) (f :: outs) args
  | word (a : Str) (ha : a.head? ≠ some 45) {ws outs args} (h : CommandWords ws outs args) : CommandWords (a :: ws) outs (a :: args)
  | rest (args : List Str) : CommandWords (b! "--" :: args) [] args

theorem words_of {ws outs args : List Str} (h : CommandWords ws outs args) : words ws = some (outs, args) := by
  induction h with
  | nil => rfl
  | output f _ ih =>
    rw [words.eq_def]
    simp [ih]
  | joined f hf _ ih =>
    obtain ⟨c, r, rfl⟩ := List.exists_cons_of_ne_nil hf
    rw [words.eq_def]
    simp [ih, longOutput]
  | long f _ ih =>
    rw [words.eq_def]
    simp only
    rw [if_neg (by decide), if_pos (.inr (by decide)), ih]; rfl
  | longJoined f _ ih =>
    rw [words.eq_def]
    have hl : longOutput (b! "--output=" ++ f) = some (some f) := by
      show longOutput (45 :: 45 :: 111 :: 117 :: 116 :: 112 :: 117 :: 116 :: 61 :: f) = _
      simp [longOutput]
    simp only [hl]
    rw [if_neg (by intro h; have := congrArg List.length h; simp at this), if_neg (by
      rintro (h | h)
      · have := congrArg List.length h; simp at this
      · simp at h)]
    simp only [ih, Option.map_some]
  | word a ha _ ih =>
    rw [words.eq_def]
    simp only
    have hl : longOutput a = none := by
      unfold longOutput
      split
      · simp at ha
      · rfl
    rw [if_neg (by rintro rfl; exact ha rfl), if_neg (by
      rintro (rfl | h)
      · exact ha rfl
      · rw [hl] at h; cases h)]
    simp only [hl]
    match a, ha with
    | [], _ => simp [ih]
    | c :: r, ha =>
      have : c ≠ 45 := by simpa using ha
      split <;> simp_all
  | rest args => rw [words.eq_def]; rfl

theorem deliver_outputs : ∀ (os : List Str) (keys : List Key) (n : Nat) (a : Arguments),
    deliver (os.map .output ++ keys) n a = deliver keys n { a with out := os.getLastD a.out } := by
  intro os
  induction os with
  | nil => intro keys n a; rfl
  | cons o os ih =>
    intro keys n a
    simp only [List.map_cons, List.cons_append, deliver, parseOpt, ih]
    cases os <;> rfl

/-- **C45.** Whatever the order of the words: with exactly one argument, that file is assembled, into the file named by the last `-o`,
or into `a.out` if there is none. -/
theorem C45_source_and_output {ws outs : List Str} {src : Str} (h : CommandWords ws outs [src]) (w : World) :
    program ws w = .ran (gaia src (outs.getLastD (b! "a.out")) w) := by
  unfold program
  rw [words_of h]
  simp only [List.map_cons, List.map_nil, List.cons_append, List.append_assoc, List.nil_append, deliver, parseOpt, deliver_outputs]
  rfl

/-- **C45, wrong number of arguments**: the usage message, and no file is read or written. -/
theorem C45_usage {ws outs args : List Str} (h : CommandWords ws outs args) (ha : args.length ≠ 1) (w : World) :
    program ws w = .usage := by
  unfold program
  rw [words_of h]
  match args, ha with
  | [], _ => simp [deliver, parseOpt, deliver_outputs]
  | a :: b :: args, _ => simp [deliver, parseOpt, deliver_outputs]

/-- The keys `parse_opt` is given for options and arguments. -/
def Spec.outputsOf : List Key → List Str
  | [] => []
  | .output f :: ks => f :: outputsOf ks
  | _ :: ks => outputsOf ks

/-- The arguments among the keys. -/
def Spec.argsOf : List Key → List Str
  | [] => []
  | .arg f :: ks => f :: argsOf ks
  | _ :: ks => argsOf ks

theorem deliver_mixed : ∀ (ks : List Key), .endOfArgs ∉ ks → ∀ (n : Nat) (a : Arguments) (rest : List Key),
    (n + (argsOf ks).length ≤ 1 ∨ argsOf ks = [] → deliver (ks ++ rest) n a =
      deliver rest (n + (argsOf ks).length) ⟨((argsOf ks).getLast?).or a.src, (outputsOf ks).getLastD a.out⟩) ∧
    (¬ (n + (argsOf ks).length ≤ 1 ∨ argsOf ks = []) → deliver (ks ++ rest) n a = none) := by
  intro ks
  induction ks with
  | nil => intro _ n a rest; simp [argsOf, outputsOf]
  | cons k ks ih =>
    intro hk n a rest
    have hk' : Key.endOfArgs ∉ ks := fun h => hk (by simp [h])
    cases k with
    | output f =>
      obtain ⟨h1, h2⟩ := ih hk' n { a with out := f } rest
      simp only [List.cons_append, deliver, parseOpt, argsOf, outputsOf]
      refine ⟨fun h => ?_, h2⟩
      rw [h1 h]
      cases outputsOf ks <;> rfl
    | other =>
      simp only [List.cons_append, deliver, parseOpt, argsOf, outputsOf]
      exact ih hk' n a rest
    | endOfArgs => simp at hk
    | arg f =>
      simp only [List.cons_append, deliver, parseOpt, argsOf, outputsOf]
      by_cases hn : n ≥ 1
      · rw [if_pos hn]
        refine ⟨fun h => ?_, fun _ => rfl⟩
        simp at h; omega
      · obtain rfl : n = 0 := by omega
        rw [if_neg (by omega)]
        obtain ⟨h1, h2⟩ := ih hk' 1 { a with src := some f } rest
        constructor
        · intro h
          have hnil : argsOf ks = [] := by
            rcases h with h | h
            · simpa using h
            · cases h
          rw [hnil] at h1
          simp only [Nat.zero_add]
          rw [h1 (.inr rfl), hnil]
          rfl
        · intro h
          simp only [Nat.zero_add]
          refine h2 fun h' => h ?_
          rcases h' with h' | h'
          · exact .inl (by simp only [List.length_cons]; omega)
          · exact .inl (by simp [h'])

/-- **C45, in whatever order argp makes its calls**: `parse_opt` called with any sequence of options, arguments and other keys and
then the end of the arguments leaves the last `-o` file (or `a.out`) and the only argument; with no argument or several, it
ends the process with the usage message. -/
theorem C45_parse_opt {keys : List Key} (h : .endOfArgs ∉ keys) : deliver (keys ++ [.endOfArgs]) 0 .init =
    match argsOf keys with
    | [src] => some ⟨some src, (outputsOf keys).getLastD (b! "a.out")⟩
    | _ => none := by
  obtain ⟨h1, h2⟩ := deliver_mixed keys h 0 .init [.endOfArgs]
  match hk : argsOf keys with
  | [] => rw [h1 (.inr hk), hk]; rfl
  | [a] => rw [h1 (.inl (by simp [hk])), hk]; rfl
  | a :: b :: r => exact h2 (by rw [hk]; simp)

/-! Concrete cases. -/
example (w : World) : program [b! "p.asm"] w = .ran (gaia (b! "p.asm") (b! "a.out") w) :=
  C45_source_and_output (.word _ (by decide) .nil) w
example (w : World) : program [b! "-o", b! "x", b! "p.asm", b! "--output=y"] w = .ran (gaia (b! "p.asm") (b! "y") w) :=
  C45_source_and_output (.output _ (.word _ (by decide) (.longJoined (b! "y") .nil))) w
example (w : World) : program [b! "-o", b! "x"] w = .usage := C45_usage (.output _ .nil) (by decide) w
example (w : World) : program [b! "-oz", b! "--", b! "-q"] w = .ran (gaia (b! "-q") (b! "z") w) :=
  C45_source_and_output (.joined (b! "z") (by decide) (.rest _)) w

end Gaia

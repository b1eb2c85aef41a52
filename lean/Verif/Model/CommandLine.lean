import Verif.Model.Main

/-!
Model of the command line: `parse_opt` and the call of `argp_parse` (main.c:20-69, 145-150). `argp_parse` itself is glibc; it is
modelled as far as its manual describes it (option words, `--`, arguments after options), without `--help`, `--usage`, `--version`
and unknown options, for which the outcome is `elsewhere`. The table of options in main.c:25-28 has no terminating entry, so
`argp_parse` reads past it; the model takes the table as it was meant.
-/
namespace Gaia.CommandLine
open Gaia

/-- What `parse_opt` is called with (main.c:41-67): the option `-o` with its argument, an argument, the end of the
arguments, or any other key of argp. -/
inductive Key
  | output (file : Str)
  | arg (word : Str)
  | endOfArgs
  | other
  deriving DecidableEq, Repr

/-- main.c:32-36 `struct Arguments` (`none` is NULL) -/
structure Arguments where
  src : Option Str
  out : Str
  deriving DecidableEq, Repr

/-- main.c:145: the initial values -/
def Arguments.init : Arguments := ⟨none, b! "a.out"⟩

/-- main.c:40-70 `parse_opt`, with `argNum` for `state->arg_num`. `none`: `argp_usage` ends the process. -/
def parseOpt (argNum : Nat) (key : Key) (args : Arguments) : Option Arguments :=
  match key with
  | .output file => some { args with out := file }
  | .arg word => if argNum ≥ 1 then none else some { args with src := some word }
  | .endOfArgs => if argNum = 0 then none else some args
  | .other => some args

/-- glibc: the calls of `parse_opt`; `arg_num` counts the arguments handled so far. (called from main.c:150) -/
def deliver : List Key → (argNum : Nat) → Arguments → Option Arguments
  | [], _, args => some args
  | key :: keys, argNum, args =>
    match parseOpt argNum key args with
    | none => none
    | some args => deliver keys (match key with | .arg _ => argNum + 1 | _ => argNum) args

/-- glibc: a word that starts with `--` and, up to an `=`, goes on with a non-empty part of `output`. The result is the text after
the `=`, if there is one. (called from main.c:150; the option `output` is in main.c:25-29) -/
def longOutput (word : Str) : Option (Option Str) :=
  match word with
  | 45 :: 45 :: name =>
    let key := name.takeWhile (· != 61)
    if key ≠ [] ∧ key.isPrefixOf (b! "output") then
      match name.dropWhile (· != 61) with
      | [] => some none
      | _ :: value => some (some value)
    else none
  | _ => none

/-- glibc: split the words of the command line (without the program name) into keys, options first. `none`: a word that is no
argument and no `-o` option, or a missing file name. (called from main.c:150) -/
def words : List Str → Option (List Str × List Str)
  | [] => some ([], [])
  | w :: ws =>
    if w = b! "--" then some ([], ws)
    else if w = b! "-o" ∨ longOutput w = some none then
      match ws with
      | [] => none
      | f :: ws => (words ws).map fun (os, as) => (f :: os, as)
    else
      match longOutput w with
      | some (some f) => (words ws).map fun (os, as) => (f :: os, as)
      | _ =>
        match w with
        | 45 :: 111 :: f => (words ws).map fun (os, as) => (f :: os, as)
        | [45] => (words ws).map fun (os, as) => (os, w :: as)
        | 45 :: _ => none
        | _ => (words ws).map fun (os, as) => (os, w :: as)

/-- How a call of the program ends. (main.c:53-65, 143-291) -/
inductive Call
  /-- it assembles -/
  | ran (o : Outcome)
  /-- `argp_usage`: a usage message on stderr, exit status 64 (EX_USAGE), no file touched -/
  | usage
  /-- not modelled: help, version, unknown options -/
  | elsewhere

/-- main.c:143-291 with the words of the command line. -/
def program (argv : List Str) (w : World) : Call :=
  match words argv with
  | none => .elsewhere
  | some (os, as) =>
    match deliver (.other :: os.map .output ++ as.map .arg ++ [.endOfArgs, .other]) 0 .init with
    | none => .usage
    | some args =>
      match args.src with
      | none => .ran (.undefined .nullDeref)
      | some src => .ran (gaia src args.out w)

end Gaia.CommandLine

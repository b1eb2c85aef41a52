import Verif.Model.IO

/-!
Model of several gaia processes that run at the same time on one file system (`make -j`, a build server). `Model/Main.lean` runs gaia in one step. Here
it is a machine that makes one system call, or handles one line, at a time:

* `fopen` of the source (main.c:164) and `fopen` of the output, which truncates it (main.c:171), are two steps;
* the source is read in blocks of any size (the buffer of `stdio`), from the file as it is at that moment; lines are taken from the bytes read so far
  (main.c:188);
* the bytes written to the output are in a buffer and reach the file at any time, some or all of them, at the latest with `fclose`
  (main.c:129, 284);
* a process may be killed at any moment.

Between two steps of a process, others make any number of steps. Not modelled: files that are renamed or removed while gaia runs, and a system that runs
out of resources.
-/
namespace Gaia.Proc
open Gaia

/-- One gaia process: the source and the output it was asked to work on. (main.c:145, `args.src_file`, `args.out_file`) -/
structure Job where
  src : Str
  out : Str
  deriving DecidableEq

/-- How far a process has come. (main.c:143-291) -/
inductive Phase
  /-- before main.c:164 -/
  | start
  /-- the source is open (main.c:164-170) -/
  | opened
  /-- in the main loop (main.c:188-260): `inp` has been read from the source and not been used yet, `pos` bytes have been read, `eof`: a read found the
  end of the source -/
  | reading (inp : List Byte) (pos : Nat) (eof : Bool) (st : St)
  /-- all is done but `fclose` (main.c:127-141, 279-290) -/
  | closing (status : Nat) (stdout : Str) (out : OutFile)
  /-- the process has exited (main.c:141, 290) -/
  | done (status : Nat) (stdout : Str)
  /-- the process has done something undefined in C -/
  | undefined (u : UB)
  /-- the process has been killed -/
  | killed
  deriving DecidableEq

/-- What can happen to a process. (system calls made for main.c:164, 171, 188, 237-240, 284 and generator.c, and the work between them) -/
inductive Act
  /-- `fopen(source, "r")` (main.c:164) -/
  | openSource
  /-- `fopen(output, "wb")` (main.c:171) -/
  | createOutput
  /-- a `read` system call that delivers at most `n + 1` bytes (made by `fgets`, main.c:188) -/
  | read (n : Nat)
  /-- `fgets` delivers a line, and the body of the loop is run (main.c:188-260) -/
  | line
  /-- `fgets` returns NULL: what comes after the loop is run (main.c:262-281) -/
  | finish
  /-- the first `k` bytes written so far are in the output file (`fseek` and `fputc` of generator.c, main.c:237-240, empty the buffer when they
  like) -/
  | flush (k : Nat)
  /-- `fclose` (main.c:129, 284) and the end of the process -/
  | close
  /-- the process is killed -/
  | kill
  deriving DecidableEq

/-- The content of the output when the first `k` bytes written to it, oldest first, have reached it. (generator.c:39-57, main.c:237-240) -/
def visible (out : OutFile) (k : Nat) : List Byte :=
  ((out.log.take k).foldl (fun f e => (f.seek e.1).fputc e.2.toNat) OutFile.empty).bytes

/-- Print a message and exit with 1 (main.c:165-168, 172-175, nothing has been written). -/
def failed (r : Res Str) : Phase :=
  match r with
  | .ok s => .done 1 s
  | .err _ => .undefined .internal
  | .ub u => .undefined u

/-- main.c:262-281, after the main loop -/
def afterLoop (st : St) : Phase :=
  match resolveAll st st.unres.curr 0 st.out with
  | .ok out => .closing 0 (report st.total st.symtab.count) out
  | .err a => .closing 1 a.fail.out a.out
  | .ub u => .undefined u

/-- main.c:188-260: the loop body for the buffer `r.1`; `r.2` remains. -/
def loopBody (r : List Byte × List Byte) (pos : Nat) (eof : Bool) (st : St) : Phase :=
  match lineStep r.1 st with
  | .ok (.continue st) => .reading r.2 pos eof st
  | .ok (.stop st) => afterLoop st
  | .err a => .closing 1 a.fail.out a.out
  | .ub u => .undefined u

/-- One step of a process: the file system and the process after it. What cannot happen changes nothing. (main.c:143-291) -/
def act (j : Job) (a : Act) (w : World) (p : Phase) : World × Phase :=
  match p, a with
  | .done _ _, _ | .undefined _, _ | .killed, _ => (w, p)
  | _, .kill => (w, .killed)
  | .start, .openSource =>
    match w.files j.src with
    | none => (w, failed (printError none .fileOpenFail none j.src 0))
    | some _ => (w, .opened)
  | .opened, .createOutput =>
    if w.creatable j.out = false then (w, failed (printError none .binaryFileCreationFail none j.src 0))
    else (w.write j.out [], .reading [] 0 false (initSt j.src))
  | .reading inp pos eof st, .read n =>
    if eof then (w, p)        -- the end of the file is remembered by the `FILE` (C11 7.21.7.1)
    else
      match w.files j.src with
      | none => (w, p)
      | some content =>
        let block := (content.drop pos).take (n + 1)
        (w, .reading (inp ++ block) (pos + block.length) block.isEmpty st)
  | .reading inp pos eof st, .line =>
    if eof then
      if inp = [] then (w, p) else (w, loopBody (fgets (MAX_BUFFER_SIZE - 1) inp) pos eof st)
    else
      match IO.fgetsErr (MAX_BUFFER_SIZE - 1) inp with
      | none => (w, p)
      | some r => (w, loopBody r pos eof st)
  | .reading inp _ eof st, .finish => if eof = true ∧ inp = [] then (w, afterLoop st) else (w, p)
  | .reading _ _ _ st, .flush k => (w.write j.out (visible st.out k), p)
  | .closing _ _ out, .flush k => (w.write j.out (visible out k), p)
  | .closing status stdout out, .close => (w.write j.out out.bytes, .done status stdout)
  | _, _ => (w, p)

/-- The file system and all processes. (any number of runs of main.c:143-291) -/
structure Sys (ι : Type) where
  world : World
  phase : ι → Phase

/-- One step of the process `e.1`. (main.c:143-291) -/
def Sys.step {ι : Type} [DecidableEq ι] (jobs : ι → Job) (s : Sys ι) (e : ι × Act) : Sys ι :=
  let r := act (jobs e.1) e.2 s.world (s.phase e.1)
  ⟨r.1, fun i => if i = e.1 then r.2 else s.phase i⟩

/-- All processes have been started, and nothing has been done. (main.c:143) -/
def Sys.init {ι : Type} (w : World) : Sys ι := ⟨w, fun _ => .start⟩

/-- The steps of the processes, in the order in which they happen. (any number of runs of main.c:143-291) -/
def Sys.run {ι : Type} [DecidableEq ι] (jobs : ι → Job) (s : Sys ι) (schedule : List (ι × Act)) : Sys ι :=
  schedule.foldl (Sys.step jobs) s

/-! ### Other programs -/

/-- What happens while gaia runs: a step of gaia, or another program overwrites a file (in place, or by creating it). (main.c:143-291) -/
inductive Event
  | step (a : Act)
  | write (name : Str) (content : List Byte)

/-- One event. (main.c:143-291) -/
def event (j : Job) (s : World × Phase) : Event → World × Phase
  | .step a => act j a s.1 s.2
  | .write name content => (s.1.write name content, s.2)

/-- A run of gaia among other programs. (main.c:143-291) -/
def runAmong (j : Job) (w : World) (events : List Event) : World × Phase := events.foldl (event j) (w, .start)

end Gaia.Proc

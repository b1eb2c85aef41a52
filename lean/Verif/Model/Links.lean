import Verif.Model.Main

/-!
Model of src/main.c once more, on a file system in which several path names may lead to the same file: hard links, symbolic
links, `x.asm` and `./x.asm`. gaia never removes or renames anything, so where a name leads does not change while it runs.
-/
namespace Gaia.Links

/-- A file system (main.c:164, 171): where each path name leads, what the files contain (`none`: there is no such file yet, or it
cannot be read), and the names `fopen(…, "wb")` can create or truncate. `ι`: the files. -/
structure Disk (ι : Type) where
  leads : Str → ι
  data : ι → Option (List Byte)
  creatable : Str → Bool

/-- The contents after `bytes` have been written to the file `f` (main.c:171, 284). -/
def Disk.write {ι} [DecidableEq ι] (d : Disk ι) (f : ι) (bytes : List Byte) : Disk ι :=
  { d with data := fun g => if g = f then some bytes else d.data g }

/-- What running the program amounts to (main.c:143-291): exit status, text printed, file system. -/
inductive Outcome (ι : Type)
  | exited (status : Nat) (stdout : Str) (disk : Disk ι)
  | undefined (u : UB)

/-- main.c:143-291 from line 152 on. `fopen(…, "wb")` truncates the file the output name leads to before the source is read. -/
def gaia {ι} [DecidableEq ι] (srcName outName : Str) (d : Disk ι) : Outcome ι :=
  match d.data (d.leads srcName) with
  | none =>
    match printError none .fileOpenFail none srcName 0 with
    | .ok s => .exited 1 s d
    | .err _ => .undefined .internal
    | .ub u => .undefined u
  | some _ =>
    if d.creatable outName = false then
      match printError none .binaryFileCreationFail none srcName 0 with
      | .ok s => .exited 1 s d
      | .err _ => .undefined .internal
      | .ub u => .undefined u
    else
      -- main.c:171: the output file is empty now; main.c:188: what the source's name leads to is read
      let d := d.write (d.leads outName) []
      match assembleBytes srcName ((d.data (d.leads srcName)).getD []) with
      | .ok st => .exited 0 (report st.total st.symtab.count) (d.write (d.leads outName) st.out.bytes)
      | .err a => .exited 1 a.fail.out (d.write (d.leads outName) a.out.bytes)
      | .ub u => .undefined u

end Gaia.Links

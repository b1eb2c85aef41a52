import Verif.Model.Process
import Verif.Props.C55_Crash
import Verif.Proofs.StepsLex

/-! What a run writes is only ever added to. -/
namespace Gaia.Proc
open Gaia Spec
open Gaia.Steps (raise_ne_ok)

/-- All of `log` is at the beginning of the log of the file a step leaves. -/
def Ext {α : Type} (log : List (Nat × Byte)) (file : α → OutFile) : Gaia.Run α → Prop
  | .ok a => log <+: (file a).log
  | .err e => log <+: e.out.log
  | .ub _ => True

theorem Ext.orAbort {α : Type} {log : List (Nat × Byte)} {out : OutFile} (h : log <+: out.log) {file : α → OutFile} {r : Res α}
    (hf : ∀ a, r = .ok a → log <+: (file a).log) : Ext log file (Gaia.orAbort out r) := by
  cases r with
  | ok a => exact hf a rfl
  | err e => exact h
  | ub u => trivial

theorem Ext.bind {α β : Type} {log : List (Nat × Byte)} {out : OutFile} (h : log <+: out.log) {file : β → OutFile} {r : Res α} {k : α → Gaia.Run β}
    (hk : ∀ a, Ext log file (k a)) : Ext log file (Gaia.orAbort out r >>= k) := by
  cases r with
  | ok a => exact hk a
  | err e => exact h
  | ub u => trivial

theorem Ext.bindOk {α β : Type} {log : List (Nat × Byte)} {out : OutFile} (h : log <+: out.log) {file : β → OutFile} {r : Res α} {k : α → Gaia.Run β}
    (hk : ∀ a, r = .ok a → Ext log file (k a)) : Ext log file (Gaia.orAbort out r >>= k) := by
  cases r with
  | ok a => exact hk a rfl
  | err e => exact h
  | ub u => trivial

theorem Ext.seq {α β : Type} {log : List (Nat × Byte)} {file : α → OutFile} {file' : β → OutFile} {r : Gaia.Run α} {k : α → Gaia.Run β}
    (hr : Ext log file r) (hk : ∀ a, r = .ok a → log <+: (file a).log → Ext log file' (k a)) : Ext log file' (r >>= k) := by
  cases r with
  | ok a => exact hk a rfl hr
  | err e => exact hr
  | ub u => trivial

theorem fputc_log {log : List (Nat × Byte)} {f : OutFile} (h : log <+: f.log) (v : Int) : log <+: (f.fputc v).log :=
  h.trans ⟨_, rfl⟩

theorem seek_log {log : List (Nat × Byte)} {f : OutFile} (h : log <+: f.log) (n : Nat) : log <+: (f.seek n).log := h

theorem generateCode_log {log : List (Nat × Byte)} {f : OutFile} (h : log <+: f.log) (instr : Instr) (operand : Option Token) (pc : Nat) :
    log <+: (generateCode f instr operand pc).1.log := by
  have h1 := fputc_log (seek_log h pc) (getOpcode instr)
  unfold generateCode
  split
  · exact h1
  · dsimp only
    split_ifs
    · exact h1
    · exact fputc_log (fputc_log h1 _) _
    · exact fputc_log h1 _

theorem resolveLabelRef_log {log : List (Nat × Byte)} {f : OutFile} (h : log <+: f.log) {lx : Lexer} {instr : Instr} {label : Option Token}
    {status : OpStatus} {symtab : SymTab} {pc : Nat} {r : OutFile × Nat} (e : resolveLabelRef f lx instr label status symtab pc = .ok r) :
    log <+: r.1.log := by
  unfold resolveLabelRef at e
  split at e
  · exact absurd e (raise_ne_ok _ _ _ _ _ _)
  · rw [C.bind_eq_ok] at e
    obtain ⟨d, _, e⟩ := e
    split_ifs at e
    · rw [C.bind_eq_ok] at e
      obtain ⟨o, _, e⟩ := e
      split at e
      · exact absurd e (raise_ne_ok _ _ _ _ _ _)
      · cases e; exact generateCode_log h _ _ _
    · cases e; exact generateCode_log h _ _ _
    · exact absurd e (raise_ne_ok _ _ _ _ _ _)

theorem resolveForwardRef_log {log : List (Nat × Byte)} {f : OutFile} (h : log <+: f.log) {ref : ForwardRef} {lx : Lexer} {d : Int} {r : OutFile}
    (e : resolveForwardRef f ref lx d = .ok r) : log <+: r.log := by
  unfold resolveForwardRef at e
  split_ifs at e
  · rw [C.bind_eq_ok] at e
    obtain ⟨o, _, e⟩ := e
    split at e
    · exact absurd e (raise_ne_ok _ _ _ _ _ _)
    · cases e; exact fputc_log (fputc_log (seek_log h _) _) _
  · rw [C.bind_eq_ok] at e
    obtain ⟨o, _, e⟩ := e
    split at e
    · exact absurd e (raise_ne_ok _ _ _ _ _ _)
    · exact absurd e (raise_ne_ok _ _ _ _ _ _)
  · cases e; exact fputc_log (fputc_log (fputc_log (seek_log h _) _) _) _
  · exact absurd e (raise_ne_ok _ _ _ _ _ _)
  · exact absurd e (raise_ne_ok _ _ _ _ _ _)

theorem bumpLine_log {α : Type} {log : List (Nat × Byte)} {file : α → OutFile} {st : St} {k : St → Gaia.Run α}
    (hk : ∀ n, Ext log file (k { st with lineNum := n })) : Ext log file (bumpLine st k) := by
  unfold bumpLine
  split_ifs
  · trivial
  · exact hk _

theorem saveForwardRef_log {log : List (Nat × Byte)} {buffer : Str} {st : St} {instr : Instr} {operand : Option Token} {status : OpStatus}
    (h : log <+: st.out.log) : Ext log St.out (saveForwardRef buffer st instr operand status) := by
  unfold saveForwardRef
  refine .bind h fun ref => .bind h fun unres => ?_
  have h1 := fputc_log (fputc_log h 0) 0
  show log <+: OutFile.log (if _ then _ else _)
  split_ifs
  · exact fputc_log h1 0
  · exact h1

theorem instructionStep_log {log : List (Nat × Byte)} {buffer : Str} {st : St} (h : log <+: st.out.log) :
    Ext log St.out (instructionStep buffer st) := by
  unfold instructionStep
  refine .bind h fun operand => .bind h fun r => .bind h fun s => ?_
  dsimp only
  have last : ∀ (st' : St) (out : OutFile) (written : Nat), log <+: out.log → Ext log St.out (bumpLine { st' with out := out } fun st =>
      if st.pc + written > INT_MAX ∨ st.total + written > INT_MAX then .ub .signedOverflow
      else pure { st with pc := st.pc + written, total := st.total + written }) := by
    intro st' out written ho
    refine bumpLine_log fun n => ?_
    split_ifs
    · trivial
    · exact ho
  split
  · refine Ext.seq (saveForwardRef_log h) fun st' _ h' => ?_
    split_ifs
    · exact .bindOk h' fun x hx => last _ _ _ (resolveLabelRef_log h' hx)
    · exact last _ _ _ (generateCode_log h' _ _ _)
  · refine Ext.seq (file := St.out) (r := pure _) h fun st' _ h' => ?_
    split_ifs
    · exact .bindOk h' fun x hx => last _ _ _ (resolveLabelRef_log h' hx)
    · exact last _ _ _ (generateCode_log h' _ _ _)

/-- The file of a finished line. -/
def nextOut : Next → OutFile
  | .continue st => st.out
  | .stop st => st.out

theorem lineStep_log {log : List (Nat × Byte)} {raw : List Byte} {st : St} (h : log <+: st.out.log) :
    Ext log nextOut (lineStep raw st) := by
  unfold lineStep
  refine .bind h fun r => .bind h fun lx => .bind h fun first => ?_
  refine Ext.seq (file := St.out) ?_ ?_
  · unfold declareStep
    split_ifs
    · exact .bind h fun t => h
    · exact h
    · exact h
  · intro st' _ h'
    split_ifs
    · exact h'
    · exact bumpLine_log fun n => h'
    · exact Ext.seq (file := St.out) (instructionStep_log h') fun st'' _ h'' => h''

theorem mainLoop_log {log : List (Nat × Byte)} : ∀ (raws : List (List Byte)) {st : St}, log <+: st.out.log → Ext log St.out (mainLoop raws st)
  | [], _, h => h
  | raw :: rest, st, h => by
    unfold mainLoop
    refine Ext.seq (lineStep_log (raw := raw) h) fun n _ hn => ?_
    cases n with
    | «continue» st' => exact mainLoop_log rest hn
    | stop st' => exact hn

theorem resolveAll_log {log : List (Nat × Byte)} {st : St} : ∀ (n i : Nat) {out : OutFile}, log <+: out.log → Ext log id (resolveAll st n i out)
  | 0, _, _, h => h
  | n + 1, i, out, h => by
    unfold resolveAll
    split
    · trivial
    · trivial
    · refine .bind h fun d => ?_
      split_ifs
      · exact .orAbort h fun a ha => absurd ha (raise_ne_ok _ _ _ _ _ _)
      · exact .bindOk h fun out' ho => resolveAll_log n (i + 1) (resolveForwardRef_log h ho)

/-- The first `k` writes of a log, done on an empty file. -/
theorem replay_writes : ∀ (l : List (Nat × Byte)) (f : OutFile), Written f (bytewise f.log) →
    Written (l.foldl (fun f e => (f.seek e.1).fputc e.2.toNat) f) (bytewise (f.log ++ l))
  | [], f, h => by simpa using h
  | e :: l, f, h => by
    have h1 : Written ((f.seek e.1).fputc e.2.toNat) (bytewise ((f.seek e.1).fputc e.2.toNat).log) :=
      op_written (op_written h (.seek e.1)) (.putc e.2.toNat)
    have h2 : ((f.seek e.1).fputc e.2.toNat).log = f.log ++ [e] := by
      show f.log ++ [(e.1, UInt8.ofNat ((e.2.toNat : Int) % 256).toNat)] = _
      have : ((e.2.toNat : Int) % 256).toNat = e.2.toNat := by have := e.2.toNat_lt; omega
      rw [this, UInt8.ofNat_toNat]
    have h3 := replay_writes l _ h1
    rw [h2] at h3
    simpa using h3

theorem visible_eq (out : OutFile) (k : Nat) : visible out k = written (out.log.take k) :=
  (replay_writes (out.log.take k) OutFile.empty Written_empty).bytes

end Gaia.Proc

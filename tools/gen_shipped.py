#!/usr/bin/env python3
"""Writes lean/Verif/Props/Shipped.lean: the example programs of /repo/example as instances of the theorems."""
import glob, os
out = ['''import Verif.Props.C26_TwoPass
import Verif.Props.C51_Writable

/-!
The example programs shipped in /repo/example meet the hypotheses of the whole-program theorems: they are programs of the
documented language with ascending addresses and operands that fit, and a two-pass assembler accepts them; so gaia assembles them
to exactly the image the two-pass assembler makes. Generated by tools/gen_shipped.py from the files.
-/
set_option maxRecDepth 100000
set_option maxHeartbeats 4000000
namespace Gaia.Shipped
open Gaia Spec

/-- The hypotheses of C26 and C51, and the outcome. -/
def Fine (src : List Byte) : Prop := ∃ p r, IsProgram src p ∧ AscendingProgram p ∧ InRange p ∧ assemble p = some r ∧
  Succeeds (demo src) (b! "p.asm") (b! "p.bin") (image r.chunks) (totalBytes r.chunks) r.env.length

def ascendingCheck (p : List Stmt) : Bool := match pass1 p .init with | some s => decide (Ascending s.items) | none => true

/-- All of it, by evaluation. -/
def fineCheck (src : List Byte) : Bool :=
  decide (Sized src) && (lines src).all (fun l => decide (l.length ≤ 126)) &&
  match linesStmts (lines src) with
  | none => false
  | some p => p.all (fun st => decide (¬ IndexedJump st)) && ascendingCheck p && (assemble p).isSome

theorem fine_of {src : List Byte} (h : fineCheck src = true) : Fine src := by
  unfold fineCheck at h
  simp only [Bool.and_eq_true] at h
  obtain ⟨⟨h1, h2⟩, h3⟩ := h
  cases hp : linesStmts (lines src) with
  | none => rw [hp] at h3; cases h3
  | some p =>
    rw [hp] at h3
    simp only [Bool.and_eq_true] at h3
    obtain ⟨⟨h4, h5⟩, h6⟩ := h3
    have hprog : IsProgram src p := isProgram_eval (of_decide_eq_true h1)
      (fun l hl => of_decide_eq_true (List.all_eq_true.1 h2 l hl)) hp
      (fun st hst => of_decide_eq_true (List.all_eq_true.1 h4 st hst))
    obtain ⟨r, hr⟩ := Option.isSome_iff_exists.1 h6
    have ha : AscendingProgram p := ascendingProgram_eval h5
    exact ⟨p, r, hprog, ha, assemble_inRange hr, hr, C26_assembles (demo_setup _) hprog ha hr⟩
''']
for f in sorted(glob.glob('/repo/example/*.asm')):
    n = os.path.basename(f)[:-4]
    bs = open(f, 'rb').read()
    out.append('/-- /repo/example/%s.asm, %d bytes -/\ndef %s : List Byte := [' % (n, len(bs), n))
    rows = [', '.join(map(str, bs[i:i+32])) for i in range(0, len(bs), 32)]
    out.append('  ' + ',\n  '.join(rows) + ']\n')
    out.append('example : Fine %s := fine_of (by decide +kernel)\n' % n)
out.append('end Gaia.Shipped')
open(os.path.join(os.path.dirname(__file__), '..', 'lean/Verif/Props/Shipped.lean'), 'w').write('\n'.join(out) + '\n')

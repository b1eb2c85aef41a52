import Verif.Props.C52_Leftover
import Verif.Props.Reach
import Verif.Proofs.LexCut

/-! C53: the output file, the reported counts and the source size. -/
set_option maxRecDepth 10000
namespace Gaia
open Spec

theorem fgets_join : ∀ (n : Nat) (s : List Byte), (fgets n s).1 ++ (fgets n s).2 = s
  | 0, s => rfl
  | _ + 1, [] => rfl
  | n + 1, c :: s => by
    unfold fgets
    split_ifs with h
    · subst h; rfl
    · have := fgets_join n s
      simp only [List.cons_append, this]

theorem chunksAux_join : ∀ (fuel : Nat) (s : List Byte), s.length ≤ fuel → (chunksAux fuel s).flatten = s
  | 0, s, h => by
    have : s = [] := List.length_eq_zero_iff.1 (by omega)
    subst this; rfl
  | fuel + 1, s, h => by
    unfold chunksAux
    split_ifs with h0
    · subst h0; rfl
    · rw [List.flatten_cons, chunksAux_join fuel _ (by have := fgets_progress 126 s h0; show (fgets (126 + 1) s).2.length ≤ fuel; omega),
        fgets_join]

/-- The buffers `fgets` delivers are the file, in order. -/
theorem chunks_join (src : List Byte) : (chunks src).flatten = src := chunksAux_join _ _ (Nat.le_refl _)

theorem mnemonicName_length (m : Mnemonic) : (mnemonicName m).length = 3 := by cases m <;> rfl

theorem cutSpell_mnem {t : Str} {m : Mnemonic} (h : CutSpell t (.mnem m)) : t.length = 3 := by
  generalize hx : Lexeme.mnem m = x at h
  cases h with
  | wrapped pre ds b => cases hx
  | spelled t x h =>
    cases h with
    | word c t hc ht hl =>
      unfold wordLexeme at hx
      split_ifs at hx
      split at hx
      · rename_i m' hm
        have := List.find?_some hm
        simp only [decide_eq_true_eq] at this
        have hl := congrArg List.length this
        rw [mnemonicName_length] at hl
        simpa using hl.symm
      · cases hx
    | hex ds => cases hx
    | bin ds => cases hx
    | dec ds => cases hx
    | directive t x h =>
      subst hx
      unfold directiveLexeme at h
      split_ifs at h <;> cases h
    | punct c x h =>
      subst hx
      unfold punctLexeme at h
      split_ifs at h <;> cases h

theorem cutTokens_mnem {first : Bool} {off : Nat} {s : Str} {ls : List (Nat × Lexeme)} (h : CutTokens first off s ls) {p : Nat}
    {m : Mnemonic} (hm : (p, Lexeme.mnem m) ∈ ls) : 3 ≤ s.length := by
  induction h with
  | done => cases hm
  | cons first off t bl s x ls ht hd hb hs hrest ih =>
    simp only [List.length_append]
    rcases List.mem_cons.1 hm with h | h
    · obtain ⟨rfl, rfl⟩ := Prod.mk.injEq .. ▸ h
      have := cutSpell_mnem ht; omega
    · have := ih h; omega
  | colon off t bl s l ls ht hb hs hrest ih =>
    simp only [List.length_append, List.length_cons]
    rcases List.mem_cons.1 hm with h | h
    · cases h
    · have := ih h; omega

theorem code_length (l : List Byte) : (code l).length ≤ l.length := (List.takeWhile_sublist _).length_le

/-- A line with an instruction has at least three characters. -/
theorem lexemes_mnem_length {raw : List Byte} {ls : List (Nat × Lexeme)} (h : lexemes raw = .ok ls) {m : Mnemonic}
    (hm : lastMnem (ls.map (·.2)) = some m) : 3 ≤ raw.length := by
  obtain ⟨⟨bl, s, h1, _, _, h2⟩, _⟩ := (lexemes_cuts ls).1 h
  have key : ∀ xs : List Lexeme, ∀ m, lastMnem xs = some m → ∃ m, Lexeme.mnem m ∈ xs := by
    intro xs
    induction xs with
    | nil => intro m h; cases h
    | cons x xs ih =>
      intro m h
      cases x
      case mnem m' => exact ⟨m', by simp⟩
      all_goals
        simp only [lastMnem] at h
        obtain ⟨m', h'⟩ := ih m h
        exact ⟨m', List.mem_cons_of_mem _ h'⟩
  obtain ⟨m', hm'⟩ := key _ _ hm
  obtain ⟨⟨p, x⟩, hp, rfl⟩ := List.mem_map.1 hm'
  have h3 := cutTokens_mnem h2 hp
  have h4 := code_length raw
  rw [h1, List.length_append] at h4
  omega

/-- How far the machine can have got after `n` bytes of source. -/
structure SizeBound (n : Nat) (a : A) : Prop where
  pc : a.pc ≤ 65535 + n
  total : a.total ≤ n
  env : a.env.length ≤ n
  pos : a.out.pos ≤ 65535 + n
  len : a.out.bytes.length ≤ 65535 + n
  refs : ∀ r ∈ a.refs, r.pc + 3 ≤ 65535 + n

theorem puts_bound {f : OutFile} {bs : List Byte} {n k : Nat} (h1 : f.bytes.length ≤ n) (h2 : f.pos + bs.length ≤ n) (h3 : bs.length = k) :
    (f.puts bs).bytes.length ≤ n ∧ (f.puts bs).pos ≤ n := by
  rw [puts_length, puts_pos]
  split_ifs <;> omega

theorem declare_size {ls : List (Nat × Lexeme)} {a a' : A} {n : Nat} (h : declare ls a = .ok a') (hb : SizeBound n a)
    (hlit : ∀ p ∈ ls, ∀ v, p.2 = .lit v → v ≤ 0xFFFF) :
    a'.pc ≤ 65535 + n ∧ a'.total = a.total ∧ a'.env.length ≤ a.env.length + (if ls = [] then 0 else 1) ∧ a'.out = a.out ∧
      a'.refs = a.refs := by
  have hpc := hb.pc
  unfold declare at h
  cases hd : declared a.pc ls with
  | some q =>
    obtain ⟨p, l, v⟩ := q
    have hne : ls ≠ [] := by rintro rfl; simp [declared] at hd
    rw [hd] at h
    simp only at h
    cases hl : a.env.lookup l with
    | some w => rw [hl] at h; cases h
    | none =>
      rw [hl] at h
      simp only [Except.ok.injEq] at h
      subst h
      rw [if_neg hne]
      exact ⟨hpc, rfl, by simp, rfl, rfl⟩
  | none =>
    rw [hd] at h
    simp only at h
    cases ho : originOf ls with
    | some v =>
      rw [ho] at h
      simp only [Except.ok.injEq] at h
      subst h
      obtain ⟨q, hq⟩ := originOf_mem ho
      have := hlit _ hq v rfl
      exact ⟨by simp only; omega, rfl, Nat.le_add_right _ _, rfl, rfl⟩
    | none =>
      rw [ho] at h
      simp only [Except.ok.injEq] at h
      subst h
      exact ⟨hpc, rfl, Nat.le_add_right _ _, rfl, rfl⟩

theorem line_size {fn : Str} {raw : List Byte} {a a' : A} {b : Bool} {n : Nat} (h : line fn raw a = .ok (b, a')) (hb : SizeBound n a) :
    SizeBound (n + raw.length) a' := by
  obtain ⟨ls, a1, h1, h2, h3, h4⟩ := line_ok h
  obtain ⟨g1, g2, g3, g4, g5⟩ := declare_size h3 hb (lexemes_small h1)
  have b2 := hb.total
  have b3 := hb.env
  have b4 := hb.pos
  have b5 := hb.len
  have b6 := hb.refs
  have hne : (if ls = [] then 0 else 1) ≤ raw.length := by
    split_ifs with h0
    · omega
    · by_contra hc
      have : raw = [] := List.length_eq_zero_iff.1 (by omega)
      subst this
      apply h0
      have : lexemes [] = .ok [] := by rfl
      rw [this] at h1
      simpa using h1.symm
  rcases h4 with ⟨_, _, rfl⟩ | ⟨_, _, _, rfl⟩ | ⟨_, _, m, hm, hi⟩
  · exact ⟨by omega, by omega, by omega, by rw [g4]; omega, by rw [g4]; omega, by rw [g5]; intro r hr; have := b6 r hr; omega⟩
  · exact ⟨by simp only; omega, by simp only; omega, by simp only; omega, by simp only [g4]; omega, by simp only [g4]; omega,
      by simp only [g5]; intro r hr; have := b6 r hr; omega⟩
  · have h3 := lexemes_mnem_length h1 hm
    rcases instrStep_cases hi with ⟨bs, c1, c2, rfl⟩ | ⟨p, l, bs, _, _, _, _, hbs, rfl⟩
    · have hp := puts_bound (f := a1.out.seek a1.pc) (bs := bs) (n := 65535 + (n + raw.length)) (by rw [g4]; simp only [OutFile.seek]; omega)
        (by simp only [OutFile.seek]; omega) rfl
      exact ⟨by simp only [A.emit]; omega, by simp only [A.emit]; omega, by simp only [A.emit]; omega, hp.2, hp.1,
        by simp only [A.emit, g5]; intro r hr; have := b6 r hr; omega⟩
    · have hlen : bs.length ≤ 3 := by
        rw [hbs]; have := argBytes_len (fwdFlag m (shape (ls.map (·.2)))) 0
        simp only [List.length_cons]; omega
      have hd : (if Gaia.isBranch m then ([0, 0] : List Byte) else [0, 0, 0]).length ≤ 3 := by split_ifs <;> simp
      have hp0 := puts_bound (f := a1.out) (bs := if Gaia.isBranch m then ([0, 0] : List Byte) else [0, 0, 0])
        (n := 65535 + (n + raw.length)) (by rw [g4]; omega) (by rw [g4]; omega) rfl
      have hp := puts_bound (f := (a1.out.puts (if Gaia.isBranch m then ([0, 0] : List Byte) else [0, 0, 0])).seek a1.pc) (bs := bs)
        (n := 65535 + (n + raw.length)) hp0.1 (by simp only [OutFile.seek]; omega) rfl
      refine ⟨by simp only [A.emit, A.saveRef]; omega, by simp only [A.emit, A.saveRef]; omega,
        by simp only [A.emit, A.saveRef]; omega, hp.2, hp.1, ?_⟩
      intro r hr
      simp only [A.emit, A.saveRef, List.mem_append, List.mem_singleton, g5] at hr
      rcases hr with hr | rfl
      · have := b6 r hr; omega
      · simp only [mkRef]; omega

theorem line_error_out {fn : Str} {raw : List Byte} {a : A} {e : Abort} (h : line fn raw a = .error e) : e.out = a.out := by
  unfold line at h
  split at h
  · simp only [Except.error.injEq] at h; subst h; rfl
  · simp only [Except.error.injEq] at h; subst h; rfl
  · split at h
    · simp only [Except.error.injEq] at h; subst h; rfl
    · split at h
      · simp only [Except.error.injEq] at h; subst h; rfl
      · cases h

theorem runLines_size (fn : Str) : ∀ (raws : List (List Byte)) (a : A) (n : Nat), SizeBound n a →
    match runLines fn raws a with
    | .ok a' => SizeBound (n + raws.flatten.length) a'
    | .error e => e.out.bytes.length ≤ 65535 + (n + raws.flatten.length)
  | [], a, n, hb => by simpa [runLines] using hb
  | raw :: raws, a, n, hb => by
    rw [List.flatten_cons, List.length_append]
    unfold runLines
    cases hl : line fn raw a with
    | error e =>
      have := hb.len
      simp only
      rw [line_error_out hl]; omega
    | ok q =>
      obtain ⟨b, a'⟩ := q
      have hb' := line_size hl hb
      cases b with
      | true =>
        simp only
        exact ⟨by have := hb'.pc; omega, by have := hb'.total; omega, by have := hb'.env; omega, by have := hb'.pos; omega,
          by have := hb'.len; omega, fun r hr => by have := hb'.refs r hr; omega⟩
      | false =>
        have := runLines_size fn raws a' _ hb'
        rw [Nat.add_assoc] at this
        simpa using this

theorem patch_size (fn : Str) (env : Env) (N : Nat) : ∀ (rs : List ForwardRef) (out : OutFile), (∀ r ∈ rs, r.pc + 3 ≤ N) →
    out.bytes.length ≤ N →
    match patch fn env rs out with
    | .ok out => out.bytes.length ≤ N
    | .error e => e.out.bytes.length ≤ N
  | [], out, _, h => by simpa [patch] using h
  | r :: rs, out, hr, h => by
    have hr0 := hr r (by simp)
    have hrs : ∀ r ∈ rs, r.pc + 3 ≤ N := fun r h => hr r (by simp [h])
    unfold patch
    cases env.lookup r.label with
    | none => simpa using h
    | some v =>
      simp only
      split_ifs
      · cases branchByte r.pc v with
        | none => simpa using h
        | some b =>
          simp only
          exact patch_size fn env N rs _ hrs (puts_bound (f := out.seek r.pc) h (by simp only [OutFile.seek, List.length_cons, List.length_nil]; omega) rfl).1
      · exact patch_size fn env N rs _ hrs (puts_bound (f := out.seek r.pc) h (by simp only [OutFile.seek, List.length_cons, List.length_nil]; omega) rfl).1

theorem assembleA_size (fn : Str) (src : List Byte) :
    match assembleA fn src with
    | .ok a => a.out.bytes.length ≤ 65535 + src.length ∧ a.total ≤ src.length ∧ a.env.length ≤ src.length
    | .error e => e.out.bytes.length ≤ 65535 + src.length := by
  have h0 : SizeBound 0 A.init :=
    ⟨by simp [A.init], by simp [A.init], by simp [A.init], by simp [A.init, OutFile.empty], by simp [A.init, OutFile.empty],
      by simp [A.init]⟩
  have h := runLines_size fn (chunks src) A.init 0 h0
  rw [chunks_join, Nat.zero_add] at h
  unfold assembleA
  cases hr : runLines fn (chunks src) A.init with
  | error e => rw [hr] at h; exact h
  | ok a =>
    rw [hr] at h
    simp only at h ⊢
    have hp := patch_size fn a.env (65535 + src.length) a.refs a.out h.refs h.len
    cases hq : patch fn a.env a.refs a.out with
    | error e => rw [hq] at hp; exact hp
    | ok o => rw [hq] at hp; exact ⟨hp, h.total, h.env⟩

/-- **C53.** Whatever the source, the output file is at most 65535 bytes longer than the source, whether gaia succeeds or not; and
if it succeeds, the number of bytes and the number of symbols it reports are at most the length of the source. -/
theorem C53_size {w : World} {srcName outName : Str} {src : List Byte} (hw : Setup w srcName outName src)
    (hs : Sized src) :
    ∃ bin : List Byte, bin.length ≤ 65535 + src.length ∧
      ((∃ total symbols, Succeeds w srcName outName bin total symbols ∧ total ≤ src.length ∧ symbols ≤ src.length) ∨
       ∃ text, FailsLeaving w srcName outName text bin) := by
  have h := assembleA_size srcName src
  have hsim := assemble_sim srcName src hs
  cases ha : assembleA srcName src with
  | error e =>
    rw [ha] at h hsim
    exact ⟨e.out.bytes, h, .inr ⟨_, failsLeaving_of hw hsim⟩⟩
  | ok a =>
    rw [ha] at h hsim
    obtain ⟨st, k1, k2, k3, k4, _⟩ := hsim
    refine ⟨st.out.bytes, by rw [k4]; exact h.1, .inl ⟨_, _, succeeds_of hw k1, ?_, ?_⟩⟩
    · rw [k2]; exact h.2.1
    · rw [k3]; exact h.2.2

/-- The same for a run known to succeed. -/
theorem C53_success {w : World} {srcName outName : Str} {src : List Byte} (hw : Setup w srcName outName src)
    (hs : Sized src) {bin : List Byte} {total symbols : Nat} (h : Succeeds w srcName outName bin total symbols) :
    bin.length ≤ 65535 + src.length ∧ total ≤ src.length ∧ symbols ≤ src.length := by
  obtain ⟨bin', hb, ⟨t, n, h1, h2, h3⟩ | ⟨text, h1⟩⟩ := C53_size hw hs
  · obtain ⟨rfl, rfl, rfl⟩ := Succeeds.unique h h1
    exact ⟨hb, h2, h3⟩
  · unfold FailsLeaving at h1
    unfold Succeeds at h
    rw [h] at h1
    cases h1

/-- The bound is nearly reached: eleven bytes of source, 65536 bytes of output. -/
example : (b! "*=$FFFF\nNOP").length = 11 ∧
    ∃ bin, bin.length = 65536 ∧ Succeeds (demo (b! "*=$FFFF\nNOP")) (b! "p.asm") (b! "p.bin") bin 1 0 := by
  refine ⟨rfl, image [(65535, [0xEA])], by rw [image_length]; decide, ?_⟩
  have hp : IsProgram (b! "*=$FFFF\nNOP") [.org 0xFFFF, .instr none .NOP .none] :=
    isProgram_eval (by decide) (by decide +kernel) (by decide +kernel) (by decide +kernel)
  have hr : assemble [.org 0xFFFF, .instr none .NOP .none] = some ⟨[(65535, [0xEA])], []⟩ := by decide +kernel
  have ha : AscendingProgram [.org 0xFFFF, .instr none .NOP .none] := ascendingProgram_eval (by decide +kernel)
  have h := C26_assembles (demo_setup _) hp ha hr
  exact h

/-- A run that fails, with a leftover of 100 zero bytes and one instruction. -/
example : ∃ bin : List Byte, bin.length ≤ 65535 + (b! "*=100\n NOP\n ???\n").length ∧
    ((∃ total symbols, Succeeds (demo (b! "*=100\n NOP\n ???\n")) (b! "p.asm") (b! "p.bin") bin total symbols ∧
      total ≤ (b! "*=100\n NOP\n ???\n").length ∧ symbols ≤ (b! "*=100\n NOP\n ???\n").length) ∨
      ∃ text, FailsLeaving (demo (b! "*=100\n NOP\n ???\n")) (b! "p.asm") (b! "p.bin") text bin) :=
  C53_size (demo_setup _) (by decide)

end Gaia

import Verif.Props.C54_IO
import Verif.Props.C41_WriteLog

/-! C55: a run that is killed before it ends. -/
set_option maxRecDepth 10000
namespace Gaia
open Spec

/-! ### The file is the result of its log -/

def bytewise (bs : List (Nat × Byte)) : List Chunk := bs.map fun b => (b.1, [b.2])

theorem singles_bytewise : ∀ bs : List (Nat × Byte), singles (bytewise bs) = bs
  | [] => rfl
  | b :: bs => by
    have := singles_bytewise bs
    unfold singles bytewise at this ⊢
    simp only [List.map_cons, List.flatMap_cons, this]
    rfl

theorem op_written {f : OutFile} (h : Written f (bytewise f.log)) (op : IO.Op) :
    Written (IO.perfect.op f op) (bytewise (IO.perfect.op f op).log) := by
  cases op with
  | seek n => exact ⟨h.len, h.get, h.log⟩
  | putc v =>
    have h1 : IO.perfect.op f (.putc v) = (f.seek f.pos).puts [UInt8.ofNat (v % 256).toNat] := rfl
    have h2 := h.puts f.pos [UInt8.ofNat (v % 256).toNat] (by simp)
    rw [h1]
    have h3 : ((f.seek f.pos).puts [UInt8.ofNat (v % 256).toNat]).log = f.log ++ [(f.pos, UInt8.ofNat (v % 256).toNat)] := by
      rw [puts_log]; rfl
    rw [h3]
    simpa [bytewise] using h2

theorem replay_written : ∀ (ops : List IO.Op) (f : OutFile), Written f (bytewise f.log) →
    Written (IO.replay IO.perfect f ops) (bytewise (IO.replay IO.perfect f ops).log)
  | [], _, h => h
  | op :: ops, f, h => replay_written ops _ (op_written h op)

theorem replay_log : ∀ (ops : List IO.Op) (f : OutFile), f.log <+: (IO.replay IO.perfect f ops).log
  | [], _ => List.prefix_refl _
  | op :: ops, f => by
    refine List.IsPrefix.trans ?_ (replay_log ops (IO.perfect.op f op))
    cases op with
    | seek n => exact List.prefix_refl _
    | putc v => exact ⟨_, rfl⟩

theorem replay_take (ops : List IO.Op) (n : Nat) (f : OutFile) :
    (IO.replay IO.perfect f (ops.take n)).log <+: (IO.replay IO.perfect f ops).log := by
  have : IO.replay IO.perfect f ops = IO.replay IO.perfect (IO.replay IO.perfect f (ops.take n)) (ops.drop n) := by
    unfold IO.replay
    rw [← List.foldl_append, List.take_append_drop]
  rw [this]
  exact replay_log _ _

/-- What an interrupted run leaves, in terms of the log of the whole run. -/
theorem interrupted_log {srcName : Str} {src left : List Byte} (h : Interrupted srcName src left) :
    (∃ st, assembleBytes srcName src = .ok st ∧ ∃ m, left = written (st.out.log.take m)) ∨
    (∃ a, assembleBytes srcName src = .err a ∧ ∃ m, left = written (a.out.log.take m)) := by
  obtain ⟨status, text, ops, n, h1, rfl⟩ := h
  have hp := IO.gaia_perfect srcName src
  rw [IO.gaia_replay, h1] at hp
  obtain ⟨t, ht⟩ := replay_take ops n OutFile.empty
  have hb := (replay_written (ops.take n) OutFile.empty Written_empty).bytes
  have key : (IO.replay IO.perfect OutFile.empty (ops.take n)).bytes =
      written ((IO.replay IO.perfect OutFile.empty ops).log.take (IO.replay IO.perfect OutFile.empty (ops.take n)).log.length) := by
    rw [← ht, List.take_left]
    exact hb
  cases ha : assembleBytes srcName src with
  | ok st =>
    rw [ha] at hp
    simp only [IO.Outcome.map, IO.Outcome.exited.injEq] at hp
    refine .inl ⟨st, rfl, (IO.replay IO.perfect OutFile.empty (ops.take n)).log.length, ?_⟩
    rw [← hp.2.2]
    exact key
  | err a =>
    rw [ha] at hp
    simp only [IO.Outcome.map, IO.Outcome.exited.injEq] at hp
    refine .inr ⟨a, rfl, (IO.replay IO.perfect OutFile.empty (ops.take n)).log.length, ?_⟩
    rw [← hp.2.2]
    exact key
  | ub u => rw [ha] at hp; simp [IO.Outcome.map] at hp

/-- **C55.** A run that was killed at any moment does no lasting harm: running gaia again does exactly what it would have done
without the killed run (same status, text, and output file). -/
theorem C55_rerun {w : World} {srcName outName : Str} {src : List Byte} (hw : Setup w srcName outName src) {left : List Byte}
    (hl : Interrupted srcName src left) :
    SameRun srcName outName w { w with files := fun n => if n = outName then some left else w.files n } := by
  have hw' : Setup { w with files := fun n => if n = outName then some left else w.files n } srcName outName src :=
    ⟨by simp only [if_neg hw.different]; exact hw.source, hw.creatable, hw.different⟩
  unfold SameRun
  rw [gaia_eq hw, gaia_eq hw']
  rcases interrupted_log hl with ⟨st, h, _⟩ | ⟨a, h, _⟩
  · rw [h]; exact ⟨_, _, _, rfl, rfl, .inl rfl⟩
  · rw [h]; exact ⟨_, _, _, rfl, rfl, .inr rfl⟩

/-- **C55.** What a killed run of a good program leaves: the result of some of the bytes of the write sequence of
`Spec/WriteLog.lean`, from the start without gaps. -/
theorem C55_left {w : World} {srcName outName : Str} {src : List Byte} {p : List Stmt} (hw : Setup w srcName outName src)
    (hp : IsProgram src p) {bin : List Byte} {total symbols : Nat} (hs : Succeeds w srcName outName bin total symbols)
    {left : List Byte} (hl : Interrupted srcName src left) :
    ∃ s m, pass1 p .init = some s ∧
      left = written ((singles (writeLog 0 (placed p 1 .init) ++ patchLog s.env (placed p 1 .init))).take m) := by
  have hc := succeeds_check hw hp hs
  obtain ⟨s, st, h1, h2, h3, _, _, _, h6, _⟩ := assembly_ok srcName hp hc
  obtain ⟨s', k1, _, _, k4⟩ := run_log hw hp hs
  obtain rfl : s = s' := by rw [h1] at k1; exact Option.some.inj k1
  rcases interrupted_log hl with ⟨st', g1, m, g2⟩ | ⟨a, g1, _⟩
  · obtain rfl : st = st' := by rw [h2] at g1; exact C.ok.inj g1
    refine ⟨s, m, h1, ?_⟩
    rw [g2, h6.log, writeLog_eq _ _ fun e he => ⟨(k4 e he).1, (k4 e he).2.1⟩, patchLog_eq fun e he => (k4 e he).2.2.2]
  · rw [h2] at g1; cases g1

/-! ### Bytes of a log -/

theorem singles_mem {W : List Chunk} {i : Nat} {b : Byte} (h : (i, b) ∈ singles W) : ∃ c ∈ W, c.at i = some b := by
  unfold singles at h
  obtain ⟨c, hc, hb⟩ := List.mem_flatMap.1 h
  refine ⟨c, hc, ?_⟩
  have key : ∀ (bs : List Byte) (p : Nat), (i, b) ∈ Chunk.singles p bs → p ≤ i ∧ bs[i - p]? = some b := by
    intro bs
    induction bs with
    | nil => intro p h; simp [Chunk.singles] at h
    | cons x bs ih =>
      intro p h
      unfold Chunk.singles at h
      rcases List.mem_cons.1 h with h | h
      · obtain ⟨rfl, rfl⟩ := Prod.mk.inj h
        simp
      · obtain ⟨h1, h2⟩ := ih (p + 1) h
        refine ⟨by omega, ?_⟩
        rw [show i - p = (i - (p + 1)) + 1 by omega, List.getElem?_cons_succ]
        exact h2
  obtain ⟨h1, h2⟩ := key c.2 c.1 hb
  unfold Chunk.at
  rw [if_pos h1, h2]

theorem mem_singles {W : List Chunk} {c : Chunk} (hc : c ∈ W) {i : Nat} {b : Byte} (h : c.at i = some b) : (i, b) ∈ singles W := by
  unfold singles
  refine List.mem_flatMap.2 ⟨c, hc, ?_⟩
  have key : ∀ (bs : List Byte) (p : Nat), p ≤ i → bs[i - p]? = some b → (i, b) ∈ Chunk.singles p bs := by
    intro bs
    induction bs with
    | nil => intro p _ h; simp at h
    | cons x bs ih =>
      intro p hp h
      unfold Chunk.singles
      by_cases hip : i = p
      · subst hip
        simp only [Nat.sub_self, List.getElem?_cons_zero, Option.some.injEq] at h
        subst h; simp
      · rw [show i - p = (i - (p + 1)) + 1 by omega, List.getElem?_cons_succ] at h
        exact List.mem_cons_of_mem _ (ih (p + 1) (by omega) h)
  unfold Chunk.at at h
  split_ifs at h with h1
  exact key c.2 c.1 h1 h

theorem written_length (bs : List (Nat × Byte)) : ∀ n, (written bs).length ≤ n ↔ ∀ x ∈ bs, x.1 < n := by
  intro n
  unfold written
  rw [image_length]
  constructor
  · intro h x hx
    have := le_imageEnd (W := bs.map fun b => (b.1, [b.2])) (List.mem_map.2 ⟨x, hx, rfl⟩)
    simp only [List.length_singleton] at this
    omega
  · intro h
    refine imageEnd_le fun c hc => ?_
    obtain ⟨x, hx, rfl⟩ := List.mem_map.1 hc
    have := h x hx
    simp only [List.length_singleton]
    omega

theorem written_get {bs : List (Nat × Byte)} {i : Nat} {b : Byte} (h : (written bs)[i]? = some b) : b = 0 ∨ (i, b) ∈ bs := by
  unfold written at h
  have hi : i < imageEnd (bs.map fun b => (b.1, [b.2])) := by
    rw [← image_length]
    exact (List.getElem?_eq_some_iff.1 h).1
  rw [image_get hi] at h
  have h := Option.some.inj h
  unfold byteAt at h
  cases hf : (bs.map fun b => ((b.1, [b.2]) : Chunk)).reverse.findSome? (Chunk.at · i) with
  | none => rw [hf] at h; exact .inl h.symm
  | some x =>
    rw [hf] at h
    obtain ⟨d, hd, hx⟩ := List.exists_of_findSome?_eq_some hf
    obtain ⟨y, hy, rfl⟩ := List.mem_map.1 (List.mem_reverse.1 hd)
    simp only [Option.getD_some] at h
    subst h
    unfold Chunk.at at hx
    split_ifs at hx with h1
    have h2 := (List.getElem?_eq_some_iff.1 hx).1
    have h1 : y.1 ≤ i := h1
    have h2 : i - y.1 < 1 := h2
    have h3 : i = y.1 := by omega
    subst h3
    simp only [Nat.sub_self, List.getElem?_cons_zero, Option.some.injEq] at hx
    subst hx
    exact .inr hy

theorem writesFrom_mem : ∀ (es : List Placed) (pos : Nat) {c : Chunk}, c ∈ writesFrom pos es →
    (∃ n, c.2 = List.replicate n 0 ∧ ∃ e ∈ es, e.forward.isSome = true) ∨ ∃ e ∈ es, c = (e.item.addr, rawBytes e.known e.item)
  | [], _, _, h => by simp [writesFrom] at h
  | e :: es, pos, c, h => by
    unfold writesFrom at h
    rcases List.mem_append.1 h with h | h
    · split_ifs at h with hf
      · rw [List.mem_singleton] at h
        subst h
        exact .inl ⟨_, rfl, e, by simp, hf⟩
      · simp at h
    · rcases List.mem_cons.1 h with h | h
      · exact .inr ⟨e, by simp, h⟩
      · rcases writesFrom_mem es _ h with ⟨n, h1, d, h2, h3⟩ | ⟨d, h1, h2⟩
        · exact .inl ⟨n, h1, d, by simp [h2], h3⟩
        · exact .inr ⟨d, by simp [h1], h2⟩

/-- The bytes written first are zero or final. -/
theorem firstBytes_final {e : Placed} {env : Env} (hm : Made e) (hi : ¬ Immediate e)
    (hk : ∀ l v, e.known.lookup l = some v → env.lookup l = some v) {j : Nat} {b : Byte}
    (hb : (rawBytes e.known e.item)[j]? = some b) : b = 0 ∨ (rawBytes env e.item)[j]? = some b := by
  cases hf : e.forward with
  | none => exact .inr (by rw [← rawBytes_known hk (by rw [hf]; rfl)]; exact hb)
  | some l =>
    rw [firstBytes_eq hm hi] at hb
    unfold Placed.firstBytes at hb
    rw [hf] at hb
    cases j with
    | zero => exact .inr (by simpa [rawBytes] using hb)
    | succ j =>
      rw [List.getElem?_cons_succ, List.getElem?_replicate] at hb
      split_ifs at hb
      exact .inl (Option.some.inj hb).symm

/-- **C55.** For a program with ascending addresses: whatever the moment at which the run is killed, the output file is not longer than
the right binary, and each of its bytes is the right one or 0. -/
theorem C55_bytes {w : World} {srcName outName : Str} {src : List Byte} {p : List Stmt} (hw : Setup w srcName outName src)
    (hp : IsProgram src p) (ha : AscendingProgram p) {bin : List Byte} {total symbols : Nat}
    (hs : Succeeds w srcName outName bin total symbols) {left : List Byte} (hl : Interrupted srcName src left) :
    left.length ≤ bin.length ∧ ∀ (i : Nat) (b : Byte), left[i]? = some b → b = 0 ∨ bin[i]? = some b := by
  obtain ⟨s, m, h1, h2⟩ := C55_left hw hp hs hl
  obtain ⟨s', k1, k2, k3, k4⟩ := run_log hw hp hs
  obtain rfl : s = s' := by rw [h1] at k1; exact Option.some.inj k1
  obtain ⟨s', j1, _, _, j4⟩ := succeeded hw hp hs
  obtain rfl : s = s' := by rw [h1] at j1; exact Option.some.inj j1
  have j4 := j4 (ha s h1)
  have hok := placed_ok h1
  have ha' : Ascending ((placed p 1 .init).map (·.item)) := by rw [← k2]; exact ha s h1
  rw [← writeLog_eq _ _ fun e he => ⟨(k4 e he).1, (k4 e he).2.1⟩, ← patchLog_eq fun e he => (k4 e he).2.2.2] at h2
  constructor
  · rw [h2, written_length]
    intro x hx
    obtain ⟨c, hc, hcx⟩ := singles_mem (List.mem_of_mem_take hx)
    rw [k3, image_length]
    have := le_imageEnd hc
    have hlt : x.1 < c.1 + c.2.length := by
      by_contra h
      rw [Chunk.at_none (.inr (by omega))] at hcx
      cases hcx
    omega
  · intro i b hb
    rw [h2] at hb
    rcases written_get hb with h | h
    · exact .inl h
    · obtain ⟨c, hc, hcx⟩ := singles_mem (List.mem_of_mem_take h)
      have final : ∀ e ∈ placed p 1 .init, e.item.addr ≤ i → (rawBytes s.env e.item)[i - e.item.addr]? = some b → bin[i]? = some b := by
        intro e he hi h
        have hj : i - e.item.addr < e.item.mode.bytes := by
          have := (List.getElem?_eq_some_iff.1 h).1
          rwa [rawBytes_length (hok e he)] at this
        rw [← finals_bytes (env := s.env) hok ha' he, List.getElem?_take, if_pos hj, List.getElem?_drop] at h
        rw [j4]
        rwa [show e.item.addr + (i - e.item.addr) = i by omega] at h
      rcases List.mem_append.1 hc with hc | hc
      · rcases writesFrom_mem _ _ hc with ⟨n, hz, _⟩ | ⟨e, he, rfl⟩
        · left
          unfold Chunk.at at hcx
          rw [hz] at hcx
          split_ifs at hcx
          rw [List.getElem?_replicate] at hcx
          split_ifs at hcx
          exact (Option.some.inj hcx).symm
        · unfold Chunk.at at hcx
          simp only at hcx
          split_ifs at hcx with hi
          rcases firstBytes_final (k4 e he).1 (k4 e he).2.1 (k4 e he).2.2.1 hcx with h | h
          · exact .inl h
          · exact .inr (final e he hi h)
      · unfold patches at hc
        obtain ⟨e, he, rfl⟩ := List.mem_map.1 hc
        have he := List.mem_of_mem_filter he
        unfold Chunk.at at hcx
        simp only at hcx
        split_ifs at hcx with hi
        exact .inr (final e he hi hcx)

/-! ### Without forward references -/

theorem chunk_singles_sorted : ∀ (bs : List Byte) (p : Nat), (Chunk.singles p bs).Pairwise (fun a b => a.1 < b.1) ∧
    ∀ x ∈ Chunk.singles p bs, p ≤ x.1 ∧ x.1 < p + bs.length
  | [], p => by simp [Chunk.singles]
  | b :: bs, p => by
    obtain ⟨h1, h2⟩ := chunk_singles_sorted bs (p + 1)
    unfold Chunk.singles
    refine ⟨List.pairwise_cons.2 ⟨fun x hx => ?_, h1⟩, fun x hx => ?_⟩
    · have := h2 x hx; simp only; omega
    · rcases List.mem_cons.1 hx with rfl | hx
      · simp
      · have := h2 x hx
        simp only [List.length_cons]
        omega

theorem singles_sorted : ∀ {W : List Chunk}, W.Pairwise (fun a b => a.1 + a.2.length ≤ b.1) →
    (singles W).Pairwise (fun a b => a.1 < b.1)
  | [], _ => List.Pairwise.nil
  | c :: W, h => by
    obtain ⟨h1, h2⟩ := List.pairwise_cons.1 h
    have h3 := singles_sorted h2
    unfold singles at h3 ⊢
    rw [List.flatMap_cons, List.pairwise_append]
    refine ⟨(chunk_singles_sorted _ _).1, h3, fun x hx y hy => ?_⟩
    obtain ⟨d, hd, hy⟩ := List.mem_flatMap.1 hy
    have := h1 d hd
    have := (chunk_singles_sorted _ _).2 x hx
    have := (chunk_singles_sorted _ _).2 y hy
    omega

theorem written_prefix {bs : List (Nat × Byte)} (h : bs.Pairwise (fun a b => a.1 < b.1)) (m : Nat) :
    written (bs.take m) <+: written bs := by
  have hlen : (written (bs.take m)).length ≤ (written bs).length := by
    rw [written_length]
    exact fun x hx => (written_length bs _).1 (Nat.le_refl _) x (List.mem_of_mem_take hx)
  rw [List.prefix_iff_eq_take]
  apply List.ext_getElem?
  intro i
  rw [List.getElem?_take]
  split_ifs with hi
  · have hi' : i < (written bs).length := by omega
    have e1 : (written (bs.take m))[i]? = some (byteAt (bytewise (bs.take m)) i) := by
      unfold written at hi ⊢
      rw [image_length] at hi
      exact image_get hi
    have e2 : (written bs)[i]? = some (byteAt (bytewise bs) i) := by
      unfold written at hi' ⊢
      rw [image_length] at hi'
      exact image_get hi'
    rw [e1, e2]
    -- the later bytes are beyond `i`
    have hlast : ∃ x ∈ bs.take m, i ≤ x.1 := by
      by_contra hno
      push Not at hno
      have := (written_length (bs.take m) i).2 hno
      omega
    obtain ⟨x, hx, hxi⟩ := hlast
    have hsplit : bs = bs.take m ++ bs.drop m := (List.take_append_drop m bs).symm
    have hlater : ∀ y ∈ bs.drop m, i < y.1 := by
      intro y hy
      rw [hsplit] at h
      have := (List.pairwise_append.1 h).2.2 x hx y hy
      omega
    have hzero : ∀ (l : List (Nat × Byte)) (W : List Chunk), (∀ y ∈ l, i < y.1) → byteAt (W ++ bytewise l) i = byteAt W i := by
      intro l
      induction l with
      | nil => intro W _; simp [bytewise]
      | cons y l ih =>
        intro W hl
        have : W ++ bytewise (y :: l) = (W ++ [(y.1, [y.2])]) ++ bytewise l := by simp [bytewise]
        rw [this, ih _ fun z hz => hl z (by simp [hz]), byteAt_append, Chunk.at_none (.inl (hl y (by simp)))]
        rfl
    have : bytewise bs = bytewise (bs.take m) ++ bytewise (bs.drop m) := by
      conv_lhs => rw [hsplit]
      simp [bytewise]
    rw [this, hzero _ _ hlater]
  · rw [List.getElem?_eq_none (by omega)]

/-- `p` refers to no label before its definition. -/
def Spec.NoForwardReferences (p : List Stmt) : Prop := ∀ e ∈ placed p 1 .init, e.forward = none

/-- **C55.** If moreover the program has no forward references, a killed run leaves a prefix of the right binary. -/
theorem C55_prefix {w : World} {srcName outName : Str} {src : List Byte} {p : List Stmt} (hw : Setup w srcName outName src)
    (hp : IsProgram src p) (ha : AscendingProgram p) (hf : NoForwardReferences p) {bin : List Byte} {total symbols : Nat}
    (hs : Succeeds w srcName outName bin total symbols) {left : List Byte} (hl : Interrupted srcName src left) : left <+: bin := by
  obtain ⟨s, m, h1, h2⟩ := C55_left hw hp hs hl
  obtain ⟨s', k1, k2, k3, k4⟩ := run_log hw hp hs
  obtain rfl : s = s' := by rw [h1] at k1; exact Option.some.inj k1
  have hok := placed_ok h1
  have ha' : Ascending ((placed p 1 .init).map (·.item)) := by rw [← k2]; exact ha s h1
  rw [← writeLog_eq _ _ fun e he => ⟨(k4 e he).1, (k4 e he).2.1⟩, ← patchLog_eq fun e he => (k4 e he).2.2.2] at h2
  have hpat : patches s.env (placed p 1 .init) = [] := by
    unfold patches
    rw [List.filter_eq_nil_iff.2 (fun e he => by rw [hf e he]; simp)]
    rfl
  have hwr : ∀ (es : List Placed) (pos : Nat), (∀ e ∈ es, e.forward = none) →
      writesFrom pos es = es.map fun e => (e.item.addr, rawBytes e.known e.item) := by
    intro es
    induction es with
    | nil => intro _ _; rfl
    | cons e es ih =>
      intro pos h
      rw [writesFrom, h e (by simp), ih _ fun d hd => h d (by simp [hd])]
      rfl
  rw [hpat, List.append_nil, hwr _ _ hf] at h2 k3
  have hsort : ((placed p 1 .init).map fun e => ((e.item.addr, rawBytes e.known e.item) : Chunk)).Pairwise
      (fun a b => a.1 + a.2.length ≤ b.1) := by
    unfold Ascending at ha'
    rw [List.pairwise_map] at ha' ⊢
    refine List.Pairwise.imp_of_mem (fun {a b} hma _ h => ?_) ha'
    simp only [rawBytes_length (hok a hma)]
    exact h
  have hpre := written_prefix (singles_sorted hsort) m
  rw [← h2] at hpre
  suffices hsuf : written (singles ((placed p 1 .init).map fun e => ((e.item.addr, rawBytes e.known e.item) : Chunk))) = bin by
    rwa [hsuf] at hpre
  rw [k3]
  -- byte by byte
  have key : ∀ W : List Chunk, (∀ c ∈ W, c.2 ≠ []) → Written ⟨written (singles W), 0, singles W⟩ W := by
    intro W
    induction W using List.reverseRecOn with
    | nil => intro _; exact ⟨rfl, fun i => by simp [written, singles, image, imageEnd, byteAt], rfl⟩
    | append_singleton W c ih =>
      intro hne
      have ih := ih fun d hd => hne d (by simp [hd])
      have hput := ih.puts c.1 c.2 (hne c (by simp))
      have hb : Written (⟨written (singles W), 0, singles W⟩ : OutFile) (bytewise (singles W)) := by
        refine ⟨?_, fun i => ?_, (singles_bytewise _).symm⟩
        · unfold written; rw [image_length]; rfl
        · unfold written
          by_cases hi : i < imageEnd (bytewise (singles W))
          · have := image_get hi
            unfold bytewise at this
            rw [List.getD_eq_getElem?_getD, this]
            rfl
          · rw [List.getD_eq_getElem?_getD, List.getElem?_eq_none (by rw [image_length]; exact not_lt.1 hi), byteAt_beyond (not_lt.1 hi)]
            rfl
      have hall : ∀ (bs : List Byte) (f : OutFile), Written f (bytewise f.log) → Written (f.puts bs) (bytewise (f.puts bs).log) := by
        intro bs
        induction bs with
        | nil => intro f h; exact h
        | cons b bs ih =>
          intro f h
          have h1 := h.puts f.pos [b] (by simp)
          have h2 : ((f.seek f.pos).puts [b]) = f.put b := rfl
          rw [h2] at h1
          refine ih (f.put b) ?_
          have h3 : (f.put b).log = f.log ++ [(f.pos, b)] := rfl
          rw [h3]
          simpa [bytewise] using h1
      have hfin := (hall c.2 (OutFile.seek ⟨written (singles W), 0, singles W⟩ c.1) ⟨hb.len, hb.get, hb.log⟩).bytes
      have hlog := hput.log
      rw [hlog] at hfin
      refine ⟨?_, fun i => ?_, rfl⟩
      · have := hput.len
        rw [hfin] at this
        exact this
      · have := hput.get i
        rw [hfin] at this
        exact this
  refine (key _ fun c hc => ?_).bytes
  obtain ⟨e, he, rfl⟩ := List.mem_map.1 hc
  exact List.cons_ne_nil _ _

/-! ### Examples -/

theorem crash_eval {src : List Byte} {ops : List IO.Op} {left : List Byte} (n : Nat)
    (h : (match IO.gaia IO.recorder [] (b! "p.asm") (chunks src) with | .exited _ _ o => decide (o = ops) | .undefined _ => false) = true)
    (hl : (IO.replay IO.perfect OutFile.empty (ops.take n)).bytes = left) : Interrupted (b! "p.asm") src left := by
  cases hg : IO.gaia IO.recorder [] (b! "p.asm") (chunks src) with
  | exited s t o =>
    rw [hg] at h
    obtain rfl : o = ops := by simpa using h
    exact ⟨s, t, o, n, hg, hl.symm⟩
  | undefined u => rw [hg] at h; cases h

/-- A run killed in the middle of the second instruction. -/
example : Interrupted (b! "p.asm") (b! " LDA #$12\n STA $10\n") [0xA9, 0x12, 0x85] ∧ ([0xA9, 0x12, 0x85] : List Byte) <+: [0xA9, 0x12, 0x85, 0x10] := by
  have hl : Interrupted (b! "p.asm") (b! " LDA #$12\n STA $10\n") [0xA9, 0x12, 0x85] :=
    crash_eval (ops := [.seek 0, .putc 0xA9, .putc 0x12, .seek 2, .putc 0x85, .putc 0x10]) 5 (by decide +kernel) (by decide +kernel)
  have hp : IsProgram (b! " LDA #$12\n STA $10\n") [.instr none .LDA (.imm (.lit 0x12)), .instr none .STA (.plain (.lit 0x10))] :=
    isProgram_eval (by decide) (by decide +kernel) (by decide +kernel) (by decide)
  exact ⟨hl, C55_prefix (demo_setup _) hp (ascendingProgram_eval (by decide +kernel)) (by unfold NoForwardReferences; decide +kernel)
    (demo_succeeds (total := 4) (symbols := 0) (by decide +kernel)) hl⟩

/-- A run with a forward reference, killed before the references are filled in. -/
example : Interrupted (b! "p.asm") (b! " BNE L\n NOP\nL NOP\n") [0xD0, 0, 0xEA, 0xEA] ∧
    ∀ (i : Nat) (b : Byte), ([0xD0, 0, 0xEA, 0xEA] : List Byte)[i]? = some b → b = 0 ∨ ([0xD0, 1, 0xEA, 0xEA] : List Byte)[i]? = some b := by
  have hl : Interrupted (b! "p.asm") (b! " BNE L\n NOP\nL NOP\n") [0xD0, 0, 0xEA, 0xEA] :=
    crash_eval (ops := [.putc 0, .putc 0, .seek 0, .putc 0xD0, .putc 0, .seek 2, .putc 0xEA, .seek 3, .putc 0xEA, .seek 0, .putc 0xD0, .putc 1]) 9
      (by decide +kernel) (by decide +kernel)
  have hp : IsProgram (b! " BNE L\n NOP\nL NOP\n") [.instr none .BNE (.plain (.sym (b! "L"))), .instr none .NOP .none, .instr (some (b! "L")) .NOP .none] :=
    isProgram_eval (by decide) (by decide +kernel) (by decide +kernel) (by decide)
  exact ⟨hl, (C55_bytes (demo_setup _) hp (ascendingProgram_eval (by decide +kernel)) (demo_succeeds (total := 4) (symbols := 1) (by decide +kernel)) hl).2⟩

end Gaia

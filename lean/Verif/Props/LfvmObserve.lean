import Verif.Proofs.LfvmObserve
import Verif.Props.Lfvm

/-!
# C85: observing LFVM
-/

namespace Tosca

open Tosca.Go Tosca.Model.Lfvm Tosca.Model.Lfvm.Observe Tosca.Model.Compare Tosca.Spec.Observe

variable {ω σ : Type} {E : Env ω} {s : Model.Lfvm.St ω} {l : List (Model.Lfvm.St ω)} {r : Option (Model.Lfvm.Status × Model.Lfvm.St ω)}

/-- The plain runner goes through the program's execution, whatever the state: an execution of which it makes every instruction. -/
theorem C85_execution {fuel : Nat} {q : Res ω Model.Lfvm.Status} (h : loop E fuel s = some q) :
    ∃ l r, Path E s l r ∧ (∀ l' r', Path E s l' r' → l' = l ∧ r' = r) ∧ l.length ≤ fuel ∧
      q = match r with
        | some (st, s') => .ok st s'
        | none => .panic := by
  obtain ⟨l, r, h1, h2, h3⟩ := path_of_loop E fuel s q h
  refine ⟨l, r, h1, fun l' r' h' => path_unique h1 h', h3, ?_⟩
  rw [h2]
  rcases r with _ | ⟨st, s'⟩ <;> rfl

/-- The logging runner ends like the plain execution, and its log has one line for each instruction, in the order of execution,
written before the instruction: its name, the gas before it, the top of the stack before it. -/
theorem C85_log (name : BitVec 16 → String) (h : Path E s l r) (fuel : Nat) (hf : l.length < fuel) :
    logRun E name (some keep) fuel s [] = some (asEnded r, l.map (shown name E)) := by
  rw [logRun_path name keep h fuel [] hf, deliver_keep]
  rfl

/-- Whatever the writer: if it accepts the lines, the runner ends like the plain execution. -/
theorem C85_writer (name : BitVec 16 → String) (w : Writer σ) (o : σ) (h : Path E s l r) (fuel : Nat) (hf : l.length < fuel)
    (hw : (deliver w (l.map (shown name E)) o).1 = none) :
    logRun E name (some w) fuel s o = some (asEnded r, (deliver w (l.map (shown name E)) o).2) := by
  rw [logRun_path name w h fuel o hf, hw]

/-- If the writer refuses a line, the runner ends there with its error: the instruction of that line is not executed, and no
line is written after it. -/
theorem C85_refused (name : BitVec 16 → String) (w : Writer σ) (o : σ) (h : Path E s l r) (fuel : Nat) (hf : l.length < fuel) {i : Nat}
    (hw : (deliver w (l.map (shown name E)) o).1 = some i) :
    ∃ hi : i < l.length, logRun E name (some w) fuel s o = some (.writeError l[i], (deliver w (l.map (shown name E)) o).2) := by
  have hi : i < l.length := by simpa using deliver_lt w _ o i hw
  refine ⟨hi, ?_⟩
  rw [logRun_path name w h fuel o hf, hw]
  show some ((l[i]?.map Ended.writeError).getD .panic, _) = _
  rw [List.getElem?_eq_getElem hi]
  rfl

/-- Without a writer, the logging runner is the plain one. -/
theorem C85_quiet (name : BitVec 16 → String) (o : σ) (h : Path E s l r) (fuel : Nat) (hf : l.length < fuel) :
    logRun E name none fuel s o = some (asEnded r, o) := by
  rw [logRun_quiet, loop_of_path h fuel hf]
  rcases r with _ | ⟨st, s'⟩ <;> rfl

/-- A program has the same result and effects under each runner: whatever it returns under the plain one, it returns under the
logging one with no writer or a writer that never refuses, and under the one that keeps statistics. -/
theorem C85_result {data : Nat → U256} {fuel : Nat} {w : ω} (h : (Model.Lfvm.run E data fuel w).1 ≠ .error .crash) (fuel' : Nat) (hf : fuel < fuel')
    (name : BitVec 16 → String) (write : Option (Writer σ)) (hw : ∀ v, write = some v → ∀ t o, (v t o).1 = true) (o : σ) (shared : Option Statistics) :
    (runLogging E name write data fuel' w o).1 = (some (Model.Lfvm.run E data fuel w).1, (Model.Lfvm.run E data fuel w).2) ∧
    (runCounting E data fuel' w shared).1 = (some (Model.Lfvm.run E data fuel w).1, (Model.Lfvm.run E data fuel w).2) := by
  unfold Model.Lfvm.run at h ⊢
  unfold runLogging runCounting
  by_cases hc : E.code.length = 0
  · rw [if_pos hc, if_pos hc, if_pos hc]; exact ⟨rfl, rfl⟩
  · rw [if_neg hc] at h
    rw [if_neg hc, if_neg hc, if_neg hc]
    cases hl : loop E fuel { gas := E.params.gas, data := data, world := w } with
    | none => rw [hl] at h; exact absurd rfl h
    | some q =>
      rw [hl] at h
      obtain ⟨l, r, hp, hq, hn⟩ := path_of_loop E fuel _ q hl
      rcases r with _ | ⟨st, s'⟩
      · rw [hq] at h; exact absurd rfl h
      have hlog : ∃ o', logRun E name write fuel' { gas := E.params.gas, data := data, world := w } o = some (.done st s', o') := by
        cases write with
        | none => exact ⟨o, C85_quiet name o hp fuel' (by omega)⟩
        | some v =>
          refine ⟨_, C85_writer name v o hp fuel' (by omega) ?_⟩
          have : ∀ (ts : List String) (o : σ), (deliver v ts o).1 = none := by
            intro ts
            induction ts with
            | nil => intro o; rfl
            | cons t ts ih =>
              intro o
              have ht := hw v rfl t o
              rw [deliver]
              rcases hv : v t o with ⟨b, o'⟩
              rw [hv] at ht
              cases ht
              simp [ih]
          exact this _ o
      obtain ⟨o', hlog⟩ := hlog
      have hstat : statRun E fuel' { gas := E.params.gas, data := data, world := w } shared =
          some (.done st s', some ((orNew shared).insert ((l.map (opcodeOf E)).foldl Collector.nextOp {}).stats)) := by
        unfold statRun
        rw [statLoop_path hp fuel' {} (by omega)]
        rfl
      rw [hlog, hstat, hq]
      exact ⟨rfl, rfl⟩

/-- Whatever programs have been run since the last reset, in whatever order they ended: the shared statistics are the numbers of
instructions, and of the sequences of two, three and four consecutive instructions, of the executions, each run for itself. -/
theorem C85_statistics {shared : Option Statistics} {runs : List (List (BitVec 16))} (h : History ω shared runs) : StatisticsOf (orNew shared) runs :=
  statisticsOf_tallies (tallies_history h)

/-- The statistics of one run, and how it ends. -/
theorem C85_counted {e : Model.Lfvm.Status × Model.Lfvm.St ω} (h : Path E s l (some e)) (hl : l.length < 2 ^ 64) (fuel : Nat) (hf : l.length < fuel) :
    ∃ after, statRun E fuel s none = some (.done e.1 e.2, some after) ∧ StatisticsOf after [l.map (opcodeOf E)] := by
  have h1 : statRun E fuel s none = some (.done e.1 e.2, some ((orNew none).insert ((l.map (opcodeOf E)).foldl Collector.nextOp {}).stats)) := by
    unfold statRun
    rw [statLoop_path h fuel {} hf]
    rfl
  exact ⟨_, h1, C85_statistics (History.run (.start) h hl h1)⟩

/-- Within the sizes LFVM is made for, the bounds above hold by themselves: every program has an execution of at most twice as many
instructions as there is gas, plus two, which gives the result of the reference interpreter; the log is the log of this execution, and
the statistics count it. -/
theorem C85_program {keccak : List Byte → U256} {db : Db ω} {call : CallFn ω} {p : Parameters} {f : Model.Lfvm.Found}
    (h : Proofs.LfvmSetting keccak db call p f) (hrev : p.block.revision ≤ 5) (w : ω) {code : Code}
    (hcode : convertCached p.code false f.cached = some code) (hne : code.length ≠ 0) (name : BitVec 16 → String) :
    ∃ l e after, Path { db := db, call := call, params := p, code := code, hash := f.hash } { gas := p.gas, data := f.data, world := w } l (some e) ∧
      l.length ≤ 2 * p.gas.toNat + 2 ∧ (Spec.Go.nativeRun keccak db call p w).1 = .ok (generateResult e.1 e.2) ∧
      StatisticsOf after [l.map (opcodeOf { db := db, call := call, params := p, code := code, hash := f.hash })] ∧
      ∀ fuel, 2 * p.gas.toNat + 2 < fuel →
        logRun { db := db, call := call, params := p, code := code, hash := f.hash } name (some keep) fuel { gas := p.gas, data := f.data, world := w } [] =
          some (.done e.1 e.2, l.map (shown name { db := db, call := call, params := p, code := code, hash := f.hash })) ∧
        statRun { db := db, call := call, params := p, code := code, hash := f.hash } fuel { gas := p.gas, data := f.data, world := w } none =
          some (.done e.1 e.2, some after) := by
  have hres := (C65_run (fuel := fun _ => 2 * p.gas.toNat + 2) h (le_refl _) w).1
  rcases C66_total (fuel := fun _ => 2 * p.gas.toNat + 2) h (le_refl _) w with ⟨h5, _⟩ | ⟨q, w', hq, _⟩
  · exact absurd h5 (by omega)
  rw [hq] at hres
  unfold Model.Lfvm.lfvmRun at hq
  rw [if_neg (by omega), hcode] at hq
  unfold Model.Lfvm.run at hq
  simp only [if_neg hne] at hq
  cases hl : loop { db := db, call := call, params := p, code := code, hash := f.hash } (2 * p.gas.toNat + 2)
      { gas := p.gas, data := f.data, world := w } with
  | none => rw [hl] at hq; cases hq
  | some x =>
    rw [hl] at hq
    obtain ⟨l, r, hp, hx, hn⟩ := path_of_loop _ _ _ _ hl
    rcases r with _ | e
    · rw [hx] at hq; cases hq
    · rw [hx] at hq
      have hg := h.gas
      have hl64 : l.length < 2 ^ 64 := by omega
      obtain ⟨after, h1, h2⟩ := C85_counted hp hl64 (l.length + 1) (Nat.lt_succ_self _)
      refine ⟨l, e, after, hp, hn, ?_, h2, ?_⟩
      · rw [← hres]
        exact congrArg Prod.fst hq.symm
      · intro fuel hf
        refine ⟨C85_log name hp fuel (by omega), ?_⟩
        obtain ⟨after', h3, _⟩ := C85_counted hp hl64 fuel (by omega)
        have e1 : after' = after := by
          have a := statRun_path hp h1
          have b := statRun_path hp h3
          exact Option.some.inj ((Prod.mk.inj (b.trans a.symm)).2)
        rw [h3, e1]

/-- Which sequence a counter is for is not in doubt: two sequences of the same length, of at most four instructions, have
different keys. -/
theorem C85_keys {v w : List (BitVec 16)} (hv : v.length ≤ 4) (hl : v.length = w.length) (h : word v = word w) : v = w := word_inj hv hl h

/-- The ranking of the summary does not depend on the order of a map: it lists `n` entries (or all), by falling counts, of equal
counts the smaller key first, and no entry left out has a higher count than one that is listed. -/
theorem C85_ranking (m : Counts) (n : Nat) :
    (∀ m' : Counts, m'.Perm m → getTopN m' n = getTopN m n) ∧
    (getTopN m n).length = min n m.length ∧
    (getTopN m n).Pairwise (fun a b => b.2.toNat < a.2.toNat ∨ (b.2.toNat = a.2.toNat ∧ a.1.toNat ≤ b.1.toNat)) ∧
    ∃ rest, (getTopN m n ++ rest).Perm m ∧ ∀ a ∈ getTopN m n, ∀ b ∈ rest, b.2.toNat ≤ a.2.toNat := by
  have hcut : ∀ m : Counts, getTopN m n = (m.mergeSort fun a b => !first b a).take n := by
    intro m
    unfold getTopN
    simp only
    split
    · rename_i h
      rw [List.take_of_length_le (by omega)]
    · rfl
  have hperm := List.mergeSort_perm m (fun a b => !first b a)
  have hs : (m.mergeSort fun a b => !first b a).Pairwise (fun a b => b.2.toNat < a.2.toNat ∨ (b.2.toNat = a.2.toNat ∧ a.1.toNat ≤ b.1.toNat)) := by
    refine (ranked_sorted m).imp ?_
    intro a b h
    have h' : ¬ first b a = true := by rw [h]; simp
    rw [first_iff] at h'
    omega
  refine ⟨?_, ?_, ?_, ?_⟩
  · intro m' hm
    rw [hcut, hcut]
    congr 1
    exact ranked_unique (((List.mergeSort_perm m' _).trans hm).trans hperm.symm) (ranked_sorted m') (ranked_sorted m)
  · rw [hcut, List.length_take, hperm.length_eq]
  · rw [hcut]
    exact hs.sublist (List.take_sublist _ _)
  · refine ⟨(m.mergeSort fun a b => !first b a).drop n, ?_, ?_⟩
    · rw [hcut, List.take_append_drop]; exact hperm
    · intro a ha b hb
      rw [hcut] at ha
      rw [← List.take_append_drop n (m.mergeSort fun a b => !first b a), List.pairwise_append] at hs
      rcases hs.2.2 a ha b hb with h | h <;> omega

/-! ## Examples -/

/-- A loop that counts from 2 to 0, in the code of LFVM: PUSH1 2; JUMPDEST; PUSH1 1; SWAP1; SUB; DUP1; PUSH1 1; JUMPI. -/
def observedLoop : Env DemoWorld :=
  { db := smallDb, call := fun _ _ w => (.ok {}, w), params := lfvmLoop, hash := demoKeccak,
    code := [⟨0x60, 0x0200⟩, ⟨0x5b, 0⟩, ⟨0x60, 0x0100⟩, ⟨0x90, 0⟩, ⟨0x03, 0⟩, ⟨0x80, 0⟩, ⟨0x60, 0x0100⟩, ⟨0x57, 0⟩] }

/-- Its start. -/
def observedStart : Model.Lfvm.St DemoWorld := { gas := 60, data := fun _ => 0, world := lfvmWorld }

/-- Numbers for names. -/
def plainName (op : BitVec 16) : String := toString op.toNat

/-- The end of a run without its state. -/
def endOf {τ : Type} (x : Option (Ended DemoWorld × τ)) : Option (Option (Model.Lfvm.Status × Int) × τ) :=
  x.map fun x => ((match x.1 with | .done st s => some (st, s.gas) | _ => none), x.2)

/-- The loop ends, so it has an execution, within the bounds of the theorems. -/
example : ∃ l e, Path observedLoop observedStart l (some e) ∧ l.length < 2 ^ 64 ∧ l.length < 40 := by
  have h : (match loop observedLoop 20 observedStart with | some (.ok _ _) => true | _ => false) = true := by decide +kernel
  cases hl : loop observedLoop 20 observedStart with
  | none => rw [hl] at h; cases h
  | some q =>
    obtain ⟨l, r, hp, hq, hn⟩ := path_of_loop _ _ _ _ hl
    rcases r with _ | e
    · rw [hl, hq] at h; cases h
    · exact ⟨l, e, hp, by omega, by omega⟩

/-- Its statistics: fifteen instructions, five of them PUSH1, and eight different pairs. -/
example : (statRun observedLoop 40 observedStart none).map (fun x => (x.2.map fun s => (s.count, s.single, s.pair))) =
    some (some (15, [(0x60, 5), (0x5b, 2), (0x90, 2), (0x03, 2), (0x80, 2), (0x57, 2)], [(0x60005b, 1), (0x5b0060, 2), (0x600090, 2), (0x900003, 2), (0x030080, 2), (0x800060, 2), (0x600057, 2), (0x57005b, 1)])) := by
  decide +kernel

/-- Its log. -/
example : (endOf (logRun observedLoop plainName (some keep) 40 observedStart [])).map (·.2) = some
    ["96, 60, -empty-\n", "91, 57, 2\n", "96, 56, 2\n", "144, 53, 1\n", "3, 50, 2\n", "128, 47, 1\n", "96, 44, 1\n", "87, 41, 1\n",
      "91, 31, 1\n", "96, 30, 1\n", "144, 27, 1\n", "3, 24, 1\n", "128, 21, 0\n", "96, 18, 0\n", "87, 15, 1\n"] := by
  decide +kernel

/-- A writer with room for two lines. -/
def twoLines : Writer (List String) := fun t o => if o.length < 2 then (true, o ++ [t]) else (false, o)

/-- Its log with that writer: the runner stops before the third instruction, with 56 gas left. -/
example : (match logRun observedLoop plainName (some twoLines) 40 observedStart [] with
    | some (.writeError s, o) => some (s.gas, s.pc, o)
    | _ => none) = some (56, 2, ["96, 60, -empty-\n", "91, 57, 2\n"]) := by
  decide +kernel

/-- Four entries with two equal counts: the smaller key goes first. -/
example : getTopN [(7, 1), (9, 5), (3, 5), (1, 2)] 3 = [(3, 5), (9, 5), (1, 2)] := by
  have h : ([(7, 1), (9, 5), (3, 5), (1, 2)] : Counts).mergeSort (fun a b => !first b a) = [(3, 5), (9, 5), (1, 2), (7, 1)] :=
    ranked_unique ((List.mergeSort_perm _ _).trans (by decide)) (ranked_sorted _) (by decide)
  show (if _ < 3 then _ else List.take 3 _) = _
  rw [h]
  rfl

end Tosca

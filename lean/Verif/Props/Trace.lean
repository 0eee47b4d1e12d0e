import Verif.Proofs.Trace
import Verif.Proofs.Profiler
import Verif.Props.Demo

/-!
# C27: the logger, C41: the profilers
-/

namespace Tosca

open Tosca.Model Tosca.Spec Tosca.Proofs

variable {σ : Type} {P : Params σ} {E : Env σ} {codeOf : U256 → List Byte} {vm : Vm}

/-- A nested run that writes `text` to the log. -/
def writesLog (text : String) : Nested := fun i => .ok { i with out := i.out ++ text }

/-- The run of `P` from world `w` dispatches instructions in finitely many states (which are
determined: `Dispatches` has at most one trace). -/
theorem trace_exists (h : Setting P E codeOf vm) (hg : P.msg.gas ≤ 2 ^ 54) (w : σ) :
    ∃ tr, Dispatches P (initial P w) tr := by
  obtain ⟨_, _, _, _, tr, _, hd, _⟩ := executeWith_trace h.params h.env h.vm h.hash h.gas hg (noObserver (σ := σ))
    (P.msg.gas.toNat + 2) (Nat.le_refl _) (fun _ => 0) w ()
  exact ⟨tr, hd⟩

theorem trace_unique {s : State σ} {tr tr' : List (State σ)} (h : Dispatches P s tr) (h' : Dispatches P s tr') : tr = tr' :=
  dispatches_unique h h'

/-! ### C27: the logger -/

theorem logLine_ok {ω : Type} {obs : Observer σ ω} (hu : obs.usesContext = true) {s : State σ} {op : OpCode} {c c' : Ctx σ}
    (h : Sees P obs s op c c') : logLine op c = .ok (logEntry P s) := by
  obtain ⟨hg, t, ht, htop, hs⟩ := h.view hu
  have hn : op.name = mnemonic (instrAt P s) := by rw [h.opcode]; exact (tables _).1
  unfold logLine logEntry
  rw [stack_size _ t htop ht, hn, hg, htop]
  by_cases h0 : t = 1024
  · subst h0
    rw [if_pos (by omega), hs]
    rfl
  · rw [if_neg (by omega), if_pos (by omega), hs, absStack_cons _ t (by omega)]
    rfl

theorem logger_observed {tr : List (State σ)} {o o' : M Instruments × List Nested}
    (h : Observed P logger.shared tr o o') : ∀ (i : Instruments) (texts : List String),
      o = (.ok i, texts.map writesLog) → o'.1 = .ok { i with out := i.out ++ transcript P tr texts } := by
  induction h with
  | nil => intro i texts ho; rw [ho]; simp [transcript]
  | @cons s tr op c c' o o' hs _ ih =>
    intro i texts ho
    have hl := logLine_ok rfl hs
    have hcall : op.isCall = startsFrame (instrAt P s) := by rw [hs.opcode]; exact (tables _).2.2.1
    have hpre : (logger.shared.preInstruction op c o) = (.ok { i with out := i.out ++ logEntry P s }, texts.map writesLog) := by
      rw [ho]
      show ((do
        let i ← (.ok i : M Instruments)
        let line ← logLine op c
        return { i with out := i.out ++ line } : M Instruments), texts.map writesLog) = _
      rw [hl]
      rfl
    by_cases hc : startsFrame (instrAt P s) = true
    · cases texts with
      | nil =>
        rw [ih { i with out := i.out ++ logEntry P s } [] (by
          rw [hpre]
          show (if op.isCall then _ else _) = _
          rw [if_pos (by rw [hcall, hc])]
          rfl)]
        simp [transcript, hc, String.append_assoc]
      | cons t ts =>
        rw [ih { i with out := i.out ++ logEntry P s ++ t } ts (by
          rw [hpre]
          show (if op.isCall then _ else _) = _
          rw [if_pos (by rw [hcall, hc])]
          rfl)]
        simp [transcript, hc, String.append_assoc]
    · rw [ih { i with out := i.out ++ logEntry P s } texts (by
          rw [hpre]
          show (if op.isCall then _ else _) = _
          rw [if_neg (by rw [hcall]; exact hc)]
          rfl)]
      simp [transcript, hc, String.append_assoc]

/-- C27.  With logging enabled, `Execute` appends to the log one line per dispatched instruction, in
order: its name, the gas and the top of the stack before it; the text logged by the frames that a
call instruction starts follows the line of that instruction.  Nothing else is observed. -/
theorem C27_logger (h : Setting P E codeOf vm) (hg : P.msg.gas ≤ 2 ^ 54) (hlog : vm.options.logging = true)
    (fuel : Nat) (hf : P.msg.gas.toNat + 2 ≤ fuel) (buf : Nat → U256) (w : σ) (i : Instruments) (texts : List String)
    {tr : List (State σ)} (htr : Dispatches P (initial P w) tr) :
    ∃ res w' vm', vm.executeObserved E fuel P.code P.msg P.rev buf w i (texts.map writesLog) =
      .ok (some (res, w', vm', { i with out := i.out ++ transcript P tr texts })) := by
  obtain ⟨res, w', vm', o', tr', he, hd, ho⟩ := executeWith_trace h.params h.env h.vm h.hash h.gas hg (logger (σ := σ)).shared
    fuel hf buf w (.ok i, texts.map writesLog)
  rw [trace_unique htr hd]
  refine ⟨res, w', vm', ?_⟩
  have ho' := logger_observed ho i texts rfl
  unfold Vm.executeObserved observerOf
  rw [if_pos hlog, he]
  show (do
    let i ← o'.1
    return some (res, w', vm', i) : M _) = _
  rw [ho']
  rfl

/-! ### C41: the profilers -/

/-- The options under which `Execute` profiles in a mode: logging takes precedence over profiling,
which takes precedence over profiling external instructions. -/
def profiles (o : Options) : ProfilerMode → Prop
  | .full => o.logging = false ∧ o.profiling = true
  | .external => o.logging = false ∧ o.profiling = false ∧ o.profilingExternal = true

/-- A nested run at the given depth, if there is one, on the same VM. -/
def nestedRun (mode : ProfilerMode) (depth : Int) : Option RunLog → Nested
  | none => fun i => .ok i
  | some f => fun i => do
    let p ← replayFrame mode depth f (i.get mode)
    return i.set mode p

/-- The profiler has accounted the run `f` at the given depth: counters are 64 bits wide; the times
hold if `f` has the times the clock shows and the clock never shows 2^64 - 1. -/
structure Accounts (mode : ProfilerMode) (depth : Int) (f : RunLog) (p p' : Profiler) : Prop where
  calls : ∀ x, p'.profile.calls x = (p.profile.calls x + RunLog.calls mode x f) % 2 ^ 64
  runs : p'.profile.interpreterCalls = (p.profile.interpreterCalls + if depth = 0 then 1 else 0) % 2 ^ 64
  ticks : ∀ rest, ClockReads p.clock (RunLog.readings mode f) rest → (∀ t ∈ RunLog.readings mode f, t < 2 ^ 64 - 1) →
    p'.clock = rest ∧
    (∀ x, (p'.profile.ticks x : Int) = (p.profile.ticks x + RunLog.ticks mode x f) % 2 ^ 64) ∧
    (p'.profile.interpreterTicks : Int) =
      (p.profile.interpreterTicks + if depth = 0 then RunLog.span f else 0) % 2 ^ 64

/-- The counters fit in 64 bits. -/
structure Counters64 (p : Profile) : Prop where
  calls : ∀ x, p.calls x < 2 ^ 64
  ticks : ∀ x, p.ticks x < 2 ^ 64
  runs : p.interpreterCalls < 2 ^ 64
  time : p.interpreterTicks < 2 ^ 64

/-- C41.  A run `f` at some depth, with all the runs nested in it, adds to the counter of every
opcode the number of its measured instructions, and to its time the time spent in them but not in
nested runs; only runs at depth 0 are counted as runs of the interpreter. -/
theorem C41_nested_runs (mode : ProfilerMode) (depth height : Nat) (hd : depth + height ≤ 1024) (f : RunLog)
    (hf : RunLog.Fits f height) (p : Profiler) (hp : Counters64 p.profile) :
    ∃ p', replayFrame mode depth f p = .ok p' ∧ Accounts mode depth f p p' ∧ Counters64 p'.profile := by
  obtain ⟨p', h1, g, _, t⟩ := frame_ok mode f depth height p hd hf ⟨hp.1, hp.2, hp.3, hp.4⟩
  refine ⟨p', h1, ⟨g.calls, ?_, ?_⟩, ⟨g.range.1, g.range.2, g.range.3, g.range.4⟩⟩
  · rw [g.icalls]; simp [u64Mod]
  · intro rest hr hs
    obtain ⟨h2, h3, _⟩ := t rest hr hs
    refine ⟨h2, h3.ticks, ?_⟩
    rw [h3.iticks]; simp [u64Mod]

theorem onProfiler_ok (mode : ProfilerMode) (f : Profiler → M Profiler) (i : Instruments) {p : Profiler}
    (h : f (i.get mode) = .ok p) : onProfiler mode f (.ok i) = .ok (i.set mode p) := by
  show (do
    let p ← f (i.get mode)
    return i.set mode p : M _) = _
  rw [h]
  rfl

theorem get_set (i : Instruments) (mode : ProfilerMode) (p : Profiler) : (i.set mode p).get mode = p := by
  cases mode <;> rfl

theorem set_set (i : Instruments) (mode : ProfilerMode) (p q : Profiler) : (i.set mode p).set mode q = i.set mode q := by
  cases mode <;> rfl

theorem set_get (i : Instruments) (mode : ProfilerMode) : i.set mode (i.get mode) = i := by
  cases mode <;> rfl

theorem profiler_observed (mode : ProfilerMode) {tr : List (State σ)} {o o' : M Instruments × List Nested}
    (h : Observed P (profiler mode).shared tr o o') : ∀ (i : Instruments) (trees : List (Option RunLog)) (items : Items)
      (p p' : Profiler), o = (.ok (i.set mode p), trees.map (nestedRun mode (P.msg.depth + 1))) → ItemsOf P tr trees items →
      replayItems mode P.msg.depth items p = .ok p' → o'.1 = .ok (i.set mode p') := by
  induction h with
  | nil =>
    intro i trees items p p' ho hi hr
    cases hi
    rw [ho]
    simp only [replayItems] at hr
    cases hr
    rfl
  | @cons s tr op c c' o o' hs _ ih =>
    intro i trees items p p' ho hi hr
    have hcall : op.isCall = startsFrame (instrAt P s) := by rw [hs.opcode]; exact (tables _).2.2.1
    have hop := hs.opcode
    have hpre : ∀ p1, p.preInstruction mode op P.msg.depth = .ok p1 →
        (profiler mode).shared.preInstruction op c o = (.ok (i.set mode p1), o.2) := by
      intro p1 h1
      show ((onProfiler mode (·.preInstruction mode op c.message.depth) o.1), o.2) = _
      rw [ho, onProfiler_ok (p := p1)]
      · rw [set_set]
      · rw [get_set, hs.msg]; exact h1
    have hpost : ∀ p1 p2, p1.postInstruction mode op P.msg.depth = .ok p2 →
        (profiler (σ := σ) mode).postInstruction op c' (.ok (i.set mode p1)) = .ok (i.set mode p2) := by
      intro p1 p2 h2
      show onProfiler mode (·.postInstruction mode op c'.message.depth) (.ok (i.set mode p1)) = _
      rw [onProfiler_ok (p := p2), set_set]
      rw [get_set, hs.msg']; exact h2
    cases hi with
    | @plain _ _ _ t t' rest hc hi =>
      simp only [replayItems, ← hop] at hr
      cases h1 : p.preInstruction mode op P.msg.depth with
      | error e => rw [h1] at hr; cases hr
      | ok p1 =>
        rw [h1] at hr
        simp only [bind, Except.bind] at hr
        cases h2 : p1.postInstruction mode op P.msg.depth with
        | error e => rw [h2] at hr; cases hr
        | ok p2 =>
          rw [h2] at hr
          refine ih i trees rest p2 p' ?_ hi hr
          rw [hpre p1 h1, ho]
          show (if op.isCall then _ else _) = _
          rw [if_neg (by rw [hcall, hc]; simp)]
          dsimp only
          rw [hpost p1 p2 h2]
    | @call _ _ f inner t t' rest hc hi =>
      cases f with
      | none =>
        simp only [openFrame, replayItems, ← hop] at hr
        cases h1 : p.preInstruction mode op P.msg.depth with
        | error e => rw [h1] at hr; cases hr
        | ok p1 =>
          rw [h1] at hr
          simp only [bind, Except.bind] at hr
          cases h2 : p1.postInstruction mode op P.msg.depth with
          | error e => rw [h2] at hr; cases hr
          | ok p2 =>
            rw [h2] at hr
            refine ih i inner rest p2 p' ?_ hi hr
            rw [hpre p1 h1, ho]
            show (if op.isCall then _ else _) = _
            rw [if_pos (by rw [hcall, hc])]
            show ((profiler (σ := σ) mode).postInstruction op c' (.ok (i.set mode p1)), _) = _
            rw [hpost p1 p2 h2]
      | some f =>
        simp only [openFrame, replayItems, ← hop] at hr
        cases h1 : p.preInstruction mode op P.msg.depth with
        | error e => rw [h1] at hr; cases hr
        | ok p1 =>
          rw [h1] at hr
          simp only [bind, Except.bind] at hr
          cases h3 : replayFrame mode (P.msg.depth + 1) f p1 with
          | error e => rw [h3] at hr; cases hr
          | ok p3 =>
            rw [h3] at hr
            dsimp only at hr
            cases h2 : p3.postInstruction mode op P.msg.depth with
            | error e => rw [h2] at hr; cases hr
            | ok p2 =>
              rw [h2] at hr
              refine ih i inner rest p2 p' ?_ hi hr
              rw [hpre p1 h1, ho]
              show (if op.isCall then _ else _) = _
              rw [if_pos (by rw [hcall, hc])]
              show ((profiler (σ := σ) mode).postInstruction op c' (nestedRun mode (P.msg.depth + 1) (some f) (i.set mode p1)), _) = _
              have : nestedRun mode (P.msg.depth + 1) (some f) (i.set mode p1) = .ok (i.set mode p3) := by
                simp only [nestedRun, get_set, h3]
                show (.ok ((i.set mode p1).set mode p3) : M _) = _
                rw [set_set]
              rw [this, hpost p3 p2 h2]

theorem observerOf_profiles {o : Options} {mode : ProfilerMode} (h : profiles o mode) :
    (observerOf o : Observer σ _) = profiler mode := by
  unfold observerOf
  cases mode with
  | full =>
    obtain ⟨h1, h2⟩ := h
    rw [if_neg (by rw [h1]; simp), if_pos h2]
  | external =>
    obtain ⟨h1, h2, h3⟩ := h
    rw [if_neg (by rw [h1]; simp), if_neg (by rw [h2]; simp), if_pos h3]

/-- A run whose nested runs fit below the given depth. -/
theorem fits_items {tr : List (State σ)} {trees : List (Option RunLog)} {items : Items} (h : ItemsOf P tr trees items)
    (height : Nat) (hf : ∀ f, some f ∈ trees → ∃ k, height = k + 1 ∧ RunLog.Fits f k) : Items.Fits items height := by
  induction h with
  | nil => simp [Items.Fits]
  | plain _ _ ih => simpa [Items.Fits] using ih hf
  | @call s tr f inner t t' rest hc _ ih =>
    have := ih (fun f' hf' => hf f' (List.mem_cons_of_mem _ hf'))
    cases f with
    | none => simpa [openFrame, Items.Fits] using this
    | some f => simpa [openFrame, Items.Fits] using ⟨hc, hf f (by simp), this⟩

/-- C41.  `Execute` with profiling enabled, for a message at depth 0 … 1024, changes nothing but the
profiler of the selected mode, which accounts the dispatched instructions of the run and the runs
nested in its call instructions (`trees`, one entry per call instruction).  The effect is the one of
`replayFrame`, hence runs of `Execute` can themselves be nested runs. -/
theorem C41_execute (h : Setting P E codeOf vm) (hg : P.msg.gas ≤ 2 ^ 54) {mode : ProfilerMode}
    (hm : profiles vm.options mode) (fuel : Nat) (hf : P.msg.gas.toNat + 2 ≤ fuel) (buf : Nat → U256) (w : σ)
    (i : Instruments) (hi : Counters64 (i.get mode).profile) {tr : List (State σ)} (htr : Dispatches P (initial P w) tr)
    (trees : List (Option RunLog)) (depth height : Nat) (hd : P.msg.depth = depth) (hh : depth + height ≤ 1024)
    (htrees : ∀ f, some f ∈ trees → ∃ k, height = k + 1 ∧ RunLog.Fits f k)
    (start stop : Nat) {items : Items} (hitems : ItemsOf P tr trees items) :
    ∃ res w' vm' p', vm.executeObserved E fuel P.code P.msg P.rev buf w i (trees.map (nestedRun mode (depth + 1))) =
        .ok (some (res, w', vm', i.set mode p')) ∧
      Accounts mode depth (.mk start stop items) (i.get mode) p' ∧ Counters64 p'.profile ∧
      replayFrame mode depth (.mk start stop items) (i.get mode) = .ok p' := by
  obtain ⟨p', hrep, hacc, h64⟩ := C41_nested_runs mode depth height hh (.mk start stop items)
    (by simpa [RunLog.Fits] using fits_items hitems height htrees) (i.get mode) hi
  obtain ⟨res, w', vm', o', tr', he, hdis, ho⟩ := executeWith_trace h.params h.env h.vm h.hash h.gas hg
    (profiler (σ := σ) mode).shared fuel hf buf w (.ok i, trees.map (nestedRun mode (depth + 1)))
  rw [← trace_unique htr hdis] at ho
  refine ⟨res, w', vm', p', ?_, hacc, h64, hrep⟩
  have hr := hrep
  simp only [replayFrame] at hr
  cases h1 : (i.get mode).preRun depth with
  | error e => rw [h1] at hr; cases hr
  | ok p1 =>
    rw [h1] at hr
    simp only [bind, Except.bind] at hr
    cases h2 : replayItems mode depth items p1 with
    | error e => rw [h2] at hr; cases hr
    | ok p2 =>
      rw [h2] at hr
      dsimp only at hr
      have hobs := profiler_observed mode ho i trees items p1 p2 (by
        show (onProfiler mode (·.preRun P.msg.depth) (.ok i), _) = _
        rw [onProfiler_ok (p := p1), hd]
        rw [hd]; exact h1) hitems (by rw [hd]; exact h2)
      unfold Vm.executeObserved
      rw [observerOf_profiles hm, he]
      show (do
        let i ← onProfiler mode (·.postRun P.msg.depth) o'.1
        return some (res, w', vm', i) : M _) = _
      rw [hobs, onProfiler_ok (p := p')]
      · rw [set_set]; rfl
      · rw [get_set, hd]; exact hr

/-- What the nested runs add to the counter of `x`. -/
def nestedCalls (mode : ProfilerMode) (x : Nat) (trees : List (Option RunLog)) : Nat :=
  (trees.map fun | none => 0 | some f => RunLog.calls mode x f).sum

theorem calls_items (mode : ProfilerMode) (x : Nat) {tr : List (State σ)} {trees : List (Option RunLog)} {items : Items}
    (h : ItemsOf P tr trees items) :
    Items.calls mode x items = tr.countP (fun s => countsAs mode x (byteAt P.code s.pc)) + nestedCalls mode x trees := by
  induction h with
  | nil => simp [Items.calls, nestedCalls]
  | plain _ _ ih =>
    simp only [Items.calls, ih, List.countP_cons]
    omega
  | @call s tr f inner t t' rest hc _ ih =>
    cases f with
    | none =>
      simp only [openFrame, Items.calls, ih, List.countP_cons, nestedCalls, List.map_cons, List.sum_cons]
      omega
    | some f =>
      simp only [openFrame, Items.calls, ih, List.countP_cons, nestedCalls, List.map_cons, List.sum_cons]
      omega

theorem items_exist {tr : List (State σ)} : ∀ (trees : List (Option RunLog)),
    trees.length = tr.countP (fun s => startsFrame (instrAt P s)) → ∃ items, ItemsOf P tr trees items := by
  induction tr with
  | nil =>
    intro trees h
    simp only [List.countP_nil, List.length_eq_zero_iff] at h
    subst h
    exact ⟨_, .nil⟩
  | cons s tr ih =>
    intro trees h
    rw [List.countP_cons] at h
    by_cases hc : startsFrame (instrAt P s) = true
    · rw [if_pos hc] at h
      cases trees with
      | nil => simp at h
      | cons f trees =>
        obtain ⟨it, hit⟩ := ih trees (by simpa using h)
        exact ⟨_, .call (t := 0) (t' := 0) hc hit⟩
    · rw [if_neg hc] at h
      obtain ⟨it, hit⟩ := ih trees h
      exact ⟨_, .plain (t := 0) (t' := 0) (by simpa using hc) hit⟩

/-- C41.  After `Execute` with profiling, the counter of every opcode has grown by the number of
dispatched instructions with that opcode in scope, plus those of the nested runs. -/
theorem C41_counters (h : Setting P E codeOf vm) (hg : P.msg.gas ≤ 2 ^ 54) {mode : ProfilerMode}
    (hm : profiles vm.options mode) (fuel : Nat) (hf : P.msg.gas.toNat + 2 ≤ fuel) (buf : Nat → U256) (w : σ)
    (i : Instruments) (hi : Counters64 (i.get mode).profile) {tr : List (State σ)} (htr : Dispatches P (initial P w) tr)
    (trees : List (Option RunLog)) (hcalls : trees.length = tr.countP (fun s => startsFrame (instrAt P s)))
    (depth height : Nat) (hd : P.msg.depth = depth) (hh : depth + height ≤ 1024)
    (htrees : ∀ f, some f ∈ trees → ∃ k, height = k + 1 ∧ RunLog.Fits f k) :
    ∃ res w' vm' p', vm.executeObserved E fuel P.code P.msg P.rev buf w i (trees.map (nestedRun mode (depth + 1))) =
        .ok (some (res, w', vm', i.set mode p')) ∧
      (∀ x, p'.profile.calls x = ((i.get mode).profile.calls x +
        (tr.countP (fun s => inScope mode (instrAt P s) && accountOf (byteAt P.code s.pc) == x) + nestedCalls mode x trees))
          % 2 ^ 64) ∧
      p'.profile.interpreterCalls =
        ((i.get mode).profile.interpreterCalls + if depth = 0 then 1 else 0) % 2 ^ 64 := by
  obtain ⟨items, hit⟩ := items_exist trees hcalls
  obtain ⟨res, w', vm', p', h1, h2, _, _⟩ := C41_execute h hg hm fuel hf buf w i hi htr trees depth height hd hh htrees 0 0 hit
  refine ⟨res, w', vm', p', h1, fun x => ?_, ?_⟩
  · rw [h2.calls x]
    simp only [RunLog.calls]
    rw [calls_items mode x hit]
    rfl
  · rw [h2.runs]; simp

/-- C41.  Without logging and profiling, `Execute` leaves logs and profiles alone. -/
theorem C41_off (h : Setting P E codeOf vm) (hg : P.msg.gas ≤ 2 ^ 54) (h1 : vm.options.logging = false)
    (h2 : vm.options.profiling = false) (h3 : vm.options.profilingExternal = false)
    (fuel : Nat) (hf : P.msg.gas.toNat + 2 ≤ fuel) (buf : Nat → U256) (w : σ) (i : Instruments) :
    ∃ res w' vm', vm.executeObserved E fuel P.code P.msg P.rev buf w i [] = .ok (some (res, w', vm', i)) := by
  obtain ⟨res, w', vm', o', tr, he, _, ho⟩ := executeWith_trace h.params h.env h.vm h.hash h.gas hg
    (silent (σ := σ)).shared fuel hf buf w (.ok i, [])
  refine ⟨res, w', vm', ?_⟩
  have key : ∀ {tr : List (State σ)} {o o' : M Instruments × List Nested}, Observed P silent.shared tr o o' →
      o = (.ok i, []) → o'.1 = .ok i := by
    intro tr o o' h
    induction h with
    | nil => intro ho; rw [ho]
    | @cons s tr op c c' o o' hs _ ih =>
      intro ho
      apply ih
      rw [ho]
      show (if op.isCall then _ else _) = _
      split <;> rfl
  unfold Vm.executeObserved observerOf
  rw [if_neg (by rw [h1]; simp), if_neg (by rw [h2]; simp), if_neg (by rw [h3]; simp), he]
  show (do
    let i ← o'.1
    return some (res, w', vm', i) : M _) = _
  rw [key ho rfl]
  rfl

/-- C41.  Profiling a message at depth 1026 or more writes outside an array (the EVM limits the depth
of messages to 1024). -/
theorem C41_too_deep (h : Setting P E codeOf vm) (hg : P.msg.gas ≤ 2 ^ 54) {mode : ProfilerMode}
    (hm : profiles vm.options mode) (fuel : Nat) (hf : P.msg.gas.toNat + 2 ≤ fuel) (buf : Nat → U256) (w : σ)
    (i : Instruments) (hd : 1026 ≤ P.msg.depth) :
    vm.executeObserved E fuel P.code P.msg P.rev buf w i [] = .error .arrayOutOfBounds := by
  obtain ⟨res, w', vm', o', tr, he, _, ho⟩ := executeWith_trace h.params h.env h.vm h.hash h.gas hg
    (profiler (σ := σ) mode).shared fuel hf buf w (.ok i, [])
  have hpre : (i.get mode).preRun P.msg.depth = .error .arrayOutOfBounds := by
    have hlim := h.params.depth
    unfold Profiler.preRun Profiler.setCall depthIdx
    rw [Int.emod_eq_of_lt (by omega) (by omega)]
    simp only [Profiler.now]
    rw [if_neg (by omega)]
  have key : ∀ {tr : List (State σ)} {o o' : M Instruments × List Nested}, Observed P (profiler mode).shared tr o o' →
      o = (.error .arrayOutOfBounds, []) → o'.1 = .error .arrayOutOfBounds := by
    intro tr o o' h
    induction h with
    | nil => intro ho; rw [ho]
    | @cons s tr op c c' o o' hs _ ih =>
      intro ho
      apply ih
      rw [ho]
      show (if op.isCall then _ else _) = _
      split <;> rfl
  have hk := key ho (by
    show (onProfiler mode (·.preRun P.msg.depth) (.ok i), _) = _
    show ((do
      let p ← (i.get mode).preRun P.msg.depth
      return i.set mode p : M _), _) = _
    rw [hpre]
    rfl)
  unfold Vm.executeObserved
  rw [observerOf_profiles hm, he]
  show (do
    let i ← onProfiler mode (·.postRun P.msg.depth) o'.1
    return some (res, w', vm', i) : M _) = _
  rw [hk]
  rfl

/-- C41.  Merging adds the counters and times of all opcodes and of the interpreter, modulo 2^64. -/
theorem C41_merge (p : Profiler) (q : Profile) :
    (∀ x < 256, (p.merge q).profile.calls x = (p.profile.calls x + q.calls x) % 2 ^ 64 ∧
      (p.merge q).profile.ticks x = (p.profile.ticks x + q.ticks x) % 2 ^ 64) ∧
    (p.merge q).profile.interpreterCalls = (p.profile.interpreterCalls + q.interpreterCalls) % 2 ^ 64 ∧
    (p.merge q).profile.interpreterTicks = (p.profile.interpreterTicks + q.interpreterTicks) % 2 ^ 64 := by
  refine ⟨fun x hx => ⟨?_, ?_⟩, rfl, rfl⟩
  · show (if x < 256 then _ else _) = _
    rw [if_pos hx]; rfl
  · show (if x < 256 then _ else _) = _
    rw [if_pos hx]; rfl

/-- Whether a dump has a row for a byte: assigned opcodes, or those that involve the host. -/
def printed (mode : ProfilerMode) (b : Byte) : Bool :=
  match mode with
  | .full => (decode b.toNat).isSome
  | .external => asksHost (instrOf b) || startsFrame (instrOf b)

theorem used' : ∀ b : Fin 256, isUsedOpCode b.val = (decode (BitVec.ofNat 8 b.val).toNat).isSome := by
  decide +kernel

/-- C41.  A dump has a row for the interpreter and one for every assigned opcode (or, for external
profiling, every opcode that involves the host) in ascending order, with its counter and time. -/
theorem C41_dump (mode : ProfilerMode) (p : Profile) :
    p.dump mode = ("INTERPRETER", p.interpreterCalls, p.interpreterTicks) ::
      ((List.range 256).filter fun x => printed mode (BitVec.ofNat 8 x)).map fun x =>
        (mnemonic (instrOf (BitVec.ofNat 8 x)), p.calls x, p.ticks x) := by
  unfold Profile.dump
  congr 1
  rw [List.map_congr_left (g := fun x => (mnemonic (instrOf (BitVec.ofNat 8 x)), p.calls x, p.ticks x))
    (fun x _ => by rw [(tables _).1])]
  congr 1
  apply List.filter_congr
  intro x hx
  rw [List.mem_range] at hx
  cases mode with
  | full => exact used' ⟨x, hx⟩
  | external =>
    simp only [printed, (tables _).2.2.1, (tables _).2.2.2]

/-- C41.  Resetting clears the profile of the enabled profiler: what is dumped afterwards is zero. -/
theorem C41_reset (vm : Vm) (i : Instruments) :
    ∀ row ∈ vm.dumpProfile (vm.resetProfiler i), row.2.1 = 0 ∧ row.2.2 = 0 := by
  have hz : ∀ (mode : ProfilerMode), ∀ row ∈ (({} : Profile)).dump mode, row.2.1 = 0 ∧ row.2.2 = 0 := by
    intro mode row hr
    unfold Profile.dump at hr
    simp only [List.mem_cons, List.mem_map] at hr
    rcases hr with rfl | ⟨x, _, rfl⟩ <;> exact ⟨rfl, rfl⟩
  unfold Vm.dumpProfile Vm.resetProfiler
  by_cases h1 : vm.options.profiling = true
  · rw [if_pos h1, if_pos h1]; exact hz .full
  · rw [if_neg h1, if_neg h1]
    by_cases h2 : vm.options.profilingExternal = true
    · rw [if_pos h2, if_pos h2]; exact hz .external
    · rw [if_neg h2]; simp

/-- C41.  Resetting does not touch the log, nor the profile of the profiler that is not enabled. -/
theorem C41_reset_other (vm : Vm) (i : Instruments) :
    (vm.resetProfiler i).out = i.out ∧
    (vm.options.profiling = false → (vm.resetProfiler i).full = i.full) ∧
    (vm.options.profiling = true ∨ vm.options.profilingExternal = false → (vm.resetProfiler i).external = i.external) := by
  unfold Vm.resetProfiler
  by_cases h1 : vm.options.profiling = true
  · rw [if_pos h1]; exact ⟨rfl, fun h => (by rw [h1] at h; cases h), fun _ => rfl⟩
  · rw [if_neg h1]
    by_cases h2 : vm.options.profilingExternal = true
    · rw [if_pos h2]
      refine ⟨rfl, fun _ => rfl, fun h => ?_⟩
      rcases h with h | h
      · exact absurd h h1
      · rw [h2] at h; cases h
    · rw [if_neg h2]; exact ⟨rfl, fun _ => rfl, fun _ => rfl⟩

/-! ### Concrete cases -/

theorem dispatch_plain {s : State σ} (h : instrAt P s ≠ .jump) (h' : instrAt P s ≠ .jumpi) : afterDispatch P s = step P s := by
  unfold afterDispatch takesJump
  rw [if_neg]
  rintro ⟨h1 | h1, _⟩
  · exact h h1
  · exact h' h1.1

theorem dispatch_jump {s : State σ} (h : instrAt P s = .jump) (hr : (step P s).status = .running) :
    afterDispatch P s = step P (step P s) := by
  unfold afterDispatch takesJump
  rw [if_pos ⟨.inl h, hr⟩]

/-- PUSH1 4, JUMP, INVALID, JUMPDEST, BALANCE, STOP: the JUMPDEST is executed together with the jump;
BALANCE fails for lack of an operand. -/
def traceDemo : Params Nat := demo [0x60, 4, 0x56, 0xfe, 0x5b, 0x31, 0x00]

/-- The states in which the demo run dispatches. -/
def traceDemoStates : List (State Nat) :=
  [{ gas := 100000, host := 0 }, { gas := 99997, host := 0, pc := 2, stack := [4] }, { gas := 99988, host := 0, pc := 5 }]

theorem traceDemo_jump : step traceDemo { gas := 99997, host := 0, pc := 2, stack := [4] } =
    { gas := 99989, host := 0, pc := 4 } := by
  show jumpTo traceDemo 4 { gas := 99989, host := 0, pc := 3, stack := [] } = _
  unfold jumpTo
  have hj : JumpTarget traceDemo.code (BitVec.toNat (4 : U256)) :=
    ⟨by decide, rfl, .next (i := .invalid) (p := 3) (.next (i := .jump) (p := 2) (.next (i := .push 1) (p := 0) .zero
      (by decide) rfl) (by decide) rfl) (by decide) rfl⟩
  rw [if_pos hj]
  rfl

theorem traceDemo_trace : Dispatches traceDemo (initial traceDemo 0) traceDemoStates := by
  refine .next rfl ?_
  rw [dispatch_plain (by decide) (by decide)]
  show Dispatches traceDemo { gas := 99997, host := 0, pc := 2, stack := [4] } _
  refine .next rfl ?_
  rw [dispatch_jump (by decide) (by rw [traceDemo_jump]), traceDemo_jump]
  show Dispatches traceDemo { gas := 99988, host := 0, pc := 5 } _
  refine .next rfl ?_
  rw [dispatch_plain (by decide) (by decide)]
  exact .halted (by decide)

/-- The log of the demo run. -/
example : ∃ vm tr, Setting traceDemo (envOf traceDemo) (fun _ => []) vm ∧ vm.options.logging = true ∧
    Dispatches traceDemo (initial traceDemo 0) tr ∧
    transcript traceDemo tr [] = "PUSH1, 100000, -empty-\nJUMP, 99997, 4\nBALANCE, 99988, -empty-\n" := by
  obtain ⟨vm, h⟩ := demo_setting [0x60, 4, 0x56, 0xfe, 0x5b, 0x31, 0x00] (by decide) CANCUN 0
  refine ⟨{ vm with options := { vm.options with logging := true } }, _,
    ⟨h.params, h.env, ⟨h.vm.analysis, h.vm.sha3⟩, h.hash, h.gas⟩, rfl, traceDemo_trace, ?_⟩
  decide +kernel

/-- The demo run is profiled; its three instructions are counted, in external mode only BALANCE. -/
example : ∃ vm tr, Setting traceDemo (envOf traceDemo) (fun _ => []) vm ∧ profiles vm.options .full ∧
    Dispatches traceDemo (initial traceDemo 0) tr ∧
    [0x60, 0x56, 0x5b, 0x31].map (fun x => tr.countP (fun s => inScope .full (instrAt traceDemo s) &&
      accountOf (byteAt traceDemo.code s.pc) == x)) = [1, 1, 0, 1] ∧
    [0x60, 0x56, 0x5b, 0x31].map (fun x => tr.countP (fun s => inScope .external (instrAt traceDemo s) &&
      accountOf (byteAt traceDemo.code s.pc) == x)) = [0, 0, 0, 1] := by
  obtain ⟨vm, h⟩ := demo_setting [0x60, 4, 0x56, 0xfe, 0x5b, 0x31, 0x00] (by decide) CANCUN 0
  refine ⟨{ vm with options := { vm.options with logging := false, profiling := true } }, _,
    ⟨h.params, h.env, ⟨h.vm.analysis, h.vm.sha3⟩, h.hash, h.gas⟩, ⟨rfl, rfl⟩, traceDemo_trace, ?_⟩
  decide +kernel

/-- A run at depth 0 with one CALL from time 12 to 40, whose nested run (15 to 33) executes an ADD
(20 to 22) and a BALANCE (25 to 31). -/
def runDemo : RunLog := .mk 10 50 (.nest 0xf1 12 40 (.mk 15 33 (.leaf 0x01 20 22 (.leaf 0x31 25 31 .nil))) .nil)

example : RunLog.Fits runDemo 1 := by
  simp only [runDemo, RunLog.Fits, Items.Fits, and_true]
  exact ⟨by decide, 0, rfl⟩

example : RunLog.readings .full runDemo = [10, 12, 15, 20, 22, 25, 31, 33, 40, 50] ∧
    RunLog.readings .external runDemo = [10, 12, 15, 25, 31, 33, 40, 50] ∧
    RunLog.calls .full 0xf1 runDemo = 1 ∧ RunLog.ticks .full 0xf1 runDemo = 10 ∧
    RunLog.ticks .full 0x31 runDemo = 6 ∧ RunLog.calls .external 0x01 runDemo = 0 ∧ RunLog.span runDemo = 40 := by
  decide

example : Counters64 ({ clock := fun n => n } : Profiler).profile :=
  ⟨fun _ => by show 0 < 2 ^ 64; omega, fun _ => by show 0 < 2 ^ 64; omega, by show 0 < 2 ^ 64; omega,
    by show 0 < 2 ^ 64; omega⟩

end Tosca

import Verif.Proofs.Step
import Verif.Model.Observers
import Verif.Spec.Trace

/-!
# The profiler on nested runs
-/

namespace Tosca.Proofs

open Tosca.Model Tosca.Spec

/-! ### Opcode tables -/

theorem tables' : ∀ b : Fin 256,
    (dispatch (BitVec.ofNat 8 b.val)).name = mnemonic (instrOf (BitVec.ofNat 8 b.val)) ∧
    (dispatch (BitVec.ofNat 8 b.val)).value = accountOf (BitVec.ofNat 8 b.val) ∧
    (dispatch (BitVec.ofNat 8 b.val)).isCall = startsFrame (instrOf (BitVec.ofNat 8 b.val)) ∧
    (dispatch (BitVec.ofNat 8 b.val)).isExternal = asksHost (instrOf (BitVec.ofNat 8 b.val)) := by
  decide +kernel

theorem tables (b : Byte) : (dispatch b).name = mnemonic (instrOf b) ∧ (dispatch b).value = accountOf b ∧
    (dispatch b).isCall = startsFrame (instrOf b) ∧ (dispatch b).isExternal = asksHost (instrOf b) := by
  have := tables' ⟨b.toNat, b.isLt⟩
  simpa only [BitVec.ofNat_toNat, BitVec.setWidth_eq] using this

theorem measures_eq (mode : ProfilerMode) (b : Byte) : measures mode (dispatch b) = inScope mode (instrOf b) := by
  obtain ⟨_, _, h3, h4⟩ := tables b
  cases mode
  · rfl
  · simp only [measures, inScope, h3, h4]

/-! ### Clock -/

theorem reads_append {c r : Nat → Nat} (a b : List Nat) :
    ClockReads c (a ++ b) r ↔ ∃ m, ClockReads c a m ∧ ClockReads m b r := by
  induction a generalizing c with
  | nil => simp [ClockReads]
  | cons t ts ih =>
    simp only [List.cons_append, ClockReads, ih]
    constructor
    · rintro ⟨h, m, h1, h2⟩; exact ⟨m, ⟨h, h1⟩, h2⟩
    · rintro ⟨m, ⟨h, h1⟩, h2⟩; exact ⟨h, m, h1, h2⟩

theorem reads_det {c r r' : Nat → Nat} (a : List Nat) (h : ClockReads c a r) (h' : ClockReads c a r') : r = r' := by
  induction a generalizing c with
  | nil => exact h.symm.trans h'
  | cons t ts ih => exact ih h.2 h'.2

/-! ### Effects -/

/-- Counters are 64-bit. -/
structure InRange (p : Profiler) : Prop where
  calls : ∀ x, p.profile.calls x < u64Mod
  ticks : ∀ x, p.profile.ticks x < u64Mod
  icalls : p.profile.interpreterCalls < u64Mod
  iticks : p.profile.interpreterTicks < u64Mod

/-- From `p` to `p'` the counters grow by `n`, the ticks by `t`, the number of outermost runs by `k`
and their ticks by `q`. -/
structure Grows (n : Nat → Nat) (k : Nat) (p p' : Profiler) : Prop where
  range : InRange p'
  calls : ∀ x, p'.profile.calls x = (p.profile.calls x + n x) % u64Mod
  icalls : p'.profile.interpreterCalls = (p.profile.interpreterCalls + k) % u64Mod

structure Spends (t : Nat → Int) (q : Int) (p p' : Profiler) : Prop where
  ticks : ∀ x, (p'.profile.ticks x : Int) = (p.profile.ticks x + t x) % (u64Mod : Nat)
  iticks : (p'.profile.interpreterTicks : Int) = (p.profile.interpreterTicks + q) % (u64Mod : Nat)

theorem Grows.trans {n n' : Nat → Nat} {k k' : Nat} {p p' p'' : Profiler} (h : Grows n k p p') (h' : Grows n' k' p' p'') :
    Grows (fun x => n x + n' x) (k + k') p p'' := by
  refine ⟨h'.range, fun x => ?_, ?_⟩
  · rw [h'.calls, h.calls]; simp [Nat.add_assoc]
  · rw [h'.icalls, h.icalls]; simp [Nat.add_assoc]

theorem Spends.trans {t t' : Nat → Int} {q q' : Int} {p p' p'' : Profiler} (h : Spends t q p p') (h' : Spends t' q' p' p'') :
    Spends (fun x => t x + t' x) (q + q') p p'' := by
  refine ⟨fun x => ?_, ?_⟩
  · rw [h'.ticks, h.ticks]; simp [Int.add_assoc]
  · rw [h'.iticks, h.iticks]; simp [Int.add_assoc]

theorem Grows.refl {p : Profiler} (h : InRange p) : Grows (fun _ => 0) 0 p p :=
  ⟨h, fun x => (Nat.mod_eq_of_lt (h.calls x)).symm, (Nat.mod_eq_of_lt h.icalls).symm⟩

theorem Spends.refl {p : Profiler} (h : InRange p) : Spends (fun _ => 0) 0 p p := by
  refine ⟨fun x => ?_, ?_⟩
  · have := h.ticks x
    rw [Int.add_zero, Int.emod_eq_of_lt (by omega) (by omega)]
  · have := h.iticks
    rw [Int.add_zero, Int.emod_eq_of_lt (by omega) (by omega)]

theorem Grows.congr {n n' : Nat → Nat} {k k' : Nat} {p p' : Profiler} (h : Grows n k p p') (hn : ∀ x, n x = n' x) (hk : k = k') :
    Grows n' k' p p' := by
  rw [← hk]; exact ⟨h.range, fun x => by rw [← hn, h.calls], h.icalls⟩

theorem Spends.congr {t t' : Nat → Int} {q q' : Int} {p p' : Profiler} (h : Spends t q p p') (ht : ∀ x, t x = t' x) (hq : q = q') :
    Spends t' q' p p' := by
  rw [← hq]; exact ⟨fun x => by rw [← ht, h.ticks], h.iticks⟩

/-- Counters, of profilers with the same profile. -/
theorem Grows.from {n : Nat → Nat} {k : Nat} {p q p' : Profiler} (h : Grows n k p p') (e : p.profile = q.profile) :
    Grows n k q p' := ⟨h.range, fun x => by rw [h.calls, e], by rw [h.icalls, e]⟩

theorem Spends.from {t : Nat → Int} {u : Int} {p q p' : Profiler} (h : Spends t u p p') (e : p.profile = q.profile) :
    Spends t u q p' := ⟨fun x => by rw [h.ticks, e], by rw [h.iticks, e]⟩

theorem Grows.to' {n : Nat → Nat} {k : Nat} {p q p' : Profiler} (h : Grows n k p p') (e : p'.profile = q.profile) :
    Grows n k p q := ⟨⟨by rw [← e]; exact h.range.1, by rw [← e]; exact h.range.2, by rw [← e]; exact h.range.3, by rw [← e]; exact h.range.4⟩,
      by rw [← e]; exact h.calls, by rw [← e]; exact h.icalls⟩

theorem Spends.to' {t : Nat → Int} {u : Int} {p q p' : Profiler} (h : Spends t u p p') (e : p'.profile = q.profile) :
    Spends t u p q := ⟨by rw [← e]; exact h.ticks, by rw [← e]; exact h.iticks⟩

theorem sub64_int (a b : Nat) (hb : b < u64Mod) : (sub64 a b : Int) = ((a : Int) - b) % (u64Mod : Nat) := by
  unfold sub64
  rw [Nat.mod_eq_of_lt hb]
  push_cast
  rw [Int.ofNat_sub (Nat.le_of_lt hb)]
  have : (a : Int) + ((u64Mod : Nat) - (b : Int)) = (a : Int) - b + (u64Mod : Nat) := by omega
  rw [this, Int.add_emod_right]

/-- Counting one instruction. -/
theorem count_ok {p : Profiler} (h : InRange p) (op : OpCode) (total : Nat) :
    Grows (fun x => if op.value = x then 1 else 0) 0 p (p.count op total) ∧
    ∀ d : Int, (total : Int) % (u64Mod : Nat) = d % (u64Mod : Nat) →
      Spends (fun x => if op.value = x then d else 0) 0 p (p.count op total) := by
  have hpos : 0 < u64Mod := by decide
  refine ⟨⟨⟨?_, ?_, h.icalls, h.iticks⟩, ?_, ?_⟩, ?_⟩
  · intro x; simp only [Profiler.count]; split
    · exact Nat.mod_lt _ hpos
    · exact h.calls x
  · intro x; simp only [Profiler.count]; split
    · exact Nat.mod_lt _ hpos
    · exact h.ticks x
  · intro x
    simp only [Profiler.count]
    by_cases hx : x = op.value
    · rw [if_pos hx, if_pos hx.symm]
    · rw [if_neg hx, if_neg (Ne.symm hx)]; exact (Nat.mod_eq_of_lt (h.calls x)).symm
  · simp only [Profiler.count]; exact (Nat.mod_eq_of_lt h.icalls).symm
  · intro d hd
    refine ⟨fun x => ?_, (Spends.refl h).iticks⟩
    simp only [Profiler.count]
    by_cases hx : x = op.value
    · rw [if_pos hx, if_pos hx.symm]
      push_cast
      rw [Int.add_emod, hd, ← Int.add_emod]
    · rw [if_neg hx, if_neg (Ne.symm hx)]
      exact (Spends.refl h).ticks x

/-! ### One instruction -/

theorem depthIdx_nat (d : Nat) (h : d ≤ 1025) : depthIdx (d : Int) = d := by
  unfold depthIdx
  rw [Int.emod_eq_of_lt (by omega) (by omega)]
  rfl

/-- The call data of the frames below depth `d` are kept, and the start of the frame at depth `d`. -/
structure Keeps (d : Nat) (p p' : Profiler) : Prop where
  low : ∀ j, j < d → p'.callData j = p.callData j
  start : (p'.callData d).interpreterStart = (p.callData d).interpreterStart

theorem Keeps.trans {d : Nat} {p p' p'' : Profiler} (h : Keeps d p p') (h' : Keeps d p' p'') : Keeps d p p'' :=
  ⟨fun j hj => (h'.low j hj).trans (h.low j hj), h'.start.trans h.start⟩

/-- Readings of the clock that can be told from `kTicksNotMeasured`. -/
def Sane (ts : List Nat) : Prop := ∀ t ∈ ts, t < 2 ^ 64 - 1

/-- `PreInstruction` of a measured call instruction. -/
theorem pre_call {mode : ProfilerMode} {op : OpCode} (hm : measures mode op = true) (hc : op.isCall = true)
    (d : Nat) (hd : d ≤ 1024) (p : Profiler) :
    ∃ p', p.preInstruction mode op d = .ok p' ∧ p'.profile = p.profile ∧ Keeps d p p' ∧
      (p'.callData d).callStart = p.clock 0 % u64Mod ∧ (p'.callData (d + 1)).interpreterStart = kTicksNotMeasured ∧
      p'.clock = fun n => p.clock (n + 1) := by
  refine ⟨{ p with
      callData := fun j => if j = d + 1 then { p.callData (d + 1) with interpreterStart := kTicksNotMeasured }
        else if j = d then { p.callData d with callStart := p.clock 0 % u64Mod } else p.callData j
      clock := fun n => p.clock (n + 1) }, ?_, rfl, ⟨?_, ?_⟩, ?_, ?_, rfl⟩
  · unfold Profiler.preInstruction
    rw [if_pos hm, if_pos hc, depthIdx_nat d (by omega)]
    simp only [Profiler.now, Profiler.setCall]
    rw [if_pos (by omega)]
    simp only [bind, Except.bind]
    rw [if_pos (by omega), if_neg (by omega)]
  · intro j hj; dsimp only; rw [if_neg (by omega), if_neg (by omega)]
  · dsimp only; rw [if_neg (by omega), if_pos rfl]
  · dsimp only; rw [if_neg (by omega), if_pos rfl]
  · dsimp only; rw [if_pos rfl]

/-- `PostInstruction` of a measured call instruction. -/
theorem post_call {mode : ProfilerMode} {op : OpCode} (hm : measures mode op = true) (hc : op.isCall = true)
    (d : Nat) (hd : d ≤ 1024) (p : Profiler) :
    p.postInstruction mode op d = .ok (({ p with clock := fun n => p.clock (n + 1) } : Profiler).count op
      (if (p.callData (d + 1)).interpreterStart ≠ kTicksNotMeasured then
        sub64 (sub64 (p.clock 0 % u64Mod) (p.callData d).callStart)
          (sub64 (p.callData (d + 1)).interpreterEnd (p.callData (d + 1)).interpreterStart)
       else sub64 (p.clock 0 % u64Mod) (p.callData d).callStart)) := by
  unfold Profiler.postInstruction
  rw [if_pos hm]
  simp only [Profiler.now]
  rw [if_pos hc, depthIdx_nat d (by omega)]
  simp only [Profiler.getCall, bind, Except.bind]
  rw [if_pos (by omega)]
  dsimp only
  rw [if_pos (by omega)]
  dsimp only
  split <;> rfl

theorem mod_sane {t : Nat} (h : t < 2 ^ 64 - 1) : t % u64Mod = t := Nat.mod_eq_of_lt (by unfold u64Mod; omega)

/-- An instruction without a nested run. -/
theorem leaf_ok (mode : ProfilerMode) (b : Byte) (d : Nat) (hd : d ≤ 1024) (t t' : Nat) {p : Profiler} (hp : InRange p) :
    ∃ p', (do
        let p ← p.preInstruction mode (dispatch b) d
        p.postInstruction mode (dispatch b) d) = .ok p' ∧
      Grows (fun x => if countsAs mode x b then 1 else 0) 0 p p' ∧ Keeps d p p' ∧
      ∀ rest, ClockReads p.clock (if inScope mode (instrOf b) then [t, t'] else []) rest →
        Sane (if inScope mode (instrOf b) then [t, t'] else []) →
        p'.clock = rest ∧ Spends (fun x => if countsAs mode x b then (t' : Int) - t else 0) 0 p p' := by
  obtain ⟨_, hv, hcall, _⟩ := tables b
  have hme := measures_eq mode b
  have hcount : ∀ x, countsAs mode x b = (inScope mode (instrOf b) && (dispatch b).value == x) := by
    intro x; unfold countsAs; rw [hv]
  by_cases hm : inScope mode (instrOf b) = true
  · rw [hm] at hme
    simp only [hcount, hm, Bool.true_and, if_true, beq_iff_eq]
    by_cases hc : (dispatch b).isCall = true
    · obtain ⟨p1, h1, hprof, hk, hcs, hst, hclk⟩ := pre_call hme hc d hd p
      have hp1 : InRange p1 := by refine ⟨?_, ?_, ?_, ?_⟩ <;> rw [hprof]; exacts [hp.1, hp.2, hp.3, hp.4]
      have h2 := post_call hme hc d hd p1
      rw [if_neg (by rw [hst]; simp)] at h2
      obtain ⟨g1, g2⟩ := count_ok (p := { p1 with clock := fun n => p1.clock (n + 1) }) (hp1 |> fun h => ⟨h.1, h.2, h.3, h.4⟩)
        (dispatch b) (sub64 (p1.clock 0 % u64Mod) (p1.callData d).callStart)
      refine ⟨_, by rw [h1]; exact h2, g1.from hprof, ⟨hk.low, hk.start⟩, ?_⟩
      intro rest hr hs
      simp only [ClockReads] at hr
      obtain ⟨r1, r2, r3⟩ := hr
      have s1 := hs t (by simp)
      have s2 := hs t' (by simp)
      refine ⟨?_, (g2 _ ?_).from hprof⟩
      · rw [← r3]
        show (fun n => p1.clock (n + 1)) = _
        rw [hclk]
      · rw [hclk, hcs]
        dsimp only
        rw [r1, r2, mod_sane s1, mod_sane s2, sub64_int _ _ (by unfold u64Mod; omega),
          Int.emod_emod]
    · have h1 : p.preInstruction mode (dispatch b) d = .ok { p with
          startTicks := fun j => if j = (dispatch b).value then p.clock 0 % u64Mod else p.startTicks j
          clock := fun n => p.clock (n + 1) } := by
        unfold Profiler.preInstruction
        rw [if_pos hme, if_neg hc]
        rfl
      have h2 : ∀ q : Profiler, q.postInstruction mode (dispatch b) d = .ok
          (({ q with clock := fun n => q.clock (n + 1) } : Profiler).count (dispatch b)
            (sub64 (q.clock 0 % u64Mod) (q.startTicks (dispatch b).value))) := by
        intro q
        unfold Profiler.postInstruction
        rw [if_pos hme]
        simp only [Profiler.now]
        rw [if_neg hc]
      rw [h1]
      simp only [bind, Except.bind, h2]
      obtain ⟨g1, g2⟩ := count_ok (p := { p with
          startTicks := fun j => if j = (dispatch b).value then p.clock 0 % u64Mod else p.startTicks j
          clock := fun n => p.clock (n + 1 + 1) }) (hp |> fun h => ⟨h.1, h.2, h.3, h.4⟩) (dispatch b)
            (sub64 (p.clock 1 % u64Mod) (p.clock 0 % u64Mod))
      refine ⟨_, rfl, ?_, ?_, ?_⟩
      · simp only [if_true]; exact g1.from rfl
      · exact ⟨fun j _ => rfl, rfl⟩
      · intro rest hr hs
        simp only [ClockReads] at hr
        obtain ⟨r1, r2, r3⟩ := hr
        have s1 := hs t (by simp)
        have s2 := hs t' (by simp)
        refine ⟨r3, ?_⟩
        simp only [if_true]
        refine (g2 _ ?_).from rfl
        rw [r1, r2, mod_sane s1, mod_sane s2, sub64_int _ _ (by unfold u64Mod; omega),
          Int.emod_emod]
  · simp only [Bool.not_eq_true] at hm
    rw [hm] at hme
    have hm' : ¬ measures mode (dispatch b) = true := by rw [hme]; simp
    simp only [hcount, hm, Bool.false_and, if_false, Bool.false_eq_true]
    refine ⟨p, ?_, Grows.refl hp, ⟨fun _ _ => rfl, rfl⟩, ?_⟩
    · unfold Profiler.preInstruction
      rw [if_neg hm']
      simp only [bind, Except.bind]
      unfold Profiler.postInstruction
      rw [if_neg hm']
    · intro rest hr _
      exact ⟨hr, Spends.refl hp⟩

/-! ### Runs -/

theorem pre_run (d : Nat) (hd : d ≤ 1024) (p : Profiler) :
    ∃ p', p.preRun d = .ok p' ∧ p'.profile = p.profile ∧ (∀ j, j < d → p'.callData j = p.callData j) ∧
      (p'.callData d).interpreterStart = p.clock 0 % u64Mod ∧ p'.clock = fun n => p.clock (n + 1) := by
  refine ⟨{ p with
      callData := fun j => if j = d then { p.callData d with interpreterStart := p.clock 0 % u64Mod } else p.callData j
      clock := fun n => p.clock (n + 1) }, ?_, rfl, ?_, ?_, rfl⟩
  · unfold Profiler.preRun
    rw [depthIdx_nat d (by omega)]
    simp only [Profiler.now, Profiler.setCall]
    rw [if_pos (by omega)]
  · intro j hj; dsimp only; rw [if_neg (by omega)]
  · dsimp only; rw [if_pos rfl]

theorem post_run (d : Nat) (hd : d ≤ 1024) {p : Profiler} (hp : InRange p) :
    ∃ p', p.postRun d = .ok p' ∧ Grows (fun _ => 0) (if d = 0 then 1 else 0) p p' ∧
      (∀ j, j < d → p'.callData j = p.callData j) ∧
      (p'.callData d).interpreterStart = (p.callData d).interpreterStart ∧
      (p'.callData d).interpreterEnd = p.clock 0 % u64Mod ∧ (p'.clock = fun n => p.clock (n + 1)) ∧
      ∀ s, (p.callData d).interpreterStart = s → s < u64Mod →
        Spends (fun _ => 0) (if d = 0 then ((p.clock 0 % u64Mod : Nat) : Int) - s else 0) p p' := by
  unfold Profiler.postRun
  rw [depthIdx_nat d (by omega)]
  simp only [Profiler.now, Profiler.setCall]
  rw [if_pos (by omega)]
  simp only [bind, Except.bind]
  by_cases h0 : d = 0
  · subst h0
    rw [if_pos rfl]
    simp only [Profiler.getCall, if_true]
    rw [if_pos (by omega)]
    refine ⟨_, rfl, ⟨⟨hp.1, hp.2, Nat.mod_lt _ (by decide), Nat.mod_lt _ (by decide)⟩, fun x => ?_, rfl⟩, ?_, rfl, rfl, rfl, ?_⟩
    · exact (Nat.mod_eq_of_lt (hp.calls x)).symm
    · intro j hj; omega
    · intro s hs hlt
      refine ⟨(Spends.refl hp).ticks, ?_⟩
      dsimp only
      rw [hs]
      push_cast
      have := sub64_int (p.clock 0 % u64Mod) s hlt
      push_cast at this
      rw [Int.add_emod, this, Int.emod_emod, ← Int.add_emod]
  · rw [if_neg h0]
    refine ⟨_, rfl, ?_, ?_, ?_, ?_, rfl, ?_⟩
    · rw [if_neg h0]; exact Grows.refl hp |>.to' rfl
    · intro j hj; dsimp only; rw [if_neg (by omega)]
    · dsimp only; rw [if_pos rfl]
    · dsimp only; rw [if_pos rfl]
    · intro s _ _; rw [if_neg h0]; exact (Spends.refl hp).to' rfl

/-- What a frame does. -/
def FrameOk (mode : ProfilerMode) (f : RunLog) : Prop :=
  ∀ (d h : Nat) (p : Profiler), d + h ≤ 1024 → RunLog.Fits f h → InRange p →
    ∃ p', replayFrame mode d f p = .ok p' ∧ Grows (fun x => RunLog.calls mode x f) (if d = 0 then 1 else 0) p p' ∧
      (∀ j, j < d → p'.callData j = p.callData j) ∧
      ∀ rest, ClockReads p.clock (RunLog.readings mode f) rest → Sane (RunLog.readings mode f) →
        p'.clock = rest ∧ Spends (fun x => RunLog.ticks mode x f) (if d = 0 then RunLog.span f else 0) p p' ∧
        ∃ s e, (p'.callData d).interpreterStart = s ∧ (p'.callData d).interpreterEnd = e ∧ s < 2 ^ 64 - 1 ∧
          e < 2 ^ 64 - 1 ∧ RunLog.span f = (e : Int) - s

/-- What a sequence of instructions does. -/
def ItemsOk (mode : ProfilerMode) (it : Items) : Prop :=
  ∀ (d h : Nat) (p : Profiler), d + h ≤ 1024 → Items.Fits it h → InRange p →
    ∃ p', replayItems mode d it p = .ok p' ∧ Grows (fun x => Items.calls mode x it) 0 p p' ∧ Keeps d p p' ∧
      ∀ rest, ClockReads p.clock (Items.readings mode it) rest → Sane (Items.readings mode it) →
        p'.clock = rest ∧ Spends (fun x => Items.ticks mode x it) 0 p p'

theorem frame_step (mode : ProfilerMode) (start stop : Nat) (it : Items) (ih : ItemsOk mode it) :
    FrameOk mode (.mk start stop it) := by
  intro d h p hd hf hp
  obtain ⟨p1, e1, k1, l1, s1, c1⟩ := pre_run d (by omega) p
  have hp1 : InRange p1 := by refine ⟨?_, ?_, ?_, ?_⟩ <;> rw [k1]; exacts [hp.1, hp.2, hp.3, hp.4]
  simp only [RunLog.Fits] at hf
  obtain ⟨p2, e2, g2, k2, t2⟩ := ih d h p1 hd hf hp1
  obtain ⟨p3, e3, g3, l3, s3, n3, c3, t3⟩ := post_run d (by omega) g2.range
  refine ⟨p3, ?_, ?_, ?_, ?_⟩
  · simp only [replayFrame, e1, e2, e3, bind, Except.bind]
  · exact ((g2.trans g3).congr (fun x => by simp [RunLog.calls]) (by simp)).from k1
  · intro j hj; rw [l3 j hj, k2.low j hj, l1 j hj]
  · intro rest hr hs
    simp only [RunLog.readings, ClockReads] at hr
    obtain ⟨r1, r2⟩ := hr
    obtain ⟨m, r2, r3⟩ := (reads_append _ _).1 r2
    simp only [RunLog.readings] at hs
    have hs1 : start < 2 ^ 64 - 1 := hs start (by simp)
    have hs2 : stop < 2 ^ 64 - 1 := hs stop (by simp)
    have hs3 : Sane (Items.readings mode it) := fun t ht => hs t (by simp [ht])
    rw [← c1] at r2
    obtain ⟨q1, q2⟩ := t2 m r2 hs3
    simp only [ClockReads] at r3
    rw [← q1] at r3
    have hst : (p2.callData d).interpreterStart = start := by rw [k2.start, s1, r1, mod_sane hs1]
    have hen : p2.clock 0 % u64Mod = stop := by rw [r3.1, mod_sane hs2]
    refine ⟨by rw [c3]; exact r3.2, ?_, start, stop, by rw [s3, hst], by rw [n3, hen], hs1, hs2, rfl⟩
    have := (q2.trans (t3 start hst (by unfold u64Mod; omega))).from k1
    refine this.congr (fun x => by simp [RunLog.ticks]) ?_
    rw [hen]
    split <;> simp [RunLog.span]

theorem leaf_step (mode : ProfilerMode) (b : Byte) (start stop : Nat) (rest : Items) (ih : ItemsOk mode rest) :
    ItemsOk mode (.leaf b start stop rest) := by
  intro d h p hd hf hp
  obtain ⟨p1, e1, g1, k1, t1⟩ := leaf_ok mode b d (by omega) start stop hp
  simp only [Items.Fits] at hf
  obtain ⟨p2, e2, g2, k2, t2⟩ := ih d h p1 hd hf g1.range
  refine ⟨p2, ?_, ?_, k1.trans k2, ?_⟩
  · simp only [replayItems]
    rw [← e2, ← bind_assoc, e1]
    rfl
  · exact (g1.trans g2).congr (fun x => by simp [Items.calls]) (by simp)
  · intro after hr hs
    have hre : Items.readings mode (.leaf b start stop rest) =
        (if inScope mode (instrOf b) then [start, stop] else []) ++ Items.readings mode rest := by
      simp only [Items.readings]; split <;> simp
    rw [hre] at hr hs
    obtain ⟨m, r1, r2⟩ := (reads_append _ _).1 hr
    obtain ⟨q1, q2⟩ := t1 m r1 (fun t ht => hs t (List.mem_append_left _ ht))
    rw [← q1] at r2
    obtain ⟨q3, q4⟩ := t2 after r2 (fun t ht => hs t (List.mem_append_right _ ht))
    exact ⟨q3, (q2.trans q4).congr (fun x => by simp [Items.ticks]) (by simp)⟩

theorem scope_call (mode : ProfilerMode) {i : Instr} (h : startsFrame i = true) : inScope mode i = true := by
  cases mode <;> simp [inScope, h]

theorem nest_step (mode : ProfilerMode) (b : Byte) (start stop : Nat) (f : RunLog) (rest : Items)
    (ihf : FrameOk mode f) (ih : ItemsOk mode rest) : ItemsOk mode (.nest b start stop f rest) := by
  intro d h p hd hf hp
  simp only [Items.Fits] at hf
  obtain ⟨hc, ⟨h', rfl, hff⟩, hrest⟩ := hf
  obtain ⟨_, hv, hcall, _⟩ := tables b
  have hme := measures_eq mode b
  have hsc := scope_call mode hc
  rw [hsc] at hme
  have hcall' : (dispatch b).isCall = true := by rw [hcall, hc]
  have hcount : ∀ x, countsAs mode x b = ((dispatch b).value == x) := by
    intro x; unfold countsAs; rw [hv, hsc, Bool.true_and]
  obtain ⟨p1, e1, k1, l1, s1, n1, c1⟩ := pre_call hme hcall' d (by omega) p
  have hp1 : InRange p1 := by refine ⟨?_, ?_, ?_, ?_⟩ <;> rw [k1]; exacts [hp.1, hp.2, hp.3, hp.4]
  obtain ⟨p2, e2, g2, l2, t2⟩ := ihf (d + 1) h' p1 (by omega) hff hp1
  have e3 := post_call hme hcall' d (by omega) p2
  generalize hT : (if (p2.callData (d + 1)).interpreterStart ≠ kTicksNotMeasured then
        sub64 (sub64 (p2.clock 0 % u64Mod) (p2.callData d).callStart)
          (sub64 (p2.callData (d + 1)).interpreterEnd (p2.callData (d + 1)).interpreterStart)
       else sub64 (p2.clock 0 % u64Mod) (p2.callData d).callStart) = total at e3
  obtain ⟨g3, t3⟩ := count_ok (p := { p2 with clock := fun n => p2.clock (n + 1) }) (g2.range |> fun h => ⟨h.1, h.2, h.3, h.4⟩)
    (dispatch b) total
  generalize hp3 : ({ p2 with clock := fun n => p2.clock (n + 1) } : Profiler).count (dispatch b) total = p3 at e3 g3 t3
  have hcd : p3.callData = p2.callData := by rw [← hp3]; rfl
  have hck : p3.clock = fun n => p2.clock (n + 1) := by rw [← hp3]; rfl
  obtain ⟨p4, e4, g4, k4, t4⟩ := ih d (h' + 1) p3 (by omega) hrest g3.range
  have k3 : Keeps d p p3 := by
    refine ⟨fun j hj => ?_, ?_⟩
    · rw [hcd, l2 j (by omega), l1.low j hj]
    · rw [hcd, l2 d (by omega), l1.start]
  have hd0 : ¬ (d + 1 = 0) := by omega
  refine ⟨p4, ?_, ?_, k3.trans k4, ?_⟩
  · simp only [replayItems, e1, bind, Except.bind]
    rw [show (d : Int) + 1 = ((d + 1 : Nat) : Int) by omega, e2]
    simp only [e3, e4]
  · refine (((g2.from k1).trans (g3.from (q := p2) rfl)).trans g4).congr (fun x => ?_) (by simp)
    simp only [Items.calls, hcount, beq_iff_eq]
    omega
  · intro after hr hs
    simp only [Items.readings, ClockReads] at hr
    obtain ⟨r1, r2⟩ := hr
    obtain ⟨m, r2, r3⟩ := (reads_append _ _).1 r2
    simp only [Items.readings] at hs
    have hs1 : start < 2 ^ 64 - 1 := hs start (by simp)
    have hs2 : stop < 2 ^ 64 - 1 := hs stop (by simp)
    rw [← c1] at r2
    obtain ⟨q1, q2, s, e, hs', he, hsl, hel, hsp⟩ := t2 m r2 (fun t ht => hs t (by simp [ht]))
    simp only [ClockReads] at r3
    rw [← q1, ← hck] at r3
    obtain ⟨q3, q4⟩ := t4 after r3.2 (fun t ht => hs t (by simp [ht]))
    refine ⟨q3, ?_⟩
    have htot : (total : Int) % (u64Mod : Nat) = (((stop : Int) - start) - RunLog.span f) % (u64Mod : Nat) := by
      rw [← hT, hs', he, l2 d (by omega), s1, r1, r3.1, mod_sane hs1, mod_sane hs2]
      rw [if_pos (by unfold kTicksNotMeasured; omega)]
      have hlt : ∀ a b, sub64 a b < u64Mod := fun a b => Nat.mod_lt _ (by decide)
      have hu : u64Mod = 2 ^ 64 := by decide
      rw [sub64_int _ _ (hlt _ _), sub64_int _ _ (by omega), sub64_int _ _ (by omega),
        Int.emod_emod, ← Int.sub_emod, hsp]
    refine ((((q2.from k1).congr (fun _ => rfl) (by rw [if_neg hd0])).trans ((t3 _ htot).from (q := p2) rfl)).trans q4).congr
      (fun x => ?_) (by simp)
    simp only [Items.ticks, hcount, beq_iff_eq]
    omega

mutual
  theorem frame_ok (mode : ProfilerMode) : (f : RunLog) → FrameOk mode f
    | .mk start stop it => frame_step mode start stop it (items_ok mode it)
  theorem items_ok (mode : ProfilerMode) : (it : Items) → ItemsOk mode it
    | .nil => fun _ _ p _ _ hp => ⟨p, rfl, Grows.refl hp |>.congr (fun x => by simp [Items.calls]) rfl, ⟨fun _ _ => rfl, rfl⟩,
        fun _ hr _ => ⟨hr, Spends.refl hp |>.congr (fun x => by simp [Items.ticks]) rfl⟩⟩
    | .leaf b start stop rest => leaf_step mode b start stop rest (items_ok mode rest)
    | .nest b start stop f rest => nest_step mode b start stop f rest (frame_ok mode f) (items_ok mode rest)
end

end Tosca.Proofs

import Verif.Proofs.LfvmIter

/-!
# The long-form EVM: a run against the reference
-/

namespace Tosca.Proofs.Lfvm

open Tosca.Spec Tosca.Spec.Go Tosca.Go Tosca.Model.Go Tosca.Model.Lfvm

variable {ω : Type}

/-- What a run ends with, given how the loop ended. -/
theorem result_eq {r : Res ω Model.Lfvm.Status} {t : State ω} (h : Over r t) (hr : -2 ^ 63 ≤ t.refund ∧ t.refund < 2 ^ 63) :
    ∃ st l, r = .ok st l ∧ nativeOutcome t = .ok (generateResult st l) ∧ (l.world = t.host ∨ Failed t) := by
  cases r with
  | err _ => exact h.elim
  | panic => exact h.elim
  | ok st l =>
    refine ⟨st, l, rfl, ?_⟩
    have h64 : i64 t.refund = t.refund := i64_id hr.1 hr.2
    rcases h with ⟨rfl, f, hf⟩ | ⟨hst, hd⟩
    · refine ⟨?_, .inr ⟨f, hf⟩⟩
      unfold nativeOutcome
      rw [hf]
      rfl
    · cases st with
      | running => exact absurd rfl hst
      | failed => exact hd.elim
      | stopped =>
        obtain ⟨h1, h2, h3, h4, h5⟩ := hd
        refine ⟨?_, .inl h5⟩
        unfold nativeOutcome generateResult
        rw [h1]; dsimp only; rw [h3, h4, h64, ← h2]
      | selfDestructed =>
        obtain ⟨h1, h2, h3, h4, h5⟩ := hd
        refine ⟨?_, .inl h5⟩
        unfold nativeOutcome generateResult
        rw [h1]; dsimp only; rw [h3, h4, h64, ← h2]
      | returned =>
        obtain ⟨h1, h2, h3, h4, h5⟩ := hd
        refine ⟨?_, .inl h5⟩
        unfold nativeOutcome generateResult
        rw [h1]; dsimp only; rw [h3, h4, h64, ← h2]
      | reverted =>
        obtain ⟨h1, h2, h3, h4, h5⟩ := hd
        refine ⟨?_, .inl h5⟩
        unfold nativeOutcome generateResult
        rw [h1]; dsimp only; rw [h3, ← h2]

/-- A run of converted code. -/
theorem run_eq {ws : Bool} {E : Env ω} {rev : Revision} (hE : Setup E rev) (hcall : CallFnOk (inRange rev E.call)) (hconv : Laid ws E.params.code E.code 0 0) (T : Targets ws E.params.code E.code 0 0)
    (hcode : E.params.code.length ≤ 2 ^ 16) (hgas : E.params.gas ≤ 2 ^ 40) (data : Nat → U256) (fuel : Nat)
    (hfuel : 2 * E.params.gas.toNat + 2 ≤ fuel) (w : ω) (hsafe : ws = true → SafeReturns (frameOf E rev) (initial (frameOf E rev) w)) :
    (run E data fuel w).1 = nativeOutcome (stepsEip (frameOf E rev) (E.params.gas.toNat + 1) (initial (frameOf E rev) w)) ∧
    ((run E data fuel w).2 = (stepsEip (frameOf E rev) (E.params.gas.toNat + 1) (initial (frameOf E rev) w)).host ∨
      Failed (stepsEip (frameOf E rev) (E.params.gas.toNat + 1) (initial (frameOf E rev) w))) := by
  have hg0 := hE.run.gas
  have hP : ParamsOk (frameOf E rev) := nativeFrame_ok E.hash E.db hcall hE.run rev
  have hgi : (initial (frameOf E rev) w).gas = E.params.gas.toNat := rfl
  have hms : (initial (frameOf E rev) w).mem.size = 0 := rfl
  have hmg : memGas (Spec.words 0) = 0 := by decide
  have hw : Wf (frameOf E rev) (initial (frameOf E rev) w) := wf_initial w hg0.2
  have hm : Match (0 : Nat) 0 ({ gas := E.params.gas, data := data, world := w } : St ω) (initial (frameOf E rev) w) := by
    refine ⟨rfl, rfl, rfl, ?_, rfl, rfl, rfl, Nat.zero_le _, rfl, fun i => rfl, rfl, ?_, rfl, rfl⟩
    · rw [hgi]; exact (Int.toNat_of_nonneg hg0.1).symm
    · rw [hms, hmg]; rfl
  obtain ⟨r, e, ho⟩ := loop_ok hE hcall rfl rfl T hcode E.params.gas.toNat _ _ 0 0 hw (by rw [hms, hmg, hgi]; omega) (by rw [hgi]; omega) hsafe hm hconv
  have hb := (stepsEip_bound hP (E.params.gas.toNat + 1) hw rfl).1
  have h1 := hb.hi
  have h2 := hb.lo
  have h3 := hb.gas
  rw [hgi] at h1 h2 h3
  have h0 : (initial (frameOf E rev) w).refund = 0 := rfl
  rw [h0] at h1 h2
  obtain ⟨st, l, hr, hn, hw'⟩ := result_eq ho (by constructor <;> omega)
  subst hr
  have e' := loop_more E (fuel - (2 * E.params.gas.toNat + 2)) _ _ _ e
  rw [show 2 * E.params.gas.toNat + 2 + (fuel - (2 * E.params.gas.toNat + 2)) = fuel by omega] at e'
  rw [hn]
  unfold Model.Lfvm.run
  by_cases hz : E.code.length = 0
  · rw [if_pos hz]
    have hstep : stepOnce E ({ gas := E.params.gas, data := data, world := w } : St ω) = .ok .stopped ({ gas := E.params.gas, data := data, world := w } : St ω) := by
      unfold stepOnce
      rw [bind_ok (show (getSt : M ω _) _ = .ok _ _ from rfl), if_pos (by rw [hz]; exact Int.le_refl _)]
      rfl
    have : loop E (2 * E.params.gas.toNat + 1 + 1) ({ gas := E.params.gas, data := data, world := w } : St ω) =
        some (.ok .stopped ({ gas := E.params.gas, data := data, world := w } : St ω)) := by
      unfold loop
      rw [hstep]
    rw [show 2 * E.params.gas.toNat + 2 = 2 * E.params.gas.toNat + 1 + 1 from rfl, this] at e
    injection e with e
    injection e with e1 e2
    subst e1; subst e2
    exact ⟨rfl, hw'⟩
  · rw [if_neg hz, e']
    exact ⟨rfl, hw'⟩

/-- The revision of a run. -/
abbrev revOf (p : Parameters) : Revision := ISTANBUL + p.block.revision.toNat

/-- A run against the reference interpreter, for a call function that is used only as far as the frame can use it. -/
theorem lfvmRun_range (ws : Bool) (keccak : List Byte → U256) {db : Db ω} {call : CallFn ω} (ha : AccessOk db) (hl : Lengths db)
    {p : Parameters} (hc : CallFnOk (inRange (revOf p) call)) (hp : RunOk p) (hin : p.input.length < 2 ^ 63) (hcode : p.code.length ≤ 2 ^ 16) (hgas : p.gas ≤ 2 ^ 40)
    (hrev : 0 ≤ p.block.revision) {f : Model.Lfvm.Found} (hh : f.hash = keccak)
    (hf : ∀ C, f.cached = some C → convert p.code ws = some C) {fuel : Parameters → Nat} (hfuel : 2 * p.gas.toNat + 2 ≤ fuel p) (w : ω)
    (hsafe : ws = true → SafeRun keccak db (inRange (revOf p) call) p w) :
    (lfvmRun ws f fuel db call p w).1 = (nativeRun keccak db (inRange (revOf p) call) p w).1 ∧
    ((lfvmRun ws f fuel db call p w).2 = (nativeRun keccak db (inRange (revOf p) call) p w).2 ∨ (nativeRun keccak db (inRange (revOf p) call) p w).1 = .ok {}) := by
  unfold lfvmRun nativeRun
  by_cases hr : p.block.revision > 5
  · rw [if_pos hr]
    have : revisionOf p.block.revision = none := by unfold revisionOf; rw [if_neg (by omega)]
    rw [this]
    exact ⟨rfl, .inl rfl⟩
  · rw [if_neg hr]
    have : revisionOf p.block.revision = some (ISTANBUL + p.block.revision.toNat) := by unfold revisionOf; rw [if_pos (by omega)]
    rw [this]
    dsimp only
    obtain ⟨C, hC, L, T⟩ := convert_ok ws hcode
    have hcc : convertCached p.code ws f.cached = some C := by
      unfold convertCached
      cases hcf : f.cached with
      | none => exact hC
      | some C' => dsimp only; rw [← hf C' hcf, hC]
    rw [hcc]
    dsimp only
    rw [hh]
    have hE : Setup ({ db := db, call := call, params := p, code := C, hash := keccak } : Env ω) (ISTANBUL + p.block.revision.toNat) :=
      ⟨gasKept hc, this, hp, ha, hl, hin⟩
    have := run_eq hE hc L T hcode hgas f.data (fuel p) hfuel w fun h => hsafe h _ this
    refine ⟨this.1, this.2.imp_right fun ⟨f, hf⟩ => ?_⟩
    unfold nativeOutcome
    rw [hf]

end Tosca.Proofs.Lfvm

import Verif.Proofs.LfvmSuperOps

/-!
# The long-form EVM: the loop
-/

namespace Tosca.Proofs.Lfvm

open Tosca.Spec Tosca.Spec.Go Tosca.Go Tosca.Model.Go Tosca.Model.Lfvm

variable {ws : Bool} {ω : Type} {E : Env ω} {rev : Revision} {p : Int} {q k : Nat} {l : St ω} {s : State ω}

/-- One step at any place: a JUMP_TO, or one or more steps of the reference. -/
theorem step_any {code : List Byte} {C : Code} {p : Nat} (hE : Setup E rev) (hc : E.params.code = code) (hC : E.code = C)
    (T : Targets ws code C 0 0) (hcode : code.length ≤ 2 ^ 16) (h : Rel 0 p q l s) (hs : ws = true → SafeReturns (frameOf E rev) s) (L : Laid ws code C p q) :
    (p < q ∧ Laid ws code C q q ∧ ∃ l', stepOnce E l = .ok .running l' ∧ Rel 0 q q l' s) ∨
      ∃ n, 1 ≤ n ∧ Sim (Next ws code C) (stepOnce E l) (stepsEip (frameOf E rev) n s) := by
  cases L with
  | done h1 h2 => exact .inr ⟨1, Nat.le_refl _, step_end hc hC h h1 (Nat.le_of_eq h2)⟩
  | jumpTo h1 h2 h3 h4 h5 => exact .inl ⟨h1, h5, _, step_jumpTo hC h h4 (by omega), rel_lpc _ h⟩
  | push h0 h1 h2 h3 h4 h5 h6 h7 => exact .inr ⟨1, Nat.le_refl _, step_push hE hc hC h h1 h2 h3 h4 h5 h6 h7⟩
  | pc h1 h2 h3 h4 => exact .inr ⟨1, Nat.le_refl _, step_pc hE hc hC (by omega) h h2 h3 h4⟩
  | plain h1 h2 h3 h4 h5 => exact .inr ⟨1, Nat.le_refl _, step_plain hE hc hC T hcode h h2 h3 h4 h5⟩
  | super h1 h2 h3 h4 h5 => exact .inr (step_super T hcode hc hC h (hs h1) h2 h3 h4 h5)

/-- How the loop ends, compared with the reference. -/
def Over (r : Res ω Model.Lfvm.Status) (t : State ω) : Prop :=
  match r with
  | .ok st l => (st = .failed ∧ Failed t) ∨ (st ≠ .running ∧ Done 0 0 st l t)
  | _ => False

theorem loop_more (E : Env ω) (k n : Nat) : ∀ (l : St ω) (r : Res ω Model.Lfvm.Status), loop E n l = some r → loop E (n + k) l = some r := by
  induction n with
  | zero => intro l r h; cases h
  | succ n ih =>
    intro l r h
    rw [show n + 1 + k = (n + k) + 1 by omega]
    unfold loop at h ⊢
    cases e : stepOnce E l with
    | ok st l' =>
      rw [e] at h
      cases st with
      | running => exact ih l' r h
      | _ => exact h
    | err l' => rw [e] at h; exact h
    | panic => rw [e] at h; exact h

theorem steps_drop {P : Params ω} (hP : ParamsOk P) (n : Nat) : ∀ {s : State ω}, Wf P s → (stepsEip P n s).status = .running →
    (stepsEip P n s).gas + n ≤ s.gas := by
  induction n with
  | zero => intro s _ _; exact Nat.le_refl _
  | succ n ih =>
    intro s hw hr
    have hr : (stepsEip P n (stepEip P s)).status = .running := hr
    by_cases h1 : (stepEip P s).status = .running
    · have h0 : s.status = .running := by
        by_cases h0 : s.status = .running
        · exact h0
        · rw [stepEip_halted h0] at h1; exact h1
      have hx := stepEip_wf hP hw h0 (by rw [h1]; intro f hf; cases hf)
      have := ih hx.1 hr
      have := hx.2 h1
      show (stepsEip P n (stepEip P s)).gas + (n + 1) ≤ s.gas
      omega
    · rw [stepsEip_halted h1] at hr
      exact absurd hr h1

theorem steps_fixed {P : Params ω} (hP : ParamsOk P) {n k : Nat} (hw : Wf P s) (hg : s.gas ≤ n) (hk : (stepsEip P k s).status ≠ .running) :
    stepsEip P (n + 1) s = stepsEip P k s := by
  have hh := haltsEip_bound hP n hw hg
  by_cases hle : k ≤ n + 1
  · have := stepsEip_add (P := P) k (n + 1 - k) s
    rw [show k + (n + 1 - k) = n + 1 by omega, stepsEip_halted hk] at this
    exact this
  · have := stepsEip_add (P := P) (n + 1) (k - (n + 1)) s
    rw [show n + 1 + (k - (n + 1)) = k by omega, stepsEip_halted hh] at this
    exact this.symm

theorem loop_ok {code : List Byte} {C : Code} (hE : Setup E rev) (hcall : CallFnOk (inRange rev E.call)) (hc : E.params.code = code) (hC : E.code = C)
    (T : Targets ws code C 0 0) (hcode : code.length ≤ 2 ^ 16) (n : Nat) : ∀ (l : St ω) (s : State ω) (p q : Nat), Wf (frameOf E rev) s →
      s.gas + memGas (Spec.words s.mem.size) ≤ 2 ^ 40 → s.gas ≤ n → (ws = true → SafeReturns (frameOf E rev) s) → Match p q l s → Laid ws code C p q →
      ∃ r, loop E (2 * n + 2) l = some r ∧ Over r (stepsEip (frameOf E rev) (n + 1) s) := by
  have hP : ParamsOk (frameOf E rev) := nativeFrame_ok E.hash E.db hcall hE.run rev
  induction n using Nat.strongRecOn with
  | ind n ih =>
  -- after the steps of the reference for one step
  have one : ∀ (k : Nat) (l : St ω) (s : State ω), 1 ≤ k → Wf (frameOf E rev) s → s.status = .running → s.gas + memGas (Spec.words s.mem.size) ≤ 2 ^ 40 →
      s.gas ≤ n → (ws = true → SafeReturns (frameOf E rev) s) → Sim (Next ws code C) (stepOnce E l) (stepsEip (frameOf E rev) k s) →
      ∃ r, loop E (2 * n + 1) l = some r ∧ Over r (stepsEip (frameOf E rev) (n + 1) s) := by
    intro k l s hk hw hr hb hg hsafe hs
    have halted : (stepsEip (frameOf E rev) k s).status ≠ .running →
        stepsEip (frameOf E rev) (n + 1) s = stepsEip (frameOf E rev) k s := fun h => steps_fixed hP hw hg h
    unfold loop
    cases e : stepOnce E l with
    | panic => rw [e] at hs; exact hs.elim
    | err l' =>
      rw [e] at hs
      obtain ⟨f, hf⟩ := hs
      refine ⟨_, rfl, .inl ⟨rfl, ?_⟩⟩
      rw [halted (by rw [hf]; simp)]
      exact ⟨f, hf⟩
    | ok st l' =>
      rw [e] at hs
      rcases hs with ⟨rfl, p, q, hm, L⟩ | ⟨hst, hd⟩
      · have hr' := hm.status
        have hnf : ∀ f, (stepsEip (frameOf E rev) k s).status ≠ .failed f := fun f h => by rw [h] at hr'; cases hr'
        obtain ⟨hpd, hwf⟩ := (stepsEip_bound hP k hw hr).2 hnf
        have hdrop := steps_drop hP k hw hr'
        obtain ⟨r, e', ho⟩ := ih (n - k) (by omega) l' _ p q hwf (by have := hpd.pot; omega) (by omega) (fun hx => safe_after k (hsafe hx)) hm L
        refine ⟨r, ?_, ?_⟩
        · dsimp only
          have := loop_more E (2 * k - 2) _ _ _ e'
          rwa [show 2 * (n - k) + 2 + (2 * k - 2) = 2 * n by omega] at this
        · rw [← stepsEip_add, show k + (n - k + 1) = n + 1 by omega] at ho
          exact ho
      · cases st with
        | running => exact absurd rfl hst
        | failed => exact hd.elim
        | stopped =>
          refine ⟨_, rfl, .inr ⟨hst, ?_⟩⟩
          rw [halted (by rw [hd.1]; simp)]; exact hd
        | selfDestructed =>
          refine ⟨_, rfl, .inr ⟨hst, ?_⟩⟩
          rw [halted (by rw [hd.1]; simp)]; exact hd
        | returned =>
          refine ⟨_, rfl, .inr ⟨hst, ?_⟩⟩
          rw [halted (by rw [hd.1]; simp)]; exact hd
        | reverted =>
          refine ⟨_, rfl, .inr ⟨hst, ?_⟩⟩
          rw [halted (by rw [hd.1]; simp)]; exact hd
  intro l s p q hw hb hg hsafe hm L
  have h := hm.rel hb hw.ret
  rcases step_any hE hc hC T hcode h hsafe L with ⟨hlt, L', l', e, h'⟩ | ⟨k, hk, hs⟩
  · rcases step_any hE hc hC T hcode h' hsafe L' with ⟨hlt', _⟩ | ⟨k, hk, hs⟩
    · exact absurd hlt' (Nat.lt_irrefl _)
    · obtain ⟨r, e', ho⟩ := one k l' s hk hw hm.status hb hg hsafe hs
      refine ⟨r, ?_, ho⟩
      rw [show 2 * n + 2 = (2 * n + 1) + 1 from rfl]
      unfold loop
      rw [e]
      exact e'
  · obtain ⟨r, e', ho⟩ := one k l s hk hw hm.status hb hg hsafe hs
    exact ⟨r, loop_more E 1 _ _ _ e', ho⟩

end Tosca.Proofs.Lfvm

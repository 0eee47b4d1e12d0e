import Verif.Model.Floria
import Verif.Proofs.GoBridge
import Verif.Proofs.Nest

/-!
# Calls in the floria processor
-/

namespace Tosca.Proofs

open Tosca.Spec Tosca.Model Tosca.Go Tosca.Model.Go

variable {ω : Type}

/-! ### The recursion -/

theorem callBody_deep (F : Floria ω) {depth : Nat} (h : 1024 < depth) (static : Bool) (next next' : Bool → CallFn ω) :
    F.callBody depth static next = F.callBody depth static next' := by
  funext kind p w
  unfold Floria.callBody
  rw [if_pos (by unfold maxRecursiveDepth; omega), if_pos (by unfold maxRecursiveDepth; omega)]

theorem levels_succ (F : Floria ω) (n : Nat) : ∀ depth, 1025 ≤ n + depth → F.levels (n + 2) depth = F.levels (n + 1) depth := by
  induction n with
  | zero =>
    intro depth h
    funext static
    exact callBody_deep F (by omega) static _ _
  | succ n ih =>
    intro depth h
    funext static
    show F.callBody depth static (F.levels (n + 2) (depth + 1)) = F.callBody depth static (F.levels (n + 1) (depth + 1))
    rw [ih (depth + 1) (by omega)]

/-- `call` solves the recursive definition of the code. -/
theorem call_eq (F : Floria ω) (depth : Nat) (static : Bool) :
    F.call depth static = F.callBody depth static (F.call (depth + 1)) := by
  unfold Floria.call
  by_cases h : depth ≤ 1024
  · show F.callBody depth static (F.levels (1025 - depth) (depth + 1)) = _
    rw [show 1025 - depth = 1025 - (depth + 1) + 1 by omega]
  · exact callBody_deep F (by omega) static _ _

/-- Induction over the nesting of calls: a property of the call function at every depth follows from its step. -/
theorem call_induct (F : Floria ω) (Q : Nat → Bool → CallFn ω → Prop)
    (deep : ∀ depth static, 1024 < depth → Q depth static (fun _ _ w => (.ok {}, w)))
    (step : ∀ depth static, depth ≤ 1024 → (∀ static, Q (depth + 1) static (F.call (depth + 1) static)) →
      Q depth static (F.callBody depth static (F.call (depth + 1)))) (depth : Nat) (static : Bool) : Q depth static (F.call depth static) := by
  have key : ∀ n depth static, 1025 ≤ n + depth → Q depth static (F.call depth static) := by
    intro n
    induction n with
    | zero =>
      intro depth static h
      have : F.call depth static = fun _ _ w => (.ok {}, w) := by
        rw [call_eq]
        funext kind p w
        unfold Floria.callBody
        rw [if_pos (by unfold maxRecursiveDepth; omega)]
      rw [this]
      exact deep depth static (by omega)
    | succ n ih =>
      intro depth static h
      by_cases hd : depth ≤ 1024
      · rw [call_eq]
        exact step depth static hd fun s => ih (depth + 1) s (by omega)
      · exact ih depth static (by omega)
  exact key 1025 depth static (by omega)

/-! ### Gas -/

theorem i64_id {x : Int} (h0 : -2 ^ 63 ≤ x) (h1 : x < 2 ^ 63) : i64 x = x := by
  unfold i64
  rw [Int.bmod_eq_of_le] <;> omega

/-- An interpreter that respects the gas it is given. -/
def Respects (db : Db ω) (I : Interpreter ω) : Prop :=
  ∀ call p w r w', Spec.Go.CallFnOk call → Spec.Go.RunOk p → I db call p w = (.ok r, w') →
    (0 ≤ r.gasLeft ∧ r.gasLeft ≤ p.gas) ∧ (r.gasRefund ≤ 199 * (p.gas - r.gasLeft) ∧ -(199 * (p.gas - r.gasLeft)) ≤ r.gasRefund) ∧
    r.output.length < 2 ^ 64

theorem callOk_zero {g : Int} (h : 0 ≤ g) : Spec.Go.CallOk g {} :=
  ⟨⟨Int.le_refl _, h⟩, by show (0 : Int) ≤ 199 * (g - 0) ∧ -(199 * (g - 0)) ≤ (0 : Int); omega, by show 0 < 2 ^ 64; omega⟩

theorem callOk_plain {g l : Int} (h0 : 0 ≤ l) (h1 : l ≤ g) {out : List Byte} (ho : out.length < 2 ^ 64) (b : Bool) (a : Address) :
    Spec.Go.CallOk g { success := b, output := out, gasLeft := l, createdAddress := a } :=
  ⟨⟨h0, h1⟩, by show (0 : Int) ≤ 199 * (g - l) ∧ -(199 * (g - l)) ≤ (0 : Int); omega, ho⟩

theorem statePart_gas {db : Db ω} (hc : ∀ a w, (db.code a w).length < 2 ^ 32) {sender : Address} {input : List Byte} {g : Int}
    (h0 : 0 ≤ g) (h1 : g ≤ 2 ^ 54) (w : ω) :
    (∀ x, (stateSetBalance db sender input g w).1 = some x → 0 ≤ x ∧ x ≤ g) ∧ (∀ x, (stateCopyCode db input g w).1 = some x → 0 ≤ x ∧ x ≤ g) ∧
    (∀ x, (stateSwapCode db input g w).1 = some x → 0 ≤ x ∧ x ≤ g) ∧ (∀ x, (stateSetStorage db input g w).1 = some x → 0 ≤ x ∧ x ≤ g) ∧
    (∀ x, (stateIncNonce db sender input g w).1 = some x → 0 ≤ x ∧ x ≤ g) := by
  have e : ∀ k : Int, 0 ≤ k → k ≤ g → i64 (g - k) = g - k := fun k hk hg => i64_id (by omega) (by omega)
  refine ⟨?_, ?_, ?_, ?_, ?_⟩
  · intro x hx
    unfold stateSetBalance at hx
    split at hx
    · cases hx
    · dsimp only at hx
      rw [e 9000 (by omega) (by omega)] at hx
      split at hx
      · cases hx
      · split at hx
        · cases hx
        · cases hx; omega
  · intro x hx
    unfold stateCopyCode at hx
    split at hx
    · cases hx
    · dsimp only at hx
      rw [e 32000 (by omega) (by omega)] at hx
      split at hx
      · cases hx
      · have hl := hc (addressAt input 32) w
        have e2 : i64 (i64 ((db.code (addressAt input 32) w).length : Int) * (200 + 3)) = (db.code (addressAt input 32) w).length * 203 := by
          rw [i64_id (x := ((db.code (addressAt input 32) w).length : Int)) (by omega) (by omega)]
          exact i64_id (by omega) (by omega)
        rw [e2] at hx
        split at hx
        · cases hx
        · rename_i hlt
          rw [i64_id (by omega) (by omega)] at hx
          cases hx; omega
  · intro x hx
    unfold stateSwapCode at hx
    split at hx
    · cases hx
    · dsimp only at hx
      rw [e (2 * 32000) (by omega) (by omega)] at hx
      split at hx
      · cases hx
      · have hl0 := hc (addressAt input 0) w
        have hl1 := hc (addressAt input 32) w
        have e2 : ∀ a, (db.code a w).length < 2 ^ 32 → i64 (i64 ((db.code a w).length : Int) * (200 + 3)) = (db.code a w).length * 203 := by
          intro a ha
          rw [i64_id (x := ((db.code a w).length : Int)) (by omega) (by omega)]
          exact i64_id (by omega) (by omega)
        rw [e2 _ hl0, e2 _ hl1, i64_id (x := _ + _) (by omega) (by omega)] at hx
        have hd : ((db.code (addressAt input 0) w).length * 203 + (db.code (addressAt input 32) w).length * 203 : Int).tdiv 2 =
            ((db.code (addressAt input 0) w).length * 203 + (db.code (addressAt input 32) w).length * 203 : Int) / 2 :=
          Int.tdiv_eq_ediv_of_nonneg (by omega)
        rw [hd] at hx
        split at hx
        · cases hx
        · rename_i hlt
          rw [i64_id (by omega) (by omega)] at hx
          cases hx; omega
  · intro x hx
    unfold stateSetStorage at hx
    split at hx
    · cases hx
    · dsimp only at hx
      rw [e 20000 (by omega) (by omega)] at hx
      split at hx
      · cases hx
      · cases hx; omega
  · intro x hx
    unfold stateIncNonce at hx
    split at hx
    · cases hx
    · dsimp only at hx
      rw [e 9000 (by omega) (by omega)] at hx
      split at hx
      · cases hx
      · split at hx
        · cases hx
        · split at hx
          · cases hx
          · cases hx; omega

theorem stateContract_gas {keccak : List Byte → U256} {db : Db ω} (hc : ∀ a w, (db.code a w).length < 2 ^ 32) {sender receiver : Address}
    {input : List Byte} {g : Int} (h0 : 0 ≤ g) (h1 : g ≤ 2 ^ 54) {w w' : ω} {r : CallRes}
    (h : handleStateContract keccak db sender receiver input g w = (some r, w')) : Spec.Go.CallOk g r := by
  unfold handleStateContract at h
  split at h
  · cases h
  · split at h
    · cases h; exact callOk_zero h0
    · split at h
      · cases h; exact callOk_zero h0
      · dsimp only at h
        obtain ⟨p1, p2, p3, p4, p5⟩ := statePart_gas (sender := sender) (input := input.drop 4) hc h0 h1 w
        have key : ∀ x : Option Int × ω, (∀ y, x.1 = some y → 0 ≤ y ∧ y ≤ g) →
            Spec.Go.CallOk g { success := x.1.isSome, output := [], gasLeft := x.1.getD 0 } := by
          intro x hx
          cases hv : x.1 with
          | none => exact callOk_plain (Int.le_refl _) h0 (by show 0 < 2 ^ 64; omega) _ _
          | some y => exact callOk_plain (hx y hv).1 (hx y hv).2 (by show 0 < 2 ^ 64; omega) _ _
        cases h
        refine key _ ?_
        split
        · exact p1
        · split
          · exact p2
          · split
            · exact p3
            · split
              · exact p4
              · split
                · exact p5
                · intro y hy; cases hy

theorem precompiled_gas {pre : Int → Address → Option Precompile} {rev : Int} {a : Address}
    (hp : ∀ c, pre rev a = some c → ∀ input, (c.requiredGas input).toNat < 2 ^ 63 ∧ (c.run input).1.length < 2 ^ 64)
    {input : List Byte} {g : Int} (h0 : 0 ≤ g) (h1 : g ≤ 2 ^ 54) {r : CallRes} (h : handlePrecompiled pre rev input a g = some r) :
    Spec.Go.CallOk g r := by
  unfold handlePrecompiled at h
  cases hc : pre rev a with
  | none => rw [hc] at h; cases h
  | some c =>
    rw [hc] at h
    obtain ⟨k1, k2⟩ := hp c hc input
    have e : s64 (c.requiredGas input) = ((c.requiredGas input).toNat : Int) := by
      unfold s64
      rw [BitVec.toInt_eq_toNat_cond, if_pos (by omega)]
    dsimp only at h
    rw [e] at h
    split at h
    · cases h; exact callOk_zero h0
    · rw [i64_id (by omega) (by omega)] at h
      cases h
      exact callOk_plain (by omega) (by omega) k2 _ _

theorem finish_gas {F : Floria ω} {kind : Kind} {a : Address} {snapshot : ω} {g : Int} {x : Except Err RunResult × ω}
    (hx : ∀ r w', x = (.ok r, w') → (0 ≤ r.gasLeft ∧ r.gasLeft ≤ g) ∧
      (r.gasRefund ≤ 199 * (g - r.gasLeft) ∧ -(199 * (g - r.gasLeft)) ≤ r.gasRefund) ∧ r.output.length < 2 ^ 64)
    (h1 : g ≤ 2 ^ 54) {r : CallRes} {w' : ω} (h : F.finish kind a snapshot x = (.ok r, w')) : Spec.Go.CallOk g r := by
  unfold Floria.finish at h
  obtain ⟨x1, w1⟩ := x
  cases x1 with
  | error e => cases h
  | ok res =>
    obtain ⟨k1, k2, k3⟩ := hx res w1 rfl
    dsimp only at h
    have hz : Spec.Go.CallOk g {} := callOk_zero (by omega)
    split at h
    · split at h
      · cases h; exact hz
      · rename_i hlen
        split at h
        · cases h; exact hz
        · split at h
          · cases h; exact hz
          · rename_i hcost
            unfold maxCodeSize at hlen
            unfold createGasCostPerByte at hcost h
            rw [i64_id (x := ((res.output.length : Int) * (200 : Nat))) (by omega) (by omega)] at hcost
            rw [i64_id (x := ((res.output.length : Int) * (200 : Nat))) (by omega) (by omega), i64_id (by omega) (by omega)] at h
            cases h
            refine ⟨⟨?_, ?_⟩, ⟨?_, ?_⟩, k3⟩
            · show (0 : Int) ≤ res.gasLeft - _; omega
            · show res.gasLeft - _ ≤ g; omega
            · show res.gasRefund ≤ 199 * (g - (res.gasLeft - _)); omega
            · show -(199 * (g - (res.gasLeft - _))) ≤ res.gasRefund; omega
    · cases h
      exact ⟨k1, k2, k3⟩

/-- Creations. -/
def isCreate (kind : Kind) : Prop := kind = .create ∨ kind = .create2

theorem prepare_call {F : Floria ω} {kind : Kind} (hk : ¬ isCreate kind) (p : CallParameters) (w : ω) :
    F.prepare kind p w = some (F.db.code (if kind = .delegateCall ∨ kind = .callCode then p.codeAddress else p.recipient) w,
      F.db.codeHash (if kind = .delegateCall ∨ kind = .callCode then p.codeAddress else p.recipient) w, p.recipient, 0, w) := by
  unfold Floria.prepare
  dsimp only
  rw [if_neg (show ¬ (kind = .create ∨ kind = .create2) from hk)]
  by_cases h : kind = .delegateCall ∨ kind = .callCode
  · simp only [if_pos h]
  · simp only [if_neg h]

/-- The address a creation uses. -/
def createdAt (F : Floria ω) (kind : Kind) (p : CallParameters) (w : ω) : Address :=
  F.createAddress kind p.sender (F.db.nonce p.sender w) p.salt
    (if p.recipient = 0 then F.keccak p.input else F.db.codeHash p.recipient w)

theorem prepare_create {F : Floria ω} {kind : Kind} (hk : isCreate kind) (p : CallParameters) (w : ω) :
    F.prepare kind p w =
      if F.db.nonce (createdAt F kind p w) w ≠ 0 ∨
          (F.db.codeHash (createdAt F kind p w) w ≠ 0 ∧ F.db.codeHash (createdAt F kind p w) w ≠ F.emptyCodeHash) then none
      else some (if p.recipient = 0 then p.input else F.db.code p.recipient w,
        if p.recipient = 0 then F.keccak p.input else F.db.codeHash p.recipient w,
        createdAt F kind p w, createdAt F kind p w,
        F.db.setNonce (createdAt F kind p w) 1 (F.db.setNonce p.sender (F.db.nonce p.sender w + 1) w)) := by
  unfold Floria.prepare
  dsimp only
  rw [if_pos (show kind = .create ∨ kind = .create2 from hk)]
  have h : ¬ (kind = .delegateCall ∨ kind = .callCode) := by rcases hk with rfl | rfl <;> (intro h; rcases h with h | h <;> cases h)
  by_cases h0 : p.recipient = 0
  · simp only [createdAt, if_pos h0]
  · simp only [createdAt, if_neg h0, if_neg h]

/-- The code floria hands to the interpreter fits the machine. -/
theorem prepare_code {F : Floria ω} (hF : FloriaOk F) {kind : Kind} {p : CallParameters} (hi : p.input.length ≤ 2 ^ 30) {w w' : ω}
    {code : List Byte} {hash : U256} {rcp created : Address} (h : F.prepare kind p w = some (code, hash, rcp, created, w')) :
    code.length < 2 ^ 32 := by
  by_cases hk : isCreate kind
  · rw [prepare_create hk] at h
    split at h
    · cases h
    · cases h
      split
      · omega
      · exact hF.code _ _
  · rw [prepare_call hk] at h
    cases h
    exact hF.code _ _

theorem floria_callBody_ok {F : Floria ω} (hF : FloriaOk F) (hI : Respects F.db F.interpreter) {depth : Nat} (hd : depth ≤ 1024) (static : Bool)
    {next : Bool → CallFn ω} (hn : ∀ s, Spec.Go.CallFnOk (next s)) : Spec.Go.CallFnOk (F.callBody depth static next) := by
  intro kind p w r w' h0 h1 hi h
  unfold Floria.callBody at h
  split at h
  · cases h; exact callOk_zero h0
  · cases hp : F.prepare kind p w with
    | none => rw [hp] at h; cases h; exact callOk_zero h0
    | some t =>
      obtain ⟨code, hash, rcp, created, w1⟩ := t
      rw [hp] at h
      have hcode := prepare_code hF hi hp
      dsimp only at h
      split at h
      · cases h; exact callOk_zero h0
      · rename_i w2 hw2
        split at h
        · rename_i out w3 hs
          cases h; exact stateContract_gas hF.code h0 h1 hs
        · rename_i w3 hs
          split at h
          · rename_i out ho
            cases h; exact precompiled_gas (hF.precompile _ _) h0 h1 ho
          · split at h
            · cases h; exact callOk_plain h0 (Int.le_refl _) (by show 0 < 2 ^ 64; omega) _ _
            · refine finish_gas (fun r2 w4 hr => ?_) h1 h
              exact hI _ _ _ _ _ (hn _) ⟨hF.chain, ⟨h0, h1⟩, by constructor <;> (show _; dsimp only; omega), hcode, by dsimp only; omega⟩ hr

/-- Calls respect the gas they are given. -/
theorem floria_call_ok {F : Floria ω} (hF : FloriaOk F) (hI : Respects F.db F.interpreter) (depth : Nat) (static : Bool) :
    Spec.Go.CallFnOk (F.call depth static) :=
  call_induct F (fun _ _ c => Spec.Go.CallFnOk c)
    (fun _ _ _ kind p w r w' h0 _ _ h => by cases h; exact callOk_zero h0)
    (fun depth static hd ih => floria_callBody_ok hF hI hd static ih) depth static

end Tosca.Proofs

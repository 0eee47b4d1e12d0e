import Verif.Model.LfvmCt
import Verif.Proofs.LfvmRel

/-!
# The long-form EVM: the stack pointer stays in range, also after errors
-/

namespace Tosca.Proofs.Lfvm

open Tosca.Go Tosca.Model.Go Tosca.Model.Lfvm

variable {ω α β : Type}

/-- Between the empty and the full stack. -/
def SpOk (l : St ω) : Prop := 0 ≤ l.sp ∧ l.sp ≤ 1024

/-- The stack pointer is in range in the end. -/
def SpRes : Res ω α → Prop
  | .ok _ l => SpOk l
  | .err l => SpOk l
  | .panic => True

/-- Keeps the stack pointer in range. -/
def Keeps (m : M ω α) : Prop := ∀ l, SpOk l → SpRes (m l)

theorem keeps_pure (a : α) : Keeps (pure a : M ω α) := fun _ h => h
theorem keeps_error : Keeps (error : M ω α) := fun _ h => h
theorem keeps_crash : Keeps (crash : M ω α) := fun _ _ => trivial

theorem keeps_bind {m : M ω α} {f : α → M ω β} (h : Keeps m) (hf : ∀ a, Keeps (f a)) : Keeps (m >>= f) := by
  intro l hl
  have := h l hl
  show SpRes (match m l with | .ok a s => f a s | .err s => .err s | .panic => .panic)
  cases hm : m l with
  | ok a l' => rw [hm] at this; exact hf a l' this
  | err l' => rw [hm] at this; exact this
  | panic => trivial

theorem keeps_getSt {f : St ω → M ω β} (hf : ∀ s, SpOk s → Keeps (f s)) : Keeps (getSt >>= f) := fun l hl => hf l hl l hl

theorem keeps_setSt {s s' : St ω} (h : SpOk s) (he : s'.sp = s.sp) : Keeps (setSt s' : M ω Unit) := fun _ _ => by
  show SpOk s'
  unfold SpOk
  rw [he]
  exact h

theorem keeps_readDb (f : ω → α) : Keeps (readDb f) := fun _ h => h
theorem keeps_askDb (f : ω → α × ω) : Keeps (askDb f) := fun _ h => h
theorem keeps_useGas (a : Int) : Keeps (useGas a : M ω Unit) := by
  intro l h
  unfold useGas
  split <;> exact h

theorem keeps_slot (i : Int) : Keeps (slot i : M ω U256) := by
  intro l h
  unfold slot
  split
  · exact h
  · trivial

theorem keeps_setSlot (i : Int) (v : U256) : Keeps (setSlot i v : M ω Unit) := by
  intro l h
  unfold setSlot
  split
  · exact h
  · trivial

theorem keeps_pop : Keeps (pop : M ω U256) := by
  intro l h
  show SpRes ((slot (l.sp + -1) : M ω U256) { l with sp := l.sp + -1 })
  unfold slot maxStackSize
  split
  · rename_i hx
    exact ⟨hx.1, by show l.sp + -1 ≤ 1024; omega⟩
  · trivial

theorem keeps_pushV (v : U256) : Keeps (pushV v : M ω Unit) := by
  intro l h
  show SpRes ((setSlot (l.sp + 1 - 1) v : M ω Unit) { l with sp := l.sp + 1 })
  unfold setSlot maxStackSize
  split
  · rename_i hx
    exact ⟨by show 0 ≤ l.sp + 1; omega, by show l.sp + 1 ≤ 1024; omega⟩
  · trivial

theorem keeps_dup (n : Int) : Keeps (dup n : M ω Unit) := by
  intro l h
  show SpRes (((slot (l.sp - n - 1) : M ω U256) >>= fun v => (setSlot l.sp v : M ω Unit) >>= fun _ => moveSp 1) l)
  by_cases h1 : 0 ≤ l.sp - n - 1 ∧ l.sp - n - 1 < 1024
  · rw [bind_ok (slot_ok (j := (l.sp - n - 1).toNat) (by omega) (by omega))]
    by_cases h2 : 0 ≤ l.sp ∧ l.sp < 1024
    · rw [bind_ok (setSlot_ok (j := l.sp.toNat) (by omega) (by omega))]
      exact ⟨by show 0 ≤ l.sp + 1; omega, by show l.sp + 1 ≤ 1024; omega⟩
    · rw [bind_panic (show (setSlot l.sp _ : M ω Unit) l = .panic from if_neg h2)]; trivial
  · rw [bind_panic (show (slot (l.sp - n - 1) : M ω U256) l = .panic from if_neg h1)]; trivial

/-- The steps that keep the stack pointer in range. -/
macro "keep1" : tactic => `(tactic| first
  | with_reducible exact keeps_pure _ | with_reducible exact keeps_error | with_reducible exact keeps_crash | with_reducible exact keeps_readDb _ | with_reducible exact keeps_askDb _ | with_reducible exact keeps_useGas _
  | with_reducible exact keeps_slot _ | with_reducible exact keeps_setSlot _ _ | with_reducible exact keeps_pop | with_reducible exact keeps_pushV _ | with_reducible exact keeps_dup _
  | exact keeps_setSt (by assumption) rfl
  | (with_reducible refine keeps_getSt fun s hs => ?_)
  | (with_reducible refine keeps_bind ?_ fun x => ?_)
  | split
  | dsimp only)

macro "keep" : tactic => `(tactic| repeat (any_goals keep1))

theorem keeps_peekN (n : Int) : Keeps (peekN n : M ω U256) := by unfold peekN; keep
theorem keeps_peek : Keeps (peek : M ω U256) := by unfold peek; keep
theorem keeps_setN (n : Int) (v : U256) : Keeps (setN n v : M ω Unit) := by unfold setN; keep
theorem keeps_setTop (v : U256) : Keeps (setTop v : M ω Unit) := by unfold setTop; keep
theorem keeps_swap (n : Int) : Keeps (swap n : M ω Unit) := by unfold swap; keep
theorem keeps_setPc (pc : Int) : Keeps (setPc pc : M ω Unit) := by unfold setPc; keep
theorem keeps_addRefund (x : Int) : Keeps (addRefund x : M ω Unit) := by unfold addRefund; keep
theorem keeps_addGas (x : Int) : Keeps (addGas x : M ω Unit) := by unfold addGas; keep
theorem keeps_setReturnData (l : List Byte) : Keeps (setReturnData l : M ω Unit) := by unfold setReturnData; keep
theorem keeps_readView (v : View) : Keeps (readView v : M ω (List Byte)) := fun _ h => h
theorem keeps_copyTo (v : View) (b : List Byte) : Keeps (copyTo v b : M ω Unit) := fun _ h => h
theorem keeps_getExp (n : BitVec 64) : Keeps (getExpansionCostsAndSize n : M ω (Int × BitVec 64)) := by
  intro l h
  unfold getExpansionCostsAndSize
  split
  · exact h
  · dsimp only
    split
    · exact h
    · split <;> exact h
theorem keeps_expandMemory (o n : BitVec 64) : Keeps (expandMemory o n : M ω Unit) := by
  unfold expandMemory
  repeat (any_goals first | with_reducible exact keeps_getExp _ | keep1)
theorem keeps_getSlice (o n : U256) : Keeps (getSlice o n : M ω View) := by
  unfold getSlice
  repeat (any_goals first | with_reducible exact keeps_expandMemory _ _ | keep1)
theorem keeps_memSet (o : U256) (b : List Byte) : Keeps (memSet o b : M ω Unit) := by
  unfold memSet
  exact keeps_bind (keeps_getSlice _ _) fun _ => keeps_copyTo _ _
theorem keeps_readWord (o : U256) : Keeps (readWord o : M ω U256) := by
  unfold readWord
  exact keeps_bind (keeps_getSlice _ _) fun _ => keeps_bind (keeps_readView _) fun _ => keeps_pure _
theorem keeps_instrAt (E : Env ω) (k : Int) : Keeps (instrAt E k) := by unfold instrAt; keep
theorem keeps_argAt (E : Env ω) (k : Int) : Keeps (argAt E k) := by
  unfold argAt
  exact keeps_bind (keeps_instrAt _ _) fun _ => keeps_pure _
theorem keeps_codeSlice (E : Env ω) (n : Nat) : Keeps (codeSlice E n) := by unfold codeSlice; keep
theorem keeps_checkJumpDest (E : Env ω) : Keeps (checkJumpDest E) := by unfold checkJumpDest; keep

macro "keep2" : tactic => `(tactic| first
  | with_reducible exact keeps_peekN _ | with_reducible exact keeps_peek | with_reducible exact keeps_setN _ _ | with_reducible exact keeps_setTop _ | with_reducible exact keeps_swap _ | with_reducible exact keeps_setPc _ | with_reducible exact keeps_addRefund _
  | with_reducible exact keeps_addGas _ | with_reducible exact keeps_setReturnData _ | with_reducible exact keeps_readView _ | with_reducible exact keeps_copyTo _ _ | with_reducible exact keeps_getSlice _ _
  | with_reducible exact keeps_memSet _ _ | with_reducible exact keeps_readWord _ | with_reducible exact keeps_argAt _ _ | with_reducible exact keeps_codeSlice _ _ | with_reducible exact keeps_checkJumpDest _ | keep1)

macro "keeps" : tactic => `(tactic| repeat (any_goals keep2))

theorem keeps_slotSurcharge (E : Env ω) (k : U256) : Keeps (slotSurcharge E k) := by unfold slotSurcharge; keeps
theorem keeps_chargeSlot (E : Env ω) (k : U256) : Keeps (chargeSlot E k) := by unfold chargeSlot; keeps
theorem keeps_chargeAccess (E : Env ω) (a : Address) : Keeps (chargeAccess E a) := by unfold chargeAccess; keeps
theorem keeps_beneficiaryCost (E : Env ω) (a : Address) : Keeps (beneficiaryCost E a) := by unfold beneficiaryCost; keeps
theorem keeps_computeCodeSizeCost (n : BitVec 64) : Keeps (computeCodeSizeCost n : M ω Int) := by unfold computeCodeSizeCost; keeps
theorem keeps_popIf (c : Bool) : Keeps (popIf c : M ω U256) := by unfold popIf; keeps
theorem keeps_useGasIf (c : Bool) (a : Int) : Keeps (useGasIf c a : M ω Unit) := by unfold useGasIf; keeps
theorem keeps_tooPoor (E : Env ω) (c : Bool) (v : U256) : Keeps (tooPoor E c v) := by unfold tooPoor; keeps
theorem keeps_callOut (E : Env ω) (k : Kind) (p : CallParameters) : Keeps (callOut E k p) := keeps_askDb _
theorem keeps_popTopics (n : Nat) : Keeps (popTopics n : M ω (List U256)) := by
  induction n with
  | zero => exact keeps_pure _
  | succ n ih => unfold popTopics; exact keeps_bind keeps_pop fun _ => keeps_bind ih fun _ => keeps_pure _
theorem keeps_chargeInitCode (E : Env ω) (n : BitVec 64) : Keeps (chargeInitCode E n) := by
  unfold chargeInitCode
  repeat (any_goals first | with_reducible exact keeps_computeCodeSizeCost _ | keep2)
theorem keeps_chargeNewAccount (E : Env ω) (k : Kind) (a : Address) (v : U256) : Keeps (chargeNewAccount E k a v) := by
  unfold chargeNewAccount
  repeat (any_goals first | with_reducible exact keeps_useGasIf _ _ | keep2)

macro "keep3" : tactic => `(tactic| first
  | with_reducible exact keeps_slotSurcharge _ _ | with_reducible exact keeps_chargeSlot _ _ | with_reducible exact keeps_chargeAccess _ _ | with_reducible exact keeps_beneficiaryCost _ _ | with_reducible exact keeps_popIf _
  | with_reducible exact keeps_useGasIf _ _ | with_reducible exact keeps_tooPoor _ _ _ | with_reducible exact keeps_callOut _ _ _ | with_reducible exact keeps_popTopics _ | with_reducible exact keeps_chargeInitCode _ _
  | with_reducible exact keeps_chargeNewAccount _ _ _ _ | keep2)

macro "keepAll" : tactic => `(tactic| repeat (any_goals keep3))

theorem keeps_genericCall (E : Env ω) (k : Kind) : Keeps (genericCall E k) := by unfold genericCall; keepAll
theorem keeps_genericCreate (E : Env ω) (k : Kind) : Keeps (genericCreate E k) := by unfold genericCreate; keepAll
theorem keeps_genericDataCopy (l : List Byte) : Keeps (genericDataCopy l : M ω Unit) := by unfold genericDataCopy; keepAll
theorem keeps_opCall (E : Env ω) : Keeps (opCall E) := by
  unfold opCall
  repeat (any_goals first | with_reducible exact keeps_genericCall _ _ | keep3)
theorem keeps_opExtCodeCopy (E : Env ω) : Keeps (opExtCodeCopy E) := by
  unfold opExtCodeCopy
  repeat (any_goals first | with_reducible exact keeps_genericDataCopy _ | keep3)
theorem keeps_opLog (E : Env ω) (n : Nat) : Keeps (opLog E n) := by unfold opLog; keepAll

theorem keeps_opEndWithResult : Keeps (opEndWithResult : M ω Unit) := by
  unfold opEndWithResult
  keepAll

macro "keepOp" : tactic => `(tactic| (
  first
  | with_reducible exact keeps_genericCall _ _ | with_reducible exact keeps_genericCreate _ _ | with_reducible exact keeps_genericDataCopy _ | with_reducible exact keeps_opCall _ | with_reducible exact keeps_opExtCodeCopy _
  | with_reducible exact keeps_opLog _ _ | with_reducible exact keeps_opEndWithResult
  | (first
      | unfold opPush0 | unfold opPush1 | unfold opPush2 | unfold opPush3 | unfold opPush4 | unfold opPush32 | unfold opPush | unfold opJump | unfold opJumpi
      | unfold opJumpTo | unfold binary | unfold unary | unfold ternary | unfold opExp | unfold opPc | unfold opCallDataload | unfold opMload
      | unfold opMstore | unfold opMstore8 | unfold opMsize | unfold opMcopy | unfold opSha3 | unfold opEndWithResult | unfold opSload | unfold opSstore
      | unfold opTload | unfold opTstore | unfold opExtcodesize | unfold opExtcodehash | unfold opBalance | unfold opSelfbalance | unfold opBaseFee
      | unfold opBlobHash | unfold opBlobBaseFee | unfold opSelfdestruct | unfold opReturnDataCopy | unfold opBlockhash | skip
     keepAll)))

theorem keeps_runs {m : M ω Unit} (h : Keeps m) : Keeps (runs m) := keeps_bind h fun _ => keeps_pure _
theorem keeps_ends {m : M ω Unit} {s : Status} (h : Keeps m) : Keeps (ends s m) := keeps_bind h fun _ => keeps_pure _
theorem keeps_pushes {v : U256} : Keeps (pushes v : M ω Status) := keeps_runs (keeps_pushV v)

theorem keeps_execOp (E : Env ω) {op : Nat} (h : Op.decompose op = []) : Keeps (execOp E op) := by
  unfold execOp
  split
  · exact keeps_runs (by keepOp)
  split
  · exact keeps_runs (keeps_dup _)
  split
  · exact keeps_runs (keeps_swap _)
  split
  · exact keeps_runs (keeps_opLog _ _)
  split
  all_goals first
    | exact absurd h (by decide)
    | with_reducible exact keeps_pushes
    | with_reducible exact keeps_pure _
    | with_reducible exact keeps_error
    | (with_reducible refine keeps_runs ?_; keepOp)
    | (with_reducible refine keeps_ends ?_; keepOp)

theorem keeps_stepOnce (E : Env ω) (hC : ∀ i ∈ E.code, Op.decompose i.opcode = []) : Keeps (stepOnce E) := by
  intro l hl
  unfold stepOnce
  show SpRes ((if l.pc ≥ E.code.length then pure .stopped else _ : M ω Status) l)
  split
  · exact hl
  · refine (?_ : SpRes ((instrAt E 0 >>= fun i => getSt >>= fun s => checkStackLimits s.sp i.opcode >>= fun _ => useGas _ >>= fun _ => execOp E i.opcode >>= fun status =>
      getSt >>= fun s => setPc (s.pc + 1) >>= fun _ => pure status) l))
    have keep := keeps_instrAt E 0 l hl
    cases hi : instrAt E 0 l with
    | err l' =>
      rw [hi] at keep
      rw [bind_err hi]
      exact keep
    | panic =>
      rw [bind_panic hi]
      trivial
    | ok i l' =>
      rw [hi] at keep
      rw [bind_ok hi]
      have hop : Op.decompose i.opcode = [] := by
        refine hC i ?_
        have hi : (if 0 ≤ l.pc + 0 then (match E.code[(l.pc + 0).toNat]? with | some i => pure i | none => crash) else crash : M ω Instruction) l = .ok i l' := hi
        by_cases h0 : 0 ≤ l.pc + 0
        · rw [if_pos h0] at hi
          cases hj : E.code[(l.pc + 0).toNat]? with
          | none => rw [hj] at hi; cases hi
          | some j =>
            rw [hj] at hi
            cases hi
            exact List.mem_of_getElem? hj
        · rw [if_neg h0] at hi
          cases hi
      refine keeps_getSt (fun s _ => keeps_bind ?_ fun _ => keeps_bind (keeps_useGas _) fun _ => keeps_bind (keeps_execOp E hop) fun _ =>
        keeps_getSt fun s _ => keeps_bind (keeps_setPc _) fun _ => keeps_pure _) l' keep
      unfold checkStackLimits
      keep

end Tosca.Proofs.Lfvm

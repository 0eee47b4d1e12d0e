import Verif.Props.GoCalls

/-!
# The state contract and precompiled contracts (C63, C64)
-/

namespace Tosca

open Tosca.Model Tosca.Spec Tosca.Proofs Tosca.Go Tosca.Model.Go Tosca.Spec.Go

variable {ω : Type} {F : Floria ω} {depth : Nat} {static : Bool} {kind : Kind} {p : CallParameters} {w w' : ω} {res : Except Err CallRes}

/-- What follows when the call reaches a system contract. -/
theorem call_system (hk : kind ≠ .create ∧ kind ≠ .create2) (hd : depth ≤ 1024) {rest : ω → CallRes × ω}
    (h : ∀ w2, handleStateContract F.keccak F.db p.sender p.recipient p.input p.gas w2 = (some (rest w2).1, (rest w2).2) ∨
      handleStateContract F.keccak F.db p.sender p.recipient p.input p.gas w2 = (none, w2) ∧
        handlePrecompiled F.precompiles F.block.revision p.input p.recipient p.gas = some (rest w2).1 ∧ (rest w2).2 = w2) :
    F.call depth static kind p w = afterTransfer (payment F.db kind p w) w fun w2 => (.ok (rest w2).1, (rest w2).2) := by
  have hk' : ¬ isCreate kind := fun h => by rcases h with h | h <;> [exact hk.1 h; exact hk.2 h]
  rw [call_eq]
  unfold Floria.callBody
  rw [if_neg (by show ¬ depth > 1024; omega), prepare_call hk']
  dsimp only
  have e : (if kind ≠ .staticCall ∧ kind ≠ .delegateCall then transferValue F.db p.value p.sender p.recipient w else some w) = payment F.db kind p w := by
    unfold payment
    rw [transfer_spec]
    by_cases hk : kind = .staticCall ∨ kind = .delegateCall
    · rw [if_pos hk, if_neg (fun h => by rcases hk with hk | hk <;> [exact h.1 hk; exact h.2 hk])]
    · rw [if_neg hk, if_pos ⟨fun h => hk (Or.inl h), fun h => hk (Or.inr h)⟩]
  rw [e]
  cases payment F.db kind p w with
  | none => rfl
  | some w2 =>
    unfold afterTransfer
    dsimp only
    rcases h w2 with h | ⟨h, h2, h3⟩
    · rw [h]
    · rw [h]
      dsimp only
      rw [h2, h3]

/-! ### C63: the state contract -/

/-- C63.  The driver's calls of the state contract: a known method called with the right number of arguments, enough gas and
permitted arguments has exactly its documented effect and price; otherwise nothing happens and all gas is consumed.  This holds
for every kind of call, at every depth and even in static calls. -/
theorem C63_driver (m : StateMethod) (hsel : Selectors F.keccak) (hF : FloriaOk F) (hk : kind ≠ .create ∧ kind ≠ .create2) (hd : depth ≤ 1024)
    (hs : p.sender = driverAddress) (hr : p.recipient = stateContractAddress) (hm : p.input.take 4 = methodId F.keccak m.signature)
    (h0 : 0 ≤ p.gas) (h1 : p.gas ≤ 2 ^ 54) :
    F.call depth static kind p w = afterTransfer (payment F.db kind p w) w fun w2 =>
      if p.input.length = 4 + 32 * m.arity ∧ (m.cost F.db p.input w2 : Int) ≤ p.gas ∧ m.Allowed driverAddress p.input then
        (.ok { success := true, gasLeft := p.gas - m.cost F.db p.input w2 }, m.effect F.db p.input w2)
      else (.ok {}, w2) := by
  have hl : 4 ≤ p.input.length := by
    have e := congrArg List.length hm
    rw [List.length_take] at e
    unfold methodId at e
    rw [List.length_map, List.length_range] at e
    omega
  have key := call_system (F := F) (kind := kind) (p := p) (w := w) (static := static) hk hd
    (rest := fun w2 => if p.input.length = 4 + 32 * m.arity ∧ (m.cost F.db p.input w2 : Int) ≤ p.gas ∧ m.Allowed driverAddress p.input then
        ({ success := true, gasLeft := p.gas - m.cost F.db p.input w2 }, m.effect F.db p.input w2)
      else ({}, w2)) (fun w2 => by
        left
        rw [hs, hr, state_method m hsel hm hl h0 h1 (fun a => hF.code a w2)]
        split <;> rfl)
  rw [key]
  congr 1
  funext w2
  split <;> rfl

/-- C63.  Calls of the state contract by other senders, and those of the driver that select none of the methods, have no effect,
but the transfer of their value, and consume all gas. -/
theorem C63_others (hk : kind ≠ .create ∧ kind ≠ .create2) (hd : depth ≤ 1024) (hr : p.recipient = stateContractAddress)
    (hs : p.sender ≠ driverAddress ∨ p.input.length < 4 ∨ ∀ m : StateMethod, p.input.take 4 ≠ methodId F.keccak m.signature) :
    F.call depth static kind p w = afterTransfer (payment F.db kind p w) w fun w2 => (.ok {}, w2) := by
  refine call_system (rest := fun w2 => ({}, w2)) hk hd (fun w2 => Or.inl ?_)
  unfold handleStateContract
  rw [if_neg (fun h => h hr)]
  by_cases h1 : p.sender ≠ driverAddress
  · rw [if_pos h1]
  · rw [if_neg h1]
    by_cases h2 : p.input.length < 4
    · rw [if_pos h2]
    · rw [if_neg h2]
      rcases hs with h | h | h
      · exact absurd h h1
      · exact absurd h h2
      · dsimp only
        rw [if_neg (show ¬ p.input.take 4 = methodId F.keccak "setBalance(address,uint256)" from h .setBalance),
          if_neg (show ¬ p.input.take 4 = methodId F.keccak "copyCode(address,address)" from h .copyCode),
          if_neg (show ¬ p.input.take 4 = methodId F.keccak "swapCode(address,address)" from h .swapCode),
          if_neg (show ¬ p.input.take 4 = methodId F.keccak "setStorage(address,bytes32,bytes32)" from h .setStorage),
          if_neg (show ¬ p.input.take 4 = methodId F.keccak "incNonce(address,uint256)" from h .incNonce)]
        rfl

/-! ### C64: precompiled contracts -/

/-- C64.  A call (of any kind) whose recipient is the address of a precompiled contract runs this contract: after the transfer of
the value, the price the contract asks for is subtracted from the gas, and its answer is the result; if the gas does not
suffice, all of it is consumed.  The state is not changed in any other way. -/
theorem C64_precompiled (hk : kind ≠ .create ∧ kind ≠ .create2) (hd : depth ≤ 1024) (hr : p.recipient ≠ stateContractAddress)
    {c : Precompile} (hc : F.precompiles F.block.revision p.recipient = some c) (hq : (c.requiredGas p.input).toNat < 2 ^ 63)
    (h0 : 0 ≤ p.gas) (h1 : p.gas < 2 ^ 63) :
    F.call depth static kind p w = afterTransfer (payment F.db kind p w) w fun w2 =>
      (.ok (if p.gas < ((c.requiredGas p.input).toNat : Int) then {}
        else { success := (c.run p.input).2, output := (c.run p.input).1, gasLeft := p.gas - (c.requiredGas p.input).toNat }), w2) := by
  refine call_system (rest := fun w2 => (if p.gas < ((c.requiredGas p.input).toNat : Int) then {}
        else { success := (c.run p.input).2, output := (c.run p.input).1, gasLeft := p.gas - (c.requiredGas p.input).toNat }, w2)) hk hd (fun w2 => Or.inr ⟨?_, ?_, rfl⟩)
  · unfold handleStateContract; rw [if_pos hr]
  · unfold handlePrecompiled
    rw [hc]
    dsimp only
    have e : s64 (c.requiredGas p.input) = ((c.requiredGas p.input).toNat : Int) := by
      unfold s64
      rw [BitVec.toInt_eq_toNat_cond, if_pos (by omega)]
    rw [e]
    split
    · rfl
    · rw [i64_id (by omega) (by omega)]

/-- C64 (finding).  The price is an unsigned number; prices of 2^63 and more become negative: such calls are always possible, and
their gas increases. -/
theorem C64_wraps (hk : kind ≠ .create ∧ kind ≠ .create2) (hd : depth ≤ 1024) (hr : p.recipient ≠ stateContractAddress)
    {c : Precompile} (hc : F.precompiles F.block.revision p.recipient = some c) {k : Nat} (hq : (c.requiredGas p.input).toNat = 2 ^ 64 - k)
    (hk0 : 0 < k) (hk1 : k ≤ 2 ^ 62) (h0 : 0 ≤ p.gas) (h1 : p.gas < 2 ^ 62) :
    F.call depth static kind p w = afterTransfer (payment F.db kind p w) w fun w2 =>
      (.ok { success := (c.run p.input).2, output := (c.run p.input).1, gasLeft := p.gas + k }, w2) := by
  refine call_system (rest := fun w2 => ({ success := (c.run p.input).2, output := (c.run p.input).1, gasLeft := p.gas + k }, w2)) hk hd (fun w2 => Or.inr ⟨?_, ?_, rfl⟩)
  · unfold handleStateContract; rw [if_pos hr]
  · unfold handlePrecompiled
    rw [hc]
    dsimp only
    have e : s64 (c.requiredGas p.input) = -(k : Int) := by
      unfold s64
      rw [BitVec.toInt_eq_toNat_cond, hq]
      rw [if_neg (by omega)]
      omega
    rw [e, if_neg (by omega), i64_id (by omega) (by omega)]
    congr 2
    omega

end Tosca

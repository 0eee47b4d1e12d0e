import Verif.Proofs.CtOps1
import Verif.Proofs.CtOps2
import Verif.Proofs.CtOps3
import Verif.Proofs.CtOps4
import Verif.Proofs.CtOps5
import Verif.Proofs.CtOps6
import Verif.Proofs.CtOps7
import Verif.Proofs.CtOps8
import Verif.Proofs.CtOps9
import Verif.Proofs.CtOps11

/-!
# All rules
-/

namespace Tosca.Proofs.Ct

open Tosca.Spec Tosca.Spec.Go Tosca.Go Tosca.Model.Go Tosca.Model.Ct Tosca.Proofs.Lfvm

variable {keccak : List Byte → U256}

theorem sounds_calls : Sounds keccak callRules := by
  unfold callRules
  refine sounds_flatMap fun op hop => sounds_flatMap fun rv _ => sounds_flatMap fun warm _ => sounds_flatMap fun static _ => sounds_flatMap fun zero _ => ?_
  simp only [List.mem_cons, List.not_mem_nil, or_false] at hop
  rcases hop with rfl | rfl | rfl | rfl
  · exact sounds_call7 (I := .call) (v := .call) (.inl ⟨rfl, rfl, rfl⟩) rv warm zero static
  · exact sounds_call7 (I := .callcode) (v := .callcode) (.inr ⟨rfl, rfl, rfl⟩) rv warm zero static
  · exact sounds_call6 (I := .staticcall) (v := .staticcall) (.inl ⟨rfl, rfl, rfl⟩) rv warm zero static
  · exact sounds_call6 (I := .delegatecall) (v := .delegatecall) (.inr ⟨rfl, rfl, rfl⟩) rv warm zero static

theorem sounds_return : Sounds keccak (haltOp 0xf3 .stopped) :=
  sounds_halt (I := .ret) (fin := .returned) rfl rfl rfl rfl rfl (by decide) (by decide) rfl rfl (fun _ _ _ => rfl) (.inl ⟨rfl, rfl⟩)

theorem sounds_revert : Sounds keccak (haltOp 0xfd .reverted) :=
  sounds_halt (I := .revert) (fin := .reverted) rfl rfl rfl rfl rfl (by decide) (by decide) rfl rfl (fun _ _ _ => rfl) (.inr ⟨rfl, rfl⟩)

/-- Every rule says what the reference does. -/
theorem sounds_all : Sounds keccak (allRules keccak) := by
  unfold allRules
  have h := (sounds_basic (keccak := keccak))
  replace h := sounds_append h (sounds_word)
  replace h := sounds_append h (sounds_environment)
  replace h := sounds_append h (sounds_sha3)
  replace h := sounds_append h (sounds_balance)
  replace h := sounds_append h (sounds_extcodesize)
  replace h := sounds_append h (sounds_mload)
  replace h := sounds_append h (sounds_mstore)
  replace h := sounds_append h (sounds_mstore8)
  replace h := sounds_append h (sounds_sload)
  replace h := sounds_append h (sounds_sstore)
  replace h := sounds_append h (sounds_jump)
  replace h := sounds_append h (sounds_jumpi)
  replace h := sounds_append h (sounds_jumpdest)
  replace h := sounds_append h (sounds_tload)
  replace h := sounds_append h (sounds_tstore)
  replace h := sounds_append h (sounds_push0)
  replace h := sounds_append h (sounds_mcopy)
  replace h := sounds_append h (sounds_flatMap fun i hi => sounds_push (Nat.le_add_left _ _) (List.mem_range.1 hi))
  replace h := sounds_append h (sounds_pop)
  replace h := sounds_append h (sounds_flatMap fun i hi => sounds_dup (Nat.le_add_left _ _) (List.mem_range.1 hi))
  replace h := sounds_append h (sounds_flatMap fun i hi => sounds_swap (Nat.le_add_left _ _) (List.mem_range.1 hi))
  replace h := sounds_append h (sounds_flatMap fun i hi => sounds_log (Nat.le_of_lt_succ (List.mem_range.1 hi)))
  replace h := sounds_append h (sounds_blockhash)
  replace h := sounds_append h (sounds_extcodecopy)
  replace h := sounds_append h (sounds_basefee)
  replace h := sounds_append h (sounds_blobhash)
  replace h := sounds_append h (sounds_blobbasefee)
  replace h := sounds_append h (sounds_extcodehash)
  replace h := sounds_append h (sounds_codecopy)
  replace h := sounds_append h (sounds_calldatacopy)
  replace h := sounds_append h (sounds_calldataload)
  replace h := sounds_append h (sounds_returndatacopy)
  replace h := sounds_append h (sounds_return)
  replace h := sounds_append h (sounds_revert)
  replace h := sounds_append h (sounds_calls)
  replace h := sounds_append h (sounds_selfdestruct)
  replace h := sounds_append h (sounds_create)
  exact h

end Tosca.Proofs.Ct

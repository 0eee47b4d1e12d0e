import Verif.Proofs.FloriaInv
import Verif.Proofs.GoNative

/-!
# The reference interpreter affects the state only as a frame may
-/

namespace Tosca.Proofs

open Tosca.Spec Tosca.Spec.Go Tosca.Go Tosca.Model.Go

variable {ω : Type}

theorem stepEip_empty {P : Params ω} (hc : P.code = []) (w : ω) :
    stepEip P (initial P w) = { initial P w with status := .stopped, pc := 1, ret := [] } := by
  unfold stepEip
  rw [if_pos (show (initial P w).status = .running from rfl)]
  have hb : decode (byteAt P.code (initial P w).pc).toNat = some .stop := by
    rw [hc]; rfl
  rw [hb]
  dsimp only
  unfold execInstrEip
  rw [if_neg (by show ¬ P.rev < 0; exact Nat.not_lt_zero _), if_neg (by rintro ⟨h, _⟩; cases h),
    if_neg (by show ¬ (0 : Nat) < 0; omega), if_neg (by show ¬ (0 : Nat) + 0 > 1024 + 0; omega)]
  unfold State.charge
  rw [if_neg (by show ¬ _ < 0; exact Nat.not_lt_zero _)]
  rfl

theorem nativeRun_works (keccak : List Byte → U256) (db : Db ω) : Works failures db (nativeRun keccak) where
  acts call p w := by
    unfold nativeRun
    cases hr : revisionOf p.block.revision with
    | none => exact ⟨[], 0, 0, rfl, fun _ h => by cases h⟩
    | some rev =>
      obtain ⟨acts, h1, h2⟩ := did_stepsEip (P := nativeFrame keccak db call p rev) (w := w) (p.gas.toNat + 1)
        (s := initial (nativeFrame keccak db call p rev) w) (Did.init rfl)
      exact ⟨acts, rev, 0, h1, h2⟩
  empty call p w hp := by
    unfold nativeRun
    cases hr : revisionOf p.block.revision with
    | none => rfl
    | some rev =>
      dsimp only
      have h1 : stepsEip (nativeFrame keccak db call p rev) (p.gas.toNat + 1) (initial (nativeFrame keccak db call p rev) w) =
          stepsEip (nativeFrame keccak db call p rev) p.gas.toNat (stepEip (nativeFrame keccak db call p rev) (initial (nativeFrame keccak db call p rev) w)) := rfl
      rw [h1, stepEip_empty (by exact hp), stepsEip_halted (by intro h; cases h)]
      rfl

end Tosca.Proofs

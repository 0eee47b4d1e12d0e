import Verif.Proofs.LfvmMem
import Verif.Proofs.Word

/-!
# The long-form EVM: words
-/

namespace Tosca.Proofs.Lfvm

open Tosca.Spec Tosca.Model.Lfvm

theorem flag_eq (b : Bool) : flag b = Model.ofBool b := by cases b <;> rfl

theorem l_add (a b : U256) : wAdd a b = Word.add a b := by unfold wAdd; rw [BitVec.add_comm]; exact w_add a b
theorem l_mul (a b : U256) : wMul a b = Word.mul a b := by unfold wMul; rw [BitVec.mul_comm]; exact w_mul a b
theorem l_sub (a b : U256) : wSub a b = Word.sub a b := w_sub a b
theorem l_div (a b : U256) : wDiv a b = Word.div a b := by
  rw [← w_div]
  unfold wDiv
  split
  · rfl
  · rename_i h
    have : b = 0 := Classical.byContradiction h
    subst this
    rw [BitVec.udiv_eq]
    exact BitVec.udiv_zero
theorem l_sdiv (a b : U256) : wSDiv a b = Word.sdiv a b := by
  rw [← w_sdiv]
  unfold wSDiv
  by_cases h : b = 0
  · rw [if_pos h, if_neg (fun hc => hc h), h]
  · rw [if_neg h, if_pos h]
theorem l_mod (a b : U256) : wMod a b = Word.mod a b := by
  rw [← w_mod]
  unfold wMod
  by_cases h : b = 0
  · rw [if_pos h, if_neg (fun hc => hc h), h]
  · rw [if_neg h, if_pos h]
theorem l_smod (a b : U256) : wSMod a b = Word.smod a b := by
  rw [← w_smod]
  unfold wSMod
  by_cases h : b = 0
  · rw [if_pos h, if_neg (fun hc => hc h), h]
  · rw [if_neg h, if_pos h]

theorem wide_mod (x : BitVec 512) (n : U256) : ((x.umod (n.setWidth 512)).setWidth 256 : U256) = BitVec.ofNat 256 (x.toNat % n.toNat) := by
  apply BitVec.eq_of_toNat_eq
  rw [BitVec.toNat_setWidth, BitVec.umod_eq, BitVec.toNat_umod, BitVec.toNat_setWidth, BitVec.toNat_ofNat,
    Nat.mod_eq_of_lt (show n.toNat < 2 ^ 512 by have := n.isLt; omega)]

theorem l_addmod (a b n : U256) : wAddMod a b n = Word.addmod a b n := by
  unfold wAddMod
  by_cases h : n = 0
  · rw [if_pos h]; unfold Word.addmod; rw [if_pos ((toNat_eq_zero n).1 h)]
  · rw [if_neg h, ← w_addmod a b n h, wide_mod]
    have ha := a.isLt
    have hb := b.isLt
    rw [BitVec.toNat_add, BitVec.toNat_setWidth, BitVec.toNat_setWidth, Nat.mod_eq_of_lt (show a.toNat < 2 ^ 512 by omega),
      Nat.mod_eq_of_lt (show b.toNat < 2 ^ 512 by omega), Nat.mod_eq_of_lt (show a.toNat + b.toNat < 2 ^ 512 by omega)]

theorem l_mulmod (a b n : U256) : wMulMod a b n = Word.mulmod a b n := by
  unfold wMulMod
  by_cases h : n = 0
  · rw [if_pos h]; unfold Word.mulmod; rw [if_pos ((toNat_eq_zero n).1 h)]
  · rw [if_neg h, ← w_mulmod a b n h, wide_mod]
    have ha := a.isLt
    have hb := b.isLt
    have : a.toNat * b.toNat < 2 ^ 512 := by
      have := Nat.mul_lt_mul'' ha hb
      omega
    rw [BitVec.toNat_mul, BitVec.toNat_setWidth, BitVec.toNat_setWidth, Nat.mod_eq_of_lt (show a.toNat < 2 ^ 512 by omega),
      Nat.mod_eq_of_lt (show b.toNat < 2 ^ 512 by omega), Nat.mod_eq_of_lt this]

theorem expW_eq (fuel : Nat) : ∀ (base e acc : U256), expW fuel base e acc = Model.Ops.intxExp fuel base e.toNat acc := by
  induction fuel with
  | zero => intros; rfl
  | succ n ih =>
    intro base e acc
    unfold expW Model.Ops.intxExp
    by_cases h : e = 0
    · rw [if_pos h, if_pos ((toNat_eq_zero e).1 h)]
    · rw [if_neg h, if_neg ((toNat_ne_zero e).1 h), ih]
      have e1 : (e >>> 1).toNat = e.toNat / 2 := by rw [BitVec.toNat_ushiftRight, Nat.shiftRight_eq_div_pow]
      have e2 : e.getLsbD 0 = decide (e.toNat % 2 = 1) := by
        rw [BitVec.getLsbD, Nat.testBit_zero]
      rw [e1, e2]
      by_cases h2 : e.toNat % 2 = 1
      · rw [if_pos h2, if_pos (decide_eq_true h2)]
      · rw [if_neg h2, if_neg (by rw [decide_eq_false h2]; simp)]

theorem l_exp (a b : U256) : expW 256 a b 1 = Word.exp a b := by rw [expW_eq, w_exp]

theorem l_byteLen (v : U256) : Model.Lfvm.byteLen v = Word.byteLen v.toNat := by
  unfold Model.Lfvm.byteLen Word.byteLen
  by_cases h : v = 0
  · rw [if_pos h, if_pos ((toNat_eq_zero v).1 h)]
  · rw [if_neg h, if_neg ((toNat_ne_zero v).1 h)]

theorem l_and (a b : U256) : wAnd a b = Word.and a b := w_and a b
theorem l_or (a b : U256) : wOr a b = Word.or a b := w_or a b
theorem l_xor (a b : U256) : wXor a b = Word.xor a b := w_xor a b
theorem l_not (a : U256) : ~~~a = Word.not a := w_not a
theorem l_eq (a b : U256) : wEq a b = Word.eq a b := by unfold wEq; rw [flag_eq]; exact w_eq a b
theorem l_lt (a b : U256) : wLt a b = Word.lt a b := by unfold wLt; rw [flag_eq]; exact w_lt a b
theorem l_gt (a b : U256) : wGt a b = Word.gt a b := by unfold wGt; rw [flag_eq]; exact w_gt a b
theorem l_slt (a b : U256) : wSlt a b = Word.slt a b := by unfold wSlt; rw [flag_eq]; exact w_slt a b
theorem l_sgt (a b : U256) : wSgt a b = Word.sgt a b := by unfold wSgt; rw [flag_eq]; exact w_sgt a b
theorem l_iszero (a : U256) : flag (a == 0) = Word.iszero a := by rw [flag_eq]; exact w_iszero a

theorem l_shl (a b : U256) : wShl a b = Word.shl a b := by
  unfold wShl
  split
  · rw [uint64_toNat, Nat.mod_eq_of_lt (by omega)]; exact w_shl a b
  · rename_i h; unfold Word.shl; rw [if_neg h]
theorem l_shr (a b : U256) : wShr a b = Word.shr a b := by
  unfold wShr
  split
  · rw [uint64_toNat, Nat.mod_eq_of_lt (by omega)]; exact w_shr a b
  · rename_i h; unfold Word.shr; rw [if_neg h]
theorem l_sar (a b : U256) : wSar a b = Word.sar a b := by
  unfold wSar
  split
  · rename_i h; exact w_sar_big a b (by omega)
  · rename_i h
    rw [uint64_toNat, Nat.mod_eq_of_lt (by omega)]
    by_cases h6 : a.toNat = 256
    · rw [← w_sar_big a b (by omega), h6]
      apply BitVec.eq_of_getLsbD_eq
      intro i hi
      rw [BitVec.getLsbD_sshiftRight]
      have h2 : ¬ (256 + i < 256) := by omega
      cases hm : b.msb
      · simp [hi]
      · rw [if_neg h2, if_pos rfl, BitVec.getLsbD_allOnes]
        simp [hi]
    · unfold Word.sar
      rw [if_pos (by omega), sshiftRight_ofI]
theorem l_signextend (a b : U256) : wSignExtend a b = Word.signextend a b := by
  unfold wSignExtend Word.signextend
  split
  · rw [if_neg (by omega)]
  · rw [if_pos (by omega), signExtend_setWidth]
theorem l_byte (a b : U256) : wByte a b = Word.byte a b := by
  unfold wByte
  split
  · rename_i h
    rw [← w_byte a b h, Nat.mod_eq_of_lt (show a.toNat < 256 by omega)]
  · rename_i h; unfold Word.byte; rw [if_neg h]

theorem l_setBytes (b : List Byte) : setBytes b = Word.ofBytes b := by
  have : setBytes b = Model.ofLeBytes b.reverse := by
    unfold setBytes Model.ofLeBytes
    rw [List.foldr_reverse]
  rw [this, ofLeBytes_ofN, leNat_reverse]
  rfl

theorem l_bytes32 (v : U256) : bytes32 v = Word.toBytes v := by
  unfold bytes32 Word.toBytes
  apply List.map_congr_left
  intro i _
  apply BitVec.eq_of_toNat_eq
  rw [BitVec.toNat_setWidth, BitVec.toNat_ushiftRight, BitVec.toNat_ofNat, Nat.shiftRight_eq_div_pow, Nat.pow_mul]

theorem l_bytes20 (v : U256) : bytes20 v = Word.toAddress v := w_toAddress v
theorem l_ofBytes20 (a : Address) : ofBytes20 a = Word.ofAddress a := w_ofAddress a

theorem ofU64_toNat (x : BitVec 64) : (ofU64 x).toNat = x.toNat := by
  unfold ofU64; rw [BitVec.toNat_setWidth, Nat.mod_eq_of_lt (by have := x.isLt; omega)]

theorem l_ofU64 {x : BitVec 64} {n : Nat} (h : x.toNat = n) : ofU64 x = Word.ofN n := by
  apply BitVec.eq_of_toNat_eq
  rw [ofU64_toNat, h, ofN_toNat, Nat.mod_eq_of_lt (by have := x.isLt; omega)]

theorem l_ofN64 {n : Nat} (h : n < 2 ^ 64) : ofU64 (BitVec.ofNat 64 n) = Word.ofN n :=
  l_ofU64 (by rw [BitVec.toNat_ofNat, Nat.mod_eq_of_lt h])

theorem l_ofI64 {x : Int} (h0 : 0 ≤ x) (h1 : x < 2 ^ 63) : ofU64 (Model.Go.u64 x) = Word.ofI x := by
  obtain ⟨n, rfl⟩ := Int.eq_ofNat_of_zero_le h0
  have : Word.ofI (n : Int) = Word.ofN n := by
    unfold Word.ofI Word.ofN; simp
  rw [this]
  apply l_ofU64
  unfold Model.Go.u64
  rw [BitVec.toNat_ofInt]
  omega

end Tosca.Proofs.Lfvm

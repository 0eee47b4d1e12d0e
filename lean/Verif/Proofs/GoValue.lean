import Verif.Model.GoValue

/-!
# Currency arithmetic
-/

namespace Tosca.Proofs

open Tosca.Model.Go

theorem ofLimbs_toNat (l3 l2 l1 l0 : BitVec 64) :
    (ofLimbs l3 l2 l1 l0).toNat = l3.toNat * 2 ^ 192 + l2.toNat * 2 ^ 128 + l1.toNat * 2 ^ 64 + l0.toNat := by
  unfold ofLimbs
  have key : ∀ (w : Nat) (x : BitVec w) (y : BitVec 64), (x ++ y).toNat = x.toNat * 2 ^ 64 + y.toNat := by
    intro w x y
    rw [BitVec.toNat_append, ← Nat.shiftLeft_add_eq_or_of_lt y.isLt, Nat.shiftLeft_eq]
  show ((l3 ++ l2 ++ l1 ++ l0 : BitVec (64 + 64 + 64 + 64))).toNat = _
  rw [key, key, key]
  omega

theorem limb_toNat (v : U256) (i : Nat) : (limb v i).toNat = v.toNat / 2 ^ (64 * i) % 2 ^ 64 := by
  unfold limb
  rw [BitVec.extractLsb'_toNat, Nat.shiftRight_eq_div_pow]

theorem limbs_eq (v : U256) : v.toNat = (limb v 3).toNat * 2 ^ 192 + (limb v 2).toNat * 2 ^ 128 + (limb v 1).toNat * 2 ^ 64 + (limb v 0).toNat := by
  rw [limb_toNat, limb_toNat, limb_toNat, limb_toNat]
  have := v.isLt
  simp only [Nat.reduceMul]
  omega

theorem add_eq (a b : U256) : add a b = a + b := by
  apply BitVec.eq_of_toNat_eq
  unfold add add64
  dsimp only
  rw [ofLimbs_toNat, BitVec.toNat_add, limbs_eq a, limbs_eq b]
  simp only [BitVec.toNat_ofNat]
  have h0 := (limb a 0).isLt; have h1 := (limb a 1).isLt; have h2 := (limb a 2).isLt; have h3 := (limb a 3).isLt
  have k0 := (limb b 0).isLt; have k1 := (limb b 1).isLt; have k2 := (limb b 2).isLt; have k3 := (limb b 3).isLt
  generalize (limb a 0).toNat = x0 at *; generalize (limb a 1).toNat = x1 at *
  generalize (limb a 2).toNat = x2 at *; generalize (limb a 3).toNat = x3 at *
  generalize (limb b 0).toNat = y0 at *; generalize (limb b 1).toNat = y1 at *
  generalize (limb b 2).toNat = y2 at *; generalize (limb b 3).toNat = y3 at *
  omega

theorem sub64_toNat (x y : BitVec 64) (c : Nat) (hc : c ≤ 1) :
    (sub64 x y c).1.toNat + y.toNat + c = x.toNat + 2 ^ 64 * (sub64 x y c).2 ∧ (sub64 x y c).2 ≤ 1 := by
  unfold sub64
  dsimp only
  have h0 := x.isLt
  have h1 := y.isLt
  rw [BitVec.toNat_ofInt]
  split
  · constructor
    · have : ((x.toNat : Int) - y.toNat - c) % ((2 ^ 64 : Nat) : Int) = (x.toNat : Int) - y.toNat - c + 2 ^ 64 := by omega
      rw [this]; omega
    · omega
  · constructor
    · have : ((x.toNat : Int) - y.toNat - c) % ((2 ^ 64 : Nat) : Int) = (x.toNat : Int) - y.toNat - c := by omega
      rw [this]; omega
    · omega

theorem sub_eq (a b : U256) : sub a b = a - b := by
  apply BitVec.eq_of_toNat_eq
  have e : sub a b = ofLimbs (sub64 (limb a 3) (limb b 3) (sub64 (limb a 2) (limb b 2) (sub64 (limb a 1) (limb b 1) (sub64 (limb a 0) (limb b 0) 0).2).2).2).1
      (sub64 (limb a 2) (limb b 2) (sub64 (limb a 1) (limb b 1) (sub64 (limb a 0) (limb b 0) 0).2).2).1
      (sub64 (limb a 1) (limb b 1) (sub64 (limb a 0) (limb b 0) 0).2).1 (sub64 (limb a 0) (limb b 0) 0).1 := rfl
  rw [e, ofLimbs_toNat, BitVec.toNat_sub, limbs_eq a, limbs_eq b]
  obtain ⟨p0, q0⟩ := sub64_toNat (limb a 0) (limb b 0) 0 (by omega)
  obtain ⟨p1, q1⟩ := sub64_toNat (limb a 1) (limb b 1) _ q0
  obtain ⟨p2, q2⟩ := sub64_toNat (limb a 2) (limb b 2) _ q1
  obtain ⟨p3, q3⟩ := sub64_toNat (limb a 3) (limb b 3) _ q2
  have r0 := (sub64 (limb a 0) (limb b 0) 0).1.isLt
  have r1 := (sub64 (limb a 1) (limb b 1) (sub64 (limb a 0) (limb b 0) 0).2).1.isLt
  have r2 := (sub64 (limb a 2) (limb b 2) (sub64 (limb a 1) (limb b 1) (sub64 (limb a 0) (limb b 0) 0).2).2).1.isLt
  have r3 := (sub64 (limb a 3) (limb b 3) (sub64 (limb a 2) (limb b 2) (sub64 (limb a 1) (limb b 1) (sub64 (limb a 0) (limb b 0) 0).2).2).2).1.isLt
  have h0 := (limb a 0).isLt; have h1 := (limb a 1).isLt; have h2 := (limb a 2).isLt; have h3 := (limb a 3).isLt
  have k0 := (limb b 0).isLt; have k1 := (limb b 1).isLt; have k2 := (limb b 2).isLt; have k3 := (limb b 3).isLt
  generalize sub64 (limb a 3) (limb b 3) (sub64 (limb a 2) (limb b 2) (sub64 (limb a 1) (limb b 1) (sub64 (limb a 0) (limb b 0) 0).2).2).2 = z3 at *
  generalize sub64 (limb a 2) (limb b 2) (sub64 (limb a 1) (limb b 1) (sub64 (limb a 0) (limb b 0) 0).2).2 = z2 at *
  generalize sub64 (limb a 1) (limb b 1) (sub64 (limb a 0) (limb b 0) 0).2 = z1 at *
  generalize sub64 (limb a 0) (limb b 0) 0 = z0 at *
  generalize (limb a 0).toNat = x0 at *; generalize (limb a 1).toNat = x1 at *
  generalize (limb a 2).toNat = x2 at *; generalize (limb a 3).toNat = x3 at *
  generalize (limb b 0).toNat = y0 at *; generalize (limb b 1).toNat = y1 at *
  generalize (limb b 2).toNat = y2 at *; generalize (limb b 3).toNat = y3 at *
  omega

/-! ### Comparison -/

/-- The number a byte string stands for. -/
def byteVal : List Byte → Nat
  | [] => 0
  | b :: l => b.toNat * 256 ^ l.length + byteVal l

theorem byteVal_lt (l : List Byte) : byteVal l < 256 ^ l.length := by
  induction l with
  | nil => show 0 < 1; omega
  | cons b l ih =>
    show b.toNat * 256 ^ l.length + byteVal l < 256 ^ (l.length + 1)
    have hb : b.toNat + 1 ≤ 256 := b.isLt
    have := Nat.mul_le_mul_right (256 ^ l.length) hb
    rw [Nat.pow_succ]
    rw [Nat.add_mul] at this
    omega

theorem compareBytes_val : ∀ (l l' : List Byte), l.length = l'.length →
    compareBytes l l' = if byteVal l < byteVal l' then -1 else if byteVal l' < byteVal l then 1 else 0 := by
  intro l
  induction l with
  | nil =>
    intro l' h
    cases l' with
    | nil => rfl
    | cons b l' => simp at h
  | cons a l ih =>
    intro l' h
    cases l' with
    | nil => simp at h
    | cons b l' =>
      have hl : l.length = l'.length := by simpa using h
      have h1 := byteVal_lt l
      have h2 := byteVal_lt l'
      unfold compareBytes byteVal
      rw [hl] at h1 ⊢
      have key : ∀ x y : Byte, x.toNat < y.toNat → ∀ u v : Nat, u < 256 ^ l'.length → x.toNat * 256 ^ l'.length + u < y.toNat * 256 ^ l'.length + v := by
        intro x y hxy u v hu
        have := Nat.mul_le_mul_right (256 ^ l'.length) (show x.toNat + 1 ≤ y.toNat from hxy)
        rw [Nat.add_mul] at this
        omega
      by_cases hab : a.toNat < b.toNat
      · rw [if_pos hab, if_pos (key a b hab _ _ h1)]
      · rw [if_neg hab]
        by_cases hba : b.toNat < a.toNat
        · have := key b a hba _ (byteVal l) h2
          rw [if_pos hba, if_neg (by omega), if_pos this]
        · have e : a.toNat = b.toNat := by omega
          rw [if_neg hba, ih l' hl, e]
          generalize b.toNat * 256 ^ l'.length = k
          simp only [Nat.add_lt_add_iff_left]

theorem byteVal_range (v : U256) (n : Nat) :
    byteVal ((List.range n).map fun i => v.extractLsb' (8 * (n - 1 - i)) 8) = v.toNat % 256 ^ n := by
  induction n with
  | zero => rw [Nat.pow_zero, Nat.mod_one]; rfl
  | succ n ih =>
    rw [List.range_succ_eq_map, List.map_cons, List.map_map]
    have e : (List.range n).map ((fun i => v.extractLsb' (8 * (n + 1 - 1 - i)) 8) ∘ Nat.succ) =
        (List.range n).map fun i => v.extractLsb' (8 * (n - 1 - i)) 8 := by
      apply List.map_congr_left
      intro i _
      show v.extractLsb' (8 * (n + 1 - 1 - (i + 1))) 8 = _
      congr 2
      omega
    rw [e]
    show (v.extractLsb' (8 * (n + 1 - 1 - 0)) 8).toNat * 256 ^ ((List.range n).map _).length + byteVal _ = _
    rw [ih, BitVec.extractLsb'_toNat, Nat.shiftRight_eq_div_pow, List.length_map, List.length_range,
      Nat.mod_pow_succ (b := 256), show n + 1 - 1 - 0 = n by omega, Nat.pow_mul]
    rw [Nat.mul_comm, Nat.add_comm]

theorem beBytes_val (v : U256) : byteVal (beBytes v) = v.toNat := by
  have h := byteVal_range v 32
  rw [Nat.mod_eq_of_lt (by exact v.isLt)] at h
  exact h

theorem cmp_eq (a b : U256) : cmp a b = if a.toNat < b.toNat then -1 else if b.toNat < a.toNat then 1 else 0 := by
  unfold cmp
  rw [compareBytes_val _ _ (by simp [beBytes]), beBytes_val, beBytes_val]

theorem cmp_lt (a b : U256) : cmp a b < 0 ↔ a.toNat < b.toNat := by
  rw [cmp_eq]
  split
  · rename_i h; exact ⟨fun _ => h, fun _ => by omega⟩
  · rename_i h
    split <;> exact ⟨fun h' => by omega, fun h' => absurd h' h⟩

theorem scale_toNat (v : U256) (s : BitVec 64) : (scale v s).toNat = v.toNat * s.toNat % 2 ^ 256 := by
  unfold scale
  rw [BitVec.toNat_mul, BitVec.toNat_setWidth, Nat.mod_eq_of_lt (a := s.toNat) (by have := s.isLt; omega)]

end Tosca.Proofs

import Verif.Model.Ops
import Verif.Spec.Word

/-!
# Word operations: the coded formulas equal the integer definitions
-/

namespace Tosca.Proofs

open Tosca.Model Tosca.Spec

theorem ofN_toNat (n : Nat) : (Word.ofN n).toNat = n % 2 ^ 256 := by simp [Word.ofN]

theorem toNat_ne_zero (b : U256) : (b ≠ 0) ↔ b.toNat ≠ 0 := by
  constructor
  · intro h h'; exact h (BitVec.eq_of_toNat_eq (by simpa using h'))
  · intro h h'; subst h'; simp at h

theorem toNat_eq_zero (b : U256) : (b = 0) ↔ b.toNat = 0 := by
  constructor
  · intro h; subst h; rfl
  · intro h; exact BitVec.eq_of_toNat_eq (by simpa using h)

theorem w_add (a b : U256) : b + a = Word.add a b := by
  apply BitVec.eq_of_toNat_eq; simp [Word.add, Word.ofN, Nat.add_comm]

theorem w_mul (a b : U256) : b * a = Word.mul a b := by
  apply BitVec.eq_of_toNat_eq; simp [Word.mul, Word.ofN, Nat.mul_comm]

theorem w_sub (a b : U256) : a - b = Word.sub a b := by
  unfold Word.sub Word.ofI
  apply BitVec.eq_of_toNat_eq
  rw [BitVec.toNat_sub, BitVec.toNat_ofInt]
  have ha := a.isLt
  have hb := b.isLt
  omega

theorem w_div (a b : U256) : (if b ≠ 0 then a.udiv b else b) = Word.div a b := by
  unfold Word.div
  by_cases h : b = 0
  · subst h; simp
  · have h' := (toNat_ne_zero b).1 h
    rw [if_pos h, if_neg h']
    apply BitVec.eq_of_toNat_eq
    have : a.toNat / b.toNat < 2 ^ 256 := Nat.lt_of_le_of_lt (Nat.div_le_self _ _) a.isLt
    simp only [Word.ofN, BitVec.toNat_ofNat, Nat.mod_eq_of_lt this]
    exact BitVec.toNat_udiv

theorem w_mod (a b : U256) : (if b ≠ 0 then a.umod b else b) = Word.mod a b := by
  unfold Word.mod
  by_cases h : b = 0
  · subst h; simp
  · have h' := (toNat_ne_zero b).1 h
    rw [if_pos h, if_neg h']
    apply BitVec.eq_of_toNat_eq
    have : a.toNat % b.toNat < 2 ^ 256 := Nat.lt_of_le_of_lt (Nat.mod_le _ _) a.isLt
    simp only [Word.ofN, BitVec.toNat_ofNat, Nat.mod_eq_of_lt this]
    exact BitVec.toNat_umod

theorem w_sdiv (a b : U256) : (if b ≠ 0 then a.sdiv b else b) = Word.sdiv a b := by
  unfold Word.sdiv
  by_cases h : b = 0
  · subst h; simp
  · have h' := (toNat_ne_zero b).1 h
    rw [if_pos h, if_neg h']
    apply BitVec.eq_of_toInt_eq
    simp [Word.ofI, BitVec.toInt_sdiv]

theorem w_smod (a b : U256) : (if b ≠ 0 then a.srem b else b) = Word.smod a b := by
  unfold Word.smod
  by_cases h : b = 0
  · subst h; simp
  · have h' := (toNat_ne_zero b).1 h
    rw [if_pos h, if_neg h']
    apply BitVec.eq_of_toInt_eq
    rw [BitVec.toInt_srem]
    simp only [Word.ofI, BitVec.toInt_ofInt]
    rw [← BitVec.toInt_srem, BitVec.toInt_bmod_cancel]

theorem w_addmod (a b m : U256) (h : m ≠ 0) :
    BitVec.ofNat 256 ((a.toNat + b.toNat) % m.toNat) = Word.addmod a b m := by
  simp [Word.addmod, (toNat_ne_zero m).1 h, Word.ofN]

theorem w_mulmod (a b m : U256) (h : m ≠ 0) :
    BitVec.ofNat 256 ((a.toNat * b.toNat) % m.toNat) = Word.mulmod a b m := by
  simp [Word.mulmod, (toNat_ne_zero m).1 h, Word.ofN]

theorem intxExp_toNat (fuel : Nat) : ∀ (base : U256) (e : Nat) (acc : U256), e < 2 ^ fuel →
    (Ops.intxExp fuel base e acc).toNat = (acc.toNat * base.toNat ^ e) % 2 ^ 256 := by
  induction fuel with
  | zero =>
    intro base e acc h
    have : e = 0 := by simpa using h
    subst this
    simp [Ops.intxExp, Nat.mod_eq_of_lt acc.isLt]
  | succ n ih =>
    intro base e acc h
    unfold Ops.intxExp
    by_cases he : e = 0
    · subst he; simp [Nat.mod_eq_of_lt acc.isLt]
    · rw [if_neg he, ih]
      · have h2 : base.toNat ^ e = (base.toNat ^ 2) ^ (e / 2) * base.toNat ^ (e % 2) := by
          rw [← Nat.pow_mul, ← Nat.pow_add]
          congr 1
          omega
        rw [h2]
        have hb : (base * base).toNat ^ (e / 2) % 2 ^ 256 = (base.toNat ^ 2) ^ (e / 2) % 2 ^ 256 := by
          rw [BitVec.toNat_mul, ← Nat.pow_mod, Nat.pow_two]
        rcases Nat.mod_two_eq_zero_or_one e with h0 | h1
        · rw [if_neg (by omega), h0, Nat.mul_mod, hb, ← Nat.mul_mod]; simp
        · rw [if_pos h1, h1, Nat.mul_mod, hb, BitVec.toNat_mul, Nat.mod_mod, ← Nat.mul_mod]
          congr 1
          rw [Nat.pow_one, Nat.mul_assoc, Nat.mul_comm base.toNat]
      · rw [Nat.pow_succ] at h; omega

theorem w_exp (a b : U256) : Ops.intxExp 256 a b.toNat 1 = Word.exp a b := by
  apply BitVec.eq_of_toNat_eq
  rw [intxExp_toNat 256 _ _ _ b.isLt]
  simp [Word.exp, Word.ofN]

theorem filter_range_le (n k : Nat) (p : Nat → Bool) (hk : k ≤ n)
    (h : ∀ i, i < n → (p i = true ↔ i < k)) : ((List.range n).filter p).length = k := by
  induction n generalizing k with
  | zero => simp; omega
  | succ n ih =>
    rw [List.range_succ, List.filter_append, List.length_append]
    by_cases hn : k = n + 1
    · subst hn
      have hf : (List.range n).filter p = List.range n := by
        apply List.filter_eq_self.2
        intro a ha
        have := List.mem_range.1 ha
        exact (h a (by omega)).2 (by omega)
      rw [hf]
      have : p n = true := (h n (by omega)).2 (by omega)
      simp [this]
    · rw [ih k (by omega) (fun i hi => h i (by omega))]
      have : p n = false := by
        cases hp : p n with
        | false => rfl
        | true => have := (h n (by omega)).1 hp; omega
      simp [this]

theorem csb_byteLen (x : U256) : Ops.countSignificantBytes x = Word.byteLen x.toNat := by
  unfold Ops.countSignificantBytes Word.byteLen
  by_cases h : x.toNat = 0
  · simp [h]
  · rw [if_neg h]
    have hlt : x.toNat.log2 < 256 := (Nat.log2_lt h).2 x.isLt
    apply filter_range_le
    · omega
    · intro i _
      simp only [ne_eq, decide_not, Bool.not_eq_true', decide_eq_false_iff_not]
      have h256 : (256 : Nat) ^ i = 2 ^ (8 * i) := by rw [Nat.pow_mul]
      rw [h256]
      have hp : 0 < 2 ^ (8 * i) := Nat.two_pow_pos _
      constructor
      · intro hne
        have : 2 ^ (8 * i) ≤ x.toNat := by
          apply Classical.byContradiction
          intro hc
          exact hne (Nat.div_eq_of_lt (by omega))
        have := (Nat.le_log2 h).2 this
        omega
      · intro hi
        have : 8 * i ≤ x.toNat.log2 := by omega
        have := (Nat.le_log2 h).1 this
        have := Nat.div_pos this hp
        omega

theorem byteLen_le (x : U256) : Word.byteLen x.toNat ≤ 32 := by
  rw [← csb_byteLen]
  unfold Ops.countSignificantBytes
  exact Nat.le_trans (List.length_filter_le _ _) (by simp)

theorem w_lt (a b : U256) : Model.ofBool (a.ult b) = Word.lt a b := by
  simp [Model.ofBool, Word.lt, Word.ofProp, BitVec.ult]

theorem w_gt (a b : U256) : Model.ofBool (b.ult a) = Word.gt a b := by
  simp [Model.ofBool, Word.gt, Word.ofProp, BitVec.ult]

theorem w_slt (a b : U256) : Model.ofBool (a.slt b) = Word.slt a b := by
  simp [Model.ofBool, Word.slt, Word.ofProp, BitVec.slt]

theorem w_sgt (a b : U256) : Model.ofBool (b.slt a) = Word.sgt a b := by
  simp [Model.ofBool, Word.sgt, Word.ofProp, BitVec.slt]

theorem w_eq (a b : U256) : Model.ofBool (a == b) = Word.eq a b := by
  simp [Model.ofBool, Word.eq, Word.ofProp, BitVec.toNat_inj]

theorem w_iszero (a : U256) : Model.ofBool (a == 0) = Word.iszero a := by
  have := toNat_eq_zero a
  simp only [Model.ofBool, Word.iszero, Word.ofProp, beq_iff_eq, this]

theorem w_and (a b : U256) : a &&& b = Word.and a b := by
  apply BitVec.eq_of_toNat_eq
  rw [Word.and, ofN_toNat, BitVec.toNat_and,
    Nat.mod_eq_of_lt (Nat.lt_of_le_of_lt Nat.and_le_left a.isLt)]

theorem w_or (a b : U256) : a ||| b = Word.or a b := by
  apply BitVec.eq_of_toNat_eq
  rw [Word.or, ofN_toNat, BitVec.toNat_or, Nat.mod_eq_of_lt (Nat.or_lt_two_pow a.isLt b.isLt)]

theorem w_xor (a b : U256) : a ^^^ b = Word.xor a b := by
  apply BitVec.eq_of_toNat_eq
  rw [Word.xor, ofN_toNat, BitVec.toNat_xor, Nat.mod_eq_of_lt (Nat.xor_lt_two_pow a.isLt b.isLt)]

theorem w_not (a : U256) : ~~~a = Word.not a := by
  apply BitVec.eq_of_toNat_eq
  rw [Word.not, ofN_toNat, BitVec.toNat_not, Nat.mod_eq_of_lt (by omega)]

theorem w_shl (a b : U256) : b <<< a.toNat = Word.shl a b := by
  apply BitVec.eq_of_toNat_eq
  rw [BitVec.toNat_shiftLeft, Nat.shiftLeft_eq]
  unfold Word.shl
  split
  · rw [ofN_toNat]
  · rename_i h
    have : 2 ^ 256 ∣ 2 ^ a.toNat := Nat.pow_dvd_pow 2 (by omega)
    have : b.toNat * 2 ^ a.toNat % 2 ^ 256 = 0 :=
      Nat.mod_eq_zero_of_dvd (Nat.dvd_trans this (Nat.dvd_mul_left _ _))
    rw [this]; rfl

theorem w_shr (a b : U256) : b >>> a.toNat = Word.shr a b := by
  apply BitVec.eq_of_toNat_eq
  rw [BitVec.toNat_ushiftRight, Nat.shiftRight_eq_div_pow]
  unfold Word.shr
  split
  · rw [ofN_toNat, Nat.mod_eq_of_lt (Nat.lt_of_le_of_lt (Nat.div_le_self _ _) b.isLt)]
  · rename_i h
    rw [Nat.div_eq_of_lt (Nat.lt_of_lt_of_le b.isLt (Nat.pow_le_pow_right (by decide) (by omega)))]
    rfl

theorem and80 (b : Byte) : (b &&& 0x80 ≠ 0) ↔ b.getLsbD 7 = true := by
  constructor
  · intro h
    apply Classical.byContradiction
    intro hc
    apply h
    apply BitVec.eq_of_getLsbD_eq
    intro i hi
    have h80 : (0x80 : Byte).getLsbD i = decide (i = 7) := by
      have : i = 0 ∨ i = 1 ∨ i = 2 ∨ i = 3 ∨ i = 4 ∨ i = 5 ∨ i = 6 ∨ i = 7 := by omega
      rcases this with h | h | h | h | h | h | h | h <;> subst h <;> rfl
    rw [BitVec.getLsbD_and, h80]
    by_cases h7 : i = 7
    · subst h7; simp_all
    · simp [h7]
  · intro h hc
    have : (b &&& 0x80).getLsbD 7 = true := by
      rw [BitVec.getLsbD_and, h]; rfl
    rw [hc] at this
    exact absurd this (by decide)

theorem signBit (v : U256) (i : Nat) :
    ((v >>> (8 * i)).setWidth 8 &&& (0x80 : Byte) ≠ 0) ↔ v.getLsbD (8 * i + 7) = true := by
  rw [and80]; simp

theorem signExtend_setWidth (bits : Nat) (x : U256) :
    (x.setWidth bits).signExtend 256 = Word.ofI (Word.signedValue bits x.toNat) := by
  simp only [BitVec.signExtend, Word.ofI, Word.signedValue, BitVec.toInt, BitVec.toNat_setWidth]

theorem w_signextend_neg (x : U256) (idx : Nat) (hi : idx < 32)
    (h : x.getLsbD (8 * idx + 7) = true) :
    (BitVec.allOnes 256 <<< (8 * (idx + 1))) ||| x =
      Word.ofI (Word.signedValue (8 * (idx + 1)) x.toNat) := by
  rw [← signExtend_setWidth]
  apply BitVec.eq_of_getLsbD_eq
  intro i hlt
  have hmsb : (x.setWidth (8 * (idx + 1))).msb = true := by
    rw [BitVec.msb_eq_getLsbD_last, BitVec.getLsbD_setWidth]
    have : 8 * (idx + 1) - 1 = 8 * idx + 7 := by omega
    rw [this, h]; simp; omega
  rw [BitVec.getLsbD_or, BitVec.getLsbD_shiftLeft, BitVec.getLsbD_signExtend, hmsb,
    BitVec.getLsbD_setWidth, BitVec.getLsbD_allOnes]
  by_cases hb : i < 8 * (idx + 1)
  · simp [hb, hlt]
  · simp [hb, hlt]; left; omega

theorem w_signextend_pos (x : U256) (idx : Nat) (hi : idx < 32)
    (h : x.getLsbD (8 * idx + 7) = false) :
    (BitVec.allOnes 256 >>> (8 * (31 - idx))) &&& x =
      Word.ofI (Word.signedValue (8 * (idx + 1)) x.toNat) := by
  rw [← signExtend_setWidth]
  apply BitVec.eq_of_getLsbD_eq
  intro i hlt
  have hmsb : (x.setWidth (8 * (idx + 1))).msb = false := by
    rw [BitVec.msb_eq_getLsbD_last, BitVec.getLsbD_setWidth]
    have : 8 * (idx + 1) - 1 = 8 * idx + 7 := by omega
    rw [this, h]; simp
  rw [BitVec.getLsbD_and, BitVec.getLsbD_ushiftRight, BitVec.getLsbD_signExtend, hmsb,
    BitVec.getLsbD_setWidth, BitVec.getLsbD_allOnes]
  by_cases hb : i < 8 * (idx + 1)
  · have : 8 * (31 - idx) + i < 256 := by omega
    simp [hb, this]
    omega
  · have : ¬ (8 * (31 - idx) + i < 256) := by omega
    simp [hb, this]

theorem signedValue_256 (x : U256) : Word.ofI (Word.signedValue 256 x.toNat) = x := by
  rw [← signExtend_setWidth]; simp

/-- The index used by SIGNEXTEND. -/
theorem w_signextend (a x : U256) (idx : Nat)
    (hidx : idx = if a.toNat > 31 then 31 else a.toNat % 256) :
    (if ((x >>> (8 * idx)).setWidth 8 &&& (0x80 : Byte)) ≠ 0
      then (BitVec.allOnes 256 <<< (8 * (idx + 1))) ||| x
      else (BitVec.allOnes 256 >>> (8 * (31 - idx))) &&& x) = Word.signextend a x := by
  have hi : idx < 32 := by split at hidx <;> omega
  have hval : Word.signextend a x = Word.ofI (Word.signedValue (8 * (idx + 1)) x.toNat) := by
    unfold Word.signextend
    split
    · have : idx = a.toNat := by split at hidx <;> omega
      rw [this]
    · have : idx = 31 := by split at hidx <;> omega
      subst this
      exact (signedValue_256 x).symm
  rw [hval]
  by_cases h : x.getLsbD (8 * idx + 7) = true
  · rw [if_pos ((signBit x idx).2 h), w_signextend_neg x idx hi h]
  · rw [if_neg (fun hc => h ((signBit x idx).1 hc)), w_signextend_pos x idx hi (by simpa using h)]

theorem byteLe_ok (v : U256) (i : Nat) (h : i < 32) :
    byteLe v i = .ok ((v >>> (8 * i)).setWidth 8) := by simp [byteLe, h]

theorem w_byte (a x : U256) (h : a.toNat < 32) :
    ((x >>> (8 * (31 - a.toNat % 256))).setWidth 8 : Byte).setWidth 256 = Word.byte a x := by
  apply BitVec.eq_of_toNat_eq
  simp only [Word.byte, if_pos h, ofN_toNat, BitVec.toNat_setWidth, BitVec.toNat_ushiftRight,
    Nat.shiftRight_eq_div_pow]
  have : a.toNat % 256 = a.toNat := by omega
  rw [this, Nat.pow_mul]

theorem msb_toInt (x : U256) : x.msb = true ↔ x.toInt < 0 := by
  rw [BitVec.msb_eq_toInt]; simp

theorem sshiftRight_ofI (x : U256) (s : Nat) :
    x.sshiftRight s = Word.ofI (x.toInt / (2 ^ s : Nat)) := by
  simp only [BitVec.sshiftRight, Word.ofI, Int.shiftRight_eq_div_pow]

theorem w_sar_small (a x : U256) (h : a.toNat ≤ 255) :
    (if x.msb then (x >>> a.toNat) ||| (BitVec.allOnes 256 <<< ((255 : U256) - a).toNat)
      else x >>> a.toNat) = Word.sar a x := by
  unfold Word.sar
  rw [if_pos (show a.toNat < 256 by omega), ← sshiftRight_ofI]
  have hs : ((255 : U256) - a).toNat = 255 - a.toNat := by
    rw [BitVec.toNat_sub]
    have : (255 : U256).toNat = 255 := rfl
    rw [this]; omega
  apply BitVec.eq_of_getLsbD_eq
  intro i hi
  rw [BitVec.getLsbD_sshiftRight]
  by_cases hm : x.msb = true
  · simp only [hm, if_true]
    rw [BitVec.getLsbD_or, BitVec.getLsbD_shiftLeft, BitVec.getLsbD_ushiftRight,
      BitVec.getLsbD_allOnes, hs]
    by_cases hb : a.toNat + i < 256
    · have hc : i < 255 - a.toNat ∨ i = 255 - a.toNat := by omega
      rcases hc with hc | hc
      · have : ¬ 256 ≤ i := by omega
        simp [hb, hc, this]
      · have hx : x.getLsbD (a.toNat + i) = true := by
          rw [BitVec.msb_eq_getLsbD_last] at hm
          have : a.toNat + i = 256 - 1 := by omega
          rw [this]; exact hm
        have h1 : ¬ 256 ≤ i := by omega
        rw [hx]
        simp [hb, h1]
    · have h1 : ¬ (i < 255 - a.toNat) := by omega
      have h2 : i - (255 - a.toNat) < 256 := by omega
      have h3 : ¬ 256 ≤ i := by omega
      simp [hb, hi, h1, h2, h3]
  · have hm' : x.msb = false := by simpa using hm
    simp only [hm']
    rw [if_neg (by simp), BitVec.getLsbD_ushiftRight]
    by_cases hb : a.toNat + i < 256
    · simp [hb]; omega
    · simp [hb]
      exact BitVec.getLsbD_of_ge x _ (by omega)

theorem w_sar_big (a x : U256) (h : ¬ a.toNat ≤ 255) :
    (if x.msb then BitVec.allOnes 256 else 0) = Word.sar a x := by
  unfold Word.sar
  rw [if_neg (show ¬ a.toNat < 256 by omega)]
  by_cases hm : x.msb = true
  · rw [if_pos hm, if_pos ((msb_toInt x).1 hm)]
    rfl
  · rw [if_neg hm, if_neg (fun hc => hm ((msb_toInt x).2 hc))]

theorem signBit31 (x : U256) :
    ((x >>> (8 * 31)).setWidth 8 &&& (0x80 : Byte) ≠ 0) ↔ x.msb = true := by
  rw [signBit, BitVec.msb_eq_getLsbD_last]

/-! ### Byte strings -/

theorem beNat_acc (l : List Byte) (acc : Nat) :
    l.foldl (fun acc b => acc * 256 + b.toNat) acc = acc * 256 ^ l.length + Word.beNat l := by
  induction l generalizing acc with
  | nil => simp [Word.beNat]
  | cons b l ih =>
    simp only [Word.beNat, List.foldl_cons, List.length_cons]
    rw [ih, ih (0 * 256 + b.toNat), Nat.pow_succ, Nat.add_mul]
    simp only [Nat.zero_mul, Nat.zero_add, Nat.mul_assoc, Nat.add_assoc, Nat.mul_comm 256]

theorem beNat_cons (b : Byte) (l : List Byte) :
    Word.beNat (b :: l) = b.toNat * 256 ^ l.length + Word.beNat l := by
  have := beNat_acc l (0 * 256 + b.toNat)
  simpa [Word.beNat] using this

theorem beNat_append (l l' : List Byte) :
    Word.beNat (l ++ l') = Word.beNat l * 256 ^ l'.length + Word.beNat l' := by
  unfold Word.beNat
  rw [List.foldl_append, beNat_acc l']
  rfl

theorem beNat_lt (l : List Byte) : Word.beNat l < 256 ^ l.length := by
  induction l with
  | nil => simp [Word.beNat]
  | cons b l ih =>
    rw [beNat_cons, List.length_cons, Nat.pow_succ]
    have hb : b.toNat < 256 := b.isLt
    have : b.toNat * 256 ^ l.length + 256 ^ l.length ≤ 256 * 256 ^ l.length := by
      rw [← Nat.succ_mul]; exact Nat.mul_le_mul_right _ hb
    rw [Nat.mul_comm (256 ^ l.length) 256]
    omega

/-- Little-endian value. -/
def leNat : List Byte → Nat
  | [] => 0
  | b :: l => b.toNat + 256 * leNat l

theorem leNat_append (l l' : List Byte) : leNat (l ++ l') = leNat l + 256 ^ l.length * leNat l' := by
  induction l with
  | nil => simp [leNat]
  | cons b l ih =>
    simp only [List.cons_append, leNat, ih, List.length_cons, Nat.pow_succ]
    rw [Nat.mul_add, ← Nat.mul_assoc, Nat.mul_comm 256 (256 ^ _), Nat.add_assoc]

theorem leNat_reverse (l : List Byte) : leNat l.reverse = Word.beNat l := by
  induction l with
  | nil => rfl
  | cons b l ih =>
    rw [List.reverse_cons, leNat_append, ih, beNat_cons]
    simp [leNat, Nat.mul_comm, Nat.add_comm]

theorem ofLeBytes_ofN (l : List Byte) : ofLeBytes l = Word.ofN (leNat l) := by
  induction l with
  | nil => rfl
  | cons b l ih =>
    have : ofLeBytes (b :: l) = (ofLeBytes l <<< 8) ||| b.setWidth 256 := rfl
    rw [this, ih]
    apply BitVec.eq_of_toNat_eq
    have hb : b.toNat < 2 ^ 8 := b.isLt
    have hb' : (b.setWidth 256 : U256).toNat = b.toNat := by
      rw [BitVec.toNat_setWidth]; omega
    have hor : ∀ x : U256, (x <<< 8 ||| b.setWidth 256 : U256) = x <<< 8 + b.setWidth 256 := by
      intro x
      rw [BitVec.add_eq_or_of_and_eq_zero]
      apply BitVec.eq_of_getLsbD_eq
      intro i hi
      rw [BitVec.getLsbD_and, BitVec.getLsbD_shiftLeft, BitVec.getLsbD_setWidth]
      by_cases h8 : i < 8
      · simp [h8]
      · simp [BitVec.getLsbD_of_ge b i (by omega)]
    rw [hor, BitVec.toNat_add, BitVec.toNat_shiftLeft, hb', ofN_toNat, ofN_toNat, leNat,
      Nat.shiftLeft_eq]
    omega

theorem leBytes_length (v : U256) : (leBytes v).length = 32 := by simp [leBytes]

theorem leBytes_eq (v : U256) :
    leBytes v = (List.range 32).map fun i => BitVec.ofNat 8 (v.toNat / 256 ^ i) := by
  unfold leBytes
  apply List.map_congr_left
  intro i _
  apply BitVec.eq_of_toNat_eq
  simp only [BitVec.toNat_setWidth, BitVec.toNat_ushiftRight, BitVec.toNat_ofNat,
    Nat.shiftRight_eq_div_pow, Nat.pow_mul]

theorem leBytes_reverse (v : U256) : (leBytes v).reverse = Word.toBytes v := by
  rw [leBytes_eq]
  unfold Word.toBytes
  rfl

theorem leNat_digits (n : Nat) : ∀ k, leNat ((List.range k).map fun i => BitVec.ofNat 8 (n / 256 ^ i))
    = n % 256 ^ k := by
  intro k
  induction k with
  | zero => simp [leNat, Nat.mod_one]
  | succ k ih =>
    rw [List.range_succ, List.map_append, leNat_append, ih]
    simp only [List.map_cons, List.map_nil, leNat, List.length_map, List.length_range,
      BitVec.toNat_ofNat, Nat.mul_zero, Nat.add_zero]
    rw [Nat.pow_succ 256 k, Nat.mod_mul]

theorem ofLeBytes_leBytes (v : U256) : ofLeBytes (leBytes v) = v := by
  rw [ofLeBytes_ofN, leBytes_eq, leNat_digits]
  apply BitVec.eq_of_toNat_eq
  rw [ofN_toNat]
  have : (256 : Nat) ^ 32 = 2 ^ 256 := by decide
  rw [this, Nat.mod_mod, Nat.mod_eq_of_lt v.isLt]

theorem digit_leNat (l : List Byte) : ∀ i, i < l.length →
    BitVec.ofNat 8 (leNat l / 256 ^ i) = l.getD i 0 := by
  induction l with
  | nil => intro i hi; simp at hi
  | cons b l ih =>
    intro i hi
    have hb : b.toNat < 256 := b.isLt
    cases i with
    | zero =>
      apply BitVec.eq_of_toNat_eq
      simp only [leNat, Nat.pow_zero, Nat.div_one, BitVec.toNat_ofNat, List.getD_cons_zero]
      omega
    | succ i =>
      rw [List.getD_cons_succ, ← ih i (by simpa using hi)]
      congr 1
      rw [Nat.pow_succ, Nat.mul_comm, ← Nat.div_div_eq_div_mul, leNat]
      congr 1
      omega

theorem leNat_lt (l : List Byte) : leNat l < 256 ^ l.length := by
  have := beNat_lt l.reverse
  rw [← leNat_reverse, List.reverse_reverse, List.length_reverse] at this
  exact this

theorem leBytes_ofLeBytes (l : List Byte) (h : l.length = 32) : leBytes (ofLeBytes l) = l := by
  rw [ofLeBytes_ofN, leBytes_eq, ofN_toNat]
  have h1 := leNat_lt l
  rw [h] at h1
  have : (256 : Nat) ^ 32 = 2 ^ 256 := by decide
  rw [this] at h1
  rw [Nat.mod_eq_of_lt h1]
  apply List.ext_getElem
  · simp [h]
  · intro i hi hi'
    simp only [List.getElem_map, List.getElem_range]
    rw [digit_leNat l i hi', List.getD_eq_getElem?_getD, List.getElem?_eq_getElem hi']
    rfl

theorem w_mload (l : List Byte) (h : l.length = 32) : bswap (ofLeBytes l) = Word.ofBytes l := by
  unfold bswap
  rw [leBytes_ofLeBytes l h, ofLeBytes_ofN, leNat_reverse]
  rfl

theorem w_mstore (v : U256) : leBytes (bswap v) = Word.toBytes v := by
  unfold bswap
  rw [leBytes_ofLeBytes _ (by simp [leBytes_length]), leBytes_reverse]

theorem toBytes_length (v : U256) : (Word.toBytes v).length = 32 := by simp [Word.toBytes]

theorem w_mstore8 (v : U256) : (v.setWidth 8 : Byte) = BitVec.ofNat 8 v.toNat := by
  apply BitVec.eq_of_toNat_eq; simp

theorem w_toAddress (v : U256) : Model.toAddress v = Word.toAddress v := by
  apply BitVec.eq_of_toNat_eq; simp [Model.toAddress, Word.toAddress]

theorem w_ofAddress (a : Address) : Model.ofAddress a = Word.ofAddress a := by
  apply BitVec.eq_of_toNat_eq; simp [Model.ofAddress, Word.ofAddress, Word.ofN]

theorem w_ofInt64 (x : Int) (h0 : 0 ≤ x) (h1 : x < 18446744073709551616) :
    ofInt64 x = Word.ofI x := by
  obtain ⟨n, rfl⟩ := Int.eq_ofNat_of_zero_le h0
  unfold ofInt64 Word.ofI
  have : ((n : Int) % 18446744073709551616).toNat = n := by omega
  rw [this]
  apply BitVec.eq_of_toNat_eq
  simp

end Tosca.Proofs

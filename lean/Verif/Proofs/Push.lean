import Verif.Proofs.Word
import Verif.Proofs.Mem

/-!
# PUSH: the word assembly equals the big-endian value of the zero-extended immediate
-/

namespace Tosca.Proofs

open Tosca.Model Tosca.Spec

variable {σ : Type}

theorem padCode_getD (code : List Byte) (p : Nat) : (padCode code).getD p 0 = byteAt code p := by
  unfold padCode byteAt; exact getD_append_replicate _ _ _

theorem codeByte_ok (code : List Byte) (c : Ctx σ) (hc : c.code = padCode code) (p : Nat)
    (h : p < code.length + 33) : Ops.codeByte p c = .ok (byteAt code p, c) := by
  unfold Ops.codeByte
  have : (padCode code).length = code.length + 33 := by simp [padCode, stopBytePadding]
  rw [hc, this, if_pos h, padCode_getD]

theorem slice_succ (l : List Byte) (p n : Nat) : slice l p (n + 1) = byteAt l p :: slice l (p + 1) n := by
  unfold slice
  rw [List.range_succ_eq_map]
  simp only [List.map_cons, List.map_map, Nat.add_zero, List.cons.injEq, true_and]
  apply List.map_congr_left
  intro i _
  simp only [Function.comp]
  congr 1; omega

theorem slice_add (l : List Byte) (p n m : Nat) : slice l p (n + m) = slice l p n ++ slice l (p + n) m := by
  induction n generalizing p with
  | zero => simp [slice]
  | succ n ih =>
    rw [show n + 1 + m = (n + m) + 1 by omega, slice_succ, slice_succ, ih, List.cons_append]
    rw [show p + 1 + n = p + (n + 1) by omega]

theorem or_byte64 (w : BitVec 64) (b : Byte) : ((w <<< 8) ||| b.setWidth 64).toNat
    = (w.toNat * 256 + b.toNat) % 2 ^ 64 := by
  have hb : b.toNat < 2 ^ 8 := b.isLt
  have hor : (w <<< 8 ||| b.setWidth 64) = w <<< 8 + b.setWidth 64 := by
    rw [BitVec.add_eq_or_of_and_eq_zero]
    apply BitVec.eq_of_getLsbD_eq
    intro i hi
    rw [BitVec.getLsbD_and, BitVec.getLsbD_shiftLeft, BitVec.getLsbD_setWidth]
    by_cases h8 : i < 8
    · simp [h8]
    · simp [BitVec.getLsbD_of_ge b i (by omega)]
  rw [hor, BitVec.toNat_add, BitVec.toNat_shiftLeft, Nat.shiftLeft_eq, BitVec.toNat_setWidth]
  omega

theorem partialWord_ok (code : List Byte) (c : Ctx σ) (hc : c.code = padCode code) (n : Nat) :
    ∀ (p : Nat) (w : BitVec 64), p + n ≤ code.length + 33 →
    ∃ r, Ops.partialWord n p w c = .ok (r, c) ∧
      r.toNat = (w.toNat * 256 ^ n + Word.beNat (slice code p n)) % 2 ^ 64 := by
  induction n with
  | zero =>
    intro p w _
    refine ⟨w, rfl, ?_⟩
    simp [slice, Word.beNat]
    omega
  | succ n ih =>
    intro p w h
    obtain ⟨r, hr, hv⟩ := ih (p + 1) ((w <<< 8) ||| (byteAt code p).setWidth 64) (by omega)
    refine ⟨r, ?_, ?_⟩
    · unfold Ops.partialWord
      simp only [bind, OpM.bind, codeByte_ok code c hc p (by omega)]
      exact hr
    · rw [hv, or_byte64, slice_succ, beNat_cons, slice_length]
      rw [Nat.add_mod, Nat.mul_mod, Nat.mod_mod, ← Nat.mul_mod, ← Nat.add_mod]
      congr 1
      rw [Nat.add_mul, Nat.pow_succ, Nat.mul_assoc, Nat.mul_comm 256, Nat.add_assoc]

theorem append_byte {n : Nat} (x : BitVec n) (b : Byte) : (x ++ b).toNat = x.toNat * 256 + b.toNat := by
  have hb : b.toNat < 2 ^ 8 := b.isLt
  rw [BitVec.toNat_append, ← Nat.shiftLeft_add_eq_or_of_lt hb, Nat.shiftLeft_eq]

theorem loadWordBe_ok (code : List Byte) (c : Ctx σ) (hc : c.code = padCode code) (p : Nat)
    (h : p + 8 ≤ code.length + 33) :
    ∃ r, Ops.loadWordBe p c = .ok (r, c) ∧ r.toNat = Word.beNat (slice code p 8) := by
  unfold Ops.loadWordBe
  simp only [bind, OpM.bind]
  rw [codeByte_ok code c hc p (by omega)]
  dsimp only
  rw [codeByte_ok code c hc (p + 1) (by omega)]
  dsimp only
  rw [codeByte_ok code c hc (p + 2) (by omega)]
  dsimp only
  rw [codeByte_ok code c hc (p + 3) (by omega)]
  dsimp only
  rw [codeByte_ok code c hc (p + 4) (by omega)]
  dsimp only
  rw [codeByte_ok code c hc (p + 5) (by omega)]
  dsimp only
  rw [codeByte_ok code c hc (p + 6) (by omega)]
  dsimp only
  rw [codeByte_ok code c hc (p + 7) (by omega)]
  refine ⟨_, rfl, ?_⟩
  have e : slice code p 8 = [byteAt code p, byteAt code (p+1), byteAt code (p+2), byteAt code (p+3),
      byteAt code (p+4), byteAt code (p+5), byteAt code (p+6), byteAt code (p+7)] := by
    rfl
  rw [e]
  simp only [append_byte, Word.beNat, List.foldl_cons, List.foldl_nil, Nat.zero_mul, Nat.zero_add]

theorem setWord_toNat (v : U256) (k : Nat) (w : BitVec 64) (hk : k < 4)
    (h : v.toNat % 2 ^ (64 * (k + 1)) = 0) :
    (Ops.setWord v k w).toNat = v.toNat + w.toNat * 2 ^ (64 * k) := by
  have hbit : ∀ i, i < 64 * (k + 1) → v.getLsbD i = false := by
    intro i hi
    rw [BitVec.getLsbD]
    have : v.toNat.testBit i = (v.toNat % 2 ^ (64 * (k + 1))).testBit i := by
      rw [Nat.testBit_mod_two_pow]; simp [hi]
    rw [this, h]; simp
  have e1 : v &&& ~~~((BitVec.allOnes 64).setWidth 256 <<< (64 * k)) = v := by
    apply BitVec.eq_of_getLsbD_eq
    intro i hi
    rw [BitVec.getLsbD_and]
    by_cases h1 : i < 64 * (k + 1)
    · rw [hbit i h1]; rfl
    · rw [BitVec.getLsbD_not, BitVec.getLsbD_shiftLeft, BitVec.getLsbD_setWidth, BitVec.getLsbD_allOnes]
      have : ¬ (i - 64 * k < 64) := by omega
      simp [this]
      omega
  unfold Ops.setWord
  rw [e1, ← BitVec.add_eq_or_of_and_eq_zero]
  · rw [BitVec.toNat_add, BitVec.toNat_shiftLeft, BitVec.toNat_setWidth, Nat.shiftLeft_eq]
    have hw := w.isLt
    have hv := v.isLt
    have hlt : w.toNat * 2 ^ (64 * k) < 2 ^ (64 * (k + 1)) := by
      rw [show 64 * (k + 1) = 64 + 64 * k by omega, Nat.pow_add]
      exact Nat.mul_lt_mul_of_pos_right hw (Nat.two_pow_pos _)
    have hle : 2 ^ (64 * (k + 1)) ≤ 2 ^ 256 := Nat.pow_le_pow_right (by decide) (by omega)
    have h64 : w.toNat % 2 ^ 256 = w.toNat := Nat.mod_eq_of_lt (by omega)
    rw [h64, Nat.mod_eq_of_lt (a := w.toNat * 2 ^ (64 * k)) (by omega), Nat.mod_eq_of_lt]
    -- v is a multiple of 2^(64(k+1)) below 2^256
    obtain ⟨q, hq⟩ := Nat.dvd_of_mod_eq_zero h
    obtain ⟨r, hr⟩ : ∃ r, 2 ^ 256 = 2 ^ (64 * (k + 1)) * r :=
      ⟨2 ^ (256 - 64 * (k + 1)), by rw [← Nat.pow_add]; congr 1; omega⟩
    rw [hq, hr] at hv
    rw [hq, hr]
    have hqr : q < r := Nat.lt_of_mul_lt_mul_left hv
    have : 2 ^ (64 * (k + 1)) * (q + 1) ≤ 2 ^ (64 * (k + 1)) * r := Nat.mul_le_mul_left _ hqr
    rw [Nat.mul_add] at this
    omega
  · apply BitVec.eq_of_getLsbD_eq
    intro i hi
    rw [BitVec.getLsbD_and]
    by_cases h1 : i < 64 * (k + 1)
    · rw [hbit i h1]; simp
    · rw [BitVec.getLsbD_shiftLeft, BitVec.getLsbD_setWidth]
      have : w.getLsbD (i - 64 * k) = false := BitVec.getLsbD_of_ge _ _ (by omega)
      simp [this]

theorem fullWords_ok (code : List Byte) (c : Ctx σ) (hc : c.code = padCode code) (n : Nat) :
    ∀ (p : Nat) (v : U256), n ≤ 4 → p + 8 * n ≤ code.length + 33 → v.toNat % 2 ^ (64 * n) = 0 →
    ∃ r, Ops.fullWords n p v c = .ok (r, c) ∧
      r.toNat = v.toNat + Word.beNat (slice code p (8 * n)) := by
  induction n with
  | zero => intro p v _ _ _; exact ⟨v, rfl, by simp [slice, Word.beNat]⟩
  | succ n ih =>
    intro p v hn hp hv
    obtain ⟨w, hw, hwv⟩ := loadWordBe_ok code c hc p (by omega)
    have hs := setWord_toNat v n w (by omega) hv
    have hmod : (Ops.setWord v n w).toNat % 2 ^ (64 * n) = 0 := by
      rw [hs]
      apply Nat.mod_eq_zero_of_dvd
      apply Nat.dvd_add
      · exact Nat.dvd_trans (Nat.pow_dvd_pow 2 (by omega)) (Nat.dvd_of_mod_eq_zero hv)
      · exact Nat.dvd_mul_left _ _
    obtain ⟨r, hr, hrv⟩ := ih (p + 8) (Ops.setWord v n w) (by omega) (by omega) hmod
    refine ⟨r, ?_, ?_⟩
    · unfold Ops.fullWords
      simp only [bind, OpM.bind, hw]
      exact hr
    · rw [hrv, hs, hwv, show 8 * (n + 1) = 8 + 8 * n by omega, slice_add, beNat_append, slice_length]
      have : (256 : Nat) ^ (8 * n) = 2 ^ (64 * n) := by
        rw [show (256 : Nat) = 2 ^ 8 by decide, ← Nat.pow_mul]; congr 1; omega
      rw [this]; omega

/-- The value PUSH assembles before writing it to the stack. -/
theorem pushValue_ok (code : List Byte) (c : Ctx σ) (hc : c.code = padCode code) (n pc : Nat)
    (hn : n ≤ 32) (hp : pc + n < code.length + 33) :
    ∃ v0, (if n % 8 ≠ 0 then do
        let word ← Ops.partialWord (n % 8) (pc + 1) 0
        return Ops.setWord 0 (n / 8) word
      else return 0 : OpM σ U256) c = .ok (v0, c) ∧
    Ops.fullWords (n / 8) (pc + 1 + n % 8) v0 c = .ok (Word.ofBytes (slice code (pc + 1) n), c) := by
  have hval : ∀ v0 : U256, v0.toNat = Word.beNat (slice code (pc + 1) (n % 8)) * 2 ^ (64 * (n / 8)) →
      Ops.fullWords (n / 8) (pc + 1 + n % 8) v0 c = .ok (Word.ofBytes (slice code (pc + 1) n), c) := by
    intro v0 h0
    obtain ⟨r, hr, hrv⟩ := fullWords_ok code c hc (n / 8) (pc + 1 + n % 8) v0 (by omega) (by omega)
      (by rw [h0]; exact Nat.mul_mod_left _ _)
    rw [hr]
    congr 2
    apply BitVec.eq_of_toNat_eq
    rw [hrv, h0]
    have e : slice code (pc + 1) n = slice code (pc + 1) (n % 8) ++ slice code (pc + 1 + n % 8) (8 * (n / 8)) := by
      rw [← slice_add]; congr 1; omega
    have h256 : (256 : Nat) ^ (8 * (n / 8)) = 2 ^ (64 * (n / 8)) := by
      rw [show (256 : Nat) = 2 ^ 8 by decide, ← Nat.pow_mul]; congr 1; omega
    unfold Word.ofBytes
    rw [ofN_toNat, e, beNat_append, slice_length, h256]
    refine (Nat.mod_eq_of_lt ?_).symm
    have := beNat_lt (slice code (pc + 1) n)
    rw [slice_length, e, beNat_append, slice_length, h256] at this
    refine Nat.lt_of_lt_of_le this ?_
    rw [show (2 : Nat) ^ 256 = 256 ^ 32 by decide]
    exact Nat.pow_le_pow_right (by decide) hn
  by_cases h8 : n % 8 = 0
  · refine ⟨0, by simp [h8]; rfl, hval 0 ?_⟩
    simp [h8, slice, Word.beNat]
  · obtain ⟨w, hw, hwv⟩ := partialWord_ok code c hc (n % 8) (pc + 1) 0 (by omega)
    have hlt : Word.beNat (slice code (pc + 1) (n % 8)) < 2 ^ 64 := by
      have := beNat_lt (slice code (pc + 1) (n % 8))
      rw [slice_length] at this
      refine Nat.lt_of_lt_of_le this ?_
      rw [show (2 : Nat) ^ 64 = 256 ^ 8 by decide]
      exact Nat.pow_le_pow_right (by decide) (by omega)
    have hwv' : w.toNat = Word.beNat (slice code (pc + 1) (n % 8)) := by
      rw [hwv]; simp; omega
    refine ⟨Ops.setWord 0 (n / 8) w, ?_, hval _ ?_⟩
    · simp only [ne_eq, h8, not_false_eq_true, if_true, bind, OpM.bind, hw]
      rfl
    · rw [setWord_toNat _ _ _ (by omega) (by simp), hwv']
      simp

end Tosca.Proofs

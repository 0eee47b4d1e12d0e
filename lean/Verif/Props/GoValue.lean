import Verif.Spec.GoValue
import Verif.Proofs.GoValue
import Verif.Proofs.FloriaStack

/-!
# Values, texts, storage status and intrinsic gas of the Go interface (C53 to C56)
-/

namespace Tosca

open Tosca.Model Tosca.Spec Tosca.Proofs Tosca.Go Tosca.Model.Go Tosca.Spec.Go

/-! ### C53: values -/

/-- C53.  `Add` is addition modulo 2^256. -/
theorem C53_add (a b : U256) : (add a b).toNat = (a.toNat + b.toNat) % 2 ^ 256 := by rw [add_eq, BitVec.toNat_add]

/-- C53.  `Sub` is subtraction modulo 2^256. -/
theorem C53_sub (a b : U256) : (sub a b).toNat = (a.toNat + (2 ^ 256 - b.toNat)) % 2 ^ 256 := by
  rw [sub_eq, BitVec.toNat_sub, Nat.add_comm]

/-- C53.  `Cmp` compares numerically. -/
theorem C53_cmp (a b : U256) : cmp a b = if a.toNat < b.toNat then -1 else if b.toNat < a.toNat then 1 else 0 := cmp_eq a b

/-- C53.  `Scale` is multiplication modulo 2^256. -/
theorem C53_scale (v : U256) (s : BitVec 64) : (scale v s).toNat = v.toNat * s.toNat % 2 ^ 256 := scale_toNat v s

theorem putLimb_free (v : U256) (i : Nat) (hi : i ≤ 3) (x : BitVec 64) (hv : v.toNat % 2 ^ (64 * (4 - i)) = 0) :
    (putLimb v i x).toNat = v.toNat + x.toNat * 2 ^ (64 * (3 - i)) := by
  have hm : v.toNat < 2 ^ 256 := v.isLt
  have hx : x.toNat < 2 ^ 64 := x.isLt
  have e1 : v &&& ~~~((BitVec.allOnes 64).setWidth 256 <<< (64 * (3 - i))) = v := by
    apply BitVec.eq_of_getLsbD_eq
    intro j hj
    rw [BitVec.getLsbD_and, BitVec.getLsbD_not, BitVec.getLsbD_shiftLeft, BitVec.getLsbD_setWidth, BitVec.getLsbD_allOnes]
    by_cases hb : 64 * (3 - i) ≤ j ∧ j < 64 * (4 - i)
    · have : v.getLsbD j = false := by
        have ht := Nat.testBit_mod_two_pow v.toNat (64 * (4 - i)) j
        rw [hv, Nat.zero_testBit] at ht
        simp only [hb.2, decide_true, Bool.true_and] at ht
        exact ht.symm
      rw [this, Bool.false_and]
    · simp only [hj, decide_true, Bool.true_and]
      by_cases h1 : j < 64 * (3 - i)
      · simp [h1]
      · have h2 : ¬ j - 64 * (3 - i) < 64 := by omega
        simp [h1, h2]
  unfold putLimb
  rw [e1]
  have hlt : x.toNat * 2 ^ (64 * (3 - i)) < 2 ^ (64 * (4 - i)) := by
    rw [show 64 * (4 - i) = 64 + 64 * (3 - i) by omega, Nat.pow_add]
    exact Nat.mul_lt_mul_of_pos_right hx (Nat.pow_pos (by omega))
  have hle : 2 ^ (64 * (4 - i)) ≤ 2 ^ 256 := Nat.pow_le_pow_right (by omega) (by omega)
  rw [BitVec.toNat_or, BitVec.toNat_shiftLeft, BitVec.toNat_setWidth, Nat.shiftLeft_eq, Nat.mod_eq_of_lt (show x.toNat < 2 ^ 256 by omega),
    Nat.mod_eq_of_lt (Nat.lt_of_lt_of_le hlt hle)]
  obtain ⟨q, hq⟩ : ∃ q, v.toNat = 2 ^ (64 * (4 - i)) * q := Nat.dvd_of_mod_eq_zero hv
  rw [hq, ← Nat.two_pow_add_eq_or_of_lt hlt]

theorem newValueLoop_val (offset : Nat) : ∀ (xs : List (BitVec 64)) (i : Nat) (v : U256), offset + i + xs.length = 4 →
    v.toNat % 2 ^ (64 * (4 - (offset + i))) = 0 → (newValueLoop offset i xs v).toNat = v.toNat + ofDigits xs := by
  intro xs
  induction xs with
  | nil => intro i v _ _; rfl
  | cons x xs ih =>
    intro i v hl hv
    simp only [List.length_cons] at hl
    have hp := putLimb_free v (offset + i) (by omega) x hv
    unfold newValueLoop
    have e : 64 * (3 - (offset + i)) = 64 * xs.length := by omega
    rw [e] at hp
    rw [ih (i + 1) _ (by omega) ?_, hp]
    · rw [show ofDigits (x :: xs) = x.toNat * (2 ^ 64) ^ xs.length + ofDigits xs from rfl, ← Nat.pow_mul, Nat.add_assoc]
    · rw [hp, show 64 * (4 - (offset + (i + 1))) = 64 * xs.length by omega, Nat.add_mul_mod_self_right]
      have : 64 * (4 - (offset + i)) = 64 + 64 * xs.length := by omega
      rw [this, Nat.pow_add, Nat.mul_comm] at hv
      exact Nat.mod_eq_zero_of_dvd (Nat.dvd_trans (Nat.dvd_mul_right _ _) (Nat.dvd_of_mod_eq_zero hv))

/-- C53.  `NewValue` of up to four numbers has these as digits, the most significant first; more numbers make it
panic. -/
theorem C53_newValue (args : List (BitVec 64)) :
    (args.length ≤ 4 → ∃ v, newValue args = some v ∧ v.toNat = ofDigits args) ∧ (4 < args.length → newValue args = none) := by
  unfold newValue
  constructor
  · intro h
    rw [if_neg (by omega)]
    refine ⟨_, rfl, ?_⟩
    rw [newValueLoop_val _ args 0 0 (by omega) (by show 0 % _ = 0; exact Nat.zero_mod _)]
    show 0 + _ = _
    omega
  · intro h
    rw [if_pos h]

/-! ### C54: texts -/

theorem digitValue_iff (c : Byte) (n : Nat) : digitValue c = some n ↔ Digit c n := by
  constructor
  · intro h
    unfold digitValue at h
    have hc : c = BitVec.ofNat 8 c.toNat := by rw [BitVec.ofNat_toNat, BitVec.setWidth_eq]
    split at h
    · cases h
      rename_i hr
      have := Digit.dec (c.toNat - 48) (by omega)
      rw [show 48 + (c.toNat - 48) = c.toNat by omega, ← hc] at this
      exact this
    · split at h
      · cases h
        rename_i hr
        have := Digit.lower (c.toNat - 97) (by omega)
        rw [show 97 + (c.toNat - 97) = c.toNat by omega, ← hc, show 10 + (c.toNat - 97) = c.toNat - 87 by omega] at this
        exact this
      · split at h
        · cases h
          rename_i hr
          have := Digit.upper (c.toNat - 65) (by omega)
          rw [show 65 + (c.toNat - 65) = c.toNat by omega, ← hc, show 10 + (c.toNat - 65) = c.toNat - 55 by omega] at this
          exact this
        · cases h
  · intro h
    cases h with
    | dec n hn =>
      unfold digitValue
      have : (BitVec.ofNat 8 (48 + n)).toNat = 48 + n := by rw [BitVec.toNat_ofNat]; omega
      rw [this, if_pos (by omega)]
      congr 1; omega
    | lower n hn =>
      unfold digitValue
      have : (BitVec.ofNat 8 (97 + n)).toNat = 97 + n := by rw [BitVec.toNat_ofNat]; omega
      rw [this, if_neg (by omega), if_pos (by omega)]
      congr 1; omega
    | upper n hn =>
      unfold digitValue
      have : (BitVec.ofNat 8 (65 + n)).toNat = 65 + n := by rw [BitVec.toNat_ofNat]; omega
      rw [this, if_neg (by omega), if_neg (by omega), if_pos (by omega)]
      congr 1; omega

theorem hexDecode_iff : ∀ (n : Nat) (text bytes : List Byte), text.length ≤ n → (hexDecode text = some bytes ↔ Spells text bytes) := by
  intro n
  induction n with
  | zero =>
    intro text bytes h
    cases text with
    | nil =>
      constructor
      · intro h; cases h; exact .nil
      · intro h; cases h; rfl
    | cons a l => simp at h
  | succ n ih =>
    intro text bytes h
    match text, h with
    | [], _ =>
      constructor
      · intro h; cases h; exact .nil
      · intro h; cases h; rfl
    | [a], _ =>
      constructor
      · intro h; cases h
      · intro h; cases h
    | a :: b :: rest, h =>
      have hl : rest.length ≤ n := by simp at h; omega
      constructor
      · intro h
        unfold hexDecode at h
        split at h
        · rename_i x y hx hy
          split at h
          · rename_i l hr
            cases h
            exact .cons a b x y rest l ((digitValue_iff _ _).1 hx) ((digitValue_iff _ _).1 hy) ((ih rest l hl).1 hr)
          · cases h
        · cases h
      · intro h
        cases h with
        | cons _ _ x y _ l hx hy hr =>
          unfold hexDecode
          rw [(digitValue_iff _ _).2 hx, (digitValue_iff _ _).2 hy]
          dsimp only
          rw [(ih rest l hl).2 hr]

/-- C54.  Reading a text succeeds exactly for `0x` followed by two hexadecimal digits (of either case) for each byte,
and gives these bytes. -/
theorem C54_read (size : Nat) (text bytes : List Byte) :
    textToBytes size text = some bytes ↔ ∃ digits, text = 48 :: 120 :: digits ∧ Spells digits bytes ∧ bytes.length = size := by
  unfold textToBytes
  constructor
  · intro h
    split at h
    · cases h
    · rename_i ht
      split at h
      · cases h
      · rename_i l hl
        split at h
        · cases h
        · rename_i hs
          cases h
          refine ⟨text.drop 2, ?_, (hexDecode_iff _ _ _ (Nat.le_refl _)).1 hl, by omega⟩
          have := List.take_append_drop 2 text
          rw [Classical.not_not.mp ht] at this
          exact this.symm
  · rintro ⟨digits, rfl, hs, hl⟩
    rw [if_neg (by simp)]
    show (match hexDecode digits with | none => none | some l => if size ≠ l.length then none else some l) = some bytes
    rw [(hexDecode_iff _ _ _ (Nat.le_refl _)).2 hs]
    show (if size ≠ bytes.length then none else some bytes) = some bytes
    rw [if_neg (by omega)]

theorem spells_written (data : List Byte) : Spells (data.flatMap fun b => [hexDigit (b.toNat / 16), hexDigit (b.toNat % 16)]) data := by
  have digit : ∀ n, n < 16 → Digit (hexDigit n) n := by
    intro n hn
    unfold hexDigit
    by_cases h : n < 10
    · rw [if_pos h]; exact .dec n h
    · rw [if_neg h]
      have := Digit.lower (n - 10) (by omega)
      rw [show 97 + (n - 10) = 87 + n by omega, show 10 + (n - 10) = n by omega] at this
      exact this
  induction data with
  | nil => exact .nil
  | cons b l ih =>
    have hb : b.toNat < 256 := b.isLt
    have := Spells.cons _ _ _ _ _ _ (digit (b.toNat / 16) (by omega)) (digit (b.toNat % 16) (by omega)) ih
    rw [show 16 * (b.toNat / 16) + b.toNat % 16 = b.toNat by omega, BitVec.ofNat_toNat, BitVec.setWidth_eq] at this
    exact this

/-- C54.  What is written is read back. -/
theorem C54_round_trip (data : List Byte) : textToBytes data.length (bytesToText data) = some data :=
  (C54_read _ _ _).2 ⟨_, rfl, spells_written data, rfl⟩

/-- C54.  Different byte strings are written differently. -/
theorem C54_injective {a b : List Byte} (h : bytesToText a = bytesToText b) : a = b := by
  have hlen : ∀ (l : List Byte), (bytesToText l).length = 2 + 2 * l.length := by
    intro l
    have : (l.flatMap fun b => [hexDigit (b.toNat / 16), hexDigit (b.toNat % 16)]).length = 2 * l.length := by
      induction l with
      | nil => rfl
      | cons x l ih => rw [List.flatMap_cons, List.length_append, ih]; simp only [List.length_cons, List.length_nil]; omega
    unfold bytesToText
    rw [List.length_cons, List.length_cons, this]
    omega
  have e : a.length = b.length := by
    have := congrArg List.length h
    rw [hlen, hlen] at this
    omega
  have h1 := C54_round_trip a
  have h2 := C54_round_trip b
  rw [h, e, h2] at h1
  injection h1 with h1
  exact h1.symm

/-! ### C55: storage status -/

/-- C55.  `GetStorageStatus` is the status defined by EVMC. -/
theorem C55_status (original current new : U256) : getStorageStatus original current new = storageStatus original current new := by
  unfold getStorageStatus storageStatus
  dsimp only
  generalize (0 : U256) = z
  by_cases h1 : current = new
  · simp [h1]
  · by_cases h2 : original = current
    · subst h2
      have h1' : ¬ new = original := fun h => h1 h.symm
      by_cases h3 : original = z <;> by_cases h4 : new = z <;> simp_all
    · have h2' : ¬ current = original := fun h => h2 h.symm
      by_cases h3 : original = z <;> by_cases h5 : current = z <;> by_cases h4 : new = z <;> by_cases h6 : new = original <;> simp_all

/-- C55.  However often a transaction writes to a slot, and whatever it writes: the refunds for the slot add up to a
number that is not negative (and at least the refund for clearing it while it is cleared). -/
theorem C55_refund (rev : Revision) (original : U256) : ∀ (writes : List (Bool × U256)) (current : U256),
    0 ≤ slotRefund rev getStorageStatus original current writes + (if original ≠ 0 ∧ current = 0 then clearRefund rev else 0) := by
  have hc : 0 < clearRefund rev := by unfold clearRefund; split <;> omega
  have hr : ∀ warm, 0 < restoreRefund rev warm := by intro warm; unfold restoreRefund; split <;> (try split) <;> omega
  intro writes
  induction writes with
  | nil => intro current; unfold slotRefund; split <;> omega
  | cons x rest ih =>
    obtain ⟨warm, new⟩ := x
    intro current
    have h := ih new
    have hrw := hr warm
    unfold slotRefund
    rw [C55_status]
    unfold storageStatus
    generalize (0 : U256) = z at h ⊢
    by_cases h1 : current = new
    · subst h1
      rw [if_pos rfl]
      show 0 ≤ 0 + _ + _
      omega
    · rw [if_neg h1]
      by_cases h2 : original = current
      · subst h2
        rw [if_pos rfl]
        by_cases h3 : original = z
        · subst h3
          rw [if_pos rfl]
          simp only [sstoreRefund]
          simp at h ⊢
          omega
        · rw [if_neg h3]
          by_cases h4 : new = z
          · subst h4
            rw [if_pos rfl]
            simp only [sstoreRefund]
            simp [h3] at h ⊢
            omega
          · rw [if_neg h4]
            simp only [sstoreRefund]
            simp [h3, h4] at h ⊢
            omega
      · rw [if_neg h2]
        by_cases h3 : original = z
        · subst h3
          rw [if_pos rfl]
          have h5 : (0 : Int) ≤ if rev ≥ BERLIN then 19900 else 19200 := by split <;> omega
          by_cases h4 : new = original
          · rw [if_pos h4]
            simp only [sstoreRefund]
            simp at h ⊢
            omega
          · rw [if_neg h4]
            simp only [sstoreRefund]
            simp at h ⊢
            omega
        · rw [if_neg h3]
          by_cases h5 : current = z
          · subst h5
            rw [if_pos rfl]
            by_cases h6 : new = original
            · subst h6
              rw [if_pos rfl]
              simp only [sstoreRefund]
              simp [h3] at h ⊢
              omega
            · rw [if_neg h6]
              have h4 : ¬ new = current := fun h => h1 h.symm
              simp only [sstoreRefund]
              simp [h3, h4] at h ⊢
              omega
          · rw [if_neg h5]
            by_cases h4 : new = z
            · subst h4
              rw [if_pos rfl]
              simp only [sstoreRefund]
              simp [h3, h5] at h ⊢
              omega
            · rw [if_neg h4]
              by_cases h6 : new = original
              · subst h6
                rw [if_pos rfl]
                simp only [sstoreRefund]
                simp [h3, h5] at h ⊢
                omega
              · rw [if_neg h6]
                simp only [sstoreRefund]
                simp [h4, h5] at h ⊢
                omega

/-- C55.  In particular, from the original value on. -/
theorem C55_refund_from_original (rev : Revision) (original : U256) (writes : List (Bool × U256)) :
    0 ≤ slotRefund rev getStorageStatus original original writes := by
  have h := C55_refund rev original writes original
  rw [if_neg (fun h => h.1 h.2)] at h
  omega

/-- C55.  `SizeInWords` is the number of words, for every size. -/
theorem C55_sizeInWords (size : BitVec 64) : (sizeInWords size).toNat = (size.toNat + 31) / 32 := by
  have hs : size.toNat < 2 ^ 64 := size.isLt
  unfold sizeInWords
  split
  · rw [BitVec.toNat_ofNat]
    omega
  · rw [BitVec.toNat_ofNat, BitVec.toNat_add]
    show ((size.toNat + 31) % 2 ^ 64) / 32 % 2 ^ 64 = _
    omega

/-! ### C56: intrinsic gas -/

/-- C56.  The gas charged before a transaction runs. -/
theorem C56_intrinsic {t : Transaction} (ht : TxOk t) : setupGasBilling t = intrinsicGas t := setupGasBilling_eq ht

/-! ### Examples -/

example : (add (BitVec.ofNat 256 (2 ^ 64 - 1)) 1).toNat = 2 ^ 64 := by rw [C53_add]; rfl
example : newValue [1, 2] = some (BitVec.ofNat 256 (2 ^ 64 + 2)) := by decide +kernel
example : bytesToText [0, 0x1f, 0xa0] = [48, 120, 48, 48, 49, 102, 97, 48] := by decide +kernel
example : textToBytes 2 [48, 120, 65, 98, 48, 49] = some [0xab, 1] := by decide +kernel
example : getStorageStatus 5 0 5 = .deletedRestored := by decide +kernel
/-- Clear, restore, change, clear. -/
example : slotRefund LONDON getStorageStatus 5 5 [(false, 0), (true, 5), (true, 7), (true, 0)] = 4800 - 2000 + 0 + 4800 := by decide +kernel
example : intrinsicGas { sender := 1, recipient := some 2, input := [0, 1, 0], accessList := some [⟨3, [1, 2]⟩] } =
    21000 + 2 * 4 + 16 + 2400 + 2 * 1900 := by decide +kernel

end Tosca

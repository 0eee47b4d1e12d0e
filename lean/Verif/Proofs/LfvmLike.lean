import Verif.Proofs.LfvmMem
import Verif.Proofs.LfvmWord
import Verif.Proofs.GoNative

/-!
# Reordering charges of the specification

Failing frames are all alike for a Go client, so the order in which an instruction's charges are made does not matter.
-/

namespace Tosca.Proofs.Lfvm

open Tosca.Spec Tosca.Spec.Go Tosca.Go

variable {ω α : Type} {s : State ω}

theorem like_fail (s s' : State ω) (f f' : Failure) : Like (s.fail f) (s'.fail f') := .inr ⟨failed_fail _ _, failed_fail _ _⟩

theorem like_of_failed {t t' : State ω} (h : Failed t) (h' : Failed t') : Like t t' := .inr ⟨h, h'⟩

theorem like_charge {n : Nat} {k k' : State ω → State ω} (h : Like (k { s with gas := s.gas - n }) (k' { s with gas := s.gas - n })) :
    Like (s.charge n k) (s.charge n k') := by
  unfold State.charge
  split
  · exact .refl _
  · exact h

theorem like_ask {f : ω → α × ω} {k k' : α → State ω → State ω} (h : ∀ a s', Like (k a s') (k' a s')) :
    Like (s.ask f k) (s.ask f k') := h _ _

theorem like_touch {o n : U256} {e : Nat} {k k' : State ω → State ω} (h : ∀ s', Like (k s') (k' s')) :
    Like (s.touch o n e k) (s.touch o n e k') := by
  unfold State.touch
  exact like_charge (h _)

theorem charge_zero (k : State ω → State ω) : s.charge 0 k = k s := by
  unfold State.charge
  rw [if_neg (by omega)]
  rfl

theorem charge_add (a b : Nat) (k : State ω → State ω) : s.charge (a + b) k = s.charge a fun s => s.charge b k := by
  unfold State.charge
  by_cases h : s.gas < a
  · rw [if_pos h, if_pos (by omega)]
  · rw [if_neg h]
    dsimp only
    by_cases h' : s.gas - a < b
    · rw [if_pos h', if_pos (by omega)]; rfl
    · rw [if_neg h', if_neg (by omega)]
      rw [show s.gas - (a + b) = s.gas - a - b by omega]

theorem charge_comm (a b : Nat) (k : State ω → State ω) :
    (s.charge a fun s => s.charge b k) = s.charge b fun s => s.charge a k := by
  rw [← charge_add, ← charge_add, Nat.add_comm]

theorem failed_of_charge {n : Nat} {k : State ω → State ω} (h : s.gas < n) : Failed (s.charge n k) := by
  unfold State.charge; rw [if_pos h]; exact failed_fail _ _

/-- The extra charge first. -/
theorem touch_first (o n : U256) (e : Nat) (k : State ω → State ω) : s.touch o n e k = s.charge e fun s => s.touch o n 0 k := by
  unfold State.touch
  rw [Nat.add_comm, charge_add]
  rfl

/-- The extra charge last. -/
theorem touch_last (o n : U256) (e : Nat) (k : State ω → State ω) : Like (s.touch o n e k) (s.touch o n 0 fun s => s.charge e k) := by
  unfold State.touch
  rw [charge_add]
  refine like_charge ?_
  dsimp only
  unfold State.charge
  dsimp only
  by_cases h : s.gas - s.mem.growGas (s.mem.sizeAfter o.toNat n.toNat) < e
  · rw [if_pos h, if_pos h]; exact like_fail _ _ _ _
  · rw [if_neg h, if_neg h]; exact .refl _

/-- A charge after touching memory, made before. -/
theorem touch_charge (o n : U256) (e : Nat) (k : State ω → State ω) :
    Like (s.touch o n 0 fun s => s.charge e k) (s.charge e fun s => s.touch o n 0 k) := by
  rw [← touch_first]
  exact (touch_last o n e k).symm

theorem ask_charge (f : ω → α × ω) (n : Nat) (k : α → State ω → State ω) :
    Like (s.ask f fun a s => s.charge n (k a)) (s.charge n fun s => s.ask f k) := by
  unfold State.ask State.charge
  dsimp only
  by_cases h : s.gas < n
  · rw [if_pos h, if_pos h]; exact like_fail _ _ _ _
  · rw [if_neg h, if_neg h]; exact .refl _

theorem pop1_charge {a : U256} {r : List U256} (hs : s.stack = a :: r) (n : Nat) (k : U256 → State ω → State ω) :
    Like (s.pop1 fun a s => s.charge n (k a)) (s.charge n fun s => s.pop1 k) := by
  unfold State.pop1 State.charge
  rw [hs]
  dsimp only
  by_cases h : s.gas < n
  · rw [if_pos h, if_pos h]; exact like_fail _ _ _ _
  · rw [if_neg h, if_neg h]; exact .refl _

theorem memGas_mono {a b : Nat} (h : a ≤ b) : memGas a ≤ memGas b := by
  unfold memGas
  have : a * a ≤ b * b := Nat.mul_le_mul h h
  omega

theorem words_mono {a b : Nat} (h : a ≤ b) : words a ≤ words b := by unfold words; omega

theorem expand_max (m : Mem) (o n o' n' : Nat) :
    (m.expand o n).sizeAfter o' n' = max (m.sizeAfter o n) (m.sizeAfter o' n') := by
  unfold Mem.expand Mem.sizeAfter
  dsimp only
  split <;> split <;> omega

theorem expand_comm (m : Mem) (o n o' n' : Nat) : (m.expand o n).expand o' n' = (m.expand o' n').expand o n := by
  show ({ m with size := (m.expand o n).sizeAfter o' n' } : Mem) = { m with size := (m.expand o' n').sizeAfter o n }
  rw [expand_max, expand_max, Nat.max_comm]

theorem grow_split (m : Mem) (o n o' n' : Nat) :
    m.growGas (max (m.sizeAfter o n) (m.sizeAfter o' n')) =
      m.growGas (m.sizeAfter o n) + (m.expand o n).growGas ((m.expand o n).sizeAfter o' n') := by
  rw [expand_max]
  unfold Mem.growGas Mem.expand
  dsimp only
  have h1 := memGas_mono (words_mono (sizeAfter_mono m o n))
  have h2 := memGas_mono (words_mono (Nat.le_max_left (m.sizeAfter o n) (m.sizeAfter o' n')))
  omega

/-- Two ranges, one after the other. -/
theorem touch2_split (o n o' n' : U256) (k : State ω → State ω) :
    Like (s.touch2 o n o' n' 0 k) (s.touch o n 0 fun s => s.touch o' n' 0 k) := by
  unfold State.touch2 State.touch
  rw [grow_split, Nat.add_zero, Nat.add_zero, charge_add]
  refine like_charge ?_
  dsimp only
  rw [Nat.add_zero]
  unfold State.charge
  dsimp only
  generalize (s.mem.expand o.toNat n.toNat).growGas ((s.mem.expand o.toNat n.toNat).sizeAfter o'.toNat n'.toNat) = G
  by_cases h : s.gas - s.mem.growGas (s.mem.sizeAfter o.toNat n.toNat) < G
  · rw [if_pos h, if_pos h]; exact like_fail _ _ _ _
  · rw [if_neg h, if_neg h]; exact .refl _

theorem touch2_comm (o n o' n' : U256) (e : Nat) (k : State ω → State ω) : s.touch2 o n o' n' e k = s.touch2 o' n' o n e k := by
  unfold State.touch2
  rw [Nat.max_comm, show (fun s : State ω => k { s with mem := (s.mem.expand o.toNat n.toNat).expand o'.toNat n'.toNat }) =
    fun s : State ω => k { s with mem := (s.mem.expand o'.toNat n'.toNat).expand o.toNat n.toNat } from by
      funext s; rw [expand_comm]]

theorem touch2_first (o n o' n' : U256) (e : Nat) (k : State ω → State ω) :
    s.touch2 o n o' n' e k = s.charge e fun s => s.touch2 o n o' n' 0 k := by
  unfold State.touch2
  rw [Nat.add_comm, charge_add]
  rfl

/-- A range that cannot be paid for. -/
theorem touch_poor {o n : U256} {e : Nat} {k : State ω → State ω} (h : s.gas < s.mem.growGas (s.mem.sizeAfter o.toNat n.toNat)) :
    Failed (s.touch o n e k) := failed_of_charge (by omega)

end Tosca.Proofs.Lfvm

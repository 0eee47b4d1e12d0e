import Verif.Model.LfvmKeccak
import Verif.Spec.Keccak

/-!
# Keccak-256 of the long-form EVM is Keccak-256
-/

namespace Tosca.Proofs.Lfvm.Keccak

open Tosca.Model.Lfvm.Keccak

/-- The local variables that hold a state. -/
def vars (a : Spec.Keccak.Lanes) : Lanes :=
  ⟨a 0 0, a 1 0, a 2 0, a 3 0, a 4 0, a 0 1, a 1 1, a 2 1, a 3 1, a 4 1, a 0 2, a 1 2, a 2 2, a 3 2, a 4 2, a 0 3, a 1 3, a 2 3, a 3 3, a 4 3, a 0 4, a 1 4, a 2 4, a 3 4, a 4 4⟩

theorem rotate (x : BitVec 64) {s : Nat} (h : s < 64) : rol x s = x.rotateLeft s := by
  unfold rol BitVec.rotateLeft BitVec.rotateLeftAux
  rw [Nat.mod_eq_of_lt h]

theorem rho00 (a : Spec.Keccak.Lanes) : Spec.Keccak.rho a 0 0 = a 0 0 := by
  unfold Spec.Keccak.rho
  rw [show Spec.Keccak.offset 0 0 = 0 by decide +kernel]
  show (a 0 0 <<< 0) ||| (a 0 0 >>> 64) = a 0 0
  rw [show a 0 0 >>> 64 = 0#64 from BitVec.ushiftRight_eq_zero (by decide)]
  simp

theorem rho10 (a : Spec.Keccak.Lanes) : Spec.Keccak.rho a 1 0 = rol (a 1 0) 1 := by
  unfold Spec.Keccak.rho
  rw [show Spec.Keccak.offset 1 0 = 1 by decide +kernel]
  exact (rotate _ (by decide)).symm

theorem rho20 (a : Spec.Keccak.Lanes) : Spec.Keccak.rho a 2 0 = rol (a 2 0) 62 := by
  unfold Spec.Keccak.rho
  rw [show Spec.Keccak.offset 2 0 = 62 by decide +kernel]
  exact (rotate _ (by decide)).symm

theorem rho30 (a : Spec.Keccak.Lanes) : Spec.Keccak.rho a 3 0 = rol (a 3 0) 28 := by
  unfold Spec.Keccak.rho
  rw [show Spec.Keccak.offset 3 0 = 28 by decide +kernel]
  exact (rotate _ (by decide)).symm

theorem rho40 (a : Spec.Keccak.Lanes) : Spec.Keccak.rho a 4 0 = rol (a 4 0) 27 := by
  unfold Spec.Keccak.rho
  rw [show Spec.Keccak.offset 4 0 = 27 by decide +kernel]
  exact (rotate _ (by decide)).symm

theorem rho01 (a : Spec.Keccak.Lanes) : Spec.Keccak.rho a 0 1 = rol (a 0 1) 36 := by
  unfold Spec.Keccak.rho
  rw [show Spec.Keccak.offset 0 1 = 36 by decide +kernel]
  exact (rotate _ (by decide)).symm

theorem rho11 (a : Spec.Keccak.Lanes) : Spec.Keccak.rho a 1 1 = rol (a 1 1) 44 := by
  unfold Spec.Keccak.rho
  rw [show Spec.Keccak.offset 1 1 = 44 by decide +kernel]
  exact (rotate _ (by decide)).symm

theorem rho21 (a : Spec.Keccak.Lanes) : Spec.Keccak.rho a 2 1 = rol (a 2 1) 6 := by
  unfold Spec.Keccak.rho
  rw [show Spec.Keccak.offset 2 1 = 6 by decide +kernel]
  exact (rotate _ (by decide)).symm

theorem rho31 (a : Spec.Keccak.Lanes) : Spec.Keccak.rho a 3 1 = rol (a 3 1) 55 := by
  unfold Spec.Keccak.rho
  rw [show Spec.Keccak.offset 3 1 = 55 by decide +kernel]
  exact (rotate _ (by decide)).symm

theorem rho41 (a : Spec.Keccak.Lanes) : Spec.Keccak.rho a 4 1 = rol (a 4 1) 20 := by
  unfold Spec.Keccak.rho
  rw [show Spec.Keccak.offset 4 1 = 20 by decide +kernel]
  exact (rotate _ (by decide)).symm

theorem rho02 (a : Spec.Keccak.Lanes) : Spec.Keccak.rho a 0 2 = rol (a 0 2) 3 := by
  unfold Spec.Keccak.rho
  rw [show Spec.Keccak.offset 0 2 = 3 by decide +kernel]
  exact (rotate _ (by decide)).symm

theorem rho12 (a : Spec.Keccak.Lanes) : Spec.Keccak.rho a 1 2 = rol (a 1 2) 10 := by
  unfold Spec.Keccak.rho
  rw [show Spec.Keccak.offset 1 2 = 10 by decide +kernel]
  exact (rotate _ (by decide)).symm

theorem rho22 (a : Spec.Keccak.Lanes) : Spec.Keccak.rho a 2 2 = rol (a 2 2) 43 := by
  unfold Spec.Keccak.rho
  rw [show Spec.Keccak.offset 2 2 = 43 by decide +kernel]
  exact (rotate _ (by decide)).symm

theorem rho32 (a : Spec.Keccak.Lanes) : Spec.Keccak.rho a 3 2 = rol (a 3 2) 25 := by
  unfold Spec.Keccak.rho
  rw [show Spec.Keccak.offset 3 2 = 25 by decide +kernel]
  exact (rotate _ (by decide)).symm

theorem rho42 (a : Spec.Keccak.Lanes) : Spec.Keccak.rho a 4 2 = rol (a 4 2) 39 := by
  unfold Spec.Keccak.rho
  rw [show Spec.Keccak.offset 4 2 = 39 by decide +kernel]
  exact (rotate _ (by decide)).symm

theorem rho03 (a : Spec.Keccak.Lanes) : Spec.Keccak.rho a 0 3 = rol (a 0 3) 41 := by
  unfold Spec.Keccak.rho
  rw [show Spec.Keccak.offset 0 3 = 41 by decide +kernel]
  exact (rotate _ (by decide)).symm

theorem rho13 (a : Spec.Keccak.Lanes) : Spec.Keccak.rho a 1 3 = rol (a 1 3) 45 := by
  unfold Spec.Keccak.rho
  rw [show Spec.Keccak.offset 1 3 = 45 by decide +kernel]
  exact (rotate _ (by decide)).symm

theorem rho23 (a : Spec.Keccak.Lanes) : Spec.Keccak.rho a 2 3 = rol (a 2 3) 15 := by
  unfold Spec.Keccak.rho
  rw [show Spec.Keccak.offset 2 3 = 15 by decide +kernel]
  exact (rotate _ (by decide)).symm

theorem rho33 (a : Spec.Keccak.Lanes) : Spec.Keccak.rho a 3 3 = rol (a 3 3) 21 := by
  unfold Spec.Keccak.rho
  rw [show Spec.Keccak.offset 3 3 = 21 by decide +kernel]
  exact (rotate _ (by decide)).symm

theorem rho43 (a : Spec.Keccak.Lanes) : Spec.Keccak.rho a 4 3 = rol (a 4 3) 8 := by
  unfold Spec.Keccak.rho
  rw [show Spec.Keccak.offset 4 3 = 8 by decide +kernel]
  exact (rotate _ (by decide)).symm

theorem rho04 (a : Spec.Keccak.Lanes) : Spec.Keccak.rho a 0 4 = rol (a 0 4) 18 := by
  unfold Spec.Keccak.rho
  rw [show Spec.Keccak.offset 0 4 = 18 by decide +kernel]
  exact (rotate _ (by decide)).symm

theorem rho14 (a : Spec.Keccak.Lanes) : Spec.Keccak.rho a 1 4 = rol (a 1 4) 2 := by
  unfold Spec.Keccak.rho
  rw [show Spec.Keccak.offset 1 4 = 2 by decide +kernel]
  exact (rotate _ (by decide)).symm

theorem rho24 (a : Spec.Keccak.Lanes) : Spec.Keccak.rho a 2 4 = rol (a 2 4) 61 := by
  unfold Spec.Keccak.rho
  rw [show Spec.Keccak.offset 2 4 = 61 by decide +kernel]
  exact (rotate _ (by decide)).symm

theorem rho34 (a : Spec.Keccak.Lanes) : Spec.Keccak.rho a 3 4 = rol (a 3 4) 56 := by
  unfold Spec.Keccak.rho
  rw [show Spec.Keccak.offset 3 4 = 56 by decide +kernel]
  exact (rotate _ (by decide)).symm

theorem rho44 (a : Spec.Keccak.Lanes) : Spec.Keccak.rho a 4 4 = rol (a 4 4) 14 := by
  unfold Spec.Keccak.rho
  rw [show Spec.Keccak.offset 4 4 = 14 by decide +kernel]
  exact (rotate _ (by decide)).symm


theorem theta_eq (a : Spec.Keccak.Lanes) (x y : Nat) : Spec.Keccak.theta a x y =
    a x y ^^^ ((a ((x + 4) % 5) 0 ^^^ a ((x + 4) % 5) 1 ^^^ a ((x + 4) % 5) 2 ^^^ a ((x + 4) % 5) 3 ^^^ a ((x + 4) % 5) 4) ^^^
      rol (a ((x + 1) % 5) 0 ^^^ a ((x + 1) % 5) 1 ^^^ a ((x + 1) % 5) 2 ^^^ a ((x + 1) % 5) 3 ^^^ a ((x + 1) % 5) 4) 1) := rfl

theorem round0_ok (a : Spec.Keccak.Lanes) (n : Nat) : round0 (vars a) (Spec.Keccak.roundConstant n) = vars (Spec.Keccak.round n a) := by
  unfold Spec.Keccak.round
  simp only [round0, vars, Spec.Keccak.iota, Spec.Keccak.chi, Spec.Keccak.pi, theta_eq, Nat.reduceAdd, Nat.reduceMul, Nat.reduceMod, Nat.reduceEqDiff,
    Nat.zero_add, reduceCtorEq, and_self, and_false, false_and, if_true, if_false, rho00, rho10, rho20, rho30, rho40, rho01, rho11, rho21, rho31, rho41, rho02, rho12, rho22, rho32, rho42, rho03, rho13, rho23, rho33, rho43, rho04, rho14, rho24, rho34, rho44]

theorem round1_ok (a : Spec.Keccak.Lanes) (n : Nat) : round1 (vars a) (Spec.Keccak.roundConstant n) = vars (Spec.Keccak.round n a) := by
  unfold Spec.Keccak.round
  simp only [round1, vars, Spec.Keccak.iota, Spec.Keccak.chi, Spec.Keccak.pi, theta_eq, Nat.reduceAdd, Nat.reduceMul, Nat.reduceMod, Nat.reduceEqDiff,
    Nat.zero_add, reduceCtorEq, and_self, and_false, false_and, if_true, if_false, rho00, rho10, rho20, rho30, rho40, rho01, rho11, rho21, rho31, rho41, rho02, rho12, rho22, rho32, rho42, rho03, rho13, rho23, rho33, rho43, rho04, rho14, rho24, rho34, rho44]


theorem constants (n : Nat) (h : n < 24) : roundConstants.getD n 0 = Spec.Keccak.roundConstant n := by
  have : ∀ n : Fin 24, roundConstants.getD n.1 0 = Spec.Keccak.roundConstant n.1 := by decide +kernel
  exact this ⟨n, h⟩

theorem rounds_ok : ∀ (k n : Nat) (a : Spec.Keccak.Lanes), n + 2 * k ≤ 24 →
    rounds k n (vars a) = vars ((List.range' n (2 * k)).foldl (fun a n => Spec.Keccak.round n a) a) := by
  intro k
  induction k with
  | zero => intro n a _; rfl
  | succ k ih =>
    intro n a h
    unfold rounds
    rw [constants n (by omega), constants (n + 1) (by omega), round0_ok, round1_ok, ih (n + 2) _ (by omega),
      show 2 * (k + 1) = (2 * k + 1) + 1 by omega, List.range'_succ, List.range'_succ]
    rfl

/-- The array that holds a state. -/
def Holds (state : Array25) (a : Spec.Keccak.Lanes) : Prop := ∀ x y, x < 5 → y < 5 → state (x + 5 * y) = a x y

theorem load_ok {state : Array25} {a : Spec.Keccak.Lanes} (h : Holds state a) : load state = vars a := by
  unfold load vars
  rw [← h 0 0 (by decide) (by decide), ← h 1 0 (by decide) (by decide), ← h 2 0 (by decide) (by decide), ← h 3 0 (by decide) (by decide), ← h 4 0 (by decide) (by decide), ← h 0 1 (by decide) (by decide), ← h 1 1 (by decide) (by decide), ← h 2 1 (by decide) (by decide), ← h 3 1 (by decide) (by decide), ← h 4 1 (by decide) (by decide), ← h 0 2 (by decide) (by decide), ← h 1 2 (by decide) (by decide), ← h 2 2 (by decide) (by decide), ← h 3 2 (by decide) (by decide), ← h 4 2 (by decide) (by decide), ← h 0 3 (by decide) (by decide), ← h 1 3 (by decide) (by decide), ← h 2 3 (by decide) (by decide), ← h 3 3 (by decide) (by decide), ← h 4 3 (by decide) (by decide), ← h 0 4 (by decide) (by decide), ← h 1 4 (by decide) (by decide), ← h 2 4 (by decide) (by decide), ← h 3 4 (by decide) (by decide), ← h 4 4 (by decide) (by decide)]

theorem store_ok (a : Spec.Keccak.Lanes) : Holds (store (vars a)) a := by
  intro x y hx hy
  have hx : x = 0 ∨ x = 1 ∨ x = 2 ∨ x = 3 ∨ x = 4 := by omega
  have hy : y = 0 ∨ y = 1 ∨ y = 2 ∨ y = 3 ∨ y = 4 := by omega
  rcases hx with rfl | rfl | rfl | rfl | rfl <;> rcases hy with rfl | rfl | rfl | rfl | rfl <;> rfl

theorem keccakf_ok {state : Array25} {a : Spec.Keccak.Lanes} (h : Holds state a) : Holds (keccakf state) (Spec.Keccak.f a) := by
  unfold keccakf
  rw [load_ok h, rounds_ok 12 0 a (by decide)]
  have : (List.range' 0 (2 * 12)).foldl (fun a n => Spec.Keccak.round n a) a = Spec.Keccak.f a := by
    unfold Spec.Keccak.f
    rw [List.range_eq_range']
  rw [this]
  exact store_ok _

/-! ### Words -/

theorem loadLe_toNat (d : List Byte) : (loadLe d).toNat =
    (d.getD 0 0).toNat + 256 * ((d.getD 1 0).toNat + 256 * ((d.getD 2 0).toNat + 256 * ((d.getD 3 0).toNat + 256 * ((d.getD 4 0).toNat +
      256 * ((d.getD 5 0).toNat + 256 * ((d.getD 6 0).toNat + 256 * ((d.getD 7 0).toNat + 256 * 0))))))) := by
  unfold loadLe
  have key : ∀ {w : Nat} (a : BitVec w) (b : Byte), (a ++ b).toNat = b.toNat + 256 * a.toNat := by
    intro w a b
    rw [BitVec.toNat_append, Nat.shiftLeft_eq, Nat.mul_comm, show (2 : Nat) ^ 8 = 256 from rfl, Nat.add_comm, ← Nat.two_pow_add_eq_or_of_lt (i := 8) b.isLt]
  simp only [key]
  omega

theorem lane_ok (m : List Byte) (i : Nat) : Spec.Keccak.lane m i = loadLe (m.drop (8 * i)) := by
  apply BitVec.eq_of_toNat_eq
  have hb := (loadLe (m.drop (8 * i))).isLt
  rw [loadLe_toNat] at hb ⊢
  unfold Spec.Keccak.lane
  have hg : ∀ k, (m.drop (8 * i)).getD k 0 = m.getD (8 * i + k) 0 := by
    intro k
    rw [List.getD_eq_getElem?_getD, List.getD_eq_getElem?_getD, List.getElem?_drop]
  simp only [hg] at hb ⊢
  rw [BitVec.toNat_ofNat]
  exact Nat.mod_eq_of_lt hb

theorem xorWords_get : ∀ (n i : Nat) (data : List Byte) (state : Array25) (j : Nat),
    xorWords n i data state j = if i ≤ j ∧ j < i + n then state j ^^^ loadLe (data.drop (8 * (j - i))) else state j := by
  intro n
  induction n with
  | zero => intro i data state j; rw [if_neg (by omega)]; rfl
  | succ n ih =>
    intro i data state j
    unfold xorWords
    rw [ih]
    unfold upd
    by_cases h0 : j = i
    · subst h0
      rw [if_neg (by omega), if_pos rfl, if_pos (by omega), Nat.sub_self]
      rfl
    · rw [if_neg h0]
      by_cases h1 : i + 1 ≤ j ∧ j < i + 1 + n
      · rw [if_pos h1, if_pos (by omega), List.drop_drop]
        congr 3
        omega
      · rw [if_neg h1, if_neg (by omega)]

end Tosca.Proofs.Lfvm.Keccak

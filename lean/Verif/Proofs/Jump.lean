import Verif.Model.Opcodes
import Verif.Spec.Instr

/-!
# The jump-target analysis marks exactly the JUMPDESTs on instruction boundaries
-/

namespace Tosca.Proofs

open Tosca.Model Tosca.Spec

/-- Length of the instruction a byte starts. -/
def byteLen (b : Nat) : Nat := match decode b with
  | some i => i.length
  | none => 1

theorem byteLen_eq' : ∀ b : Fin 256,
    byteLen b.val = if 0x60 ≤ b.val ∧ b.val ≤ 0x7f then b.val - 0x60 + 1 + 1 else 1 := by
  decide +kernel

theorem byteLen_eq (b : Byte) :
    byteLen b.toNat = if 0x60 ≤ b.toNat ∧ b.toNat ≤ 0x7f then b.toNat - 0x60 + 1 + 1 else 1 :=
  byteLen_eq' ⟨b.toNat, b.isLt⟩

theorem byteLen_pos (b : Byte) : 0 < byteLen b.toNat := by
  rw [byteLen_eq]; split <;> omega

/-- The next instruction boundary. -/
def nxt (code : List Byte) (p : Nat) : Nat := p + byteLen (code.getD p 0).toNat

theorem lt_nxt (code : List Byte) (p : Nat) : p < nxt code p := by
  have := byteLen_pos (code.getD p 0); unfold nxt; omega

/-- The `k`-th boundary. -/
def bnd (code : List Byte) : Nat → Nat
  | 0 => 0
  | k + 1 => nxt code (bnd code k)

theorem bnd_lt (code : List Byte) {j k : Nat} (h : j < k) : bnd code j < bnd code k := by
  induction k with
  | zero => omega
  | succ k ih =>
    have := lt_nxt code (bnd code k)
    show bnd code j < nxt code (bnd code k)
    by_cases hjk : j = k
    · subst hjk; exact this
    · have := ih (by omega); omega

theorem bnd_le (code : List Byte) {j k : Nat} (h : j ≤ k) : bnd code j ≤ bnd code k := by
  by_cases hjk : j = k
  · subst hjk; exact Nat.le_refl _
  · exact Nat.le_of_lt (bnd_lt code (by omega))

theorem bnd_inj_lt (code : List Byte) {j k : Nat} (h : bnd code j < bnd code k) : j < k := by
  apply Classical.byContradiction
  intro hc
  have := bnd_le code (show k ≤ j by omega)
  omega

theorem getD_eq (code : List Byte) (p : Nat) (h : p < code.length) : code.getD p 0 = code[p] := by
  simp [h]

theorem boundary_next (code : List Byte) (p : Nat) (h : Boundary code p) (hp : p < code.length) :
    Boundary code (nxt code p) := by
  unfold nxt byteLen
  rw [getD_eq code p hp]
  cases hd : decode code[p].toNat with
  | none => exact .unassigned h hp hd
  | some i => exact .next h hp hd

theorem boundary_bnd (code : List Byte) (p : Nat) (h : Boundary code p) : ∃ k, bnd code k = p := by
  induction h with
  | zero => exact ⟨0, rfl⟩
  | next _ hp hd ih =>
    obtain ⟨k, rfl⟩ := ih
    refine ⟨k + 1, ?_⟩
    show nxt code (bnd code k) = _
    unfold nxt byteLen
    rw [getD_eq code _ hp, hd]
  | unassigned _ hp hd ih =>
    obtain ⟨k, rfl⟩ := ih
    refine ⟨k + 1, ?_⟩
    show nxt code (bnd code k) = _
    unfold nxt byteLen
    rw [getD_eq code _ hp, hd]

/-- No boundary lies strictly inside an instruction. -/
theorem boundary_gap (code : List Byte) (p q : Nat) (hp : Boundary code p) (hq : Boundary code q)
    (h : p < q) : nxt code p ≤ q := by
  obtain ⟨j, rfl⟩ := boundary_bnd code p hp
  obtain ⟨k, rfl⟩ := boundary_bnd code q hq
  exact bnd_le code (show j + 1 ≤ k from bnd_inj_lt code h)

structure LoopInv (code : List Byte) (i : Nat) (ts : List Byte) : Prop where
  len : ts.length = code.length
  bnd : Boundary code i
  done : ∀ d, d < i → (ts.getD d 0 ≠ 0 ↔ JumpTarget code d)
  todo : ∀ d, i ≤ d → ts.getD d 0 = 0

theorem getD_set (l : List Byte) (i d : Nat) (v : Byte) (h : i < l.length) :
    (l.set i v).getD d 0 = if d = i then v else l.getD d 0 := by
  simp only [List.getD_eq_getElem?_getD]
  by_cases hd : d = i
  · subst hd; simp [h]
  · simp [Ne.symm hd, hd]

theorem jumpLoop_inv (code : List Byte) (fuel : Nat) : ∀ (i : Nat) (ts : List Byte),
    LoopInv code i ts → code.length ≤ i + fuel →
    (jumpTargetsLoop code fuel i ts).length = code.length ∧
    ∀ d, ((jumpTargetsLoop code fuel i ts).getD d 0 ≠ 0 ↔ JumpTarget code d) := by
  have fin : ∀ i ts, LoopInv code i ts → code.length ≤ i →
      ts.length = code.length ∧ ∀ d, (ts.getD d 0 ≠ 0 ↔ JumpTarget code d) := by
    intro i ts h hi
    refine ⟨h.len, fun d => ?_⟩
    by_cases hd : d < i
    · exact h.done d hd
    · rw [h.todo d (by omega)]
      constructor
      · intro hc; exact absurd rfl hc
      · rintro ⟨h1, _⟩; omega
  induction fuel with
  | zero =>
    intro i ts h hi
    exact fin i ts h (by omega)
  | succ fuel ih =>
    intro i ts h hi
    unfold jumpTargetsLoop
    by_cases hlt : i < code.length
    · rw [if_pos hlt]
      have hb := boundary_next code i h.bnd hlt
      have hb' := hb
      unfold nxt at hb'
      rw [byteLen_eq] at hb'
      dsimp only
      by_cases hp : 0x60 ≤ (code.getD i 0).toNat ∧ (code.getD i 0).toNat ≤ 0x7f
      · rw [if_pos hp]
        rw [if_pos hp, ← Nat.add_assoc] at hb'
        refine ih _ _ ⟨h.len, hb', fun d hd => ?_, fun d hd => h.todo d (by omega)⟩ (by omega)
        by_cases hdi : d < i
        · exact h.done d hdi
        · rw [h.todo d (by omega)]
          constructor
          · intro hc; exact absurd rfl hc
          · rintro ⟨h1, h2, h3⟩
            by_cases he : d = i
            · subst he
              rw [getD_eq code d hlt] at hp
              omega
            · have hgap := boundary_gap code i d h.bnd h3 (by omega)
              unfold nxt at hgap
              rw [byteLen_eq, if_pos hp] at hgap
              omega
      · rw [if_neg hp]
        rw [if_neg hp] at hb'
        refine ih _ _ ⟨by simp [h.len], hb', fun d hd => ?_, fun d hd => ?_⟩ (by omega)
        · rw [getD_set _ _ _ _ (by rw [h.len]; exact hlt)]
          by_cases he : d = i
          · subst he
            rw [if_pos rfl, getD_eq code d hlt]
            by_cases h5 : code[d].toNat = 0x5B
            · rw [if_pos h5]
              exact ⟨fun _ => ⟨hlt, h5, h.bnd⟩, fun _ => by decide⟩
            · rw [if_neg h5]
              constructor
              · intro hc; exact absurd rfl hc
              · rintro ⟨_, h2, _⟩; exact absurd h2 h5
          · rw [if_neg he]
            exact h.done d (by omega)
        · rw [getD_set _ _ _ _ (by rw [h.len]; exact hlt), if_neg (by omega)]
          exact h.todo d (by omega)
    · rw [if_neg hlt]
      exact fin i ts h (by omega)

theorem jumpTargets_spec (code : List Byte) :
    (calculateValidJumpTargets code).length = code.length ∧
    ∀ d, ((calculateValidJumpTargets code).getD d 0 ≠ 0 ↔ JumpTarget code d) := by
  apply jumpLoop_inv code code.length 0
  · refine ⟨by simp, .zero, fun d hd => by omega, fun d _ => ?_⟩
    simp only [List.getD_eq_getElem?_getD, List.getElem?_replicate]
    split <;> rfl
  · omega

end Tosca.Proofs

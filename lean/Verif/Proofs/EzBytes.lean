import Verif.Model.EvmzeroCt
import Verif.Proofs.LfvmWord

/-!
# Stacks as bytes
-/

namespace Tosca.Proofs.Ez

open Tosca.Spec Tosca.Model Tosca.Model.EvmzeroCt Tosca.Proofs.Lfvm

theorem bytes32_length (v : U256) : (Lfvm.bytes32 v).length = 32 := by
  unfold Lfvm.bytes32
  rw [List.length_map, List.length_range]

theorem flat_length (l : List U256) : (l.flatMap Lfvm.bytes32).length = 32 * l.length := by
  induction l with
  | nil => rfl
  | cons a r ih => rw [List.flatMap_cons, List.length_append, bytes32_length, ih, List.length_cons]; omega

theorem copyAt_end (A b : List Byte) (k : Nat) (h : b.length = 32) :
    Model.Ct.copyAt (A ++ List.replicate ((k + 1) * 32) 0) A.length b = A ++ b ++ List.replicate (k * 32) 0 := by
  unfold Model.Ct.copyAt
  rw [List.take_append_of_le_length (Nat.le_refl _), List.take_length,
    List.take_of_length_le (by rw [List.length_append, List.length_replicate]; omega), List.drop_append, List.drop_of_length_le (by omega), List.nil_append,
    List.drop_replicate]
  congr 2
  omega

theorem stackLoop_eq (stack : List U256) : ∀ i, i ≤ stack.length →
    stackLoop stack i ((stack.drop i).reverse.flatMap Lfvm.bytes32 ++ List.replicate (i * 32) 0) = stack.reverse.flatMap Lfvm.bytes32 := by
  intro i
  induction i with
  | zero => intro _; unfold stackLoop; simp
  | succ i ih =>
    intro h
    unfold stackLoop
    rw [← ih (by omega)]
    have hl : stack.length * 32 - (i + 1) * 32 = ((stack.drop (i + 1)).reverse.flatMap Lfvm.bytes32).length := by
      rw [flat_length, List.length_reverse, List.length_drop]; omega
    have e : stack.drop i = stack.getD i 0 :: stack.drop (i + 1) := by
      rw [List.drop_eq_getElem_cons (by omega), List.getD_eq_getElem?_getD, List.getElem?_eq_getElem (by omega)]
      rfl
    rw [hl, copyAt_end _ _ _ (bytes32_length _), e, List.reverse_cons, List.flatMap_append]
    simp

theorem stackBytes_eq (stack : List U256) : stackBytes stack = stack.reverse.flatMap Lfvm.bytes32 := by
  have := stackLoop_eq stack stack.length (Nat.le_refl _)
  rw [List.drop_length] at this
  exact this

theorem word_back (v : U256) : Lfvm.setBytes (Lfvm.bytes32 v) = v := by
  have : Lfvm.setBytes (Lfvm.bytes32 v) = Model.ofLeBytes (Lfvm.bytes32 v).reverse := by
    unfold Lfvm.setBytes Model.ofLeBytes
    rw [List.foldr_reverse]
  rw [this, l_bytes32, ← leBytes_reverse, List.reverse_reverse, ofLeBytes_leBytes]

theorem wordsOf_eq (l : List U256) : wordsOf l.length (l.flatMap Lfvm.bytes32) = l := by
  induction l with
  | nil => rfl
  | cons a r ih =>
    show Lfvm.setBytes ((Lfvm.bytes32 a ++ r.flatMap Lfvm.bytes32).take 32) :: wordsOf r.length ((Lfvm.bytes32 a ++ r.flatMap Lfvm.bytes32).drop 32) = _
    rw [List.take_append_of_le_length (by rw [bytes32_length]; omega), List.take_of_length_le (by rw [bytes32_length]; omega),
      List.drop_append, List.drop_of_length_le (by rw [bytes32_length]; omega), bytes32_length, word_back]
    show _ :: wordsOf r.length ((r.flatMap Lfvm.bytes32).drop 0) = _
    rw [List.drop_zero, ih]

theorem sent_words (stack : List U256) : wordsOf ((stackBytes stack).length / 32) (stackBytes stack) = stack.reverse := by
  rw [stackBytes_eq, flat_length, Nat.mul_div_cancel_left _ (by decide)]
  exact wordsOf_eq stack.reverse

theorem pushLoop_eq (l : List U256) : ∀ fuel, 32 * l.length ≤ fuel → ∀ out, pushLoop fuel (l.flatMap Lfvm.bytes32) out = l.reverse ++ out := by
  induction l with
  | nil =>
    intro fuel _ out
    cases fuel <;> simp [pushLoop]
  | cons a r ih =>
    intro fuel hf out
    rw [List.length_cons] at hf
    obtain ⟨fuel, rfl⟩ : ∃ k, fuel = k + 1 := ⟨fuel - 1, by omega⟩
    unfold pushLoop
    rw [if_neg (by rw [flat_length, List.length_cons]; omega), List.flatMap_cons,
      List.take_append_of_le_length (by rw [bytes32_length]; omega), List.take_of_length_le (by rw [bytes32_length]; omega),
      List.drop_append, List.drop_of_length_le (by rw [bytes32_length]; omega), bytes32_length, word_back, Nat.sub_self, List.drop_zero, List.nil_append,
      ih fuel (by omega)]
    simp

theorem ofStackBytes_eq (l : List U256) : ofStackBytes (l.flatMap Lfvm.bytes32) = some l.reverse := by
  unfold ofStackBytes
  rw [if_neg (by rw [flat_length]; omega), flat_length, pushLoop_eq l _ (Nat.le_refl _), List.append_nil]

end Tosca.Proofs.Ez

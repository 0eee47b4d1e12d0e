import Verif.Proofs.LfvmKeccak

/-!
# Keccak-256 of the long-form EVM: absorbing, padding and squeezing
-/

namespace Tosca.Proofs.Lfvm.Keccak

open Tosca Tosca.Model.Lfvm.Keccak

theorem loadLe_congr {a b : List Byte} (h : ∀ k < 8, a.getD k 0 = b.getD k 0) : loadLe a = loadLe b := by
  unfold loadLe
  rw [h 0 (by decide), h 1 (by decide), h 2 (by decide), h 3 (by decide), h 4 (by decide), h 5 (by decide), h 6 (by decide), h 7 (by decide)]

theorem loadLe_xor {a b c : List Byte} (h : ∀ k < 8, a.getD k 0 = b.getD k 0 ^^^ c.getD k 0) : loadLe a = loadLe b ^^^ loadLe c := by
  unfold loadLe
  rw [h 0 (by decide), h 1 (by decide), h 2 (by decide), h 3 (by decide), h 4 (by decide), h 5 (by decide), h 6 (by decide), h 7 (by decide)]
  have k : ∀ {w : Nat} (x x' : BitVec w) (y y' : Byte), (x ^^^ x') ++ (y ^^^ y') = (x ++ y) ^^^ (x' ++ y') := fun _ _ _ _ => BitVec.xor_append.symm
  rw [k, k, k, k, k, k, k]

theorem getD_drop (l : List Byte) (n k : Nat) : (l.drop n).getD k 0 = l.getD (n + k) 0 := by
  rw [List.getD_eq_getElem?_getD, List.getD_eq_getElem?_getD, List.getElem?_drop]

theorem xor_z {n : Nat} (x : BitVec n) : x ^^^ 0 = x := BitVec.xor_zero

theorem z_xor {n : Nat} (x : BitVec n) : 0 ^^^ x = x := BitVec.zero_xor

/-- A block added to the state. -/
theorem block_ok {state : Array25} {a : Spec.Keccak.Lanes} (h : Holds state a) {state' : Array25} {block : List Byte}
    (hs : ∀ j < 25, state' j = if j < 17 then state j ^^^ loadLe (block.drop (8 * j)) else state j) :
    Holds (keccakf state') (Spec.Keccak.absorbBlock a block) := by
  apply keccakf_ok
  intro x y hx hy
  rw [hs (x + 5 * y) (by omega)]
  by_cases hj : x + 5 * y < 17
  · simp only [hj, if_true]
    rw [lane_ok, h x y hx hy]
  · simp only [hj, if_false]
    exact h x y hx hy

theorem absorb_ok (m : List Byte) (tail : List Byte) : ∀ (n k : Nat) (state : Array25), 136 * (k + n) ≤ m.length →
    Holds state (Spec.Keccak.absorb (m ++ tail) k) →
    Holds (absorb n (m.drop (136 * k)) state).1 (Spec.Keccak.absorb (m ++ tail) (k + n)) ∧
      (absorb n (m.drop (136 * k)) state).2 = m.drop (136 * (k + n)) := by
  intro n
  induction n with
  | zero => intro k state _ h; exact ⟨h, rfl⟩
  | succ n ih =>
    intro k state hl h
    have e : (m.drop (136 * k)).drop 136 = m.drop (136 * (k + 1)) := by
      rw [List.drop_drop]
      congr 1
    have := ih (k + 1) (keccakf (xorWords 17 0 (m.drop (136 * k)) state)) (by omega) ?_
    · unfold absorb
      rw [e, show k + (n + 1) = k + 1 + n by omega]
      exact this
    · apply block_ok h
      intro j hj
      rw [xorWords_get]
      simp only [Nat.zero_le, true_and, Nat.zero_add, Nat.sub_zero]
      by_cases hj : j < 17
      · simp only [hj, if_true]
        congr 1
        apply loadLe_congr
        intro i hi
        rw [getD_drop, getD_drop, getD_drop]
        simp only [List.getD_eq_getElem?_getD, List.getElem?_take, List.getElem?_drop, Spec.Keccak.rate]
        rw [if_pos (by omega), List.getElem?_append_left (by omega)]
      · simp only [hj, if_false]

/-- The bytes of the last block. -/
theorem last_get (rest : List Byte) (h : rest.length < 136) (pad : List Byte)
    (hp : pad = (if 136 - rest.length = 1 then [0x81] else 0x01 :: (List.replicate (136 - rest.length - 2) 0 ++ [0x80]))) (k : Nat) (hk : k < 136) :
    (rest ++ pad).getD k 0 = (rest ++ [(0x01 : Byte)]).getD k 0 ^^^ (List.replicate 135 (0 : Byte) ++ [0x80]).getD k 0 := by
  simp only [List.getD_eq_getElem?_getD]
  by_cases h135 : k = 135
  · subst h135
    by_cases hr : rest.length = 135
    · rw [if_pos (by omega)] at hp
      subst hp
      rw [List.getElem?_append_right (by omega), List.getElem?_append_right (by omega), hr]
      rfl
    · rw [if_neg (by omega)] at hp
      subst hp
      rw [List.getElem?_append_right (by omega), List.getElem?_append_right (by omega), show 135 - rest.length = (136 - rest.length - 2) + 1 by omega,
        List.getElem?_cons_succ, List.getElem?_append_right (by simp)]
      simp
  · have hz : (List.replicate 135 (0 : Byte) ++ [0x80])[k]? = some 0 := by
      rw [List.getElem?_append_left (by simp; omega), List.getElem?_replicate, if_pos (by omega)]
    rw [hz]
    simp only [Option.getD_some, xor_z]
    by_cases hlt : k < rest.length
    · rw [List.getElem?_append_left hlt, List.getElem?_append_left hlt]
    · rw [List.getElem?_append_right (by omega), List.getElem?_append_right (by omega)]
      rw [if_neg (by omega)] at hp
      subst hp
      rcases Nat.eq_zero_or_pos (k - rest.length) with h0 | h0
      · rw [h0]; rfl
      · obtain ⟨d, hd⟩ : ∃ d, k - rest.length = d + 1 := ⟨k - rest.length - 1, by omega⟩
        rw [hd, List.getElem?_cons_succ, List.getElem?_cons_succ, List.getElem?_append_left (by simp; omega), List.getElem?_replicate, if_pos (by omega)]
        simp

theorem marker : ∀ j : Fin 17, loadLe ((List.replicate 135 (0 : Byte) ++ [0x80]).drop (8 * j.1)) = if j.1 = 16 then 0x8000000000000000 else 0 := by
  decide +kernel

/-- The state before the last permutation (keccak.h:368-385). -/
theorem final_get (rest : List Byte) (h : rest.length < 136) (state : Array25) (j : Nat) (hj : j < 25) (block : List Byte)
    (hb : ∀ k < 136, block.getD k 0 = (rest ++ [(0x01 : Byte)]).getD k 0 ^^^ (List.replicate 135 (0 : Byte) ++ [0x80]).getD k 0) :
    (let s1 := xorWords (rest.length / 8) 0 rest state
     let s2 := upd s1 (rest.length / 8) (s1 (rest.length / 8) ^^^ loadLe (rest.drop (8 * (rest.length / 8)) ++ [0x01]))
     upd s2 16 (s2 16 ^^^ 0x8000000000000000)) j = if j < 17 then state j ^^^ loadLe (block.drop (8 * j)) else state j := by
  have hw : rest.length / 8 ≤ 16 := by omega
  have h2 : ∀ i, (upd (xorWords (rest.length / 8) 0 rest state) (rest.length / 8) ((xorWords (rest.length / 8) 0 rest state) (rest.length / 8) ^^^
      loadLe (rest.drop (8 * (rest.length / 8)) ++ [0x01]))) i = if i < 17 then state i ^^^ loadLe ((rest ++ [(0x01 : Byte)]).drop (8 * i)) else state i := by
    intro i
    unfold upd
    rw [xorWords_get, xorWords_get]
    simp only [Nat.zero_le, true_and, Nat.zero_add, Nat.sub_zero, Nat.lt_irrefl, if_false]
    by_cases e : i = rest.length / 8
    · rw [if_pos e, e, if_pos (by omega), List.drop_append_of_le_length (by omega)]
    · rw [if_neg e]
      by_cases hl : i < rest.length / 8
      · rw [if_pos hl, if_pos (by omega)]
        congr 1
        apply loadLe_congr
        intro k hk
        rw [getD_drop, getD_drop, List.getD_eq_getElem?_getD, List.getD_eq_getElem?_getD, List.getElem?_append_left (by omega)]
      · rw [if_neg hl]
        split
        · rw [List.drop_eq_nil_of_le (by simp; omega)]
          exact (BitVec.xor_zero (x := state i)).symm
        · rfl
  simp only [] at h2 ⊢
  have hx : j < 17 → loadLe (block.drop (8 * j)) = loadLe ((rest ++ [(0x01 : Byte)]).drop (8 * j)) ^^^
      (if j = 16 then 0x8000000000000000 else 0) := by
    intro h17
    rw [← marker ⟨j, h17⟩]
    apply loadLe_xor
    intro k hk
    rw [getD_drop, getD_drop, getD_drop]
    exact hb _ (by omega)
  by_cases h16 : j = 16
  · subst h16
    rw [if_pos (by decide), hx (by decide), if_pos rfl, ← BitVec.xor_assoc]
    unfold upd at h2 ⊢
    rw [if_pos rfl]
    congr 1
    rw [h2 16, if_pos (by decide)]
  · have : ∀ (s : Array25) v, upd s 16 v j = s j := by intro s v; unfold upd; rw [if_neg h16]
    rw [this, h2 j]
    split
    · rename_i h17
      rw [hx h17, if_neg h16, xor_z]
    · rfl

theorem padded_eq (m : List Byte) : ∃ pad, Spec.Keccak.padded m = m ++ pad ∧
    pad = (if 136 - m.length % 136 = 1 then [0x81] else 0x01 :: (List.replicate (136 - m.length % 136 - 2) 0 ++ [0x80])) := ⟨_, rfl, rfl⟩

theorem padded_blocks (m : List Byte) : (Spec.Keccak.padded m).length = 136 * (m.length / 136 + 1) := by
  obtain ⟨pad, h, hp⟩ := padded_eq m
  have hlt : m.length % 136 < 136 := Nat.mod_lt _ (by decide)
  rw [h, List.length_append]
  have : pad.length = 136 - m.length % 136 := by
    split at hp
    · subst hp; simp; omega
    · subst hp; simp; omega
  omega

/-- The words of the hash. -/
theorem keccak_ok (m : List Byte) : keccak m =
    let a := Spec.Keccak.absorb (Spec.Keccak.padded m) ((Spec.Keccak.padded m).length / 136)
    [a 0 0, a 1 0, a 2 0, a 3 0] := by
  have hn : (Spec.Keccak.padded m).length / 136 = m.length / 136 + 1 := by
    rw [padded_blocks]; omega
  obtain ⟨pad, h, hp⟩ := padded_eq m
  have hlt : m.length % 136 < 136 := Nat.mod_lt _ (by decide)
  obtain ⟨h1, h2⟩ := absorb_ok m pad (m.length / 136) 0 (fun _ => 0) (by omega) (fun _ _ _ _ => rfl)
  simp only [Nat.mul_zero, List.drop_zero, Nat.zero_add] at h1 h2
  rw [← h] at h1
  have hlen : (m.drop (136 * (m.length / 136))).length = m.length % 136 := by
    rw [List.length_drop]; omega
  have hf := block_ok h1 (state' := _) (block := ((Spec.Keccak.padded m).drop (136 * (m.length / 136))).take 136)
    (fun j hj => final_get (m.drop (136 * (m.length / 136))) (by omega) (absorb (m.length / 136) m fun _ => 0).1 j hj _ (by
      intro k hk
      rw [← last_get _ (by omega) pad (by rw [hlen]; exact hp) k hk, h, List.drop_append_of_le_length (by omega)]
      rw [List.getD_eq_getElem?_getD, List.getD_eq_getElem?_getD, List.getElem?_take, if_pos hk]))
  have hk : keccak m = (let s1 := xorWords ((m.drop (136 * (m.length / 136))).length / 8) 0 (m.drop (136 * (m.length / 136))) (absorb (m.length / 136) m fun _ => 0).1
      let s2 := upd s1 ((m.drop (136 * (m.length / 136))).length / 8) (s1 ((m.drop (136 * (m.length / 136))).length / 8) ^^^
        loadLe ((m.drop (136 * (m.length / 136))).drop (8 * ((m.drop (136 * (m.length / 136))).length / 8)) ++ [0x01]))
      let s := keccakf (upd s2 16 (s2 16 ^^^ 0x8000000000000000))
      [s 0, s 1, s 2, s 3]) := by
    rw [← h2]
    rfl
  rw [hk, hn]
  exact congr (congrArg List.cons (hf 0 0 (by decide) (by decide))) (congr (congrArg List.cons (hf 1 0 (by decide) (by decide)))
    (congr (congrArg List.cons (hf 2 0 (by decide) (by decide))) (congrArg (· :: []) (hf 3 0 (by decide) (by decide)))))

/-- The bytes of the hash. -/
theorem keccak256_ok (m : List Byte) : keccak256 m = Spec.Keccak.keccak256 m := by
  unfold keccak256 Spec.Keccak.keccak256
  rw [keccak_ok]
  show bytesOf _ = (List.range 32).map (Spec.Keccak.byteOf (Spec.Keccak.absorb (Spec.Keccak.padded m) ((Spec.Keccak.padded m).length / 136)))
  generalize Spec.Keccak.absorb (Spec.Keccak.padded m) ((Spec.Keccak.padded m).length / 136) = a
  rfl

theorem pack_aux (b7 b6 b5 b4 b3 b2 b1 b0 : Byte) :
    ((b7.setWidth 64 <<< 56) ||| (b6.setWidth 64 <<< 48) ||| (b5.setWidth 64 <<< 40) ||| (b4.setWidth 64 <<< 32) ||| (b3.setWidth 64 <<< 24) |||
      (b2.setWidth 64 <<< 16) ||| (b1.setWidth 64 <<< 8) ||| (b0.setWidth 64 <<< 0) : BitVec 64) = (b7 ++ b6 ++ b5 ++ b4 ++ b3 ++ b2 ++ b1 ++ b0 : BitVec 64) := by
  have k : ∀ {w : Nat} (x : BitVec w) (y : Byte), (x ++ y).setWidth 64 = (x.setWidth 64 <<< 8) ||| y.setWidth 64 := by
    intro w x y
    ext i hi
    simp [BitVec.getElem_setWidth, BitVec.getLsbD_append]
    by_cases h : i < 8
    · simp [h]
    · have := BitVec.getLsbD_of_ge y i (by omega)
      simp [h, this]
  have e : (b7 ++ b6 ++ b5 ++ b4 ++ b3 ++ b2 ++ b1 ++ b0 : BitVec 64) = (b7 ++ b6 ++ b5 ++ b4 ++ b3 ++ b2 ++ b1 ++ b0).setWidth 64 := by simp
  rw [e]
  simp only [k, BitVec.shiftLeft_or_distrib, ← BitVec.shiftLeft_add, Nat.reduceAdd, BitVec.shiftLeft_zero]

theorem packWord_ok (data : List Byte) (i : Nat) : packWord data i = loadLe (data.drop i) := by
  unfold packWord loadLe
  simp only [getD_drop]
  exact pack_aux _ _ _ _ _ _ _ _

/-- Hashing 32 bytes. -/
theorem keccak32_ok (data : List Byte) (h : data.length = 32) :
    keccak32 (packWord data 0) (packWord data 8) (packWord data 16) (packWord data 24) = keccak data := by
  unfold keccak
  rw [h]
  simp only [Nat.reduceDiv, absorb, h]
  rw [List.drop_eq_nil_of_le (by omega)]
  unfold keccak32
  simp only [packWord_ok]
  have : ∀ s s' : Array25, s = s' → [keccakf s 0, keccakf s 1, keccakf s 2, keccakf s 3] = [keccakf s' 0, keccakf s' 1, keccakf s' 2, keccakf s' 3] := by
    rintro s _ rfl; rfl
  apply this
  funext j
  simp only [upd, xorWords, List.drop_drop, Nat.reduceAdd, List.nil_append, List.drop_zero, z_xor, Nat.reduceEqDiff, if_false]
  by_cases j = 16 <;> by_cases j = 4 <;> by_cases j = 3 <;> by_cases j = 2 <;> by_cases j = 1 <;> by_cases j = 0 <;> simp_all [loadLe]

end Tosca.Proofs.Lfvm.Keccak

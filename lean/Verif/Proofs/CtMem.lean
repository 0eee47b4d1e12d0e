import Verif.Model.CtRules
import Verif.Proofs.LfvmMem
import Verif.Spec.GoStep

/-!
# Memory of test states
-/

namespace Tosca.Proofs.Ct

open Tosca.Spec Tosca.Spec.Go Tosca.Go Tosca.Model.Go Tosca.Model.Ct Tosca.Proofs.Lfvm
open Tosca.Model.Lfvm (isUint64 uint64)

/-- The memory a list of bytes stands for. -/
def memOf (m : List Byte) : Mem := ⟨32 * words m.length, byteAt m⟩

variable {m : List Byte} {off n : U256}

theorem memOf_size (h : m.length % 32 = 0) : (memOf m).size = m.length := by
  show 32 * words m.length = m.length
  unfold words; omega

theorem memOf_eq {m' : List Byte} {M : Mem} (h : m'.length % 32 = 0) (hs : m'.length = M.size) (hg : ∀ i, byteAt m' i = M.get i) : memOf m' = M :=
  Mem.ext (by rw [memOf_size h, hs]) hg

/-- Ranges within the part of memory that can be paid for. -/
def Near (off n : U256) : Prop := n.toNat = 0 ∨ off.toNat + n.toNat ≤ 2 ^ 30

theorem length_le {gas : Nat} (h : gas + memGas (words m.length) ≤ 2 ^ 40) : m.length ≤ 2 ^ 30 := by
  apply Classical.byContradiction
  intro hc
  have := memGas_words (words m.length) (by unfold words; omega)
  omega

theorem far_gas {gas : Nat} (h : gas + memGas (words m.length) ≤ 2 ^ 40) (hm : m.length % 32 = 0) (hf : ¬ Near off n) :
    gas < (memOf m).growGas ((memOf m).sizeAfter off.toNat n.toNat) := by
  unfold Near at hf
  have hl := length_le h
  have h1 : (memOf m).sizeAfter off.toNat n.toNat = max m.length (32 * words (off.toNat + n.toNat)) := by
    unfold Mem.sizeAfter
    rw [if_neg (by omega), memOf_size hm]
  have h2 : max m.length (32 * words (off.toNat + n.toNat)) = 32 * words (off.toNat + n.toNat) := by unfold words; omega
  unfold Mem.growGas
  rw [h1, h2, words_words, memOf_size hm]
  have := memGas_words (words (off.toNat + n.toNat)) (by unfold words; omega)
  omega

theorem calcMemoryCost_eq {size : BitVec 64} (h : size.toNat ≤ 0x1FFFFFFFE0) : calcMemoryCost size = (memGas (words size.toNat) : Nat) := by
  have e1 : (size.umod 32#64).toNat = size.toNat % 32 := by rw [BitVec.umod_eq, BitVec.toNat_umod]; rfl
  have e2 : (size.udiv 32#64).toNat = size.toNat / 32 := by rw [BitVec.udiv_eq, BitVec.toNat_udiv]; rfl
  have hw : (if size.umod 32#64 ≠ 0 then size.udiv 32#64 + 1 else size.udiv 32#64).toNat = words size.toNat := by
    unfold words
    by_cases hz : size.umod 32#64 = 0
    · rw [if_neg (fun hc => hc hz), e2]
      have : size.toNat % 32 = 0 := by rw [← e1, hz]; rfl
      omega
    · rw [if_pos hz, BitVec.toNat_add, e2]
      have : size.toNat % 32 ≠ 0 := fun hc => hz (by apply BitVec.eq_of_toNat_eq; rw [e1, hc]; rfl)
      have o : (1 : BitVec 64).toNat = 1 := rfl
      rw [o]
      omega
  unfold calcMemoryCost
  dsimp only
  generalize hW : (if size.umod 32#64 ≠ 0 then size.udiv 32#64 + 1 else size.udiv 32#64) = W at hw
  have hle : W.toNat ≤ 2 ^ 32 := by rw [hw]; unfold words; omega
  have hsq : W.toNat * W.toNat ≤ 2 ^ 32 * 2 ^ 32 - 1 := by
    have hle' : W.toNat ≤ 2 ^ 32 - 1 := by rw [hw]; unfold words; omega
    have := Nat.mul_le_mul hle' hle'
    omega
  have hv : ((W * W).udiv 512 + 3 * W).toNat = memGas (words size.toNat) := by
    rw [BitVec.toNat_add, BitVec.udiv_eq, BitVec.toNat_udiv, BitVec.toNat_mul, BitVec.toNat_mul, ← hw]
    have o1 : (512 : BitVec 64).toNat = 512 := rfl
    have o2 : (3 : BitVec 64).toNat = 3 := rfl
    rw [o1, o2, Nat.mod_eq_of_lt (a := W.toNat * W.toNat) (by omega), Nat.mod_eq_of_lt (a := 3 * W.toNat) (by omega)]
    unfold memGas
    rw [Nat.mod_eq_of_lt (by omega)]
    omega
  rw [s64_small _ (by rw [hv, ← hw]; unfold memGas; omega), hv]

theorem exp_near {gas : Nat} (h : gas + memGas (words m.length) ≤ 2 ^ 40) (hm : m.length % 32 = 0) (hn : Near off n) :
    ∃ o s : BitVec 64, expansionCosts m off n = (Int.ofNat ((memOf m).growGas ((memOf m).sizeAfter off.toNat n.toNat)), o, s) ∧ s.toNat = n.toNat ∧
      (n.toNat ≠ 0 → o.toNat = off.toNat) := by
  have hl := length_le h
  unfold Near at hn
  have hn64 : isUint64 n = true := (isUint64_iff n).2 (by rcases hn with h | h <;> omega)
  unfold expansionCosts
  rw [if_neg (by simp [hn64])]
  by_cases hz : n.toNat = 0
  · have hsz : (memOf m).growGas ((memOf m).sizeAfter off.toNat n.toNat) = 0 := by
      unfold Mem.growGas Mem.sizeAfter
      rw [if_pos hz]
      omega
    rw [hsz]
    have hn0 : n = 0 := (zero_iff n).2 hz
    by_cases ho : isUint64 off = true
    · rw [if_neg (by simp [ho])]
      dsimp only
      have : uint64 n = 0 := by rw [hn0]; rfl
      rw [if_pos this]
      exact ⟨_, _, rfl, by rw [this, hz]; rfl, fun hc => absurd hz hc⟩
    · rw [Bool.not_eq_true] at ho
      rw [if_pos ho, if_pos hn0]
      exact ⟨0, 0, rfl, by rw [hz]; rfl, fun hc => absurd hz hc⟩
  · have hle : off.toNat + n.toNat ≤ 2 ^ 30 := by omega
    have ho64 : isUint64 off = true := (isUint64_iff off).2 (by omega)
    rw [if_neg (by simp [ho64])]
    dsimp only
    have eo : (uint64 off).toNat = off.toNat := by rw [uint64_toNat]; omega
    have en : (uint64 n).toNat = n.toNat := by rw [uint64_toNat]; omega
    have e0 : uint64 n ≠ 0 := fun hc => hz (by rw [← en, hc]; rfl)
    have es : (uint64 off + uint64 n).toNat = off.toNat + n.toNat := add64 off n (by omega) (by omega) (by omega)
    rw [if_neg e0, if_neg (by rw [eo, en]; omega)]
    have hsa : (memOf m).sizeAfter off.toNat n.toNat = max m.length (32 * words (off.toNat + n.toNat)) := by
      unfold Mem.sizeAfter
      rw [if_neg hz, memOf_size hm]
    by_cases hc : (uint64 off + uint64 n).toNat ≤ m.length
    · rw [if_pos hc]
      rw [es] at hc
      have : max m.length (32 * words (off.toNat + n.toNat)) = m.length := by unfold words; omega
      refine ⟨_, _, ?_, en, fun _ => eo⟩
      rw [hsa, this]
      unfold Mem.growGas
      rw [memOf_size hm, Nat.sub_self]
      rfl
    · rw [if_neg hc, if_neg (by rw [es]; omega)]
      rw [es] at hc
      refine ⟨_, _, ?_, en, fun _ => eo⟩
      have e1 : (BitVec.ofNat 64 m.length).toNat = m.length := by rw [BitVec.toNat_ofNat]; omega
      rw [calcMemoryCost_eq (by rw [es]; omega), calcMemoryCost_eq (by rw [e1]; omega), es, e1, hsa,
        show max m.length (32 * words (off.toNat + n.toNat)) = 32 * words (off.toNat + n.toNat) by unfold words; omega]
      unfold Mem.growGas
      rw [words_words, memOf_size hm]
      have hmono : memGas (words m.length) ≤ memGas (words (off.toNat + n.toNat)) := memGas_mono (by unfold words; omega)
      have hsmall : memGas (words (off.toNat + n.toNat)) < 2 ^ 60 := by
        have h1 : words (off.toNat + n.toNat) ≤ 2 ^ 26 := by unfold words; omega
        have h2 := Nat.mul_le_mul h1 h1
        unfold memGas; omega
      rw [i64_id (by omega) (by omega)]
      rw [Int.ofNat_eq_natCast, Int.ofNat_sub hmono]

theorem exp_far {gas : Nat} (h : gas + memGas (words m.length) ≤ 2 ^ 40) (hm : m.length % 32 = 0) (hf : ¬ Near off n) :
    (gas : Int) < (expansionCosts m off n).1 ∧ (expansionCosts m off n).1 ≤ maxInt64 := by
  have hl := length_le h
  have hg := far_gas h hm hf
  unfold Near at hf
  have hgas : gas ≤ 2 ^ 40 := by omega
  have big : (gas : Int) < maxInt64 ∧ maxInt64 ≤ maxInt64 := ⟨by show (gas : Int) < 9223372036854775807; omega, Int.le_refl _⟩
  unfold expansionCosts
  by_cases hn64 : isUint64 n = true
  · rw [if_neg (by simp [hn64])]
    have hn' := (isUint64_iff n).1 hn64
    by_cases ho64 : isUint64 off = true
    · rw [if_neg (by simp [ho64])]
      have ho' := (isUint64_iff off).1 ho64
      dsimp only
      have eo : (uint64 off).toNat = off.toNat := by rw [uint64_toNat]; omega
      have en : (uint64 n).toNat = n.toNat := by rw [uint64_toNat]; omega
      have e0 : uint64 n ≠ 0 := fun hc => hf (.inl (by rw [← en, hc]; rfl))
      rw [if_neg e0]
      by_cases hov : (uint64 off).toNat > 2 ^ 64 - 1 - (uint64 n).toNat ∨ (uint64 n).toNat > 2 ^ 64 - 1 - (uint64 off).toNat
      · rw [if_pos hov]; exact big
      · rw [if_neg hov]
        rw [eo, en] at hov
        have es : (uint64 off + uint64 n).toNat = off.toNat + n.toNat := add64 off n (by omega) (by omega) (by omega)
        rw [if_neg (by rw [es]; omega)]
        by_cases hbig : (uint64 off + uint64 n).toNat > 0x1FFFFFFFE0
        · rw [if_pos hbig]; exact big
        · rw [if_neg hbig]
          rw [es] at hbig
          have e1 : (BitVec.ofNat 64 m.length).toNat = m.length := by rw [BitVec.toNat_ofNat]; omega
          dsimp only
          rw [calcMemoryCost_eq (by rw [es]; omega), calcMemoryCost_eq (by rw [e1]; omega), es, e1]
          have hmono : memGas (words m.length) ≤ memGas (words (off.toNat + n.toNat)) := memGas_mono (by unfold words; omega)
          have hsmall : memGas (words (off.toNat + n.toNat)) < 2 ^ 60 := by
            have h1 : words (off.toNat + n.toNat) ≤ 2 ^ 32 := by unfold words; omega
            have h2 := Nat.mul_le_mul h1 h1
            unfold memGas; omega
          rw [i64_id (by omega) (by omega)]
          have hb := memGas_words (words (off.toNat + n.toNat)) (by unfold words; omega)
          refine ⟨by omega, ?_⟩
          show _ ≤ (9223372036854775807 : Int)
          omega
    · rw [Bool.not_eq_true] at ho64
      rw [if_pos ho64, if_neg (fun hc => hf (.inl ((zero_iff n).1 hc)))]
      exact big
  · rw [Bool.not_eq_true] at hn64
    rw [if_pos hn64]
    exact big

/-- Growing. -/
theorem grow_ok {o s : BitVec 64} {off n : Nat} (hl : m.length ≤ 2 ^ 30) (hm : m.length % 32 = 0) (hs : s.toNat = n) (ho : n ≠ 0 → o.toNat = off ∧ off + n ≤ 2 ^ 30) :
    (grow m o s).length % 32 = 0 ∧ (grow m o s).length = (memOf m).sizeAfter off n ∧ memOf (grow m o s) = (memOf m).expand off n := by
  have main : (grow m o s).length % 32 = 0 ∧ (grow m o s).length = (memOf m).sizeAfter off n ∧ ∀ i, byteAt (grow m o s) i = byteAt m i := by
    unfold grow Mem.sizeAfter
    by_cases hz : n = 0
    · have : s = 0 := BitVec.eq_of_toNat_eq (by rw [hs, hz]; rfl)
      rw [if_pos this, if_pos hz, memOf_size hm]
      exact ⟨hm, rfl, fun _ => rfl⟩
    · have : s ≠ 0 := fun hc => hz (by rw [← hs, hc]; rfl)
      obtain ⟨ho1, ho2⟩ := ho hz
      rw [if_neg this, if_neg hz, memOf_size hm]
      dsimp only
      have es : (o + s).toNat = off + n := by rw [BitVec.toNat_add, ho1, hs]; omega
      by_cases hgt : (o + s).toNat > m.length
      · rw [if_pos hgt]
        rw [es] at hgt
        have ec : (sizeInWords (o + s) * 32 - BitVec.ofNat 64 m.length).toNat = 32 * words (off + n) - m.length := by
          have hw : words (off + n) ≤ 2 ^ 26 := by unfold words; omega
          have hx : m.length ≤ 32 * words (off + n) := by unfold words; omega
          rw [BitVec.toNat_sub, BitVec.toNat_mul, sizeInWords_eq, es, BitVec.toNat_ofNat]
          have o3 : (32 : BitVec 64).toNat = 32 := rfl
          rw [o3]
          omega
        have hx : m.length ≤ 32 * words (off + n) := by unfold words; omega
        rw [ec]
        refine ⟨?_, ?_, fun i => ?_⟩
        · rw [List.length_append, List.length_replicate]; omega
        · rw [List.length_append, List.length_replicate]; omega
        · unfold byteAt; rw [getD_append_replicate]
      · rw [if_neg hgt]
        rw [es] at hgt
        exact ⟨hm, by unfold words; omega, fun _ => rfl⟩
  exact ⟨main.1, main.2.1, memOf_eq main.1 main.2.1 main.2.2⟩

theorem read_getElem (M : Mem) (off n i : Nat) (h : i < (M.read off n).length) : (M.read off n)[i] = M.get (off + i) := by
  simp [Mem.read]

theorem read_ok {o s : BitVec 64} {off n : Nat} (hl : m.length ≤ 2 ^ 30) (hm : m.length % 32 = 0) (hs : s.toNat = n) (ho : n ≠ 0 → o.toNat = off ∧ off + n ≤ 2 ^ 30) :
    readMem m o s = some ((memOf m).read off n, grow m o s) := by
  obtain ⟨h1, h2, h3⟩ := grow_ok hl hm hs ho
  unfold readMem
  by_cases hz : n = 0
  · have : s = 0 := BitVec.eq_of_toNat_eq (by rw [hs, hz]; rfl)
    rw [if_pos this]
    unfold grow
    rw [if_pos this, hz]
    rfl
  · have : s ≠ 0 := fun hc => hz (by rw [← hs, hc]; rfl)
    obtain ⟨ho1, ho2⟩ := ho hz
    rw [if_neg this]
    dsimp only
    have es : (o + s).toNat = off + n := by rw [BitVec.toNat_add, ho1, hs]; omega
    have hle : off + n ≤ (grow m o s).length := by
      rw [h2]
      unfold Mem.sizeAfter
      rw [if_neg hz]
      unfold words; omega
    rw [if_pos ⟨BitVec.le_def.2 (by rw [es, ho1]; omega), by rw [es]; exact hle⟩, ho1, hs]
    have : ((grow m o s).drop off).take n = (memOf m).read off n := by
      apply List.ext_getElem
      · rw [List.length_take, List.length_drop, read_length]; omega
      · intro i hi1 hi2
        rw [read_length] at hi2
        rw [List.getElem_take, List.getElem_drop]
        rw [read_getElem]
        have e : (memOf (grow m o s)).get (off + i) = (memOf m).get (off + i) := by rw [h3]; rfl
        rw [← e]
        show _ = (grow m o s).getD (off + i) 0
        rw [List.getD_eq_getElem?_getD, List.getElem?_eq_getElem (by omega)]
        rfl
    rw [this]

theorem copyAt_ok {off : Nat} {data : List Byte} (h : off + data.length ≤ m.length) (hm : m.length % 32 = 0) :
    (copyAt m off data).length = m.length ∧ memOf (copyAt m off data) = (memOf m).write off data := by
  have hl : (copyAt m off data).length = m.length := by
    unfold copyAt
    simp only [List.length_append, List.length_take, List.length_drop]
    omega
  refine ⟨hl, memOf_eq (by rw [hl]; exact hm) (by rw [hl]; exact (memOf_size hm).symm) fun i => ?_⟩
  show byteAt _ i = if off ≤ i ∧ i < off + data.length then byteAt data (i - off) else byteAt m i
  unfold copyAt byteAt
  simp only [List.getD_eq_getElem?_getD]
  rw [List.take_of_length_le (by omega : data.length ≤ m.length - off)]
  by_cases h1 : i < off
  · rw [List.append_assoc, List.getElem?_append_left (by simp; omega), List.getElem?_take_of_lt h1]
    rw [if_neg (by omega)]
  · by_cases h2 : i < off + data.length
    · rw [if_pos (by omega), List.getElem?_append_left (by simp; omega), List.getElem?_append_right (by simp; omega)]
      have e : (m.take off).length = off := by simp; omega
      rw [e]
    · rw [if_neg (by omega), List.getElem?_append_right (by simp; omega), List.getElem?_drop]
      have e : (m.take off ++ data).length = off + data.length := by
        rw [List.length_append, List.length_take]; omega
      rw [e, show off + data.length + (i - (off + data.length)) = i by omega]

theorem write_ok {o : BitVec 64} {off : Nat} {data : List Byte} (hl : m.length ≤ 2 ^ 30) (hm : m.length % 32 = 0)
    (ho : data.length ≠ 0 → o.toNat = off ∧ off + data.length ≤ 2 ^ 30) :
    ∃ m', writeMem m data o = some m' ∧ m'.length % 32 = 0 ∧ m'.length = (memOf m).sizeAfter off data.length ∧
      memOf m' = ((memOf m).expand off data.length).write off data := by
  unfold writeMem
  by_cases hz : data.length = 0
  · rw [if_pos hz]
    have hd : data = [] := List.length_eq_zero_iff.1 hz
    subst hd
    refine ⟨m, rfl, hm, (memOf_size hm).symm, ?_⟩
    rw [write_empty]
    rfl
  · obtain ⟨ho1, ho2⟩ := ho hz
    rw [if_neg hz]
    have hs : (BitVec.ofNat 64 data.length).toNat = data.length := by rw [BitVec.toNat_ofNat]; omega
    obtain ⟨h1, h2, h3⟩ := grow_ok (o := o) hl hm hs (fun _ => ⟨ho1, ho2⟩)
    dsimp only
    have hle : off + data.length ≤ (grow m o (BitVec.ofNat 64 data.length)).length := by
      rw [h2]
      unfold Mem.sizeAfter
      rw [if_neg hz]
      unfold words; omega
    rw [if_pos (by rw [ho1]; omega), ho1]
    obtain ⟨c1, c2⟩ := copyAt_ok (off := off) (data := data) hle h1
    exact ⟨_, rfl, by rw [c1]; exact h1, by rw [c1, h2], by rw [c2, h3]⟩

theorem hash_ok {keccak : List Byte → U256} {o s : BitVec 64} {off n : Nat} (hl : m.length ≤ 2 ^ 30) (hm : m.length % 32 = 0) (hs : s.toNat = n)
    (ho : n ≠ 0 → o.toNat = off ∧ off + n ≤ 2 ^ 30) : hashMem keccak m o s = some (keccak ((memOf m).read off n), grow m o s) := by
  have hr := read_ok hl hm hs ho
  unfold readMem at hr
  unfold hashMem
  dsimp only
  by_cases hz : n = 0
  · rw [if_neg (by omega), hz]
    rfl
  · have : s ≠ 0 := fun hc => hz (by rw [← hs, hc]; rfl)
    rw [if_neg this] at hr
    rw [if_pos (by omega)]
    dsimp only at hr
    split at hr
    · rename_i hc
      rw [if_pos hc]
      injection hr with hr
      injection hr with hr _
      rw [hr]
    · cases hr

/-- Data of the memory as a list. -/
theorem memory_read (hm : m.length % 32 = 0) : m = (memOf m).read 0 (memOf m).size := by
  rw [memOf_size hm]
  apply List.ext_getElem
  · rw [read_length]
  · intro i h1 h2
    rw [read_getElem, Nat.zero_add]
    show _ = m.getD i 0
    rw [List.getD_eq_getElem?_getD, List.getElem?_eq_getElem h1]
    rfl

end Tosca.Proofs.Ct

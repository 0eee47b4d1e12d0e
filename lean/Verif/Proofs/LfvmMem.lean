import Verif.Proofs.LfvmRel
import Verif.Proofs.Mem

/-!
# The long-form EVM: memory
-/

namespace Tosca.Proofs.Lfvm

open Tosca.Spec Tosca.Go Tosca.Model.Go Tosca.Model.Lfvm

variable {ω α β : Type}

theorem memGas_words (w : Nat) (h : 2 ^ 25 < w) : 2 ^ 40 < memGas w := by
  have h2 : (2 ^ 25 + 1) * (2 ^ 25 + 1) ≤ w * w := Nat.mul_le_mul h h
  unfold memGas
  omega

theorem words_words (n : Nat) : words (32 * words n) = words n := by unfold words; omega

theorem sizeInWords_eq (n : BitVec 64) : (sizeInWords n).toNat = words n.toNat := by
  have hn := n.isLt
  unfold sizeInWords words
  split
  · rw [BitVec.toNat_ofNat]; omega
  · rw [BitVec.toNat_ofNat, BitVec.toNat_add]
    have : (31#64).toNat = 31 := rfl
    omega

theorem uint64_toNat (v : U256) : (uint64 v).toNat = v.toNat % 2 ^ 64 := by
  unfold uint64; rw [BitVec.toNat_setWidth]

theorem isUint64_iff (v : U256) : isUint64 v = true ↔ v.toNat < 2 ^ 64 := by
  unfold isUint64; rw [decide_eq_true_iff]

theorem isUint64_false (v : U256) : isUint64 v = false ↔ 2 ^ 64 ≤ v.toNat := by
  unfold isUint64; rw [decide_eq_false_iff_not]; omega

theorem s64_small (x : BitVec 64) (h : x.toNat < 2 ^ 63) : s64 x = x.toNat := by
  unfold s64; rw [BitVec.toInt_eq_toNat_cond]; rw [if_pos (by omega)]

/-- The view `getSlice` answers. -/
def viewOf (off n : U256) : View := if n = 0 then ⟨0, 0⟩ else ⟨off.toNat, n.toNat⟩

/-- Bytes `off` to `off + n` are below `size`. -/
def Covered (m : Mem) (off n : Nat) : Prop := n ≠ 0 → off + n ≤ m.size

theorem zero_iff (n : U256) : n = 0 ↔ n.toNat = 0 := toNat_eq_zero n

section
variable {Q : β → St ω → State ω → Prop} {k : Nat} {p : Int} {q : Nat} {l : St ω} {s : State ω}

theorem size_le (h : Rel k p q l s) : s.mem.size ≤ 2 ^ 30 := by
  have hb := h.bound
  have ha := h.aligned
  by_cases hw : 2 ^ 25 < words s.mem.size
  · have := memGas_words _ hw; omega
  · unfold words at hw; omega

theorem grow_big {off n : Nat} (h : Rel k p q l s) (hn : n ≠ 0) (hbig : 2 ^ 30 < off + n) :
    s.gas < s.mem.growGas (s.mem.sizeAfter off n) := by
  have hb := h.bound
  have hs := size_le h
  have hsa : s.mem.sizeAfter off n = 32 * words (off + n) := by
    unfold Mem.sizeAfter
    rw [if_neg hn]
    have : off + n ≤ 32 * words (off + n) := by unfold words; omega
    omega
  have := memGas_words (words (off + n)) (by unfold words; omega)
  unfold Mem.growGas
  rw [hsa, words_words]
  omega

theorem memLength_eq (h : Rel k p q l s) : (memLength l).toNat = s.mem.size := by
  have hs := size_le h
  unfold memLength
  rw [BitVec.toNat_ofNat, h.size]
  omega

/-- What `getExpansionCostsAndSize` computes for an affordable or at least representable growth. -/
theorem expansionCosts_ok {need : BitVec 64} (h : Rel k p q l s) (hlt : s.mem.size < need.toNat) (hw : words need.toNat ≤ 2 ^ 32 - 1) :
    (getExpansionCostsAndSize need : M ω _) l = .ok (((memGas (words need.toNat) - memGas (words s.mem.size) : Nat) : Int),
      BitVec.ofNat 64 (32 * words need.toNat)) l := by
  have hb := h.bound
  have hml := memLength_eq h
  have hsw := sizeInWords_eq need
  have hnd : need.toNat ≤ 32 * words need.toNat := by unfold words; omega
  unfold getExpansionCostsAndSize
  rw [if_neg (by rw [ge_iff_le, BitVec.le_def, hml]; omega)]
  have hv : sizeInWords need * 32 = BitVec.ofNat 64 (32 * words need.toNat) := by
    apply BitVec.eq_of_toNat_eq
    rw [BitVec.toNat_mul, hsw, BitVec.toNat_ofNat]
    have : (32 : BitVec 64).toNat = 32 := rfl
    rw [this]
    congr 1
    omega
  have hvn : (BitVec.ofNat 64 (32 * words need.toNat)).toNat = 32 * words need.toNat := by rw [BitVec.toNat_ofNat]; omega
  dsimp only
  rw [hv, if_neg (by rw [BitVec.lt_def, hvn]; omega)]
  have hmx : maxMemoryExpansionSize.toNat = 0x1FFFFFFFE0 := rfl
  rw [if_neg (by rw [gt_iff_lt, BitVec.lt_def, hvn, hmx]; omega)]
  have hsq : words need.toNat * words need.toNat ≤ (2 ^ 32 - 1) * (2 ^ 32 - 1) := Nat.mul_le_mul hw hw
  have hc : ((sizeInWords need * sizeInWords need).udiv 512 + 3 * sizeInWords need).toNat = memGas (words need.toNat) := by
    have e1 : (512 : BitVec 64).toNat = 512 := rfl
    have e2 : (3 : BitVec 64).toNat = 3 := rfl
    rw [BitVec.toNat_add, BitVec.udiv_eq, BitVec.toNat_udiv, BitVec.toNat_mul, BitVec.toNat_mul, hsw, e1, e2]
    unfold memGas
    rw [Nat.mod_eq_of_lt (by omega : words need.toNat * words need.toNat < 2 ^ 64)]
    omega
  have hm : memGas (words need.toNat) < 2 ^ 63 := by unfold memGas; omega
  have hmono : memGas (words s.mem.size) ≤ memGas (words need.toNat) := memGas_mono (by unfold words; omega)
  rw [s64_small _ (by rw [hc]; exact hm), hc, h.cost, i64_id (by omega) (by omega)]
  congr 2
  omega

/-- Growing the memory. -/
theorem rel_grow {off n : Nat} {fee : Int} {g : Nat} (h : Rel k p q l s) (hn : n ≠ 0) (hgr : s.mem.size < off + n) (hle : off + n ≤ 2 ^ 30)
    (hg : g = s.mem.growGas (s.mem.sizeAfter off n)) (hfee : fee = g) (hpay : g ≤ s.gas)
    {l' : St ω} (hl' : Rel k p q l' { s with gas := s.gas - g }) :
    Rel k p q { l' with
        memCost := i64 (l'.memCost + fee)
        store := l'.store ++ List.replicate (BitVec.ofNat 64 (32 * words (off + n)) - memLength l').toNat 0 }
      { s with gas := s.gas - g, mem := s.mem.expand off n } := by
  have hs := size_le h
  have hsa : s.mem.sizeAfter off n = 32 * words (off + n) := by
    unfold Mem.sizeAfter
    rw [if_neg hn]
    have : off + n ≤ 32 * words (off + n) := by unfold words; omega
    omega
  have hml : (memLength l').toNat = s.mem.size := memLength_eq (s := { s with gas := s.gas - g }) hl'
  have hwl : 32 * words (off + n) ≤ 2 ^ 31 := by unfold words; omega
  have hcount : (BitVec.ofNat 64 (32 * words (off + n)) - memLength l').toNat = 32 * words (off + n) - s.mem.size := by
    have hx : s.mem.size ≤ 32 * words (off + n) := by unfold words; omega
    rw [BitVec.toNat_sub, hml, BitVec.toNat_ofNat, Nat.mod_eq_of_lt (by omega : 32 * words (off + n) < 2 ^ 64)]
    omega
  have hgg : g = memGas (words (off + n)) - memGas (words s.mem.size) := by rw [hg, hsa]; unfold Mem.growGas; rw [words_words]
  have hmono : memGas (words s.mem.size) ≤ memGas (words (off + n)) := memGas_mono (by unfold words; omega)
  have hb := h.bound
  refine ⟨hl'.status, hl'.pc, hl'.pc', hl'.gas, hl'.refund, hl'.sp, hl'.stack, hl'.limit, ?_, ?_, ?_, ?_, hl'.ret, hl'.retLen, hl'.world, ?_⟩
  · show (l'.store ++ _).length = s.mem.sizeAfter off n
    rw [List.length_append, List.length_replicate, hcount, hl'.size, hsa]
    show s.mem.size + _ = _
    unfold words; omega
  · intro i
    show byteAt (l'.store ++ _) i = s.mem.get i
    unfold byteAt
    rw [getD_append_replicate]
    exact hl'.mem i
  · show s.mem.sizeAfter off n % 32 = 0
    rw [hsa]; omega
  · show i64 (l'.memCost + fee) = (memGas (words (s.mem.sizeAfter off n)) : Nat)
    rw [hl'.cost, hfee, hsa, words_words, hgg]
    show i64 ((memGas (words s.mem.size) : Nat) + _) = _
    have : memGas (words (off + n)) < 2 ^ 60 := by
      have h1 : words (off + n) ≤ 2 ^ 26 := by unfold words; omega
      have h2 : words (off + n) * words (off + n) ≤ 2 ^ 26 * 2 ^ 26 := Nat.mul_le_mul h1 h1
      unfold memGas; omega
    rw [i64_id (by omega) (by omega)]
    omega
  · show s.gas - g + memGas (words (s.mem.sizeAfter off n)) ≤ 2 ^ 40
    rw [hsa, words_words]
    omega

theorem add64 (off n : U256) (ho : off.toNat < 2 ^ 64) (hn : n.toNat < 2 ^ 64) (h : off.toNat + n.toNat < 2 ^ 64) :
    (uint64 off + uint64 n).toNat = off.toNat + n.toNat := by
  rw [BitVec.toNat_add, uint64_toNat, uint64_toNat]; omega

theorem expand_same {m : Mem} {off n : Nat} (h : m.sizeAfter off n = m.size) : m.expand off n = m := by
  unfold Mem.expand; rw [h]

/-- An affordable range. -/
theorem getSlice_ok {off n : U256} (h : Rel k p q l s) (hpay : s.mem.growGas (s.mem.sizeAfter off.toNat n.toNat) ≤ s.gas) :
    ∃ l', (getSlice off n : M ω View) l = .ok (viewOf off n) l' ∧
      Rel k p q l' { s with gas := s.gas - s.mem.growGas (s.mem.sizeAfter off.toNat n.toNat), mem := s.mem.expand off.toNat n.toNat } ∧
      (n.toNat ≠ 0 → off.toNat + n.toNat ≤ 2 ^ 30) ∧ Covered (s.mem.expand off.toNat n.toNat) off.toNat n.toNat := by
  have hcov : Covered (s.mem.expand off.toNat n.toNat) off.toNat n.toNat := by
    intro hn0
    show _ ≤ s.mem.sizeAfter off.toNat n.toNat
    unfold Mem.sizeAfter
    rw [if_neg hn0]
    unfold words
    omega
  have hstay : s.mem.sizeAfter off.toNat n.toNat = s.mem.size → Rel k p q l
      { s with gas := s.gas - s.mem.growGas (s.mem.sizeAfter off.toNat n.toNat), mem := s.mem.expand off.toNat n.toNat } := by
    intro e
    rw [expand_same e, e]
    have : s.mem.growGas s.mem.size = 0 := by unfold Mem.growGas; omega
    rw [this]
    exact h
  unfold getSlice
  by_cases hz : n = 0
  · have hn0 : n.toNat = 0 := (zero_iff n).1 hz
    rw [if_pos hz]
    refine ⟨l, by unfold viewOf; rw [if_pos hz]; rfl, hstay ?_, fun hc => absurd hn0 hc, hcov⟩
    unfold Mem.sizeAfter; rw [if_pos hn0]
  · have hn0 : n.toNat ≠ 0 := fun hc => hz ((zero_iff n).2 hc)
    have hle : off.toNat + n.toNat ≤ 2 ^ 30 := by
      apply Classical.byContradiction; intro hc
      have := grow_big (off := off.toNat) (n := n.toNat) h hn0 (by omega)
      omega
    have hadd := add64 off n (by omega) (by omega) (by omega)
    have hs := size_le h
    rw [if_neg hz, if_neg (by rw [isUint64_false, isUint64_false]; omega)]
    have hexp : ∃ l', (expandMemory (uint64 off) (uint64 n) : M ω Unit) l = .ok () l' ∧
        Rel k p q l' { s with gas := s.gas - s.mem.growGas (s.mem.sizeAfter off.toNat n.toNat), mem := s.mem.expand off.toNat n.toNat } := by
      unfold expandMemory
      rw [if_neg (by intro hc; have := congrArg BitVec.toNat hc; rw [uint64_toNat] at this; simp at this; omega)]
      dsimp only
      rw [if_neg (by rw [BitVec.lt_def, hadd, uint64_toNat]; omega)]
      rw [bind_ok (show (getSt : M ω (St ω)) l = .ok l l from rfl)]
      by_cases hgr : s.mem.size < off.toNat + n.toNat
      · rw [if_pos (by rw [BitVec.lt_def, hadd, memLength_eq h]; exact hgr)]
        have hec := expansionCosts_ok (need := uint64 off + uint64 n) h (by rw [hadd]; exact hgr) (by rw [hadd]; unfold words; omega)
        rw [bind_ok hec]
        rw [hadd]
        have hsa : s.mem.sizeAfter off.toNat n.toNat = 32 * words (off.toNat + n.toNat) := by
          unfold Mem.sizeAfter
          rw [if_neg hn0]
          have : off.toNat + n.toNat ≤ 32 * words (off.toNat + n.toNat) := by unfold words; omega
          omega
        have hg : memGas (words (off.toNat + n.toNat)) - memGas (words s.mem.size) =
            s.mem.growGas (s.mem.sizeAfter off.toNat n.toNat) := by rw [hsa]; unfold Mem.growGas; rw [words_words]
        obtain ⟨l1, e1, h1⟩ := useGas_ok (ω := ω) (n := memGas (words (off.toNat + n.toNat)) - memGas (words s.mem.size)) rfl h (by rw [hg]; exact hpay)
        rw [bind_ok e1, bind_ok (show (getSt : M ω (St ω)) l1 = .ok l1 l1 from rfl)]
        refine ⟨_, rfl, ?_⟩
        rw [hg] at h1
        rw [hg]
        exact rel_grow h hn0 hgr hle rfl rfl hpay h1
      · rw [if_neg (by rw [BitVec.lt_def, hadd, memLength_eq h]; omega)]
        refine ⟨l, rfl, hstay ?_⟩
        have ha := h.aligned
        unfold Mem.sizeAfter words
        rw [if_neg hn0]
        omega
    obtain ⟨l', e, h'⟩ := hexp
    rw [bind_ok e, bind_ok (show (getSt : M ω (St ω)) l' = .ok l' l' from rfl)]
    have hcl := hcov hn0
    rw [if_pos ⟨by rw [hadd, h'.size]; exact hcl, by rw [BitVec.le_def, hadd, uint64_toNat]; omega⟩]
    refine ⟨l', ?_, h', fun _ => hle, hcov⟩
    unfold viewOf
    rw [if_neg hz, uint64_toNat, uint64_toNat, Nat.mod_eq_of_lt (by omega), Nat.mod_eq_of_lt (by omega)]
    rfl

/-- A range that costs too much. -/
theorem getSlice_err {off n : U256} (h : Rel k p q l s) (hpay : s.gas < s.mem.growGas (s.mem.sizeAfter off.toNat n.toNat)) :
    ∃ l', (getSlice off n : M ω View) l = .err l' := by
  have hn0 : n.toNat ≠ 0 := by
    intro hc
    unfold Mem.sizeAfter Mem.growGas at hpay
    rw [if_pos hc] at hpay
    omega
  have hz : n ≠ 0 := fun hc => hn0 ((zero_iff n).1 hc)
  have hs := size_le h
  unfold getSlice
  rw [if_neg hz]
  by_cases hu : isUint64 off = false ∨ isUint64 n = false
  · rw [if_pos hu]; exact ⟨l, rfl⟩
  rw [if_neg hu]
  rw [isUint64_false, isUint64_false] at hu
  have hon : off.toNat < 2 ^ 64 ∧ n.toNat < 2 ^ 64 := by omega
  suffices ∃ l', (expandMemory (uint64 off) (uint64 n) : M ω Unit) l = .err l' by
    obtain ⟨l', e⟩ := this
    exact ⟨l', bind_err e⟩
  unfold expandMemory
  rw [if_neg (by intro hc; have := congrArg BitVec.toNat hc; rw [uint64_toNat] at this; simp at this; omega)]
  dsimp only
  by_cases hov : 2 ^ 64 ≤ off.toNat + n.toNat
  · rw [if_pos (by rw [BitVec.lt_def, BitVec.toNat_add, uint64_toNat, uint64_toNat]; omega)]
    exact ⟨l, rfl⟩
  have hadd := add64 off n hon.1 hon.2 (by omega)
  rw [if_neg (by rw [BitVec.lt_def, hadd, uint64_toNat]; omega)]
  rw [bind_ok (show (getSt : M ω (St ω)) l = .ok l l from rfl)]
  have hgr : s.mem.size < off.toNat + n.toNat := by
    apply Classical.byContradiction; intro hc
    have ha := h.aligned
    have : s.mem.sizeAfter off.toNat n.toNat = s.mem.size := by
      unfold Mem.sizeAfter words; rw [if_neg hn0]; omega
    rw [this] at hpay
    unfold Mem.growGas at hpay
    omega
  rw [if_pos (by rw [BitVec.lt_def, hadd, memLength_eq h]; exact hgr)]
  by_cases hw : words (off.toNat + n.toNat) ≤ 2 ^ 32 - 1
  · have hec := expansionCosts_ok (need := uint64 off + uint64 n) h (by rw [hadd]; exact hgr) (by rw [hadd]; exact hw)
    rw [bind_ok hec, hadd]
    have hsa : s.mem.sizeAfter off.toNat n.toNat = 32 * words (off.toNat + n.toNat) := by
      unfold Mem.sizeAfter
      rw [if_neg hn0]
      have : off.toNat + n.toNat ≤ 32 * words (off.toNat + n.toNat) := by unfold words; omega
      omega
    have hg : memGas (words (off.toNat + n.toNat)) - memGas (words s.mem.size) =
        s.mem.growGas (s.mem.sizeAfter off.toNat n.toNat) := by rw [hsa]; unfold Mem.growGas; rw [words_words]
    obtain ⟨l1, e1⟩ := useGas_err (ω := ω) (n := memGas (words (off.toNat + n.toNat)) - memGas (words s.mem.size)) (.inl rfl) h (by rw [hg]; exact hpay)
    exact ⟨l1, bind_err e1⟩
  · refine ⟨l, bind_err ?_⟩
    have hsw := sizeInWords_eq (uint64 off + uint64 n)
    rw [hadd] at hsw
    have hwl : words (off.toNat + n.toNat) ≤ 2 ^ 59 := by unfold words; omega
    unfold getExpansionCostsAndSize
    rw [if_neg (by rw [ge_iff_le, BitVec.le_def, memLength_eq h, hadd]; omega)]
    dsimp only
    by_cases hv : sizeInWords (uint64 off + uint64 n) * 32 < uint64 off + uint64 n
    · rw [if_pos hv]
    · rw [if_neg hv]
      rw [if_pos]
      rw [gt_iff_lt, BitVec.lt_def, BitVec.toNat_mul, hsw]
      rw [BitVec.lt_def, BitVec.toNat_mul, hsw, hadd] at hv
      have e1 : (32 : BitVec 64).toNat = 32 := rfl
      have hmx : maxMemoryExpansionSize.toNat = 0x1FFFFFFFE0 := rfl
      rw [e1] at hv ⊢
      rw [hmx]
      by_cases hx : words (off.toNat + n.toNat) = 2 ^ 59
      · rw [hx] at hv; unfold words at hx; omega
      · rw [Nat.mod_eq_of_lt (by omega)]; omega

theorem sim_getSlice {off n : U256} {f : View → M ω β} {k' : State ω → State ω} (h : Rel k p q l s)
    (H : ∀ l' g, (n.toNat ≠ 0 → off.toNat + n.toNat ≤ 2 ^ 30) → Covered (s.mem.expand off.toNat n.toNat) off.toNat n.toNat →
      Rel k p q l' { s with gas := g, mem := s.mem.expand off.toNat n.toNat } →
      Sim Q (f (viewOf off n) l') (k' { s with gas := g, mem := s.mem.expand off.toNat n.toNat })) :
    Sim Q ((getSlice off n >>= f) l) (s.touch off n 0 k') := by
  unfold State.touch State.charge
  by_cases hg : s.gas < s.mem.growGas (s.mem.sizeAfter off.toNat n.toNat) + 0
  · obtain ⟨l', e⟩ := getSlice_err (off := off) (n := n) h (by omega)
    rw [bind_err e, if_pos hg]
    exact failed_fail _ _
  · obtain ⟨l', e, h', h1, h2⟩ := getSlice_ok (off := off) (n := n) h (by omega)
    rw [bind_ok e, if_neg hg]
    exact H l' _ h1 h2 h'

theorem readView_ok {off n : U256} (h : Rel k p q l s) (hc : Covered s.mem off.toNat n.toNat) :
    (readView (viewOf off n) : M ω _) l = .ok (s.mem.read off.toNat n.toNat) l := by
  unfold readView viewOf
  congr 1
  by_cases hz : n = 0
  · rw [if_pos hz, (zero_iff n).1 hz]
    simp [Mem.read]
  · have hn0 : n.toNat ≠ 0 := fun hc => hz ((zero_iff n).2 hc)
    rw [if_neg hz]
    have := hc hn0
    rw [← h.size] at this
    unfold Mem.read
    apply List.ext_getElem
    · simp; omega
    · intro i h1 h2
      rw [List.getElem_take, List.getElem_drop, List.getElem_map, List.getElem_range, ← h.mem]
      unfold byteAt
      rw [List.getD_eq_getElem?_getD, List.getElem?_eq_getElem (by simp at h1; omega)]
      rfl

theorem sim_readView {off n : U256} {f : List Byte → M ω β} {t : State ω} (h : Rel k p q l s) (hc : Covered s.mem off.toNat n.toNat)
    (H : Sim Q (f (s.mem.read off.toNat n.toNat) l) t) : Sim Q ((readView (viewOf off n) >>= f) l) t := by
  rw [bind_ok (readView_ok h hc)]; exact H

theorem write_empty (m : Mem) (off : Nat) : m.write off [] = m := by
  unfold Mem.write
  have : (fun i => if off ≤ i ∧ i < off + ([] : List Byte).length then byteAt [] (i - off) else m.get i) = m.get := by
    funext i
    rw [if_neg (by simp)]
  rw [this]

theorem copyTo_ok {off n : U256} {bytes : List Byte} (h : Rel k p q l s) (hc : Covered s.mem off.toNat n.toNat) :
    ∃ l', (copyTo (viewOf off n) bytes : M ω Unit) l = .ok () l' ∧
      Rel k p q l' { s with mem := s.mem.write off.toNat (bytes.take n.toNat) } := by
  refine ⟨_, rfl, ?_⟩
  unfold viewOf
  by_cases hz : n = 0
  · rw [if_pos hz, (zero_iff n).1 hz]
    have e1 : l.store.take 0 ++ bytes.take (min 0 bytes.length) ++ l.store.drop (0 + min 0 bytes.length) = l.store := by simp
    dsimp only
    rw [e1, List.take_zero, write_empty]
    exact h
  · have hn0 : n.toNat ≠ 0 := fun hc => hz ((zero_iff n).2 hc)
    have hcc := hc hn0
    rw [if_neg hz]
    dsimp only
    have hsz := h.size
    refine ⟨h.status, h.pc, h.pc', h.gas, h.refund, h.sp, h.stack, h.limit, ?_, ?_, h.aligned, h.cost, h.ret, h.retLen, h.world, h.bound⟩
    · show (l.store.take _ ++ _ ++ _).length = s.mem.size
      simp only [List.length_append, List.length_take, List.length_drop]
      omega
    · intro i
      show byteAt _ i = if off.toNat ≤ i ∧ i < off.toNat + (bytes.take n.toNat).length then byteAt (bytes.take n.toNat) (i - off.toNat) else s.mem.get i
      rw [← h.mem]
      unfold byteAt
      simp only [List.getD_eq_getElem?_getD]
      rw [List.length_take]
      by_cases h1 : i < off.toNat
      · rw [List.append_assoc, List.getElem?_append_left (by simp; omega), List.getElem?_take_of_lt h1]
        rw [if_neg (by omega)]
      · by_cases h2 : i < off.toNat + min n.toNat bytes.length
        · rw [if_pos (by omega), List.getElem?_append_left (by simp; omega), List.getElem?_append_right (by simp; omega)]
          have e : (l.store.take off.toNat).length = off.toNat := by simp; omega
          rw [e, List.getElem?_take_of_lt (by omega), List.getElem?_take_of_lt (by omega)]
        · rw [if_neg (by omega), List.getElem?_append_right (by simp; omega), List.getElem?_drop]
          have e : (l.store.take off.toNat ++ bytes.take (min n.toNat bytes.length)).length = off.toNat + min n.toNat bytes.length := by
            rw [List.length_append, List.length_take, List.length_take]; omega
          rw [e, show off.toNat + min n.toNat bytes.length + (i - (off.toNat + min n.toNat bytes.length)) = i by omega]

theorem sim_copyTo {off n : U256} {bytes : List Byte} {f : Unit → M ω β} {t : State ω} (h : Rel k p q l s)
    (hc : Covered s.mem off.toNat n.toNat)
    (H : ∀ l', Rel k p q l' { s with mem := s.mem.write off.toNat (bytes.take n.toNat) } → Sim Q (f () l') t) :
    Sim Q ((copyTo (viewOf off n) bytes >>= f) l) t := by
  obtain ⟨l', e, h'⟩ := copyTo_ok (bytes := bytes) h hc
  rw [bind_ok e]; exact H l' h'

theorem sim_copyTo' {Q : Unit → St ω → State ω → Prop} {off n : U256} {bytes : List Byte} {t : State ω} (h : Rel k p q l s)
    (hc : Covered s.mem off.toNat n.toNat)
    (H : ∀ l', Rel k p q l' { s with mem := s.mem.write off.toNat (bytes.take n.toNat) } → Q () l' t) :
    Sim Q ((copyTo (viewOf off n) bytes : M ω Unit) l) t := by
  obtain ⟨l', e, h'⟩ := copyTo_ok (bytes := bytes) h hc
  rw [e]; exact H l' h'

end

end Tosca.Proofs.Lfvm

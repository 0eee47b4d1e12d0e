import Verif.Proofs.CtOps4

/-!
# Rules of MCOPY, LOG, BLOCKHASH and BLOBHASH
-/

namespace Tosca.Proofs.Ct

open Tosca.Spec Tosca.Spec.Go Tosca.Go Tosca.Model.Go Tosca.Model.Ct Tosca.Proofs.Lfvm
open Tosca.Model.Lfvm (isUint64 uint64 ofU64 bytes20 bytes32 ofBytes20 setBytes)

variable {c : S} {t : State World} {keccak : List Byte → U256} {off n off' n' : U256} {cost cost' : Int} {o s o' s' : BitVec 64}

/-! ## Two ranges of memory -/

theorem growGas_max (M : Mem) (a b : Nat) : M.growGas (max a b) = max (M.growGas a) (M.growGas b) := by
  unfold Mem.growGas
  rcases Nat.le_total a b with h | h
  · rw [Nat.max_eq_right h, Nat.max_eq_right]
    have := Proofs.Lfvm.memGas_mono (show words a ≤ words b by unfold words; omega)
    omega
  · rw [Nat.max_eq_left h, Nat.max_eq_left]
    have := Proofs.Lfvm.memGas_mono (show words b ≤ words a by unfold words; omega)
    omega

/-- The larger price covers both. -/
theorem exp_two (h : Ok c) (hb : Bounded c) (hE : expansionCosts c.memory off n = (cost, o, s)) (hE' : expansionCosts c.memory off' n' = (cost', o', s')) :
    (Range off n o s ∧ Range off' n' o' s' ∧ max cost cost' = ((memOf c.memory).growGas (max ((memOf c.memory).sizeAfter off.toNat n.toNat)
      ((memOf c.memory).sizeAfter off'.toNat n'.toNat)) : Nat) ∧ (memOf c.memory).growGas (max ((memOf c.memory).sizeAfter off.toNat n.toNat)
      ((memOf c.memory).sizeAfter off'.toNat n'.toNat)) < 2 ^ 60) ∨
    ((c.gas < max cost cost' ∧ 0 ≤ max cost cost' ∧ max cost cost' ≤ maxInt64) ∧ c.gas.toNat < (memOf c.memory).growGas (max ((memOf c.memory).sizeAfter off.toNat n.toNat)
      ((memOf c.memory).sizeAfter off'.toNat n'.toNat))) := by
  rw [growGas_max]
  have hm : maxInt64 = 9223372036854775807 := rfl
  rcases exp_range h hb hE with ⟨hr, e⟩ | ⟨h1, h2⟩
  · have hg := grow_small hb h hr
    rcases exp_range h hb hE' with ⟨hr', e'⟩ | ⟨h1', h2'⟩
    · have hg' := grow_small hb h hr'
      exact .inl ⟨hr, hr', by omega, by omega⟩
    · exact .inr ⟨by omega, by omega⟩
  · rcases exp_range h hb hE' with ⟨hr', e'⟩ | ⟨h1', h2'⟩
    · have hg' := grow_small hb h hr'
      exact .inr ⟨by omega, by omega⟩
    · exact .inr ⟨by omega, by omega⟩

theorem expand_comm (M : Mem) (a b d e : Nat) : (M.expand a b).expand d e = (M.expand d e).expand a b := by
  refine Mem.ext ?_ fun _ => rfl
  show Mem.sizeAfter (M.expand a b) d e = Mem.sizeAfter (M.expand d e) a b
  unfold Mem.sizeAfter
  show (if e = 0 then M.sizeAfter a b else max (M.sizeAfter a b) _) = (if b = 0 then M.sizeAfter d e else max (M.sizeAfter d e) _)
  unfold Mem.sizeAfter
  split <;> split <;> omega

/-- Lengths stay in range. -/
theorem grow_length (h : Ok c) (hb : Bounded c) (hr : Range off n o s) : (grow c.memory o s).length ≤ 2 ^ 30 := by
  have hl := bounded_length hb
  rw [(range_grow h hb hr).2.1]
  unfold Mem.sizeAfter
  rw [memOf_size h.memory]
  split
  · exact hl
  · rename_i hz
    have := (hr.pos hz).2
    unfold words
    omega

theorem touch2_broke {extra : Nat} {K' : State World → State World} (hg : c.gas.toNat < (memOf c.memory).growGas (max ((memOf c.memory).sizeAfter off.toNat n.toNat)
      ((memOf c.memory).sizeAfter off'.toNat n'.toNat)) + extra) : Failed ((frameState c).touch2 off n off' n' extra K') := by
  unfold State.touch2 State.charge
  rw [if_pos]
  · exact failed_fail _ _
  · exact hg

theorem sounds_mcopy : Sounds keccak mcopy := by
  unfold mcopy
  refine sounds_append ?_ (sounds_cons (sound_early (I := .mcopy) rfl (by decide)) sounds_nil)
  refine sounds_simple (I := .mcopy) rfl rfl rfl rfl rfl (by decide) (by decide) (by decide) ?_ ?_
  · intro x c rev hat hk
    exact ⟨since_ok hat.rev (hk (.revision 5 5) (by simp)) (by decide), fun h => by cases h.1⟩
  intro x c rev hat hk hs hok hb
  obtain ⟨a, b, d, r, hst⟩ := stack3 hs
  have hst' : (next c (Instr.baseGas .mcopy)).stack = a :: b :: d :: r := hst
  show Does _ ((frameState (next c (Instr.baseGas .mcopy))).pop3 fun dst src n s => s.touch2 dst n src n (3 * words n.toNat) fun s =>
      { s with mem := s.mem.write dst.toNat (s.mem.read src.toNat n.toNat) })
  generalize next c (Instr.baseGas .mcopy) = c1 at *
  rw [pop3_eq hst']
  simp only [pop_eq hst', pop_mk, Option.bind_eq_bind, Option.bind_some]
  have hok1 := ok_stack hok r
  have hb1 : Bounded { c1 with stack := r } := hb
  rcases hE : expansionCosts c1.memory b d with ⟨cost, o, s⟩
  rcases hE' : expansionCosts c1.memory a d with ⟨cost', o', s'⟩
  dsimp only
  rcases exp_two hok1 hb1 hE' hE with ⟨hr', hr, e, hlt⟩ | ⟨⟨h1, h2, h3⟩, h4⟩
  · obtain ⟨ew, hw⟩ := range_words (k := 3) hr (by omega) 3 rfl
    rw [Int.max_comm, e, ew, sum_near (by omega)]
    unfold State.touch2
    refine does_pay hok1 rfl fun hle hok2 => ?_
    have hrd := range_read hok1 hb1 hr
    simp only [hrd, Option.bind_some]
    have hgr := range_grow hok1 hb1 hr
    obtain ⟨m', w1, w2, w3, w4⟩ := write_ok (m := grow c1.memory o s) (o := o') (off := a.toNat) (data := (memOf c1.memory).read b.toNat d.toNat)
      (grow_length (c := { c1 with stack := r }) hok1 hb1 hr) hgr.1 (by rw [read_length]; exact hr'.pos)
    simp only [w1, Option.bind_some]
    refine does_next (ok_mem hok2 w2) ?_
    rw [read_length, hgr.2.2] at w4
    show _ = frameState { less { c1 with stack := r } _ with memory := m' }
    rw [frame_mem (c := less { c1 with stack := r } _) w4, expand_comm]
    rfl
  · rw [Int.max_comm]
    exact does_broke (sum_far h1 h2 h3) (touch2_broke (Nat.lt_of_lt_of_le h4 (Nat.le_add_right _ _)))

/-! ## Logs -/

theorem popTopics_ok : ∀ (k : Nat) (c : S), k ≤ c.stack.length → popTopics k c = some (c.stack.take k, { c with stack := c.stack.drop k })
  | 0, c, _ => by unfold popTopics; rfl
  | k + 1, c, h => by
    obtain ⟨a, r, hst⟩ := stack1 (show 1 ≤ c.stack.length by omega)
    unfold popTopics
    simp only [pop_eq hst, Option.bind_eq_bind, Option.bind_some]
    rw [hst] at h ⊢
    rw [popTopics_ok k { c with stack := r } (by simpa using h)]
    rfl

theorem sounds_log {k : Nat} (hk4 : k ≤ 4) : Sounds keccak (logOp k) := by
  unfold logOp
  have hd : decode (0xa0 + k) = some (.log k) := by
    unfold decode
    rw [if_neg (by omega), if_neg (by omega), if_neg (by omega), if_pos (by omega)]
    have e : 0xa0 + k - 0xa0 = k := by omega
    rw [e]
  refine sounds_append ?_ (sounds_cons ?_ sounds_nil)
  · refine sounds_simple (I := .log k) hd (Nat.add_comm _ _) rfl (by show (375 + 375 * (k : Int)) = ((375 + 375 * k : Nat) : Int); omega) rfl (by show 0 ≤ 1024; omega) (by simp)
      (by show 0xa0 + k ≠ 0; omega) ?_ ?_
    · intro x c rev hat hk
      refine ⟨Nat.not_lt_zero _, fun h => ?_⟩
      have := check_readOnly.1 (hk (.readOnly false) (by simp))
      rw [this] at h
      cases h.2
    · intro x c rev hat hk hs hok hb
      have hs' : k + 2 ≤ c.stack.length := hs
      obtain ⟨a, b, r, hst⟩ := stack2 (show 2 ≤ c.stack.length by omega)
      have hst' : (next c (Instr.baseGas (.log k))).stack = a :: b :: r := hst
      have hr0 : k ≤ r.length := by rw [hst] at hs'; simpa using hs'
      show Does _ (log (testFrame keccak x c rev) k (frameState (next c (Instr.baseGas (.log k)))))
      unfold log
      generalize next c (Instr.baseGas (.log k)) = c1 at *
      rw [pop2_eq hst']
      simp only [pop_eq hst', pop_mk, Option.bind_eq_bind, Option.bind_some]
      rw [popTopics_ok k _ (show k ≤ r.length from hr0)]
      simp only [Option.bind_some]
      have hok1 := ok_stack hok (r.drop k)
      have hb1 : Bounded { c1 with stack := r.drop k } := hb
      rcases hE : expansionCosts c1.memory a b with ⟨cost, o, s⟩
      refine does_mem_two (c := { c1 with stack := r.drop k }) (n := b) (extra := 8 * b.toNat) hok1 hb1 hE (fun hr => ?_) ?_
      · have hn := range_small hr
        have : ((8 : BitVec 64) * s).toNat = 8 * b.toNat := by
          rw [BitVec.toNat_mul, hr.size]
          exact Nat.mod_eq_of_lt (by show 8 * _ < _; omega)
        show s64 ((8 : BitVec 64) * s) = _
        rw [s64_small _ (by omega), this]
      · intro hr g _ _ hok2
        simp only [range_read hok1 hb1 hr, Option.bind_some]
        have hgr := range_grow hok1 hb1 hr
        refine does_next ⟨hok2.status, hok2.result, hgr.1, hok2.gas, hok2.refund⟩ ?_
        show _ = { frameState { less { c1 with stack := r.drop k } g with memory := grow c1.memory o s } with
          host := c1.world.addLog ((memOf c1.memory).read a.toNat b.toNat) (r.take k) }
        rw [frame_grow hok1 hb1 hr g]
        rfl
  · refine sound_refuse (I := .log k) (o := 0xa0 + k) hd (by simp) fun x c rev hat hk => exec_refused (.inr (.inl ⟨rfl, ?_⟩))
    rw [frame_static]
    exact check_readOnly.1 (hk (.readOnly true) (by simp))

/-! ## Hashes of blocks and blobs -/

theorem param0 {a : U256} {r : List U256} (h : c.stack = a :: r) : param c 0 = some a := by unfold param; rw [h]; rfl

theorem inRange_iff {x : Model.Ct.Fixed} {a : U256} {r : List U256} (hbn : x.block.blockNumber.toNat < 2 ^ 63) (h : c.stack = a :: r) :
    checkInRange x c 0 = some (decide ((a.toNat : Int) < s64 x.block.blockNumber ∧ s64 x.block.blockNumber ≤ a.toNat + 256)) := by
  unfold checkInRange
  rw [param0 h, s64_small _ hbn]
  simp only [Option.map_some]
  congr 1
  by_cases hu : isUint64 a = true
  · have hlt := (isUint64_iff a).1 hu
    rw [if_neg (by rw [hu]; simp)]
    have e : (uint64 a).toNat = a.toNat := by rw [uint64_toNat, Nat.mod_eq_of_lt hlt]
    have h1 : (uint64 a < x.block.blockNumber) ↔ a.toNat < x.block.blockNumber.toNat := by
      show (uint64 a).toNat < x.block.blockNumber.toNat ↔ _
      rw [e]
    have h2 : ((if x.block.blockNumber > 256 then x.block.blockNumber - 256 else 0) ≤ uint64 a) ↔ x.block.blockNumber.toNat ≤ a.toNat + 256 := by
      show (if x.block.blockNumber > 256 then x.block.blockNumber - 256 else 0).toNat ≤ (uint64 a).toNat ↔ _
      have hgt : x.block.blockNumber > 256 ↔ x.block.blockNumber.toNat > 256 := Iff.rfl
      by_cases hc : x.block.blockNumber.toNat > 256
      · rw [if_pos (hgt.2 hc), BitVec.toNat_sub, e]
        show (2 ^ 64 - 256 + _) % _ ≤ _ ↔ _
        omega
      · rw [if_neg (fun h => hc (hgt.1 h)), e]
        show 0 ≤ _ ↔ _
        omega
    rw [← Bool.decide_and]
    apply decide_eq_decide.2
    rw [h1, h2]
    omega
  · have hf : isUint64 a = false := by simpa using hu
    have := (isUint64_false a).1 hf
    rw [if_pos hf]
    symm
    apply decide_eq_false
    omega

theorem sounds_blockhash : Sounds keccak blockhash := by
  unfold Model.Ct.blockhash
  refine sounds_append ?_ ?_
  · refine sounds_simple (I := .blockhash) rfl rfl rfl rfl rfl (by decide) (by decide) (by decide) (fun x c rev _ _ => always rfl rfl x rev) ?_
    intro x c rev hat hk hs hok hb
    obtain ⟨a, r, hst⟩ := stack1 hs
    have hst' : (next c (Instr.baseGas .blockhash)).stack = a :: r := hst
    have hbn := hat.scope.blockNumber
    have hc : (Cond.inRange256 0).check x c = some true := hk _ (by simp)
    have hc' : checkInRange x c 0 = some true := hc
    rw [inRange_iff hbn hst] at hc'
    injection hc' with hc'
    have hin := of_decide_eq_true hc'
    show Does _ (Spec.blockhash (testFrame keccak x c rev) (frameState (next c (Instr.baseGas .blockhash))))
    unfold Spec.blockhash
    generalize next c (Instr.baseGas .blockhash) = c1 at *
    rw [pop1_eq hst']
    simp only [pop_eq hst', Option.bind_eq_bind, Option.bind_some]
    show Does _ (if (a.toNat : Int) < s64 x.block.blockNumber ∧ s64 x.block.blockNumber ≤ a.toNat + 256 then
      (frameState { c1 with stack := r }).push (blockHash x a.toNat) else _)
    rw [if_pos hin]
    rw [s64_small _ hbn] at hin
    have eu : (uint64 a).toNat = a.toNat := by rw [uint64_toNat]; omega
    have ei : (x.block.blockNumber - uint64 a - 1).toNat = x.block.blockNumber.toNat - a.toNat - 1 := by
      rw [BitVec.toNat_sub, BitVec.toNat_sub, eu]
      show (2 ^ 64 - 1 + _) % _ = _
      omega
    rw [if_pos (by rw [ei]; omega), ei]
    refine does_push (ok_stack hok r) ?_
    unfold blockHash
    rw [s64_small _ hbn]
    dsimp only
    rw [if_neg (by split <;> omega)]
    congr 1
    unfold u64
    rw [BitVec.toNat_ofInt]
    omega
  · refine sounds_simple (I := .blockhash) rfl rfl rfl rfl rfl (by decide) (by decide) (by decide) (fun x c rev _ _ => always rfl rfl x rev) ?_
    intro x c rev hat hk hs hok hb
    obtain ⟨a, r, hst⟩ := stack1 hs
    have hst' : (next c (Instr.baseGas .blockhash)).stack = a :: r := hst
    have hbn := hat.scope.blockNumber
    have hc : (Cond.outOfRange256 0).check x c = some true := hk _ (by simp)
    have hc' : (checkInRange x c 0).map (!·) = some true := hc
    rw [inRange_iff hbn hst] at hc'
    have hin : ¬ ((a.toNat : Int) < s64 x.block.blockNumber ∧ s64 x.block.blockNumber ≤ a.toNat + 256) := by
      intro h
      rw [decide_eq_true h] at hc'
      cases hc'
    show Does _ (Spec.blockhash (testFrame keccak x c rev) (frameState (next c (Instr.baseGas .blockhash))))
    unfold Spec.blockhash
    generalize next c (Instr.baseGas .blockhash) = c1 at *
    rw [pop1_eq hst']
    simp only [pop_eq hst', Option.bind_eq_bind, Option.bind_some]
    show Does _ (if (a.toNat : Int) < s64 x.block.blockNumber ∧ s64 x.block.blockNumber ≤ a.toNat + 256 then _ else (frameState { c1 with stack := r }).push 0)
    rw [if_neg hin]
    exact does_push (ok_stack hok r) rfl

theorem blob_iff {x : Model.Ct.Fixed} {a : U256} {r : List U256} (hbn : x.blobHashes.length < 2 ^ 63) (h : c.stack = a :: r) :
    checkHasBlobHash x c 0 = some (decide (a.toNat < x.blobHashes.length)) := by
  unfold checkHasBlobHash
  rw [param0 h]
  simp only [Option.map_some]
  congr 1
  by_cases hu : isUint64 a = true
  · have hlt := (isUint64_iff a).1 hu
    rw [if_neg (by rw [hu]; simp)]
    apply decide_eq_decide.2
    show (uint64 a).toNat < (BitVec.ofNat 64 x.blobHashes.length).toNat ↔ _
    rw [uint64_toNat, Nat.mod_eq_of_lt hlt, BitVec.toNat_ofNat]
    omega
  · have hf : isUint64 a = false := by simpa using hu
    have := (isUint64_false a).1 hf
    rw [if_pos hf]
    symm
    apply decide_eq_false
    omega

theorem sounds_blobhash : Sounds keccak blobhash := by
  unfold blobhash
  refine sounds_append (sounds_append ?_ ?_) (sounds_cons (sound_early (I := .blobhash) rfl (by decide)) sounds_nil)
  · refine sounds_simple (I := .blobhash) rfl rfl rfl rfl rfl (by decide) (by decide) (by decide)
      (fun x c rev hat hk => ⟨since_ok hat.rev (hk (.revision 5 5) (by simp)) (by decide), fun h => by cases h.1⟩) ?_
    intro x c rev hat hk hs hok hb
    obtain ⟨a, r, hst⟩ := stack1 hs
    have hst' : (next c (Instr.baseGas .blobhash)).stack = a :: r := hst
    have hc' : checkHasBlobHash x c 0 = some true := hk (.hasBlobHash 0) (by simp)
    have hbl := hat.scope.blobHashes
    rw [blob_iff hbl hst] at hc'
    injection hc' with hc'
    have hin := of_decide_eq_true hc'
    show Does _ ((frameState (next c (Instr.baseGas .blobhash))).pop1 fun i s => s.push (x.blobHashes.getD i.toNat 0))
    generalize next c (Instr.baseGas .blobhash) = c1 at *
    rw [pop1_eq hst']
    have eu : (uint64 a).toNat = a.toNat := by rw [uint64_toNat]; omega
    simp only [pop_eq hst', Option.bind_eq_bind, Option.bind_some, eu, List.getElem?_eq_getElem hin]
    refine does_push (ok_stack hok r) ?_
    rw [List.getD_eq_getElem?_getD, List.getElem?_eq_getElem hin]
    rfl
  · refine sounds_simple (I := .blobhash) rfl rfl rfl rfl rfl (by decide) (by decide) (by decide)
      (fun x c rev hat hk => ⟨since_ok hat.rev (hk (.revision 5 5) (by simp)) (by decide), fun h => by cases h.1⟩) ?_
    intro x c rev hat hk hs hok hb
    obtain ⟨a, r, hst⟩ := stack1 hs
    have hst' : (next c (Instr.baseGas .blobhash)).stack = a :: r := hst
    have hc' : (checkHasBlobHash x c 0).map (!·) = some true := hk (.hasNoBlobHash 0) (by simp)
    have hbl := hat.scope.blobHashes
    rw [blob_iff hbl hst] at hc'
    have hin : ¬ a.toNat < x.blobHashes.length := by
      intro h
      rw [decide_eq_true h] at hc'
      cases hc'
    show Does _ ((frameState (next c (Instr.baseGas .blobhash))).pop1 fun i s => s.push (x.blobHashes.getD i.toNat 0))
    generalize next c (Instr.baseGas .blobhash) = c1 at *
    rw [pop1_eq hst']
    simp only [pop_eq hst', Option.bind_eq_bind, Option.bind_some]
    refine does_push (ok_stack hok r) ?_
    rw [List.getD_eq_getElem?_getD, List.getElem?_eq_none (by omega)]
    rfl

end Tosca.Proofs.Ct

import Verif.Proofs.CtOps2

/-!
# Rules about memory, and for what is no instruction
-/

namespace Tosca.Proofs.Ct

open Tosca.Spec Tosca.Spec.Go Tosca.Go Tosca.Model.Go Tosca.Model.Ct Tosca.Proofs.Lfvm
open Tosca.Model.Lfvm (isUint64 uint64 ofU64 bytes20 bytes32 ofBytes20 setBytes)

variable {c : S} {t : State World} {keccak : List Byte → U256}

/-! ## No instructions -/

theorem invalid_decode : ∀ op ∈ (List.range 256).filter (fun op => !isValid op), decode op = none ∨ decode op = some .invalid := by decide +kernel

theorem exec_invalid {P : Params World} {s : State World} : Failed (execInstrEip P .invalid s) := by
  unfold execInstrEip
  split
  · exact failed_fail _ _
  split
  · exact failed_fail _ _
  split
  · exact failed_fail _ _
  split
  · exact failed_fail _ _
  unfold State.charge
  split
  · exact failed_fail _ _
  · exact failed_fail _ _

theorem sounds_basic : Sounds keccak basicRules := by
  unfold basicRules
  have ended : ∀ {st : CtStatus}, st ≠ .running → Sound keccak ⟨[anyKnownRevision, .status st], noEffect⟩ := by
    intro st hne x c rev hs hr ha
    have := check_status.1 (applies_iff.1 ha (.status st) (by simp))
    rw [hs.status] at this
    exact absurd this.symm hne
  refine sounds_append (sounds_append (sounds_cons (ended (by decide)) (sounds_cons (ended (by decide)) (sounds_cons (ended (by decide)) (sounds_cons ?_ sounds_nil))))
    ?_) (sounds_cons ?_ (sounds_cons ?_ sounds_nil))
  · intro x c rev hs hr ha
    have hk := applies_iff.1 ha (.isData .pc) (by simp)
    have h16 := c.pc.isLt
    have e : (ofU64 (c.pc.setWidth 64)).toNat = c.pc.toNat := by
      rw [ofU64_toNat, BitVec.toNat_setWidth]; omega
    have e' : (uint64 (ofU64 (c.pc.setWidth 64))).toNat = c.pc.toNat := by rw [uint64_toNat, e]; omega
    have ht : tooFar (ofU64 (c.pc.setWidth 64)) = false := by
      unfold tooFar
      rw [(isUint64_iff _).2 (by rw [e]; omega), e']
      simp
      omega
    unfold Cond.check checkIsCode evalPos at hk
    simp only [Option.map_some, ht, e', isCode_iff.2 hs.pc] at hk
    simp at hk
  · refine sounds_map fun op hop => ?_
    intro x c rev hs hr ha
    have hat : At x c rev op := at_of hs hr (applies_iff.1 ha (.op .pc op) (by simp))
    rcases invalid_decode op hop with hd | hd
    · refine does_fail ?_ rfl rfl
      unfold stepEip
      rw [if_pos (show (frameState c).status = .running from rfl)]
      show Failed (match decode (byteAt x.code c.pc.toNat).toNat with | none => _ | some i => _)
      rw [hat.op, hd]
      exact failed_fail _ _
    · rw [step_decode hat.op hd]
      exact does_fail exec_invalid rfl rfl
  · intro x c rev hs hr ha
    have := check_revision.1 (applies_iff.1 ha (.revision 99 99) (by simp))
    have := hs.revision
    omega
  · intro x c rev hs hr ha
    have hat : At x c rev 0 := at_of hs hr (applies_iff.1 ha (.op .pc 0) (by simp))
    have h3 := hs.stack
    rw [step_decode hat.op (I := .stop) rfl, exec_done (I := .stop) (s := frameState c) (Nat.not_lt_zero _) (fun h => by cases h.1) (Nat.zero_le _)
      (by show c.stack.length + 0 ≤ 1024 + 0; omega) (Nat.zero_le _)]
    refine ⟨_, rfl, rfl, ?_, (i64_id (by have := hs.refund.1; omega) (by have := hs.refund.2; omega)).symm, rfl, rfl⟩
    show c.gas = ((c.gas.toNat - 0 : Nat) : Int)
    have := hs.gas.1
    omega

/-! ## A range of memory -/

/-- Offset and size of a range that has been paid for. -/
structure Range (off n : U256) (o s : BitVec 64) : Prop where
  size : s.toNat = n.toNat
  pos : n.toNat ≠ 0 → o.toNat = off.toNat ∧ off.toNat + n.toNat ≤ 2 ^ 30

theorem range_small {off n : U256} {o s : BitVec 64} (h : Range off n o s) : n.toNat ≤ 2 ^ 30 := by
  have := h.pos
  omega

theorem exp_range (h : Ok c) (hb : Bounded c) {off n : U256} {cost : Int} {o s : BitVec 64} (hE : expansionCosts c.memory off n = (cost, o, s)) :
    (Range off n o s ∧ cost = ((memOf c.memory).growGas ((memOf c.memory).sizeAfter off.toNat n.toNat) : Nat)) ∨
    ((c.gas < cost ∧ 0 ≤ cost ∧ cost ≤ maxInt64) ∧ c.gas.toNat < (memOf c.memory).growGas ((memOf c.memory).sizeAfter off.toNat n.toNat)) := by
  rcases exp_cases h hb off n with ⟨o', s', e, h1, h2⟩ | ⟨⟨c', o', s', e, h1⟩, h2⟩
  · rw [hE] at e
    injection e with e1 e2
    injection e2 with e2 e3
    subst e2 e3
    exact .inl ⟨⟨h1, h2⟩, e1⟩
  · rw [hE] at e
    injection e with e1 e2
    subst e1
    exact .inr ⟨h1, h2⟩

/-- The state after paying `g`. -/
abbrev less (c : S) (g : Nat) : S := { c with gas := c.gas - (g : Int) }

theorem grow_small (hb : Bounded c) (h : Ok c) {off n : U256} {o s : BitVec 64} (hr : Range off n o s) :
    (memOf c.memory).growGas ((memOf c.memory).sizeAfter off.toNat n.toNat) < 2 ^ 60 := by
  have hl := bounded_length hb
  have hn := hr.pos
  have key : (memOf c.memory).sizeAfter off.toNat n.toNat ≤ 2 ^ 30 := by
    unfold Mem.sizeAfter
    rw [memOf_size h.memory]
    split
    · exact hl
    · rename_i hz
      have := (hn hz).2
      unfold words
      omega
  unfold Mem.growGas
  generalize (memOf c.memory).sizeAfter off.toNat n.toNat = N at *
  have hw : words N ≤ 2 ^ 25 := by unfold words; omega
  have : words N * words N ≤ 2 ^ 25 * 2 ^ 25 := Nat.mul_le_mul hw hw
  unfold memGas
  omega

/-- What follows the payment. -/
def Goes (c : S) (off n : U256) (o s : BitVec 64) (K : S → Option S) (K' : State World → State World) : Prop :=
  Range off n o s → ∀ g : Nat, (g : Int) ≤ c.gas → (memOf c.memory).growGas ((memOf c.memory).sizeAfter off.toNat n.toNat) ≤ g → Ok (less c g) →
    Does (K (less c g)) (K' { frameState (less c g) with mem := (memOf c.memory).expand off.toNat n.toNat })

variable {off n : U256} {cost : Int} {o s : BitVec 64} {K : S → Option S} {K' : State World → State World}

/-- Paying for memory. -/
theorem does_mem (h : Ok c) (hb : Bounded c) (hE : expansionCosts c.memory off n = (cost, o, s)) (H : Goes c off n o s K K') :
    Does (pay c (some cost) K) ((frameState c).touch off n 0 K') := by
  rcases exp_range h hb hE with ⟨hr, e⟩ | ⟨⟨h1, _⟩, h2⟩
  · exact does_touch h (by rw [e]; rfl) (H hr)
  · exact does_broke (fun n hn => by injection hn with hn; omega) (touch_broke h2 _ _)

/-- Paying for memory and more in one sum. -/
theorem does_mem_sum (h : Ok c) (hb : Bounded c) (hE : expansionCosts c.memory off n = (cost, o, s)) {ex : Int} {extra : Nat}
    (hex : Range off n o s → ex = (extra : Int) ∧ extra < 2 ^ 60) (H : Goes c off n o s K K') :
    Does (pay c (sumGas [cost, ex] 0) K) ((frameState c).touch off n extra K') := by
  rcases exp_range h hb hE with ⟨hr, e⟩ | ⟨⟨h1, h2, h3⟩, h4⟩
  · have hg := grow_small hb h hr
    obtain ⟨e', hx⟩ := hex hr
    rw [e, e', sum_near (by omega)]
    exact does_touch h rfl (H hr)
  · exact does_broke (sum_far h1 h2 h3) (touch_broke h4 _ _)

/-- The same with two payments. -/
theorem does_mem_two (h : Ok c) (hb : Bounded c) (hE : expansionCosts c.memory off n = (cost, o, s)) {ex : Int} {extra : Nat}
    (hex : Range off n o s → ex = (extra : Int)) (H : Goes c off n o s K K') :
    Does (pay c (some cost) fun c => pay c (some ex) K) ((frameState c).touch off n extra K') := by
  rcases exp_range h hb hE with ⟨hr, e⟩ | ⟨⟨h1, h2, h3⟩, h4⟩
  · have e' := hex hr
    have h0 := h.gas
    have hfg : (frameState c).gas = c.gas.toNat := rfl
    have hH := H hr
    rw [e, e']
    generalize hG : (memOf c.memory).growGas ((memOf c.memory).sizeAfter off.toNat n.toNat) = G at *
    unfold pay
    dsimp only
    by_cases hlt : c.gas < ((G + extra : Nat) : Int)
    · have hf : Failed ((frameState c).touch off n extra K') := by
        unfold State.touch State.charge
        rw [if_pos]
        · exact failed_fail _ _
        · show c.gas.toNat < (memOf c.memory).growGas ((memOf c.memory).sizeAfter off.toNat n.toNat) + extra
          omega
      by_cases hlt' : c.gas < (G : Int)
      · rw [if_pos hlt']
        exact does_failed hf
      · rw [if_neg hlt', if_pos (by omega)]
        exact does_failed hf
    · rw [if_neg (by omega), if_neg (by omega)]
      have hle : ((G + extra : Nat) : Int) ≤ c.gas := by omega
      have := hH (G + extra) hle (Nat.le_add_right _ _) (ok_gas h hle)
      unfold State.touch State.charge
      rw [if_neg (by show ¬ c.gas.toNat < (memOf c.memory).growGas ((memOf c.memory).sizeAfter off.toNat n.toNat) + extra; omega)]
      have e1 : less c (G + extra) = { c with gas := c.gas - (G : Int) - (extra : Int) } := by
        show ({ c with gas := c.gas - ((G + extra : Nat) : Int) } : S) = _
        congr 1
        omega
      have e2 : frameState (less c (G + extra)) = { frameState c with gas := (frameState c).gas - ((frameState c).mem.growGas ((frameState c).mem.sizeAfter off.toNat n.toNat) + extra) } := by
        rw [frame_gas]
        show _ = ({ frameState c with gas := (frameState c).gas - ((memOf c.memory).growGas ((memOf c.memory).sizeAfter off.toNat n.toNat) + extra) } : State World)
        rw [hG]
      rw [e1] at this
      rw [← e1, e2] at this
      rw [← e1]
      exact this
  · exact does_broke (fun n hn => by injection hn with hn; omega) (touch_broke h4 _ _)

end Tosca.Proofs.Ct

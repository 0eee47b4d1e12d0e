import Verif.Proofs.CtAll
import Verif.Proofs.LfvmOne

/-!
# Rules, the reference and the long-form EVM
-/

namespace Tosca.Proofs.Ct

open Tosca.Spec Tosca.Spec.Go Tosca.Go Tosca.Model.Go Tosca.Model.Ct Tosca.Proofs.Lfvm

variable {keccak : List Byte → U256} {x : Model.Ct.Fixed} {c c1 c2 : S} {rev : Revision}

theorem agree_shows {t : State World} (hc : c.returnData = []) (h : Agree c1 t) : Shows x.code c c1 { t with refund := i64 t.refund } := by
  unfold Agree at h
  unfold Shows
  dsimp only
  split at h
  · rename_i f hf
    rw [hf]; exact h
  · rename_i hf
    obtain ⟨h1, h2, h3, h4, h5, h6⟩ := h
    rw [hf]
    dsimp only
    have e : ∀ {α : Type} (f : State World → α), f t = f { frameState c1 with refund := t.refund } := fun f => congrArg f h5
    refine ⟨h1, ?_, h6, e State.host ▸ rfl, e State.stack ▸ rfl, ?_, e State.ret ▸ rfl, by rw [h2, hc], .inl (e State.pc ▸ rfl)⟩
    · rw [e State.gas]; exact (Int.toNat_of_nonneg h4).symm
    · rw [e State.mem]; exact memory_read h3
  · rename_i hf
    obtain ⟨h1, h2, h3, h4, h5⟩ := h
    rw [hf]
    exact ⟨h1, h2, h3, h4, by rw [h5, hc]⟩
  · rename_i hf
    rw [hf]; exact h
  · rename_i hf
    rw [hf]; exact h

/-- States showing the same frame are the same for the tests. -/
theorem shows_same {code : List Byte} {t : State World} (h1 : Shows code c c1 t) (h2 : Shows code c c2 t) : Same code c1 c2 := by
  unfold Shows at h1 h2
  unfold Same
  cases ht : t.status with
  | failed f =>
    rw [ht] at h1 h2
    exact ⟨h1.trans h2.symm, .inl h1⟩
  | running =>
    rw [ht] at h1 h2
    obtain ⟨a1, a2, a3, a4, a5, a6, a7, a8, a9⟩ := h1
    obtain ⟨b1, b2, b3, b4, b5, b6, b7, b8, b9⟩ := h2
    refine ⟨a1.trans b1.symm, .inr ⟨a2.trans b2.symm, a3.trans b3.symm, a4.trans b4.symm, ?_⟩⟩
    rw [if_pos a1]
    refine ⟨?_, a5.trans b5.symm, a6.trans b6.symm, a7.trans b7.symm⟩
    rcases a9 with e | ⟨e1, e2⟩ <;> rcases b9 with e' | ⟨e1', e2'⟩
    · exact .inl (BitVec.eq_of_toNat_eq (e.trans e'.symm))
    · exact .inr ⟨by omega, e1'⟩
    · exact .inr ⟨e1, by omega⟩
    · exact .inr ⟨e1, e1'⟩
  | stopped =>
    rw [ht] at h1 h2
    obtain ⟨a1, a2, a3, a4, a5⟩ := h1
    obtain ⟨b1, b2, b3, b4, b5⟩ := h2
    refine ⟨a1.trans b1.symm, .inr ⟨a2.trans b2.symm, a3.trans b3.symm, a4.trans b4.symm, ?_⟩⟩
    rw [if_neg (by rw [a1]; simp)]
    exact a5.trans b5.symm
  | returned =>
    rw [ht] at h1 h2
    obtain ⟨a1, a2, a3, a4, a5⟩ := h1
    obtain ⟨b1, b2, b3, b4, b5⟩ := h2
    refine ⟨a1.trans b1.symm, .inr ⟨a2.trans b2.symm, a3.trans b3.symm, a4.trans b4.symm, ?_⟩⟩
    rw [if_neg (by rw [a1]; simp)]
    exact a5.trans b5.symm
  | reverted =>
    rw [ht] at h1 h2
    obtain ⟨a1, a2, a3, a4, a5⟩ := h1
    obtain ⟨b1, b2, b3, b4, b5⟩ := h2
    refine ⟨a1.trans b1.symm, .inr ⟨a2.trans b2.symm, a3.trans b3.symm, a4.trans b4.symm, ?_⟩⟩
    rw [if_neg (by rw [a1]; simp)]
    exact a5.trans b5.symm

/-! ## The run context of the tests -/

theorem ct_access : AccessOk (ctDb x) := ⟨fun _ _ _ => rfl, fun _ _ _ => rfl, fun _ _ _ => rfl⟩

theorem ct_lengths : Lengths (ctDb x) := ⟨fun a w => (w.account a).code.short, fun a w => (w.account a).code.short⟩

theorem ct_kept : GasKept ctCall := by
  intro kind p w r w' h0 _ _ h
  have h : (Except.ok (w.call kind p).1, (w.call kind p).2) = ((.ok r, w') : Except Err CallRes × World) := h
  have e : (w.call kind p).1 = r := by
    have := (Prod.mk.inj h).1
    injection this
  subst e
  show 0 ≤ (if p.gas < ((w.future.headD {}).gasCosts : Int) then (0 : Int) else p.gas - ((w.future.headD {}).gasCosts : Int)) ∧
    (if p.gas < ((w.future.headD {}).gasCosts : Int) then (0 : Int) else p.gas - ((w.future.headD {}).gasCosts : Int)) ≤ p.gas
  split <;> constructor <;> omega

theorem ct_run (h : InScope x c) : RunOk (toVmParameters keccak x c) := by
  have hs : ∀ v : BitVec 64, v.toNat < 2 ^ 63 → 0 ≤ s64 v ∧ s64 v < 2 ^ 63 := by
    intro v hv
    unfold s64
    rw [BitVec.toInt_eq_toNat_cond, if_pos (by omega)]
    constructor <;> omega
  refine ⟨⟨hs _ h.blockNumber, hs _ h.timestamp, hs _ h.gasLimit, Nat.le_of_lt h.blobHashes⟩, ⟨h.gas.1, ?_⟩, by show -2 ^ 31 ≤ (0 : Int) ∧ (0 : Int) < 2 ^ 31; decide, ?_, ?_⟩
  · show c.gas ≤ 2 ^ 54
    have := h.gas
    omega
  · show x.code.length < 2 ^ 32
    have := h.code
    omega
  · show x.callData.length < 2 ^ 64
    have := h.input
    omega

theorem lfvm_expected (h : InScope x c) (hr : revisionOf x.revision = some rev) (hpc : c.pc.toNat ≤ x.code.length) {f : Model.Lfvm.CtFound}
    (hf : StepFound keccak (toVmParameters keccak x c) f) :
    ∃ c', Model.Lfvm.stepN f (ctDb x) ctCall (toVmParameters keccak x c) c 1 = some (c', none) ∧ Expected keccak x c rev c' := by
  have hpc' : c.pc.toNat = x.code.length ∨ (Boundary x.code c.pc.toNat ∧ c.pc.toNat < x.code.length) := by
    by_cases e : c.pc.toNat = x.code.length
    · exact .inl e
    · exact .inr ⟨boundary_of_code h.pc (by omega), by omega⟩
  exact stepOne_ok (p := toVmParameters keccak x c) ct_kept ct_access ct_lengths (ct_run h) h.input h.code h.status hpc' h.gas h.refund h.stack
    (Nat.lt_trans h.returned (by decide)) hf hr

/-! ## Finding rules -/

/-- What the rules have in common. -/
def listed (ks : List Cond) : Bool :=
  match ks.findSome? Cond.opcode with
  | some _ => ks.any (fun k => decide (k = .status .running)) && ks.any (fun | .revision _ hi => decide (hi ≤ 5) | _ => false)
  | none => ks.any fun | .status s => decide (s ≠ .running) | .isData .pc => true | .revision lo hi => decide (lo = 99 ∧ hi = 99) | _ => false

theorem conds_effect (op : Nat) (g : Int) (a b : Nat) (ks : List Cond) (e : Model.Ct.Effect) :
    (rulesFor { op := op, staticGas := g, pops := a, pushes := b, conditions := ks, effect := e }).map Rule.conds =
      (rulesFor { op := op, staticGas := g, pops := a, pushes := b, conditions := ks, effect := noEffect }).map Rule.conds := by
  unfold rulesFor
  simp only [List.map_append]
  congr 1

theorem check_data (h : (Cond.isData .pc).check x c = some true) : isCode x.code c.pc.toNat = false := by
  have h16 := c.pc.isLt
  have e : (Model.Lfvm.ofU64 (c.pc.setWidth 64)).toNat = c.pc.toNat := by
    rw [ofU64_toNat, BitVec.toNat_setWidth]; omega
  have e' : (Model.Lfvm.uint64 (Model.Lfvm.ofU64 (c.pc.setWidth 64))).toNat = c.pc.toNat := by rw [uint64_toNat, e]; omega
  have ht : tooFar (Model.Lfvm.ofU64 (c.pc.setWidth 64)) = false := by
    unfold tooFar
    rw [(isUint64_iff _).2 (by rw [e]; omega), e']
    simp
    omega
  have h : (((some (Model.Lfvm.ofU64 (c.pc.setWidth 64)) : Option U256).map fun pos =>
    if tooFar pos = true then true else isCode x.code (Model.Lfvm.uint64 pos).toNat).map (!·)) = some true := h
  rw [Option.map_some, Option.map_some, ht, e'] at h
  simpa using h

theorem conds_closed : (allRules keccak).map Rule.conds = (allRules fun _ => 0).map Rule.conds := by
  have e : (sha3 keccak).map Rule.conds = (sha3 fun _ => 0).map Rule.conds := by unfold sha3; exact (conds_effect ..).trans (conds_effect ..).symm
  unfold allRules
  simp only [List.map_append, e]

theorem all_listed : ((allRules fun _ => 0).map Rule.conds).all listed = true := by decide +kernel

theorem listed_all {r : Rule} (h : r ∈ allRules keccak) : listed r.conds = true := by
  have : r.conds ∈ (allRules keccak).map Rule.conds := List.mem_map_of_mem h
  rw [conds_closed] at this
  exact List.all_eq_true.1 all_listed _ this

theorem find_op : ∀ {ks : List Cond} {o : Nat}, ks.findSome? Cond.opcode = some o → .op .pc o ∈ ks := by
  intro ks o h
  obtain ⟨k, hk, e⟩ := List.exists_of_findSome?_eq_some h
  unfold Cond.opcode at e
  split at e
  · injection e with e; subst e; exact hk
  · cases e

theorem key_ok {r : Rule} (h : r ∈ allRules keccak) (ha : r.applies x c = true) : r.key = keyOf x c := by
  have hl := listed_all h
  have hk := applies_iff.1 ha
  unfold listed at hl
  unfold Rule.key
  split at hl
  · rename_i o ho
    rw [ho]
    simp only [Bool.and_eq_true, List.any_eq_true, decide_eq_true_eq] at hl
    obtain ⟨⟨_, hm, rfl⟩, k, hm', hr⟩ := hl
    have h1 := check_op.1 (hk _ (find_op ho))
    have h2 := check_status.1 (hk _ hm)
    have h3 : x.revision ≤ 5 := by
      split at hr
      · have h4 := (check_revision.1 (hk _ hm')).2
        have := of_decide_eq_true hr
        omega
      · cases hr
    unfold keyOf
    rw [getOperation_eq, if_pos h1.1]
    dsimp only
    rw [if_neg (fun h => h.elim (fun h => by omega) fun h => h h2), h1.2]
  · rename_i ho
    rw [ho]
    obtain ⟨k, hm, hr⟩ := List.any_eq_true.1 hl
    have hk := hk _ hm
    unfold keyOf
    rw [getOperation_eq]
    split at hr
    · have h1 := check_status.1 hk
      have h2 := of_decide_eq_true hr
      split
      · rfl
      · rw [if_pos (.inr (by rw [h1]; exact h2))]
    · have : isCode x.code c.pc.toNat = false := check_data hk
      rw [if_neg (by rw [this]; simp)]
    · have h1 := (check_revision.1 hk)
      have h2 := of_decide_eq_true hr
      split
      · rfl
      · have : x.revision = 99 := by omega
        rw [if_pos (.inl this)]
    · cases hr

end Tosca.Proofs.Ct

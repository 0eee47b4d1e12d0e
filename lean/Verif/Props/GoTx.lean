import Verif.Props.GoBridge
import Verif.Props.GoValue
import Verif.Proofs.Nonce
import Verif.Proofs.Sound

/-!
# Transactions (C57 to C59)
-/

namespace Tosca

open Tosca.Model Tosca.Spec Tosca.Proofs Tosca.Go Tosca.Model.Go Tosca.Spec.Go

variable {ω : Type} {P : Processor ω} {db : Db ω} {block : BlockParameters} {t : Transaction} {w w' : ω} {receipt : Receipt} {err : Option Err}

theorem nonceCheck_iff (a b : BitVec 64) : nonceCheck a b = true ↔ a = b ∧ b.toNat + 1 < 2 ^ 64 := by
  unfold nonceCheck
  have hb := b.isLt
  rw [BitVec.toNat_add]
  by_cases h : a = b
  · rw [if_neg (fun h' => h' h)]
    have e : (1 : BitVec 64).toNat = 1 := rfl
    rw [e]
    by_cases h2 : b.toNat + 1 < 2 ^ 64
    · rw [Nat.mod_eq_of_lt h2, if_neg (by omega)]
      exact ⟨fun _ => ⟨h, h2⟩, fun _ => rfl⟩
    · have : b.toNat + 1 = 2 ^ 64 := by omega
      rw [this, if_pos (by omega)]
      exact ⟨(fun h => by cases h), fun h => absurd h.2 (by omega)⟩
  · rw [if_pos h]
    exact ⟨(fun h => by cases h), fun h' => absurd h'.1 h⟩

theorem eoaCheck_iff (keccak : List Byte → U256) (db : Db ω) (a : Address) (w : ω) :
    eoaCheck keccak db a w = true ↔ db.codeHash a w = 0 ∨ db.codeHash a w = keccak [] := by
  unfold eoaCheck
  dsimp only
  rw [Bool.not_eq_true', decide_eq_false_iff_not]
  tauto

theorem buyGas_iff (ht : TxOk t) (db : Db ω) (w : ω) :
    (buyGas db t w).isSome = true ↔ t.gasPrice.toNat * t.gasLimit.toNat % 2 ^ 256 ≤ (db.balance t.sender w).toNat := by
  unfold buyGas
  dsimp only
  have hl := ht.gasLimit
  have hc := cmp_lt (db.balance t.sender w) (scale t.gasPrice (u64 t.gasLimit))
  rw [scale_toNat, u64_toNat hl.1 (by omega)] at hc
  by_cases h : cmp (db.balance t.sender w) (scale t.gasPrice (u64 t.gasLimit)) < 0
  · rw [if_pos h]
    rw [hc] at h
    exact ⟨(fun h => by cases h), fun h' => by omega⟩
  · rw [if_neg h]
    rw [hc] at h
    exact ⟨fun _ => by omega, fun _ => rfl⟩

/-- The gas left in terms of the gas billed. -/
theorem gasLeft_billed (ht : TxOk t) {g : Int} (hl : g ≤ t.gasLimit) {r : CallRes} (hr : CallOk g r) (rev : Int) :
    t.gasLimit - calculateGasLeft t r rev = billed (decide (2 ≤ rev)) (decide (t.sender = 0)) r.success t.gasLimit r.gasLeft r.gasRefund := by
  have h1 := hr.gas
  have h2 := hr.refund
  have h3 := ht.gasLimit
  have hdiv : r.gasLeft.tdiv 10 = r.gasLeft / 10 := Int.tdiv_eq_ediv_of_nonneg h1.1
  have hleft : (if t.sender ≠ 0 then i64 (r.gasLeft - r.gasLeft.tdiv 10) else r.gasLeft) =
      (if decide (t.sender = 0) = true then r.gasLeft else r.gasLeft - r.gasLeft / 10) := by
    by_cases hs : t.sender = 0
    · rw [if_neg (fun h => h hs), if_pos (by simpa using hs)]
    · rw [if_pos hs, if_neg (by simpa using hs), hdiv, i64_id (by omega) (by omega)]
  have hb : 0 ≤ (if decide (t.sender = 0) = true then r.gasLeft else r.gasLeft - r.gasLeft / 10) ∧
      (if decide (t.sender = 0) = true then r.gasLeft else r.gasLeft - r.gasLeft / 10) ≤ t.gasLimit := by
    split <;> omega
  unfold calculateGasLeft billed
  dsimp only
  rw [hleft]
  generalize (if decide (t.sender = 0) = true then r.gasLeft else r.gasLeft - r.gasLeft / 10) = x at *
  rw [i64_id (x := t.gasLimit - x) (by omega) (by omega)]
  cases hs : r.success with
  | false => simp only [Bool.false_eq_true, if_false]
  | true =>
    simp only [if_true]
    have hm : (if rev < 2 then (t.gasLimit - x).tdiv 2 else (t.gasLimit - x).tdiv 5) =
        (t.gasLimit - x) / (if decide (2 ≤ rev) = true then 5 else 2) := by
      by_cases hv : rev < 2
      · rw [if_pos hv, if_neg (by simpa using hv), Int.tdiv_eq_ediv_of_nonneg (by omega)]
      · rw [if_neg hv, if_pos (by simp; omega), Int.tdiv_eq_ediv_of_nonneg (by omega)]
    rw [hm]
    have hm2 : 0 ≤ (t.gasLimit - x) / (if decide (2 ≤ rev) = true then (5 : Int) else 2) ∧
        (t.gasLimit - x) / (if decide (2 ≤ rev) = true then (5 : Int) else 2) ≤ t.gasLimit - x := by
      split <;> omega
    generalize (t.gasLimit - x) / (if decide (2 ≤ rev) = true then (5 : Int) else 2) = m at *
    by_cases hc : r.gasRefund > m
    · rw [if_pos hc, i64_id (by omega) (by omega), Int.min_eq_right (by omega)]
      omega
    · rw [if_neg hc, i64_id (by omega) (by omega), Int.min_eq_left (by omega)]
      omega

/-! ### C57: receipts -/

theorem sound_receipt (h : Sound P db block t) (hr : P.run db block t w = (receipt, err, w')) :
    (¬ Admitted db P.keccak t w ∧ receipt = {} ∧ err = none ∧ w' = w) ∨
    (Admitted db P.keccak t w ∧ ∃ w1, w1 = db.setBalance t.sender (db.balance t.sender w - t.gasPrice * BitVec.ofInt 256 t.gasLimit) w ∧
      ((t.gasLimit < intrinsicGas t ∧ receipt = { gasUsed := t.gasLimit } ∧ err = none ∧ w' = w1) ∨
       (intrinsicGas t ≤ t.gasLimit ∧ ¬ Runnable block t ∧ receipt = {} ∧ err = none ∧ w' = w1) ∨
       (Runnable block t ∧ ∃ w2 w3 res, (P.context db block t).call 0 false (txCall t).1 (txCall t).2 w2 = (res, w3) ∧
         w2 = callStart db block (P.precompileList block.revision) t w1 ∧
         ((∃ e, res = .error e ∧ receipt = { gasUsed := t.gasLimit } ∧ err = some e ∧ w' = w3) ∨
          ∃ r, res = .ok r ∧ CallOk (t.gasLimit - intrinsicGas t) r ∧ err = none ∧
            ((r.success = false ∧ r.gasLeft = 0 ∧ receipt = { gasUsed := t.gasLimit } ∧ w' = w3) ∨
             (¬ (r.success = false ∧ r.gasLeft = 0) ∧ receipt.success = r.success ∧ receipt.output = r.output ∧
              receipt.contractAddress = (if t.recipient = none then some r.createdAddress else none) ∧
              receipt.gasUsed = billed (2 ≤ block.revision) (t.sender = 0) r.success t.gasLimit r.gasLeft r.gasRefund ∧
              receipt.logs = db.logs w' ∧
              w' = db.setBalance t.sender (db.balance t.sender w3 + t.gasPrice * (BitVec.ofInt 64 (t.gasLimit - receipt.gasUsed)).setWidth 256) w3)))))) := by
  have hl := h.tx.gasLimit
  have hbill := setupGasBilling_eq h.tx
  have hadm : Admitted db P.keccak t w ↔ nonceCheck t.nonce (db.nonce t.sender w) = true ∧ eoaCheck P.keccak db t.sender w = true ∧
      (buyGas db t w).isSome = true := by
    rw [nonceCheck_iff, eoaCheck_iff, buyGas_iff h.tx]
    exact ⟨fun h => ⟨⟨h.nonce, h.last⟩, h.sender, h.funds⟩, fun h => ⟨h.1.1, h.1.2, h.2.1, h.2.2⟩⟩
  rcases run_cases hr with ⟨h1, h2⟩ | ⟨w1, hn, he, hb, hcase⟩
  · refine Or.inl ⟨?_, ?_⟩
    · rw [hadm]
      rintro ⟨a, b, c⟩
      rcases h2 with h2 | h2 | h2
      · rw [h2] at a; cases a
      · rw [h2] at b; cases b
      · rw [h2] at c; cases c
    · cases h1; exact ⟨rfl, rfl, rfl⟩
  · refine Or.inr ⟨hadm.2 ⟨hn, he, by rw [hb]; rfl⟩, w1, ?_, ?_⟩
    · unfold buyGas at hb
      dsimp only at hb
      split at hb
      · cases hb
      · injection hb with hb
        rw [← hb, sub_eq]
        congr 2
        unfold scale
        congr 1
        apply BitVec.eq_of_toNat_eq
        have e1 : (u64 t.gasLimit).toNat = t.gasLimit.toNat := u64_toNat hl.1 (by omega)
        rw [BitVec.toNat_setWidth, e1, BitVec.toNat_ofInt]
        rw [Nat.mod_eq_of_lt (by omega), Int.emod_eq_of_lt hl.1 (by omega)]
    · rcases hcase with ⟨hg, hR⟩ | ⟨hi, hg, hR⟩ | ⟨hi, hc⟩
      · cases hR; exact Or.inl ⟨by omega, rfl, rfl, rfl⟩
      · cases hR
        refine Or.inr (Or.inl ⟨by omega, ?_, rfl, rfl, rfl⟩)
        intro hh
        have h1 := hh.initCode hi.1 hi.2.1
        have h2 : t.input.length > 49152 := hi.2.2
        omega
      · refine Or.inr (Or.inr ⟨⟨by have := hc.enough; omega, ?_⟩, ?_⟩)
        · intro h1 h2
          by_contra h3
          exact hi ⟨h1, h2, by show t.input.length > 49152; omega⟩
        · have henough := hc.enough
          have hgas : i64 (t.gasLimit - setupGasBilling t) = t.gasLimit - intrinsicGas t := by
            rw [i64_id (by omega) (by omega), hbill]
          obtain ⟨res, w3, hcall, hres⟩ := hc.result
          have hpar : callParameters t (i64 (t.gasLimit - setupGasBilling t)) = (txCall t).2 := by
            rw [hgas]; rfl
          have hkind : txKind t = (txCall t).1 := by
            unfold txKind txCall
            cases t.recipient <;> simp
          rw [hpar, hkind] at hcall
          refine ⟨_, w3, res, hcall, txStart_eq .., ?_⟩
          rcases hres with ⟨e, rfl, hR⟩ | ⟨r, rfl, hR⟩
          · cases hR; exact Or.inl ⟨e, rfl, rfl, rfl, rfl⟩
          · have hok : CallOk (t.gasLimit - intrinsicGas t) r :=
              h.call _ _ _ r w3 (by show 0 ≤ t.gasLimit - (intrinsicGas t : Int); omega)
                (by show t.gasLimit - (intrinsicGas t : Int) ≤ _; omega) h.tx.input hcall
            refine Or.inr ⟨r, rfl, hok, ?_⟩
            rcases hR with ⟨h1, h2, hR⟩ | ⟨h1, hR⟩
            · cases hR; exact ⟨rfl, Or.inl ⟨h1, h2, rfl, rfl⟩⟩
            · have hb2 := gasLeft_bounds h.tx (by omega) hok block.revision
              have hbl := gasLeft_billed h.tx (by omega) hok block.revision
              have hcr : (if txKind t = .create then some r.createdAddress else none) = (if t.recipient = none then some r.createdAddress else none) := by
                unfold txKind
                cases t.recipient <;> simp
              have e1 := congrArg (fun x => x.1) hR
              have e2 := congrArg (fun x => x.2.1) hR
              have e3 := congrArg (fun x => x.2.2) hR
              dsimp only at e1 e2 e3
              rw [hcr, hb2.2.2.2] at e1
              subst e1 e2 e3
              refine ⟨rfl, Or.inr ⟨h1, rfl, rfl, rfl, hbl, rfl, ?_⟩⟩
              dsimp only
              rw [show t.gasLimit - (t.gasLimit - calculateGasLeft t r block.revision) = calculateGasLeft t r block.revision by omega]
              unfold refundGas
              dsimp only
              rw [add_eq]
              rfl

/-- C57.  What a transaction's receipt says, and its effect, by the checks it passes and by the outcome of its call, on evmzero and on the
long-form EVM.  (`billed`, `Admitted`, `Runnable`, `txCall`, `callStart`: `Verif/Spec/Transaction.lean`.) -/
theorem C57_receipt (h : Supported P db block t) (hr : P.run db block t w = (receipt, err, w')) :
    (¬ Admitted db P.keccak t w ∧ receipt = {} ∧ err = none ∧ w' = w) ∨
    (Admitted db P.keccak t w ∧ ∃ w1, w1 = db.setBalance t.sender (db.balance t.sender w - t.gasPrice * BitVec.ofInt 256 t.gasLimit) w ∧
      ((t.gasLimit < intrinsicGas t ∧ receipt = { gasUsed := t.gasLimit } ∧ err = none ∧ w' = w1) ∨
       (intrinsicGas t ≤ t.gasLimit ∧ ¬ Runnable block t ∧ receipt = {} ∧ err = none ∧ w' = w1) ∨
       (Runnable block t ∧ ∃ w2 w3 res, (P.context db block t).call 0 false (txCall t).1 (txCall t).2 w2 = (res, w3) ∧
         w2 = callStart db block (P.precompileList block.revision) t w1 ∧
         ((∃ e, res = .error e ∧ receipt = { gasUsed := t.gasLimit } ∧ err = some e ∧ w' = w3) ∨
          ∃ r, res = .ok r ∧ CallOk (t.gasLimit - intrinsicGas t) r ∧ err = none ∧
            ((r.success = false ∧ r.gasLeft = 0 ∧ receipt = { gasUsed := t.gasLimit } ∧ w' = w3) ∨
             (¬ (r.success = false ∧ r.gasLeft = 0) ∧ receipt.success = r.success ∧ receipt.output = r.output ∧
              receipt.contractAddress = (if t.recipient = none then some r.createdAddress else none) ∧
              receipt.gasUsed = billed (2 ≤ block.revision) (t.sender = 0) r.success t.gasLimit r.gasLeft r.gasRefund ∧
              receipt.logs = db.logs w' ∧
              w' = db.setBalance t.sender (db.balance t.sender w3 + t.gasPrice * (BitVec.ofInt 64 (t.gasLimit - receipt.gasUsed)).setWidth 256) w3)))))) := by
  obtain ⟨I, hS, hrun, hcall⟩ := supported_sound h
  rw [hrun] at hr
  rcases sound_receipt hS hr with h1 | ⟨ha, w1, hw1, h1 | h1 | ⟨hg, w2, w3, res, hc, hrest⟩⟩
  · exact Or.inl h1
  · exact Or.inr ⟨ha, w1, hw1, Or.inl h1⟩
  · exact Or.inr ⟨ha, w1, hw1, Or.inr (Or.inl h1)⟩
  · exact Or.inr ⟨ha, w1, hw1, Or.inr (Or.inr ⟨hg, w2, w3, res, (hcall hg w2).trans hc, hrest⟩)⟩

/-- C57.  The gas used is never negative, and at most the gas limit if the transaction was not successful. -/
theorem C57_bounds (h : Supported P db block t) (hr : P.run db block t w = (receipt, err, w')) :
    0 ≤ receipt.gasUsed ∧ (receipt.success = false → receipt.gasUsed ≤ t.gasLimit) := by
  have hl := (supported_tx h).gasLimit
  rcases C57_receipt h hr with ⟨_, rfl, _⟩ | ⟨_, w1, _, ⟨_, rfl, _⟩ | ⟨_, _, rfl, _⟩ | ⟨_, w2, w3, res, _, _, ⟨e, _, rfl, _⟩ | ⟨r, _, hok, _, ⟨_, _, rfl, _⟩ | ⟨_, h1, _, _, h2, _⟩⟩⟩⟩
  · exact ⟨Int.le_refl 0, fun _ => hl.1⟩
  · exact ⟨hl.1, fun _ => Int.le_refl _⟩
  · exact ⟨Int.le_refl 0, fun _ => hl.1⟩
  · exact ⟨hl.1, fun _ => Int.le_refl _⟩
  · exact ⟨hl.1, fun _ => Int.le_refl _⟩
  · have hg := hok.gas
    rw [h1, h2]
    unfold billed
    dsimp only
    have hb : 0 ≤ (if decide (t.sender = 0) = true then r.gasLeft else r.gasLeft - r.gasLeft / 10) ∧
        (if decide (t.sender = 0) = true then r.gasLeft else r.gasLeft - r.gasLeft / 10) ≤ t.gasLimit := by
      split <;> omega
    generalize (if decide (t.sender = 0) = true then r.gasLeft else r.gasLeft - r.gasLeft / 10) = x at *
    cases hs : r.success with
    | false =>
      simp only [Bool.false_eq_true, if_false]
      exact ⟨by omega, fun _ => by omega⟩
    | true =>
      simp only [if_true]
      refine ⟨?_, fun h => by cases h⟩
      have : min r.gasRefund ((t.gasLimit - x) / (if decide (2 ≤ block.revision) = true then (5 : Int) else 2)) ≤
        (t.gasLimit - x) / (if decide (2 ≤ block.revision) = true then (5 : Int) else 2) := Int.min_le_right _ _
      have h5 : (t.gasLimit - x) / (if decide (2 ≤ block.revision) = true then (5 : Int) else 2) ≤ t.gasLimit - x := by split <;> omega
      omega

/-- C57.  A successful transaction is billed for at least four fifths of its intrinsic gas (before London: half). -/
theorem C57_minimum (h : Supported P db block t) (hr : P.run db block t w = (receipt, err, w')) (hs : receipt.success = true) :
    (2 ≤ block.revision → 4 * (intrinsicGas t : Int) ≤ 5 * receipt.gasUsed) ∧
    (block.revision < 2 → (intrinsicGas t : Int) ≤ 2 * receipt.gasUsed) := by
  have hl := (supported_tx h).gasLimit
  rcases C57_receipt h hr with ⟨_, rfl, _⟩ | ⟨_, w1, _, ⟨_, rfl, _⟩ | ⟨_, _, rfl, _⟩ | ⟨_, w2, w3, res, _, _, ⟨e, _, rfl, _⟩ | ⟨r, _, hok, _, ⟨_, _, rfl, _⟩ | ⟨_, h1, _, _, h2, _⟩⟩⟩⟩
  · cases hs
  · cases hs
  · cases hs
  · cases hs
  · cases hs
  · have hg := hok.gas
    rw [h1] at hs
    rw [h2, hs]
    unfold billed
    dsimp only
    have hb : (if decide (t.sender = 0) = true then r.gasLeft else r.gasLeft - r.gasLeft / 10) ≤ t.gasLimit - intrinsicGas t := by
      split <;> omega
    generalize (if decide (t.sender = 0) = true then r.gasLeft else r.gasLeft - r.gasLeft / 10) = x at *
    simp only [if_true]
    refine ⟨fun hv => ?_, fun hv => ?_⟩
    · rw [if_pos (by simpa using hv)]
      have : min r.gasRefund ((t.gasLimit - x) / 5) ≤ (t.gasLimit - x) / 5 := Int.min_le_right _ _
      omega
    · rw [if_neg (by simpa using hv)]
      have : min r.gasRefund ((t.gasLimit - x) / 2) ≤ (t.gasLimit - x) / 2 := Int.min_le_right _ _
      omega

end Tosca

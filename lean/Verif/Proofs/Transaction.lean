import Verif.Proofs.Ledger

/-!
# Transactions
-/

namespace Tosca.Proofs

open Tosca.Spec Tosca.Model Tosca.Go Tosca.Model.Go Tosca.Spec.Go

variable {ω : Type}

/-- The state in which the call of a transaction starts, from the one in which its gas is paid. -/
def txStart (db : Db ω) (block : BlockParameters) (pre : List Address) (t : Transaction) (w : ω) : ω :=
  let w := if block.revision ≥ 1 then setUpAccessList db pre t w else w
  if txKind t = .call then db.setNonce t.sender (db.nonce t.sender w + 1) w else w

/-- The receipt and state of a transaction whose call was made. -/
structure Called (P : Processor ω) (db : Db ω) (block : BlockParameters) (t : Transaction) (w1 : ω) (R : Receipt × Option Err × ω) : Prop where
  enough : setupGasBilling t ≤ t.gasLimit
  result : ∃ res w3, (P.context db block t).call 0 false (txKind t) (callParameters t (i64 (t.gasLimit - setupGasBilling t)))
      (txStart db block (P.context db block t).precompileList t w1) = (res, w3) ∧
    ((∃ e, res = .error e ∧ R = ({ success := false, gasUsed := t.gasLimit }, some e, w3)) ∨
     ∃ r, res = .ok r ∧
      ((r.success = false ∧ r.gasLeft = 0 ∧ R = ({ success := false, gasUsed := t.gasLimit }, none, w3)) ∨
       (¬ (r.success = false ∧ r.gasLeft = 0) ∧
        R = ({ success := r.success, gasUsed := i64 (t.gasLimit - calculateGasLeft t r block.revision)
               contractAddress := if txKind t = .create then some r.createdAddress else none
               output := r.output, logs := db.logs (refundGas db t (calculateGasLeft t r block.revision) w3) }, none,
              refundGas db t (calculateGasLeft t r block.revision) w3))))

theorem run_cases {P : Processor ω} {db : Db ω} {block : BlockParameters} {t : Transaction} {w : ω} {R : Receipt × Option Err × ω}
    (h : P.run db block t w = R) :
    (R = ({}, none, w) ∧ (nonceCheck t.nonce (db.nonce t.sender w) = false ∨ eoaCheck P.keccak db t.sender w = false ∨ buyGas db t w = none)) ∨
    ∃ w1, nonceCheck t.nonce (db.nonce t.sender w) = true ∧ eoaCheck P.keccak db t.sender w = true ∧ buyGas db t w = some w1 ∧
      ((t.gasLimit < setupGasBilling t ∧ R = ({ success := false, gasUsed := t.gasLimit }, none, w1)) ∨
       ((block.revision ≥ 4 ∧ t.recipient = none ∧ t.input.length > maxInitCodeSize) ∧ setupGasBilling t ≤ t.gasLimit ∧ R = ({}, none, w1)) ∨
       (¬ (block.revision ≥ 4 ∧ t.recipient = none ∧ t.input.length > maxInitCodeSize) ∧ Called P db block t w1 R)) := by
  unfold Processor.run at h
  dsimp only at h
  split at h
  · rename_i hn
    exact Or.inl ⟨h.symm, Or.inl hn⟩
  · rename_i hn
    split at h
    · rename_i he
      exact Or.inl ⟨h.symm, Or.inr (Or.inl he)⟩
    · rename_i he
      split at h
      · rename_i hb
        exact Or.inl ⟨h.symm, Or.inr (Or.inr hb)⟩
      · rename_i w1 hb
        refine Or.inr ⟨w1, Bool.not_eq_false _ |>.mp hn, Bool.not_eq_false _ |>.mp he, hb, ?_⟩
        split at h
        · rename_i hg
          exact Or.inl ⟨hg, h.symm⟩
        · rename_i hg
          split at h
          · rename_i hi
            exact Or.inr (Or.inl ⟨hi, by omega, h.symm⟩)
          · rename_i hi
            refine Or.inr (Or.inr ⟨hi, by omega, ?_⟩)
            split at h
            · rename_i e w3 hc
              exact ⟨.error e, w3, hc, Or.inl ⟨e, rfl, h.symm⟩⟩
            · rename_i r w3 hc
              refine ⟨.ok r, w3, hc, Or.inr ⟨r, rfl, ?_⟩⟩
              split at h
              · rename_i hf
                exact Or.inl ⟨hf.1, hf.2, h.symm⟩
              · rename_i hf
                exact Or.inr ⟨hf, h.symm⟩

/-! ### Gas of a transaction -/

/-- A call result that respects its gas leads to an amount of gas left that is at most the gas limit. -/
theorem gasLeft_bounds {t : Transaction} (ht : TxOk t) {g : Int} (hl : g ≤ t.gasLimit) {r : CallRes} (hr : CallOk g r) (rev : Int) :
    calculateGasLeft t r rev ≤ t.gasLimit ∧ -2 ^ 62 < calculateGasLeft t r rev ∧
    (0 ≤ r.gasRefund ∨ r.success = false → 0 ≤ calculateGasLeft t r rev) ∧
    i64 (t.gasLimit - calculateGasLeft t r rev) = t.gasLimit - calculateGasLeft t r rev := by
  have h1 := hr.gas
  have h2 := hr.refund
  have h3 := ht.gasLimit
  have hdiv : r.gasLeft.tdiv 10 = r.gasLeft / 10 := Int.tdiv_eq_ediv_of_nonneg h1.1
  have hleft : (if t.sender ≠ 0 then i64 (r.gasLeft - r.gasLeft.tdiv 10) else r.gasLeft) =
      (if t.sender ≠ 0 then r.gasLeft - r.gasLeft / 10 else r.gasLeft) := by
    split
    · rw [hdiv, i64_id (by omega) (by omega)]
    · rfl
  have hb : 0 ≤ (if t.sender ≠ 0 then r.gasLeft - r.gasLeft / 10 else r.gasLeft) ∧
      (if t.sender ≠ 0 then r.gasLeft - r.gasLeft / 10 else r.gasLeft) ≤ t.gasLimit := by
    split <;> omega
  have key : calculateGasLeft t r rev ≤ t.gasLimit ∧ -2 ^ 62 < calculateGasLeft t r rev ∧
    (0 ≤ r.gasRefund ∨ r.success = false → 0 ≤ calculateGasLeft t r rev) := by
    unfold calculateGasLeft
    dsimp only
    rw [hleft]
    generalize (if t.sender ≠ 0 then r.gasLeft - r.gasLeft / 10 else r.gasLeft) = x at *
    rw [i64_id (x := t.gasLimit - x) (by omega) (by omega)]
    cases hs : r.success with
    | false =>
      simp only [Bool.false_eq_true, if_false]
      exact ⟨hb.2, by omega, fun _ => hb.1⟩
    | true =>
      simp only [if_true]
      have hm : (if rev < 2 then (t.gasLimit - x).tdiv 2 else (t.gasLimit - x).tdiv 5) =
          (if rev < 2 then (t.gasLimit - x) / 2 else (t.gasLimit - x) / 5) := by
        rw [Int.tdiv_eq_ediv_of_nonneg (by omega), Int.tdiv_eq_ediv_of_nonneg (by omega)]
      rw [hm]
      have hm2 : 0 ≤ (if rev < 2 then (t.gasLimit - x) / 2 else (t.gasLimit - x) / 5) ∧
          (if rev < 2 then (t.gasLimit - x) / 2 else (t.gasLimit - x) / 5) ≤ t.gasLimit - x := by
        split <;> omega
      generalize (if rev < 2 then (t.gasLimit - x) / 2 else (t.gasLimit - x) / 5) = m at *
      by_cases hc : r.gasRefund > m
      · rw [if_pos hc, i64_id (by omega) (by omega)]
        exact ⟨by omega, by omega, fun _ => by omega⟩
      · rw [if_neg hc, i64_id (by omega) (by omega)]
        refine ⟨by omega, by omega, fun h => ?_⟩
        rcases h with h | h
        · omega
        · cases h
  refine ⟨key.1, key.2.1, key.2.2, i64_id (by omega) (by omega)⟩

/-! ### Supply -/

theorem u64_toNat {x : Int} (h0 : 0 ≤ x) (h1 : x < 2 ^ 63) : (u64 x).toNat = x.toNat := by
  unfold u64
  rw [BitVec.toNat_ofInt]
  have : x % ((2 ^ 64 : Nat) : Int) = x := Int.emod_eq_of_lt h0 (by omega)
  rw [this]

theorem supply_buyGas {db : Db ω} (hD : DbOk db) {t : Transaction} (h0 : 0 ≤ t.gasLimit) (h1 : t.gasLimit < 2 ^ 63)
    (hp : t.gasPrice.toNat * t.gasLimit.toNat < 2 ^ 256) {w w1 : ω} (h : buyGas db t w = some w1) :
    supply db w1 + t.gasPrice.toNat * t.gasLimit.toNat = supply db w := by
  unfold buyGas at h
  dsimp only at h
  split at h
  · cases h
  · rename_i hc
    injection h with h
    subst h
    have e : (scale t.gasPrice (u64 t.gasLimit)).toNat = t.gasPrice.toNat * t.gasLimit.toNat := by
      rw [scale_toNat, u64_toNat h0 h1, Nat.mod_eq_of_lt hp]
    rw [cmp_lt, e] at hc
    have hs := supply_setBalance hD t.sender (sub (db.balance t.sender w) (scale t.gasPrice (u64 t.gasLimit))) w
    rw [sub_eq, BitVec.toNat_sub_of_le (by show (scale _ _).toNat ≤ _; rw [e]; omega), e] at hs
    rw [sub_eq]
    omega

theorem supply_refundGas {db : Db ω} (hD : DbOk db) {t : Transaction} {g : Int} (h0 : 0 ≤ g) (h1 : g < 2 ^ 63)
    (hp : t.gasPrice.toNat * g.toNat < 2 ^ 256) (w : ω) :
    supply db (refundGas db t g w) ≤ supply db w + t.gasPrice.toNat * g.toNat ∧
    ((db.balance t.sender w).toNat + t.gasPrice.toNat * g.toNat < 2 ^ 256 →
      supply db (refundGas db t g w) = supply db w + t.gasPrice.toNat * g.toNat) := by
  unfold refundGas
  dsimp only
  have e : (scale t.gasPrice (u64 g)).toNat = t.gasPrice.toNat * g.toNat := by
    rw [scale_toNat, u64_toNat h0 h1, Nat.mod_eq_of_lt hp]
  have hs := supply_setBalance hD t.sender (add (db.balance t.sender w) (scale t.gasPrice (u64 g))) w
  rw [add_eq, BitVec.toNat_add, e] at hs
  rw [add_eq]
  have hm := Nat.mod_le ((db.balance t.sender w).toNat + t.gasPrice.toNat * g.toNat) (2 ^ 256)
  constructor
  · omega
  · intro hh
    rw [Nat.mod_eq_of_lt hh] at hs
    omega

theorem foldl_map {α β γ : Type} (f : γ → β → γ) (g : α → β) (l : List α) (w : γ) : (l.map g).foldl f w = l.foldl (fun w a => f w (g a)) w := by
  induction l generalizing w with
  | nil => rfl
  | cons a l ih => exact ih _

/-- The state in which a transaction's call starts. -/
theorem txStart_eq (db : Db ω) (block : BlockParameters) (pre : List Address) (t : Transaction) (w : ω) :
    txStart db block pre t w = callStart db block pre t w := by
  have e : (if block.revision ≥ 1 then setUpAccessList db pre t w else w) = (listedAccesses block pre t).foldl (DbOp.apply db) w := by
    unfold listedAccesses
    by_cases h : 1 ≤ block.revision
    · rw [if_pos h, if_pos h]
      unfold setUpAccessList
      cases t.accessList with
      | none => rfl
      | some l =>
        dsimp only
        rw [List.foldl_append, List.foldl_append, List.foldl_append, foldl_map, foldl_map]
        have hf : ∀ (l : List AccessTuple) (w : ω), (l.flatMap fun x => DbOp.accessAccount x.address :: x.keys.map (DbOp.accessStorage x.address)).foldl (DbOp.apply db) w =
            l.foldl (fun w tuple => tuple.keys.foldl (fun w key => (db.accessStorage tuple.address key w).2) (db.accessAccount tuple.address w).2) w := by
          intro l
          induction l with
          | nil => intro w; rfl
          | cons x l ih =>
            intro w
            rw [List.flatMap_cons, List.foldl_append, ih, List.foldl_cons, List.foldl_cons, foldl_map]
            rfl
        rw [hf]
        cases t.recipient <;> rfl
    · rw [if_neg h, if_neg h]
      rfl
  unfold txStart callStart
  dsimp only
  rw [e]
  unfold txKind
  cases t.recipient <;> rfl

/-- Setting up the access list only records accesses. -/
theorem accessList_view {α : Type} {db : Db ω} (view : ω → α) (h1 : ∀ a w, view (db.accessAccount a w).2 = view w)
    (h2 : ∀ a k w, view (db.accessStorage a k w).2 = view w) (pre : List Address) (t : Transaction) (w : ω) :
    view (setUpAccessList db pre t w) = view w := by
  unfold setUpAccessList
  cases t.accessList with
  | none => rfl
  | some l =>
    dsimp only
    have f1 : ∀ (l : List Address) w, view (l.foldl (fun w a => (db.accessAccount a w).2) w) = view w := by
      intro l
      induction l with
      | nil => intro w; rfl
      | cons a l ih => intro w; rw [List.foldl_cons, ih, h1]
    have f2 : ∀ (a : Address) (l : List U256) w, view (l.foldl (fun w key => (db.accessStorage a key w).2) w) = view w := by
      intro a l
      induction l with
      | nil => intro w; rfl
      | cons k l ih => intro w; rw [List.foldl_cons, ih, h2]
    have f3 : ∀ (l : List AccessTuple) w, view (l.foldl (fun w tuple =>
        tuple.keys.foldl (fun w key => (db.accessStorage tuple.address key w).2) (db.accessAccount tuple.address w).2) w) = view w := by
      intro l
      induction l with
      | nil => intro w; rfl
      | cons a l ih => intro w; rw [List.foldl_cons, ih, f2, h1]
    rw [f3, f1]
    cases t.recipient with
    | none => exact h1 _ _
    | some r => rw [h1, h1]

theorem txStart_view {α : Type} {db : Db ω} (view : ω → α) (h1 : ∀ a w, view (db.accessAccount a w).2 = view w)
    (h2 : ∀ a k w, view (db.accessStorage a k w).2 = view w) (block : BlockParameters) (pre : List Address) (t : Transaction)
    (h3 : ∀ n w, view (db.setNonce t.sender n w) = view w) (w : ω) : view (txStart db block pre t w) = view w := by
  unfold txStart
  dsimp only
  have e : view (if block.revision ≥ 1 then setUpAccessList db pre t w else w) = view w := by
    split
    · exact accessList_view view h1 h2 pre t w
    · rfl
  split
  · rw [h3, e]
  · exact e

/-- The balance of an account is part of the supply. -/
theorem balance_le_supply {db : Db ω} (hD : DbOk db) (a : Address) (w : ω) : (db.balance a w).toNat ≤ supply db w := by
  have := supply_setBalance hD a 0 w
  have e : (0 : U256).toNat = 0 := rfl
  rw [e] at this
  omega

theorem supply_run {P : Processor ω} {db : Db ω} {block : BlockParameters} {t : Transaction}
    (h : Sound P db block t) (hD : DbOk db) (hN : NoDriver (P.context db block t)) (hs : t.sender ≠ driverAddress)
    {w w' : ω} (hd : db.code driverAddress w = []) (hp : t.gasPrice.toNat * t.gasLimit.toNat < 2 ^ 256)
    {Q : Nat → Prop} (hQ : ∀ a b w, Q (supply db w) → Q (supply db (db.selfDestruct a b w).2))
    (hq : Q (supply db w - t.gasPrice.toNat * t.gasLimit.toNat))
    {receipt : Receipt} {err : Option Err} (hr : P.run db block t w = (receipt, err, w')) (hu : receipt.gasUsed ≤ t.gasLimit) :
    (receipt = {} ∧ w' = w) ∨
    (t.gasPrice.toNat * t.gasLimit.toNat ≤ supply db w ∧
     (receipt = {} ∧ (block.revision ≥ 4 ∧ t.recipient = none ∧ t.input.length > maxInitCodeSize) ∧
       supply db w' = supply db w - t.gasPrice.toNat * t.gasLimit.toNat ∨
      0 ≤ receipt.gasUsed ∧ ∃ w3, Q (supply db w3) ∧
        ((receipt.gasUsed = t.gasLimit ∧ supply db w' = supply db w3) ∨
          (supply db w' ≤ supply db w3 + t.gasPrice.toNat * (t.gasLimit - receipt.gasUsed).toNat ∧
           (supply db w3 + t.gasPrice.toNat * (t.gasLimit - receipt.gasUsed).toNat < 2 ^ 256 →
             supply db w' = supply db w3 + t.gasPrice.toNat * (t.gasLimit - receipt.gasUsed).toNat))))) := by
  have hl := h.tx.gasLimit
  rcases run_cases hr with ⟨h1, _⟩ | ⟨w1, _, _, hb, hcase⟩
  · cases h1; exact Or.inl ⟨rfl, rfl⟩
  · refine Or.inr ?_
    have hbuy := supply_buyGas hD hl.1 (by omega) hp hb
    refine ⟨by omega, ?_⟩
    rcases hcase with ⟨_, he⟩ | ⟨hi, _, he⟩ | ⟨_, hc⟩
    · cases he
      refine Or.inr ⟨hl.1, _, ?_, Or.inl ⟨rfl, rfl⟩⟩
      rw [show supply db w' = supply db w - t.gasPrice.toNat * t.gasLimit.toNat by omega]
      exact hq
    · cases he
      exact Or.inl ⟨rfl, hi, by omega⟩
    · have hbill := setupGasBilling_eq h.tx
      have henough := hc.enough
      have hgas : i64 (t.gasLimit - setupGasBilling t) = t.gasLimit - setupGasBilling t := i64_id (by omega) (by omega)
      obtain ⟨res, w3, hcall, hres⟩ := hc.result
      obtain ⟨R, hW⟩ := h.works
      have hst := supply_stable (F := P.context db block t) hD hN (Q := Q) hQ
      have hk : NotDriver false (txKind t) (callParameters t (i64 (t.gasLimit - setupGasBilling t))) := by
        refine ⟨hs, fun hk => ?_⟩
        unfold txKind at hk
        split at hk <;> (rcases hk with hk | hk <;> cases hk)
      have hv1 := txStart_view (db := db) (fun w => supply db w)
        (fun a w => supply_same hD (op := .accessAccount a) trivial w) (fun a k w => supply_same hD (op := .accessStorage a k) trivial w)
        block (P.context db block t).precompileList t (fun n w => supply_same hD (op := .setNonce t.sender n) trivial w) w1
      have hv2 := txStart_view (db := db) (fun w => db.code driverAddress w)
        (fun a w => hD.code (.accessAccount a) _ w (fun _ _ h => by cases h)) (fun a k w => hD.code (.accessStorage a k) _ w (fun _ _ h => by cases h))
        block (P.context db block t).precompileList t (fun n w => hD.code (.setNonce t.sender n) _ w (fun _ _ h => by cases h)) w1
      have hcode1 : db.code driverAddress w1 = [] := by
        unfold buyGas at hb
        dsimp only at hb
        split at hb
        · cases hb
        · injection hb with hb
          subst hb
          exact (hD.code (.setBalance t.sender _) _ w (fun _ _ h => by cases h)).trans hd
      have hinv := call_stable hW hst 0 false _ _ (txStart db block (P.context db block t).precompileList t w1) hk
        ⟨by
          show Q (supply db _)
          rw [show supply db (txStart db block (P.context db block t).precompileList t w1) = supply db w1 from hv1]
          rw [show supply db w1 = supply db w - t.gasPrice.toNat * t.gasLimit.toNat by omega]
          exact hq, by
          show db.code driverAddress _ = []
          rw [show db.code driverAddress (txStart db block (P.context db block t).precompileList t w1) = db.code driverAddress w1 from hv2]
          exact hcode1⟩
      rw [hcall] at hinv
      have hq3 : Q (supply db w3) := hinv.1
      refine Or.inr ?_
      rcases hres with ⟨e, rfl, he⟩ | ⟨r, rfl, hr2⟩
      · cases he; exact ⟨hl.1, _, hq3, Or.inl ⟨rfl, rfl⟩⟩
      · rcases hr2 with ⟨_, _, he⟩ | ⟨_, he⟩
        · cases he; exact ⟨hl.1, _, hq3, Or.inl ⟨rfl, rfl⟩⟩
        · have hok : CallOk (t.gasLimit - setupGasBilling t) r := by
            have := h.call _ _ _ r w3
              (by show 0 ≤ i64 _; rw [hgas]; omega) (by show i64 _ ≤ _; rw [hgas]; omega) h.tx.input hcall
            rw [show (callParameters t (i64 (t.gasLimit - setupGasBilling t))).gas = i64 (t.gasLimit - setupGasBilling t) from rfl, hgas] at this
            exact this
          obtain ⟨b1, b2, _, b4⟩ := gasLeft_bounds h.tx (by omega) hok block.revision
          have hu' := hu
          cases he
          dsimp only at hu' ⊢
          rw [b4] at hu' ⊢
          have hg0 : 0 ≤ calculateGasLeft t r block.revision := by omega
          refine ⟨by omega, w3, hq3, Or.inr ?_⟩
          have hle : (calculateGasLeft t r block.revision).toNat ≤ t.gasLimit.toNat := by omega
          have hmul := Nat.mul_le_mul_left t.gasPrice.toNat hle
          have hsup := supply_refundGas hD (t := t) hg0 (by omega) (by omega) w3
          have hbal := balance_le_supply hD t.sender w3
          rw [show t.gasLimit - (t.gasLimit - calculateGasLeft t r block.revision) = calculateGasLeft t r block.revision by omega]
          exact ⟨hsup.1, fun hlt => hsup.2 (by omega)⟩

end Tosca.Proofs

import Verif.Proofs.FloriaInv
import Verif.Proofs.GoValue
import Verif.Spec.Ledger

/-!
# Total supply
-/

namespace Tosca.Proofs

open Tosca.Spec Tosca.Model Tosca.Go Tosca.Model.Go Tosca.Spec.Go

variable {ω : Type}

theorem sum_update (f g : Nat → Nat) (k : Nat) (h : ∀ i, i ≠ k → f i = g i) (n : Nat) :
    ((List.range n).map f).sum + (if k < n then g k else 0) = ((List.range n).map g).sum + (if k < n then f k else 0) := by
  induction n with
  | zero => rfl
  | succ n ih =>
    rw [List.range_succ, List.map_append, List.map_append, List.sum_append, List.sum_append]
    simp only [List.map_cons, List.map_nil, List.sum_cons, List.sum_nil, Nat.add_zero]
    by_cases hk : k < n
    · rw [if_pos hk, if_pos hk] at ih
      rw [if_pos (by omega), if_pos (by omega), h n (by omega)]
      omega
    · rw [if_neg hk, if_neg hk] at ih
      by_cases he : k = n
      · subst he
        rw [if_pos (by omega), if_pos (by omega)]; omega
      · rw [if_neg (by omega), if_neg (by omega), h n (by omega)]; omega

theorem supply_setBalance {db : Db ω} (h : DbOk db) (a : Address) (v : U256) (w : ω) :
    supply db (db.setBalance a v w) + (db.balance a w).toNat = supply db w + v.toNat := by
  unfold supply
  have key := sum_update (fun n => (db.balance (BitVec.ofNat 160 n) (db.setBalance a v w)).toNat)
    (fun n => if n < 2 ^ 160 then (db.balance (BitVec.ofNat 160 n) w).toNat
      else (db.balance (BitVec.ofNat 160 n) (db.setBalance a v w)).toNat) a.toNat (by
      intro i hi
      show _ = if i < 2 ^ 160 then _ else _
      split
      · rename_i hl
        rw [h.setBalance, if_neg]
        intro he
        apply hi
        have := congrArg BitVec.toNat he
        rw [BitVec.toNat_ofNat, Nat.mod_eq_of_lt hl] at this
        exact this
      · rfl) (2 ^ 160)
  have hl := a.isLt
  rw [if_pos hl, if_pos hl, if_pos hl, BitVec.ofNat_toNat, BitVec.setWidth_eq, h.setBalance, if_pos rfl] at key
  have e : (List.range (2 ^ 160)).map (fun n => if n < 2 ^ 160 then (db.balance (BitVec.ofNat 160 n) w).toNat
      else (db.balance (BitVec.ofNat 160 n) (db.setBalance a v w)).toNat) =
      (List.range (2 ^ 160)).map fun n => (db.balance (BitVec.ofNat 160 n) w).toNat := by
    apply List.map_congr_left
    intro i hi
    rw [if_pos (List.mem_range.mp hi)]
  rw [e] at key
  exact key

theorem supply_same {db : Db ω} (h : DbOk db) {op : DbOp} (ho : op.moneyless) (w : ω) : supply db (op.apply db w) = supply db w := by
  unfold supply
  exact congrArg List.sum (List.map_congr_left fun i _ => by rw [h.balance op _ w ho])


/-- Moving value between accounts does not change the supply. -/
theorem supply_transfer {db : Db ω} (h : DbOk db) {v : U256} {a b : Address} {w w' : ω} (ht : transferValue db v a b w = some w') :
    supply db w' = supply db w := by
  unfold transferValue at ht
  split at ht
  · cases ht; rfl
  · dsimp only at ht
    split at ht
    · cases ht
    · rename_i hge
      split at ht
      · cases ht; rfl
      · rename_i hne
        split at ht
        · cases ht
        · rename_i hov
          injection ht with ht
          subst ht
          rw [add_eq, sub_eq]
          rw [add_eq, cmp_lt, cmp_lt] at hov
          rw [cmp_lt] at hge
          have e1 := supply_setBalance h b (db.balance b w + v) (db.setBalance a (db.balance a w - v) w)
          have e2 := supply_setBalance h a (db.balance a w - v) w
          rw [h.setBalance, if_neg (fun e => hne e.symm)] at e1
          have hv := v.isLt
          have hb := (db.balance b w).isLt
          rw [BitVec.toNat_add] at hov e1
          rw [BitVec.toNat_sub_of_le (by show v.toNat ≤ _; omega)] at e2
          have hn : (db.balance b w).toNat + v.toNat < 2 ^ 256 := by omega
          rw [Nat.mod_eq_of_lt hn] at e1
          omega

theorem NoDriver.created {F : Floria ω} (h : NoDriver F) (kind : Kind) (p : CallParameters) (w : ω) : createdAt F kind p w ≠ driverAddress := by
  unfold createdAt Floria.createAddress
  split
  · exact h.1 _ _
  · exact h.2 _ _ _

/-- Calls that do not come from the driver, and do not run foreign code in its name. -/
def NotDriver (_ : Bool) (kind : Kind) (p : CallParameters) : Prop :=
  p.sender ≠ driverAddress ∧ (kind = .callCode ∨ kind = .delegateCall → p.recipient ≠ driverAddress)

theorem kindOf_delegate {m : Message} : Spec.Go.kindOf m = .delegateCall ↔ m.kind = .delegatecall := by
  unfold Spec.Go.kindOf
  cases m.kind <;> cases decide (m.flags = 0) <;> simp

theorem kindOf_callcode {m : Message} : Spec.Go.kindOf m = .callCode ↔ m.kind = .callcode := by
  unfold Spec.Go.kindOf
  cases m.kind <;> cases decide (m.flags = 0) <;> simp

theorem kindOf_create {m : Message} : isCreate (Spec.Go.kindOf m) ↔ m.kind = .create ∨ m.kind = .create2 := by
  unfold Spec.Go.kindOf isCreate
  cases m.kind <;> cases decide (m.flags = 0) <;> simp

theorem notDriver_nested {q m : Message} (h : Nested q m) (hr : q.recipient ≠ driverAddress) (hs : q.sender ≠ driverAddress) (st : Bool) :
    NotDriver st (Spec.Go.kindOf m) (Spec.Go.paramsOf m) := by
  constructor
  · show m.sender ≠ driverAddress
    by_cases hd : m.kind = .delegatecall
    · rw [(h.delegate hd).1]; exact hs
    · rw [h.sender hd]; exact hr
  · intro hk
    show m.recipient ≠ driverAddress
    rw [h.account]
    · exact hr
    · rcases hk with hk | hk
      · exact Or.inl (kindOf_callcode.mp hk)
      · exact Or.inr (kindOf_delegate.mp hk)

theorem notDriver_frame {F : Floria ω} (hN : NoDriver F) {st : Bool} {kind : Kind} {p : CallParameters} {w w' : ω} {code : List Byte} {hash : U256}
    {rcp created : Address} (hg : NotDriver st kind p) (hi : F.db.code driverAddress w = [])
    (hp : F.prepare kind p w = some (code, hash, rcp, created, w')) : code = [] ∨ rcp ≠ driverAddress := by
  by_cases hk : isCreate kind
  · rw [prepare_create hk] at hp
    split at hp
    · cases hp
    · cases hp
      exact Or.inr (hN.created kind p w)
  · rw [prepare_call hk] at hp
    cases hp
    by_cases hd : kind = .delegateCall ∨ kind = .callCode
    · exact Or.inr (hg.2 (by tauto))
    · rw [if_neg hd]
      by_cases hr : p.recipient = driverAddress
      · rw [hr]; exact Or.inl hi
      · exact Or.inr hr

/-- Anything that only the modifications of balances can affect, and that transfers do not affect, is kept by calls
that do not involve the driver. -/
theorem supply_stable {F : Floria ω} (hD : DbOk F.db) (hN : NoDriver F) {Q : Nat → Prop}
    (hQ : ∀ a b w, Q (supply F.db w) → Q (supply F.db (F.db.selfDestruct a b w).2)) :
    Stable F NotDriver (fun w => Q (supply F.db w) ∧ F.db.code driverAddress w = []) := by
  have keep : ∀ (op : DbOp) w, op.moneyless → (∀ b c, op ≠ .setCode b c) → (Q (supply F.db w) ∧ F.db.code driverAddress w = []) →
      Q (supply F.db (op.apply F.db w)) ∧ F.db.code driverAddress (op.apply F.db w) = [] := by
    intro op w h1 h2 h3
    rw [supply_same hD h1, hD.code op _ _ h2]
    exact h3
  refine ⟨?_, ?_, ?_, ?_, ?_, ?_⟩
  · intro st kind p rcp w w' _ hw he _
    cases he with
    | accessAccount a => exact keep (.accessAccount a) w trivial (fun _ _ h => by cases h) hw
    | accessStorage k => exact keep (.accessStorage rcp k) w trivial (fun _ _ h => by cases h) hw
    | setStorage k v => exact keep (.setStorage rcp k v) w trivial (fun _ _ h => by cases h) hw
    | setTransient k v => exact keep (.setTransient rcp k v) w trivial (fun _ _ h => by cases h) hw
    | emitLog d t => exact keep (.emitLog ⟨rcp, t, d⟩) w trivial (fun _ _ h => by cases h) hw
    | selfDestruct b =>
      exact ⟨hQ rcp b w hw.1, by rw [show (F.db.selfDestruct rcp b w).2 = (DbOp.selfDestruct rcp b).apply F.db w from rfl,
        hD.code _ _ _ (fun _ _ h => by cases h)]; exact hw.2⟩
  · intro st kind p w _ _ hw _
    exact keep (.setNonce _ 1) _ trivial (fun _ _ h => by cases h) (keep (.setNonce p.sender _) w trivial (fun _ _ h => by cases h) hw)
  · intro st kind p rcp w w' _ hw _ _ ht
    refine ⟨by rw [supply_transfer hD ht]; exact hw.1, ?_⟩
    have : ∀ a v x, F.db.code driverAddress (F.db.setBalance a v x) = F.db.code driverAddress x := fun a v x =>
      hD.code (.setBalance a v) _ x (fun _ _ h => by cases h)
    unfold transferValue at ht
    split at ht
    · cases ht; exact hw.2
    · dsimp only at ht
      split at ht
      · cases ht
      · split at ht
        · cases ht; exact hw.2
        · split at ht
          · cases ht
          · cases ht; rw [this, this]; exact hw.2
  · intro st kind p hg h
    exact hg.1 h.1
  · intro st kind p w0 w code hk hg _ _ hw
    refine ⟨by rw [show F.db.setCode (createdAt F kind p w0) code w = (DbOp.setCode (createdAt F kind p w0) code).apply F.db w from rfl,
      supply_same hD (op := .setCode _ _) trivial]; exact hw.1, ?_⟩
    rw [hD.setCode_other _ _ _ _ (fun h => hN.created kind p w0 h.symm)]
    exact hw.2
  · intro st kind p w code hash rcp created w' hg hw hp
    rcases notDriver_frame hN hg hw.2 hp with h | h
    · exact Or.inl h
    · refine Or.inr fun q m h1 h2 _ _ hm => notDriver_nested hm (by rw [h1]; exact h) (by rw [h2]; exact hg.1) _

end Tosca.Proofs

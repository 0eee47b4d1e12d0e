import Verif.Proofs.Transaction

/-!
# Nonces
-/

namespace Tosca.Proofs

open Tosca.Spec Tosca.Model Tosca.Go Tosca.Model.Go Tosca.Spec.Go

variable {ω : Type}

/-- What balances do not affect, transfers do not affect. -/
theorem transfer_view {α : Type} {db : Db ω} (view : ω → α) (h : ∀ a v w, view (db.setBalance a v w) = view w) {v : U256} {a b : Address}
    {w w' : ω} (ht : transferValue db v a b w = some w') : view w' = view w := by
  unfold transferValue at ht
  split at ht
  · cases ht; rfl
  · dsimp only at ht
    split at ht
    · cases ht
    · split at ht
      · cases ht; rfl
      · split at ht
        · cases ht
        · cases ht; rw [h, h]

/-- Calls that do not run code in the name of `x`, and do not come from the driver. -/
def NotBy (x : Address) (st : Bool) (kind : Kind) (p : CallParameters) : Prop :=
  NotDriver st kind p ∧ (isCreate kind → p.sender ≠ x) ∧ (kind = .callCode ∨ kind = .delegateCall → p.recipient ≠ x)

theorem notBy_nested {x : Address} {q m : Message} (h : Nested q m) (hr : q.recipient ≠ driverAddress) (hs : q.sender ≠ driverAddress)
    (hx : q.recipient ≠ x) (st : Bool) : NotBy x st (Spec.Go.kindOf m) (Spec.Go.paramsOf m) := by
  refine ⟨notDriver_nested h hr hs st, fun hk => ?_, fun hk => ?_⟩
  · show m.sender ≠ x
    rw [h.sender]
    · exact hx
    · intro hd
      rcases kindOf_create.mp hk with h | h <;> (rw [hd] at h; cases h)
  · show m.recipient ≠ x
    rw [h.account]
    · exact hx
    · rcases hk with hk | hk
      · exact Or.inl (kindOf_callcode.mp hk)
      · exact Or.inr (kindOf_delegate.mp hk)

/-- An account without code whose nonce is not zero keeps both. -/
def Quiet (db : Db ω) (x : Address) (n : BitVec 64) (w : ω) : Prop := db.nonce x w = n ∧ db.code x w = [] ∧ db.code driverAddress w = []

theorem quiet_op {db : Db ω} (hD : DbOk db) {x : Address} {n : BitVec 64} (op : DbOp) {w : ω} (h1 : ∀ b n, op ≠ .setNonce b n)
    (h2 : ∀ b c, op ≠ .setCode b c) (h : Quiet db x n w) : Quiet db x n (op.apply db w) :=
  ⟨(hD.nonce op _ _ h1).trans h.1, (hD.code op _ _ h2).trans h.2.1, (hD.code op _ _ h2).trans h.2.2⟩

theorem quiet_setNonce {db : Db ω} (hD : DbOk db) {x : Address} {n : BitVec 64} {a : Address} (ha : a ≠ x) (k : BitVec 64) {w : ω}
    (h : Quiet db x n w) : Quiet db x n (db.setNonce a k w) := by
  refine ⟨?_, (hD.code (.setNonce a k) _ _ (fun _ _ h => by cases h)).trans h.2.1, (hD.code (.setNonce a k) _ _ (fun _ _ h => by cases h)).trans h.2.2⟩
  rw [hD.setNonce, if_neg (fun e => ha e.symm)]
  exact h.1

theorem quiet_transfer {db : Db ω} (hD : DbOk db) {x : Address} {n : BitVec 64} {v : U256} {a b : Address} {w w' : ω}
    (ht : transferValue db v a b w = some w') (h : Quiet db x n w) : Quiet db x n w' := by
  have e := transfer_view (fun w => (db.nonce x w, db.code x w, db.code driverAddress w)) (fun a v w => by
    rw [show db.setBalance a v w = (DbOp.setBalance a v).apply db w from rfl, hD.nonce _ _ _ (fun _ _ h => by cases h),
      hD.code _ _ _ (fun _ _ h => by cases h), hD.code _ _ _ (fun _ _ h => by cases h)]) ht
  injection e with e1 e2
  injection e2 with e2 e3
  exact ⟨e1.trans h.1, e2.trans h.2.1, e3.trans h.2.2⟩

theorem quiet_effect {db : Db ω} (hD : DbOk db) {x : Address} {n : BitVec 64} {rcp : Address} {ro : Bool} {w w' : ω}
    (he : Effect db rcp ro w w') (hw : Quiet db x n w) : Quiet db x n w' := by
  cases he with
  | accessAccount a => exact quiet_op hD (.accessAccount a) (fun _ _ h => by cases h) (fun _ _ h => by cases h) hw
  | accessStorage k => exact quiet_op hD (.accessStorage rcp k) (fun _ _ h => by cases h) (fun _ _ h => by cases h) hw
  | setStorage k v => exact quiet_op hD (.setStorage rcp k v) (fun _ _ h => by cases h) (fun _ _ h => by cases h) hw
  | setTransient k v => exact quiet_op hD (.setTransient rcp k v) (fun _ _ h => by cases h) (fun _ _ h => by cases h) hw
  | emitLog d t => exact quiet_op hD (.emitLog ⟨rcp, t, d⟩) (fun _ _ h => by cases h) (fun _ _ h => by cases h) hw
  | selfDestruct b => exact quiet_op hD (.selfDestruct rcp b) (fun _ _ h => by cases h) (fun _ _ h => by cases h) hw

theorem quiet_setCode {db : Db ω} (hD : DbOk db) {x : Address} {n : BitVec 64} {a : Address} (ha : a ≠ x) (hd : a ≠ driverAddress)
    (c : List Byte) {w : ω} (h : Quiet db x n w) : Quiet db x n (db.setCode a c w) :=
  ⟨(hD.nonce (.setCode a c) _ _ (fun _ _ h => by cases h)).trans h.1,
    (hD.setCode_other _ _ _ _ (fun e => ha e.symm)).trans h.2.1, (hD.setCode_other _ _ _ _ (fun e => hd e.symm)).trans h.2.2⟩

theorem nonce_stable {F : Floria ω} (hD : DbOk F.db) (hN : NoDriver F) (x : Address) {n : BitVec 64} (hn : n ≠ 0) :
    Stable F (NotBy x) (Quiet F.db x n) := by
  have hne : ∀ {kind : Kind} {p : CallParameters} {w : ω}, Quiet F.db x n w → F.db.nonce (createdAt F kind p w) w = 0 → createdAt F kind p w ≠ x := by
    intro kind p w hw h0 e
    rw [e, hw.1] at h0
    exact hn h0
  refine ⟨?_, ?_, ?_, ?_, ?_, ?_⟩
  · intro st kind p rcp w w' _ hw he _
    exact quiet_effect hD he hw
  · intro st kind p w hk hg hw h0
    exact quiet_setNonce hD (hne hw h0) 1 (quiet_setNonce hD (hg.2.1 hk) _ hw)
  · intro st kind p rcp w w' _ hw _ _ ht
    exact quiet_transfer hD ht hw
  · intro st kind p hg h
    exact hg.1.1 h.1
  · intro st kind p w0 w code hk hg hw0 h0 hw
    exact quiet_setCode hD (hne hw0 h0) (hN.created kind p w0) code hw
  · intro st kind p w code hash rcp created w' hg hw hp
    rcases notDriver_frame hN hg.1 hw.2.2 hp with h | h
    · exact Or.inl h
    · have hx : code = [] ∨ rcp ≠ x := by
        rcases prepare_info hp with ⟨hk, h0, hr, _⟩ | ⟨hk, hr, _, _, hc⟩
        · rw [hr]; exact Or.inr (hne hw h0)
        · by_cases hd : kind = .delegateCall ∨ kind = .callCode
          · rw [hr]; exact Or.inr (hg.2.2 (by tauto))
          · rw [if_neg hd] at hc
            by_cases e : rcp = x
            · rw [hc, ← hr, e]; exact Or.inl hw.2.1
            · exact Or.inr e
      rcases hx with hx | hx
      · exact Or.inl hx
      · exact Or.inr fun q m h1 h2 _ _ hm => notBy_nested hm (by rw [h1]; exact h) (by rw [h2]; exact hg.1.1) (by rw [h1]; exact hx) _

/-- A created contract's creation counts once for its creator, unless the address is taken. -/
theorem nonce_create {R : Reports} {F : Floria ω} (hW : Works R F.db F.interpreter) (hD : DbOk F.db) (hN : NoDriver F) {p : CallParameters} {w : ω}
    {kind : Kind} (hk : isCreate kind) (hs : p.sender ≠ driverAddress) (hc : createdAt F kind p w ≠ p.sender)
    (hov : F.db.nonce p.sender w + 1 ≠ 0) (hcode : F.db.code p.sender w = []) (hdr : F.db.code driverAddress w = []) (st : Bool) :
    Quiet F.db p.sender (if F.db.nonce (createdAt F kind p w) w ≠ 0 ∨
        (F.db.codeHash (createdAt F kind p w) w ≠ 0 ∧ F.db.codeHash (createdAt F kind p w) w ≠ F.emptyCodeHash)
      then F.db.nonce p.sender w else F.db.nonce p.sender w + 1) (F.call 0 st kind p w).2 := by
  rw [call_eq]
  have hprep := prepare_create (F := F) hk p w
  by_cases hcol : F.db.nonce (createdAt F kind p w) w ≠ 0 ∨
      (F.db.codeHash (createdAt F kind p w) w ≠ 0 ∧ F.db.codeHash (createdAt F kind p w) w ≠ F.emptyCodeHash)
  · rw [if_pos hcol] at hprep ⊢
    unfold Floria.callBody
    rw [if_neg (by decide), hprep]
    exact ⟨rfl, hcode, hdr⟩
  · rw [if_neg hcol] at hprep ⊢
    have hst := nonce_stable hD hN p.sender hov
    have hdrv : createdAt F kind p w ≠ driverAddress := hN.created kind p w
    refine callBody_rest hW (Good := NotBy p.sender) (fun st kind p w h1 h2 => call_stable hW hst 1 st kind p w h1 h2) (by decide) hprep ?_ ?_ ?_ ?_ ?_ ?_
    · refine quiet_setNonce hD hc 1 ⟨?_, (hD.code (.setNonce _ _) _ _ (fun _ _ h => by cases h)).trans hcode,
        (hD.code (.setNonce _ _) _ _ (fun _ _ h => by cases h)).trans hdr⟩
      rw [hD.setNonce, if_pos rfl]
    · intro w w' hw he
      exact quiet_effect hD he hw
    · intro w' _ ht
      refine quiet_transfer hD ht ?_
      refine quiet_setNonce hD hc 1 ⟨?_, (hD.code (.setNonce _ _) _ _ (fun _ _ h => by cases h)).trans hcode,
        (hD.code (.setNonce _ _) _ _ (fun _ _ h => by cases h)).trans hdr⟩
      rw [hD.setNonce, if_pos rfl]
    · exact fun h => hs h.1
    · intro _ w c hw
      exact quiet_setCode hD hc hdrv c hw
    · refine Or.inr fun q m h1 h2 _ _ hm => notBy_nested hm (by rw [h1]; exact hdrv) (by rw [h2]; exact hs) (by rw [h1]; exact hc) _

end Tosca.Proofs

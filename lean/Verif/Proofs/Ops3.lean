import Verif.Proofs.Ops2

/-!
# Instruction bodies, part 3: environment, accounts, storage
-/

namespace Tosca.Proofs

open Tosca.Model Tosca.Spec

variable {σ : Type} {P : Params σ} {c : Ctx σ} {E : Env σ}

theorem bytes32_slice (l : List Byte) : Ops.bytes32 l = Word.ofBytes (slice l 0 32) := by
  unfold Ops.bytes32 Word.ofBytes
  rw [ofLeBytes_ofN, leNat_reverse]
  congr 2
  apply List.ext_getElem?
  intro i
  unfold slice byteAt
  by_cases hi : i < 32
  · rw [List.getElem?_map, List.getElem?_range hi]
    simp only [Option.map_some, Nat.zero_add]
    by_cases hl : i < l.length
    · rw [List.getElem?_append_left (by simp; omega), List.getElem?_take_of_lt hi]
      simp [List.getD_eq_getElem?_getD, hl]
    · rw [List.getElem?_append_right (by simp; omega), List.getElem?_replicate,
        if_pos (by simp only [List.length_take]; omega), List.getD_eq_getElem?_getD, List.getElem?_eq_none (by omega)]
      rfl
  · rw [List.getElem?_eq_none (by simp; omega), List.getElem?_eq_none (by simp; omega)]

theorem calldataload_ok (hP : ParamsBase P) (hc : Fixed P c) (t g pc' : Nat) (ht : t + 1 ≤ 1024) :
    Ok (Ops.calldataload t) c (Post P c pc' g (t : Int) ((absState c t g pc').pop1 fun off s =>
      s.push (Word.ofBytes (slice P.msg.input off.toNat 32)))) := by
  unfold Ops.calldataload
  simp only [ok_bind, ok_rd0 t (show t < 1024 by omega), ok_get, ok_wr0 t (show t < 1024 by omega), ok_pure]
  refine post_zero ⟨⟨hc.1, hc.2, hc.3, hc.4, hc.5, hc.6⟩, rfl, rfl⟩ ?_
  simp only [State.pop1, absState, absStack_cons c.stack.buf t (by omega), State.push]
  refine rel_running t rfl rfl rfl rfl rfl rfl (by omega) (by omega) ?_ rfl
  rw [absStack_push _ _ _ (by omega), bytes32_slice, hc.msg, slice_tailView _ _ _ hP.input]

theorem address_ok (hc : Fixed P c) (t g pc' : Nat) (ht : 1 ≤ t) (ht' : t ≤ 1024) :
    Ok (Ops.address t) c (Post P c pc' g ((t : Int) - 1)
      ((absState c t g pc').push (Word.ofAddress P.msg.recipient))) := by
  unfold Ops.address
  simp only [ok_bind, ok_get]
  exact push_ok' _ _ (by rw [hc.msg, w_ofAddress]) hc t g pc' ht ht'

theorem caller_ok (hc : Fixed P c) (t g pc' : Nat) (ht : 1 ≤ t) (ht' : t ≤ 1024) :
    Ok (Ops.caller t) c (Post P c pc' g ((t : Int) - 1)
      ((absState c t g pc').push (Word.ofAddress P.msg.sender))) := by
  unfold Ops.caller
  simp only [ok_bind, ok_get]
  exact push_ok' _ _ (by rw [hc.msg, w_ofAddress]) hc t g pc' ht ht'

theorem callvalue_ok (hc : Fixed P c) (t g pc' : Nat) (ht : 1 ≤ t) (ht' : t ≤ 1024) :
    Ok (Ops.callvalue t) c (Post P c pc' g ((t : Int) - 1)
      ((absState c t g pc').push P.msg.value)) := by
  unfold Ops.callvalue
  simp only [ok_bind, ok_get]
  exact push_ok' _ _ (by rw [hc.msg]) hc t g pc' ht ht'

theorem calldatasize_ok (hc : Fixed P c) (t g pc' : Nat) (ht : 1 ≤ t) (ht' : t ≤ 1024) :
    Ok (Ops.calldatasize t) c (Post P c pc' g ((t : Int) - 1)
      ((absState c t g pc').push (Word.ofN P.msg.input.length))) := by
  unfold Ops.calldatasize
  simp only [ok_bind, ok_get]
  exact push_ok' _ _ (by rw [hc.msg]; rfl) hc t g pc' ht ht'

theorem codesize_ok (hP : ParamsBase P) (hc : Fixed P c) (t g pc' : Nat) (ht : 1 ≤ t) (ht' : t ≤ 1024) :
    Ok (Ops.codesize t) c (Post P c pc' g ((t : Int) - 1)
      ((absState c t g pc').push (Word.ofN P.code.length))) := by
  unfold Ops.codesize
  simp only [ok_bind, ok_get]
  refine push_ok' _ _ ?_ hc t g pc' ht ht'
  have hl : (padCode P.code).length - stopBytePadding = P.code.length := by
    simp [padCode, stopBytePadding]
  have := hP.code
  rw [hc.code, hl, Nat.mod_eq_of_lt (by unfold u64Mod; omega)]
  rfl

theorem returndatasize_ok (hc : Fixed P c) (t g pc' : Nat) (ht : 1 ≤ t) (ht' : t ≤ 1024) :
    Ok (Ops.returndatasize t) c (Post P c pc' g ((t : Int) - 1)
      ((absState c t g pc').push (Word.ofN (absState c t g pc').ret.length))) := by
  unfold Ops.returndatasize
  simp only [ok_bind, ok_get]
  exact push_ok' _ _ rfl hc t g pc' ht ht'

theorem msize_ok (hc : Fixed P c) (t g pc' : Nat) (ht : 1 ≤ t) (ht' : t ≤ 1024) :
    Ok (Ops.msize t) c (Post P c pc' g ((t : Int) - 1)
      ((absState c t g pc').push (Word.ofN (absState c t g pc').mem.size))) := by
  unfold Ops.msize
  simp only [ok_bind, ok_get]
  exact push_ok' _ _ rfl hc t g pc' ht ht'

theorem gas_ok (hc : Fixed P c) (t g pc' : Nat) (ht : 1 ≤ t) (ht' : t ≤ 1024) (hg : g ≤ 2 ^ 54) :
    Ok (Ops.gas t g) c (Post P c pc' g ((t : Int) - 1)
      ((absState c t g pc').push (Word.ofN (absState c t g pc').gas))) := by
  unfold Ops.gas
  refine push_ok' _ _ ?_ hc t g pc' ht ht'
  unfold ofInt64
  show BitVec.ofNat 256 _ = BitVec.ofNat 256 g
  congr 1
  omega

theorem i64_ok (x : Int) (h : 0 ≤ x ∧ x < 2 ^ 63) (hc : Fixed P c) (t g pc' : Nat) (ht : 1 ≤ t) (ht' : t ≤ 1024) :
    Ok (Ops.push (ofInt64 x) t) c (Post P c pc' g ((t : Int) - 1)
      ((absState c t g pc').push (Word.ofI x))) :=
  push_ok' _ _ (w_ofInt64 x h.1 (by omega)) hc t g pc' ht ht'

theorem selfbalance_ok (hE : EnvOk P E) (hc : Fixed P c) (t g pc' : Nat) (ht : 1 ≤ t) (ht' : t ≤ 1024) :
    Ok (Ops.selfbalance E t) c (Post P c pc' g ((t : Int) - 1)
      ((absState c t g pc').ask (P.host.getBalance P.msg.recipient) fun b s => s.push b)) := by
  unfold Ops.selfbalance Ops.push
  simp only [ok_bind, ok_get, hE.host, hc.msg]
  simp only [ok_host, ok_wrm1 t ht ht', ok_pure]
  refine post_zero ⟨⟨hc.1, hc.2, hc.3, hc.4, hc.5, hc.6⟩, rfl, rfl⟩ ?_
  simp only [absState, State.push, State.ask]
  refine rel_running (t - 1) rfl rfl rfl rfl rfl rfl (by omega) (by omega) ?_ rfl
  rw [absStack_push _ _ _ (by omega)]
  simp [Nat.sub_add_cancel ht]

theorem blockhash_ok (hP : ParamsBase P) (hE : EnvOk P E) (hc : Fixed P c) (t g pc' : Nat) (ht : t + 1 ≤ 1024) :
    Ok (Ops.blockhash E t) c (Post P c pc' g (t : Int) (blockhash P (absState c t g pc'))) := by
  unfold Ops.blockhash blockhash
  simp only [ok_bind, ok_rd0 t (show t < 1024 by omega), hE.host]
  simp only [State.pop1, absState, absStack_cons c.stack.buf t (by omega), State.push, State.ask]
  have hb := hP.host.blockNumber
  have zero : ∀ s' : State σ, s' = { status := .running, pc := pc', gas := g, refund := c.gasRefunds, stack := 0 :: absStack c.stack.buf (t + 1), mem := absMem c.memory, ret := c.returnData, host := c.world } →
      Ok (do OpM.wr ((t : Int) + 0) 0; pure {} : OpM σ OpResult) c (Post P c pc' g (t : Int) s') := by
    rintro s' rfl
    simp only [ok_bind, ok_wr0 t (show t < 1024 by omega), ok_pure]
    refine post_zero ⟨⟨hc.1, hc.2, hc.3, hc.4, hc.5, hc.6⟩, rfl, rfl⟩ ?_
    refine rel_running t rfl rfl rfl rfl rfl rfl (by omega) (by omega) ?_ rfl
    rw [absStack_push _ _ _ (by omega)]
  split
  · rename_i h
    rw [if_neg (by unfold int64Max at h; omega)]
    exact zero _ rfl
  · rename_i h
    have hn : (toInt64 (lo64 (c.stack.buf t))) = ((c.stack.buf t).toNat : Int) := by
      unfold lo64 u64Mod
      unfold int64Max at h
      rw [Nat.mod_eq_of_lt (by omega), toInt64_small _ (by omega)]
    rw [hn]
    have body : ∀ lower : Int, lower = (if P.host.txContext.blockNumber < 257 then 0 else P.host.txContext.blockNumber - 256) →
        Ok (if ((c.stack.buf t).toNat : Int) ≥ lower ∧ ((c.stack.buf t).toNat : Int) < P.host.txContext.blockNumber then
            (do let h ← OpM.host (P.host.getBlockHash ((c.stack.buf t).toNat : Int)); OpM.wr ((t : Int) + 0) h; pure {} : OpM σ OpResult)
            else (do OpM.wr ((t : Int) + 0) 0; pure {})) c (Post P c pc' g (t : Int)
              (if ((c.stack.buf t).toNat : Int) < P.host.txContext.blockNumber ∧
                P.host.txContext.blockNumber ≤ ((c.stack.buf t).toNat : Int) + 256 then
                { status := Status.running, pc := pc', gas := g, refund := c.gasRefunds,
                  stack := (P.host.getBlockHash ((c.stack.buf t).toNat : Int) c.world).1 :: absStack c.stack.buf (t + 1),
                  mem := absMem c.memory, ret := c.returnData,
                  host := (P.host.getBlockHash ((c.stack.buf t).toNat : Int) c.world).2 }
              else
                { status := Status.running, pc := pc', gas := g, refund := c.gasRefunds,
                  stack := 0 :: absStack c.stack.buf (t + 1), mem := absMem c.memory, ret := c.returnData,
                  host := c.world })) := by
      intro lower hl
      by_cases hin : ((c.stack.buf t).toNat : Int) < P.host.txContext.blockNumber ∧
                P.host.txContext.blockNumber ≤ ((c.stack.buf t).toNat : Int) + 256
      · rw [if_pos hin, if_pos (by split at hl <;> omega)]
        simp only [ok_bind, ok_host, ok_wr0 t (show t < 1024 by omega), ok_pure]
        refine post_zero ⟨⟨hc.1, hc.2, hc.3, hc.4, hc.5, hc.6⟩, rfl, rfl⟩ ?_
        refine rel_running t rfl rfl rfl rfl rfl rfl (by omega) (by omega) ?_ rfl
        rw [absStack_push _ _ _ (by omega)]
      · rw [if_neg hin, if_neg (by split at hl <;> omega)]
        exact zero _ rfl
    split
    · rename_i hlt
      rw [ok_bind, ok_lift]
      exact body 0 (by rw [if_pos hlt])
    · rename_i hlt
      rw [ok_bind, ok_chk64 _ (by unfold int64Min int64Max; omega)]
      exact body _ (by rw [if_neg hlt])

theorem blobhash_ok (hP : ParamsBase P) (hE : EnvOk P E) (hc : Fixed P c) (t g pc' : Nat) (ht : t + 1 ≤ 1024) :
    Ok (Ops.blobhash E t) c (Post P c pc' g (t : Int) ((absState c t g pc').pop1 fun i s =>
      s.push (P.host.txContext.blobHashes.getD i.toNat 0))) := by
  unfold Ops.blobhash
  simp only [ok_bind, ok_rd0 t (show t < 1024 by omega), hE.host]
  simp only [State.pop1, absState, absStack_cons c.stack.buf t (by omega), State.push]
  have hb := hP.host.blobHashes
  split
  · rename_i h
    simp only [ok_bind, ok_wr0 t (show t < 1024 by omega), ok_pure]
    refine post_zero ⟨⟨hc.1, hc.2, hc.3, hc.4, hc.5, hc.6⟩, rfl, rfl⟩ ?_
    refine rel_running t rfl rfl rfl rfl rfl rfl (by omega) (by omega) ?_ rfl
    rw [absStack_push _ _ _ (by omega)]
    have hn : (toInt64 (lo64 (c.stack.buf t))) = ((c.stack.buf t).toNat : Int) := by
      unfold lo64 u64Mod
      rw [Nat.mod_eq_of_lt (by omega), toInt64_small _ (by omega)]
    rw [hn, Int.toNat_natCast]
  · rename_i h
    simp only [ok_bind, ok_wr0 t (show t < 1024 by omega), ok_pure]
    refine post_zero ⟨⟨hc.1, hc.2, hc.3, hc.4, hc.5, hc.6⟩, rfl, rfl⟩ ?_
    refine rel_running t rfl rfl rfl rfl rfl rfl (by omega) (by omega) ?_ rfl
    rw [absStack_push _ _ _ (by omega)]
    rw [List.getD_eq_getElem?_getD, List.getElem?_eq_none (by omega)]
    rfl

theorem tload_ok (hE : EnvOk P E) (hc : Fixed P c) (t g pc' : Nat) (ht : t + 1 ≤ 1024) :
    Ok (Ops.tload E t) c (Post P c pc' g (t : Int) ((absState c t g pc').pop1 fun key s =>
      s.ask (P.host.getTransient P.msg.recipient key) fun v s => s.push v)) := by
  unfold Ops.tload
  simp only [ok_bind, ok_rd0 t (show t < 1024 by omega), ok_get, hE.host, hc.msg]
  simp only [ok_host, ok_wr0 t (show t < 1024 by omega), ok_pure]
  refine post_zero ⟨⟨hc.1, hc.2, hc.3, hc.4, hc.5, hc.6⟩, rfl, rfl⟩ ?_
  simp only [State.pop1, absState, absStack_cons c.stack.buf t (by omega), State.push, State.ask]
  refine rel_running t rfl rfl rfl rfl rfl rfl (by omega) (by omega) ?_ rfl
  rw [absStack_push _ _ _ (by omega)]

theorem tstore_ok (hE : EnvOk P E) (hc : Fixed P c) (t g pc' : Nat) (ht : t + 2 ≤ 1024) :
    Ok (Ops.tstore E t) c (Post P c pc' g ((t : Int) + 2) ((absState c t g pc').pop2 fun key v s =>
      { s with host := P.host.setTransient P.msg.recipient key v s.host })) := by
  unfold Ops.tstore
  simp only [ok_bind, ok_rd0 t (show t < 1024 by omega), ok_rd1 t (show t + 1 < 1024 by omega), ok_get, hE.host, hc.msg]
  simp only [ok_host, ok_pure]
  refine post_zero ⟨⟨hc.1, hc.2, hc.3, hc.4, hc.5, hc.6⟩, rfl, rfl⟩ ?_
  simp only [State.pop2, State.pop1, absState, absStack_c2 c.stack.buf t (by omega)]
  exact rel_running (t + 2) rfl rfl rfl rfl rfl rfl (by omega) (by omega) rfl rfl

/-! ### Account access -/

/-- The context after the access, and the cost. -/
def accCost (P : Params σ) (a : Address) (w : σ) : Nat × σ :=
  if P.rev ≥ BERLIN then
    (if (P.host.accessAccount a w).1 = .warm then 100 else 2600, (P.host.accessAccount a w).2)
  else (700, w)

theorem accCost_le (P : Params σ) (a : Address) (w : σ) : 100 ≤ (accCost P a w).1 ∧ (accCost P a w).1 ≤ 2600 := by
  unfold accCost
  split
  · dsimp only; split <;> omega
  · dsimp only; omega

theorem accountAccess_eq (a : Address) (s : State σ) (k : Nat → State σ → State σ) :
    accountAccess P a s k = k (accCost P a s.host).1 { s with host := (accCost P a s.host).2 } := by
  unfold accountAccess accCost
  split
  · rfl
  · rfl

theorem accountAccessCost_ok (hE : EnvOk P E) (hc : Fixed P c) (a : Address) (Q) :
    Ok (Ops.accountAccessCost E a) c Q ↔ Q ((accCost P a c.world).1 : Int)
      { c with world := (accCost P a c.world).2 } := by
  unfold Ops.accountAccessCost accCost
  rw [ok_bind, ok_get]
  by_cases hb : P.rev ≥ BERLIN
  · rw [if_pos (show c.revision ≥ BERLIN by rw [hc.rev]; exact hb), if_pos hb, ok_bind, ok_host, hE.host]
    by_cases h : (P.host.accessAccount a c.world).1 = .warm
    · simp only [h, if_true, ok_pure]; rfl
    · simp only [h, if_false, ok_pure]; rfl
  · rw [if_neg (show ¬ c.revision ≥ BERLIN by rw [hc.rev]; exact hb), if_neg hb, ok_pure]; rfl

/-- BALANCE, EXTCODESIZE, EXTCODEHASH. -/
theorem accountOp_ok (hE : EnvOk P E) (hc : Fixed P c) (t g pc' : Nat) (ht : t + 1 ≤ 1024)
    (f : Address → σ → U256 × σ) :
    Ok (do
      let a ← OpM.rd ((t : Int) + 0)
      let dynamicGas ← Ops.accountAccessCost E (toAddress a)
      if (g : Int) < dynamicGas then pure { dynGas := dynamicGas }
      else
        let b ← OpM.host (f (toAddress a))
        OpM.wr ((t : Int) + 0) b
        pure { dynGas := dynamicGas } : OpM σ OpResult) c
      (Post P c pc' g (t : Int) (accountOp P f (absState c t g pc'))) := by
  unfold accountOp
  simp only [ok_bind, ok_rd0 t (show t < 1024 by omega), accountAccessCost_ok hE hc, accountAccess_eq]
  simp only [State.pop1, absState, absStack_cons c.stack.buf t (by omega), State.push, State.ask, State.charge, ← w_toAddress]
  have := accCost_le P (toAddress (c.stack.buf t)) c.world
  split
  · rw [if_pos (by omega), ok_pure]
    exact post_outOfGas ⟨⟨hc.1, hc.2, hc.3, hc.4, hc.5, hc.6⟩, rfl, rfl⟩ (by dsimp only; omega) rfl rfl
  · rw [if_neg (by omega)]
    simp only [ok_bind, ok_host, ok_wr0 t (show t < 1024 by omega), ok_pure]
    refine ⟨⟨⟨hc.1, hc.2, hc.3, hc.4, hc.5, hc.6⟩, rfl, rfl⟩, ?_⟩
    rw [outcome_enough _ _ (by dsimp only; omega) (by dsimp only; omega)]
    refine rel_running t rfl rfl rfl rfl ?_ rfl (by omega) (by omega) ?_ rfl
    · dsimp only; omega
    · rw [absStack_push _ _ _ (by omega)]

theorem balance_ok (hE : EnvOk P E) (hc : Fixed P c) (t g pc' : Nat) (ht : t + 1 ≤ 1024) :
    Ok (Ops.balance E t g) c (Post P c pc' g (t : Int) (accountOp P P.host.getBalance (absState c t g pc'))) := by
  have := accountOp_ok hE hc t g pc' ht P.host.getBalance
  unfold Ops.balance
  rw [hE.host]
  exact this

theorem extcodehash_ok (hE : EnvOk P E) (hc : Fixed P c) (t g pc' : Nat) (ht : t + 1 ≤ 1024) :
    Ok (Ops.extcodehash E t g) c (Post P c pc' g (t : Int) (accountOp P P.host.getCodeHash (absState c t g pc'))) := by
  have := accountOp_ok hE hc t g pc' ht P.host.getCodeHash
  unfold Ops.extcodehash
  rw [hE.host]
  exact this

theorem extcodesize_ok (hE : EnvOk P E) (hc : Fixed P c) (t g pc' : Nat) (ht : t + 1 ≤ 1024) :
    Ok (Ops.extcodesize E t g) c (Post P c pc' g (t : Int) (accountOp P
      (fun a w => (Word.ofN (P.host.getCodeSize a w).1, (P.host.getCodeSize a w).2)) (absState c t g pc'))) := by
  have := accountOp_ok hE hc t g pc' ht
    (fun a w => (Word.ofN (P.host.getCodeSize a w).1, (P.host.getCodeSize a w).2))
  unfold Ops.extcodesize
  rw [hE.host]
  simp only [ok_bind, ok_rd0 t (show t < 1024 by omega), accountAccessCost_ok hE hc] at this ⊢
  split at this
  · rename_i h
    rw [if_pos h]; exact this
  · rename_i h
    rw [if_neg h]
    simp only [ok_bind, ok_host, ok_wr0 t (show t < 1024 by omega)] at this ⊢
    exact this

/-! ### Storage -/

theorem sload_ok (hE : EnvOk P E) (hc : Fixed P c) (t g pc' : Nat) (ht : t + 1 ≤ 1024) :
    Ok (Ops.sload E t g) c (Post P c pc' g (t : Int) (sload P (absState c t g pc'))) := by
  unfold Ops.sload sload
  simp only [ok_bind, ok_rd0 t (show t < 1024 by omega), ok_get, hc.rev, hc.msg, hE.host]
  simp only [State.pop1, absState, absStack_cons c.stack.buf t (by omega), State.push, State.ask, State.charge]
  have body : ∀ (w : σ) (cost : Nat) (dyn : Int), dyn = cost →
      Ok (if (g : Int) < dyn then pure { dynGas := dyn } else do
          let v ← OpM.host (P.host.getStorage P.msg.recipient (c.stack.buf t))
          OpM.wr ((t : Int) + 0) v
          pure { dynGas := dyn } : OpM σ OpResult) { c with world := w }
        (Post P c pc' g (t : Int) (if g < cost then State.fail
            { status := Status.running, pc := pc', gas := g, refund := c.gasRefunds, stack := absStack c.stack.buf (t + 1), mem := absMem c.memory, ret := c.returnData, host := w } .outOfGas
          else { status := Status.running, pc := pc', gas := g - cost, refund := c.gasRefunds,
                 stack := (P.host.getStorage P.msg.recipient (c.stack.buf t) w).1 :: absStack c.stack.buf (t + 1),
                 mem := absMem c.memory, ret := c.returnData,
                 host := (P.host.getStorage P.msg.recipient (c.stack.buf t) w).2 })) := by
    rintro w cost dyn rfl
    split
    · rw [if_pos (by omega), ok_pure]
      exact post_outOfGas ⟨⟨hc.1, hc.2, hc.3, hc.4, hc.5, hc.6⟩, rfl, rfl⟩ (by dsimp only; omega) rfl rfl
    · rw [if_neg (by omega)]
      simp only [ok_bind, ok_host, ok_wr0 t (show t < 1024 by omega), ok_pure]
      refine ⟨⟨⟨hc.1, hc.2, hc.3, hc.4, hc.5, hc.6⟩, rfl, rfl⟩, ?_⟩
      rw [outcome_enough _ _ (by dsimp only; omega) (by dsimp only; omega)]
      refine rel_running t rfl rfl rfl rfl ?_ rfl (by omega) (by omega) ?_ rfl
      · dsimp only; omega
      · rw [absStack_push _ _ _ (by omega)]
  split
  · simp only [ok_bind, ok_host]
    split
    · rw [ok_pure]; exact body _ _ _ rfl
    · rw [ok_pure]; exact body _ _ _ rfl
  · rw [ok_pure]; exact body c.world 800 800 rfl

theorem addRefund_ok (x : Int) (h : int64Min ≤ c.gasRefunds + x ∧ c.gasRefunds + x ≤ int64Max) (Q) :
    Ok (Ops.addRefund x) c Q ↔ Q () { c with gasRefunds := c.gasRefunds + x } := by
  unfold Ops.addRefund
  simp only [ok_bind, ok_get]
  rw [ok_chk64 _ h, ok_modify]

theorem addRefunds1_ok (x : Int) (h : int64Min ≤ c.gasRefunds + x ∧ c.gasRefunds + x ≤ int64Max) (Q) :
    Ok (Ops.addRefunds [x]) c Q ↔ Q () { c with gasRefunds := c.gasRefunds + x } := by
  unfold Ops.addRefunds
  simp only [ok_bind]
  rw [addRefund_ok _ h]
  unfold Ops.addRefunds
  rw [ok_pure]

theorem addRefunds2_ok (x y : Int) (h : int64Min ≤ c.gasRefunds + x ∧ c.gasRefunds + x ≤ int64Max)
    (h' : int64Min ≤ c.gasRefunds + x + y ∧ c.gasRefunds + x + y ≤ int64Max) (Q) :
    Ok (Ops.addRefunds [x, y]) c Q ↔ Q () { c with gasRefunds := c.gasRefunds + (x + y) } := by
  unfold Ops.addRefunds
  simp only [ok_bind]
  rw [addRefund_ok _ h, addRefunds1_ok _ h', Int.add_assoc]

/-- The states of the host after questions asked before a nested call. -/
inductive Asked (H : Host σ) (w : σ) : σ → Prop
  | here : Asked H w w
  | access {w' : σ} (a : Address) : Asked H w w' → Asked H w (H.accessAccount a w').2
  | exist {w' : σ} (a : Address) : Asked H w w' → Asked H w (H.accountExists a w').2
  | balance {w' : σ} (a : Address) : Asked H w w' → Asked H w (H.getBalance a w').2

theorem Asked.trans {H : Host σ} {a b w : σ} (h : Asked H a b) (h' : Asked H b w) : Asked H a w := by
  induction h' with
  | here => exact h
  | access x _ ih => exact .access x ih
  | exist x _ ih => exact .exist x ih
  | balance x _ ih => exact .balance x ih

/-- The refund of a nested call with at most the gas `g` can be added to the counter `refund`. -/
def Fits (P : Params σ) (refund : Int) (g : Nat) (w : σ) : Prop :=
  ∀ (m : Message) (w' : σ), Asked P.host w w' → 0 ≤ m.gas → m.gas ≤ (g : Int) →
    int64Min ≤ refund + (P.host.call m w').1.gasRefund ∧ refund + (P.host.call m w').1.gasRefund ≤ int64Max

theorem fits_of_ok (hP : ParamsOk P) {refund : Int} {g : Nat} (hg : g ≤ 2 ^ 54) (hi : refund + 199 * g ≤ 2 ^ 63 - 1)
    (lo : -(2 ^ 63 - 1) ≤ refund - 199 * g) (w : σ) : Fits P refund g w := by
  intro m w' _ h0 h1
  have a := hP.host.callRefund m w' h0 (by omega)
  have b := hP.host.callGas m w' h0 (by omega)
  unfold int64Min int64Max
  omega

theorem Fits.le {refund : Int} {g g' : Nat} {w : σ} (h : Fits P refund g w) (hg : g' ≤ g) : Fits P refund g' w := by
  intro m w' ha h0 h1
  exact h m w' ha h0 (by omega)

theorem Fits.ask {refund : Int} {g : Nat} {w w1 : σ} (h : Fits P refund g w) (ha : Asked P.host w w1) : Fits P refund g w1 := by
  intro m w' hb h0 h1
  exact h m w' (ha.trans hb) h0 h1

/-- The refund counter cannot overflow with the remaining gas. -/
structure RefundOk (P : Params σ) (c : Ctx σ) (g : Nat) : Prop where
  hi : c.gasRefunds + 199 * g ≤ 2 ^ 63 - 1
  lo : -(2 ^ 63 - 1) ≤ c.gasRefunds - 199 * g
  call : Fits P c.gasRefunds g c.world

theorem sstoreRefund_eq (rev : Revision) (warm : Bool) (st : StorageStatus) :
    (Ops.sstoreRefunds rev warm st).sum = sstoreRefund rev warm st := by
  cases st <;> simp [Ops.sstoreRefunds, sstoreRefund, clearRefund, restoreRefund, Ops.warmColdRestored]

theorem sstoreCost_eq (rev : Revision) (st : StorageStatus) :
    Ops.sstoreCost rev st = (sstoreGas rev st : Nat) := by
  cases st <;> simp only [Ops.sstoreCost, sstoreGas] <;> by_cases h : rev ≥ BERLIN <;> simp [h]

theorem sstoreRefunds_ok (rev : Revision) (warm : Bool) (st : StorageStatus)
    (h : -(2 ^ 63 - 1) ≤ c.gasRefunds - 19900 ∧ c.gasRefunds + 19900 ≤ 2 ^ 63 - 1) (Q) :
    Ok (Ops.addRefunds (Ops.sstoreRefunds rev warm st)) c Q ↔
      Q () { c with gasRefunds := c.gasRefunds + sstoreRefund rev warm st } := by
  rw [← sstoreRefund_eq]
  have hw : 0 ≤ Ops.warmColdRestored rev warm ∧ Ops.warmColdRestored rev warm ≤ 4900 := by
    unfold Ops.warmColdRestored; split
    · split <;> omega
    · omega
  have hcl : 0 ≤ (if rev ≥ LONDON then (4800 : Int) else 15000) ∧ (if rev ≥ LONDON then (4800 : Int) else 15000) ≤ 15000 := by
    split <;> omega
  have had : 0 ≤ (if rev ≥ BERLIN then (19900 : Int) else 19200) ∧ (if rev ≥ BERLIN then (19900 : Int) else 19200) ≤ 19900 := by
    split <;> omega
  cases st <;> simp only [Ops.sstoreRefunds]
  case deleted => rw [addRefunds1_ok _ (by unfold int64Min int64Max; omega)]; simp
  case deletedAdded => rw [addRefunds1_ok _ (by unfold int64Min int64Max; omega)]; simp
  case modifiedDeleted => rw [addRefunds1_ok _ (by unfold int64Min int64Max; omega)]; simp
  case addedDeleted => rw [addRefunds1_ok _ (by unfold int64Min int64Max; omega)]; simp
  case modifiedRestored => rw [addRefunds1_ok _ (by unfold int64Min int64Max; omega)]; simp
  case deletedRestored =>
    rw [addRefunds2_ok _ _ (by unfold int64Min int64Max; omega) (by unfold int64Min int64Max; omega)]; simp
  all_goals
    unfold Ops.addRefunds
    rw [ok_pure]
    simp

theorem sstore_ok (hE : EnvOk P E) (hc : Fixed P c) (t g pc' : Nat) (ht : t + 2 ≤ 1024) (hr : RefundOk P c g) :
    Ok (Ops.sstore E t g) c (Post P c pc' g ((t : Int) + 2) (sstore P (absState c t g pc'))) := by
  unfold Ops.sstore sstore
  simp only [State.pop2, State.pop1, absState, absStack_c2 c.stack.buf t (by omega), State.ask, State.charge]
  split
  · rw [if_pos (by omega), ok_pure]
    exact post_fail rfl hc.frame rfl rfl
  rw [if_neg (by omega)]
  simp only [ok_bind, ok_rd0 t (show t < 1024 by omega), ok_rd1 t (show t + 1 < 1024 by omega), ok_get, hc.rev, hc.msg, hE.host]
  have body : ∀ (w : σ) (warm : Bool) ,
      Ok (do
          let status ← OpM.host (P.host.setStorage P.msg.recipient (c.stack.buf t) (c.stack.buf (t + 1)))
          let dynamicGas ← OpM.lift (if P.rev ≥ BERLIN ∧ (!warm) = true then chk64 (Ops.sstoreCost P.rev status + 2100) else .ok (Ops.sstoreCost P.rev status))
          if (g : Int) < dynamicGas then pure { dynGas := dynamicGas }
          else
            Ops.addRefunds (Ops.sstoreRefunds P.rev warm status)
            pure { dynGas := dynamicGas } : OpM σ OpResult) { c with world := w }
        (Post P c pc' g ((t : Int) + 2)
          (if g < sstoreGas P.rev (P.host.setStorage P.msg.recipient (c.stack.buf t) (c.stack.buf (t + 1)) w).1 + (if P.rev ≥ BERLIN ∧ warm = false then 2100 else 0)
           then State.fail { status := Status.running, pc := pc', gas := g, refund := c.gasRefunds, stack := absStack c.stack.buf (t + 2), mem := absMem c.memory, ret := c.returnData, host := (P.host.setStorage P.msg.recipient (c.stack.buf t) (c.stack.buf (t + 1)) w).2 } .outOfGas
           else { status := Status.running, pc := pc',
                  gas := g - (sstoreGas P.rev (P.host.setStorage P.msg.recipient (c.stack.buf t) (c.stack.buf (t + 1)) w).1 + (if P.rev ≥ BERLIN ∧ warm = false then 2100 else 0)),
                  refund := c.gasRefunds + sstoreRefund P.rev warm (P.host.setStorage P.msg.recipient (c.stack.buf t) (c.stack.buf (t + 1)) w).1,
                  stack := absStack c.stack.buf (t + 2), mem := absMem c.memory, ret := c.returnData,
                  host := (P.host.setStorage P.msg.recipient (c.stack.buf t) (c.stack.buf (t + 1)) w).2 })) := by
    intro w warm
    simp only [ok_bind, ok_host]
    generalize (P.host.setStorage P.msg.recipient (c.stack.buf t) (c.stack.buf (t + 1)) w).1 = st
    generalize (P.host.setStorage P.msg.recipient (c.stack.buf t) (c.stack.buf (t + 1)) w).2 = w'
    have hb : sstoreGas P.rev st ≤ 20000 := by
      cases st <;> simp only [sstoreGas] <;> first | omega | (split <;> omega)
    have hl : (if P.rev ≥ BERLIN ∧ (!warm) = true then chk64 (Ops.sstoreCost P.rev st + 2100) else .ok (Ops.sstoreCost P.rev st))
        = (.ok (((sstoreGas P.rev st + (if P.rev ≥ BERLIN ∧ warm = false then 2100 else 0) : Nat) : Int)) : M Int) := by
      rw [sstoreCost_eq]
      cases warm
      · by_cases h : P.rev ≥ BERLIN
        · simp only [h, Bool.not_false, and_self, if_true]
          unfold chk64
          rw [if_pos (by unfold int64Min int64Max; omega)]
          rfl
        · simp [h]
      · simp
    rw [ok_lift_eq hl]
    generalize hcost : sstoreGas P.rev st + (if P.rev ≥ BERLIN ∧ warm = false then 2100 else 0) = cost
    split
    · rw [if_pos (by omega), ok_pure]
      exact post_outOfGas ⟨⟨hc.1, hc.2, hc.3, hc.4, hc.5, hc.6⟩, rfl, rfl⟩ (by dsimp only; omega) rfl rfl
    · rw [if_neg (by omega)]
      simp only [ok_bind]
      rw [sstoreRefunds_ok _ _ _ (by have := hr.hi; have := hr.lo; dsimp only; omega), ok_pure]
      refine ⟨⟨⟨hc.1, hc.2, hc.3, hc.4, hc.5, hc.6⟩, rfl, rfl⟩, ?_⟩
      rw [outcome_enough _ _ (by dsimp only; omega) (by dsimp only; omega)]
      refine rel_running (t + 2) rfl rfl rfl rfl ?_ rfl (by omega) (by omega) rfl rfl
      dsimp only; omega
  split
  · simp only [ok_bind, ok_host, ok_pure]
    have := body (P.host.accessStorage P.msg.recipient (c.stack.buf t) c.world).2
      (decide ((P.host.accessStorage P.msg.recipient (c.stack.buf t) c.world).1 = .warm))
    simp only [ok_bind, ok_host] at this
    exact this
  · rw [ok_pure]
    have := body c.world false
    simp only [ok_bind, ok_host] at this ⊢
    exact this

theorem selfdestruct_ok (hE : EnvOk P E) (hc : Fixed P c) (t g pc' : Nat) (ht : t + 1 ≤ 1024)
    (hr : -(2 ^ 63 - 1) ≤ c.gasRefunds ∧ c.gasRefunds + 24000 ≤ 2 ^ 63 - 1) :
    Ok (Ops.selfdestruct E t g) c (Post P c pc' g ((t : Int) + 1) (selfdestruct P (absState c t g pc'))) := by
  unfold Ops.selfdestruct selfdestruct
  simp only [ok_bind, ok_rd0 t (show t < 1024 by omega), ok_get, hc.rev, hc.msg, hE.host, w_toAddress]
  simp only [ok_host]
  simp only [State.pop1, absState, absStack_cons c.stack.buf t (by omega), State.ask, State.charge]
  generalize Word.toAddress (c.stack.buf t) = a
  have stop : ∀ (c' : Ctx σ) (cost : Nat) (r : Int), Frame P c c' → c'.gasRefunds = r → c'.memory = c.memory →
      c'.stack.buf = c.stack.buf → ¬ g < cost →
      Post P c pc' g ((t : Int) + 1) { status := Status.stopped, pc := pc', gas := g - cost, refund := r, stack := absStack c.stack.buf (t + 1), mem := absMem c.memory, ret := [], host := c'.world }
        { state := .done, dynGas := cost } c' := by
    intro c' cost r hf h1 h2 h3 h4
    refine ⟨hf, ?_⟩
    rw [outcome_enough _ _ (by dsimp only; omega) (by dsimp only; omega)]
    constructor
    · rfl
    · exact h1
    · rfl
    · intro w h; simp at h
    · intro _; rfl
    · intro _; exact ⟨rfl, by dsimp only; omega, by dsimp only; rw [h2], t + 1, by omega, by omega, by dsimp only; rw [h3]⟩
    · intro _ h; simp at h
  have finish : ∀ (w : σ) (cost : Nat) (dyn : Int), dyn = cost →
      Ok (if (g : Int) < dyn then pure { dynGas := dyn } else do
          let first ← OpM.host (P.host.selfdestruct P.msg.recipient a)
          if first = true then
            if P.rev < LONDON then do
              Ops.addRefund 24000
              pure { state := .done, dynGas := dyn }
            else pure { state := .done, dynGas := dyn }
          else pure { state := .done, dynGas := dyn } : OpM σ OpResult) { c with world := w }
        (Post P c pc' g ((t : Int) + 1) (if g < cost then State.fail
            { status := Status.running, pc := pc', gas := g, refund := c.gasRefunds, stack := absStack c.stack.buf (t + 1), mem := absMem c.memory, ret := c.returnData, host := w } .outOfGas
          else { status := Status.stopped, pc := pc', gas := g - cost,
                 refund := if (P.host.selfdestruct P.msg.recipient a w).1 = true ∧ P.rev < LONDON then c.gasRefunds + 24000 else c.gasRefunds,
                 stack := absStack c.stack.buf (t + 1), mem := absMem c.memory, ret := [],
                 host := (P.host.selfdestruct P.msg.recipient a w).2 })) := by
    rintro w cost dyn rfl
    split
    · rw [if_pos (by omega), ok_pure]
      exact post_outOfGas ⟨⟨hc.1, hc.2, hc.3, hc.4, hc.5, hc.6⟩, rfl, rfl⟩ (by dsimp only; omega) rfl rfl
    · rename_i hg
      rw [if_neg (show ¬ g < cost by omega)]
      simp only [ok_bind, ok_host]
      by_cases h1 : (P.host.selfdestruct P.msg.recipient a w).1 = true
      · by_cases h2 : P.rev < LONDON
        · simp only [h1, h2, if_true, and_self]
          simp only [ok_bind]
          rw [addRefund_ok _ (by unfold int64Min int64Max; dsimp only; omega), ok_pure]
          exact stop _ cost _ ⟨⟨hc.1, hc.2, hc.3, hc.4, hc.5, hc.6⟩, rfl, rfl⟩ rfl rfl rfl (by omega)
        · simp only [h1, h2, if_true, if_false, and_false, ok_pure]
          exact stop _ cost _ ⟨⟨hc.1, hc.2, hc.3, hc.4, hc.5, hc.6⟩, rfl, rfl⟩ rfl rfl rfl (by omega)
      · rw [if_neg h1, if_neg (fun h => h1 h.1), ok_pure]
        exact stop _ cost _ ⟨⟨hc.1, hc.2, hc.3, hc.4, hc.5, hc.6⟩, rfl, rfl⟩ rfl rfl rfl (by omega)
  have access : ∀ (w : σ) (cost : Nat) (dyn : Int), dyn = cost →
      Ok (do
          let dynamicGas ← (if P.rev ≥ BERLIN then do
              let s ← OpM.host (P.host.accessAccount a)
              if s = .cold then return dyn + 2600 else return dyn
            else return dyn : OpM σ Int)
          if (g : Int) < dynamicGas then pure { dynGas := dynamicGas } else do
          let first ← OpM.host (P.host.selfdestruct P.msg.recipient a)
          if first = true then
            if P.rev < LONDON then do
              Ops.addRefund 24000
              pure { state := .done, dynGas := dynamicGas }
            else pure { state := .done, dynGas := dynamicGas }
          else pure { state := .done, dynGas := dynamicGas } : OpM σ OpResult) { c with world := w }
        (Post P c pc' g ((t : Int) + 1) (
          let s : State σ := { status := Status.running, pc := pc', gas := g, refund := c.gasRefunds, stack := absStack c.stack.buf (t + 1), mem := absMem c.memory, ret := c.returnData, host := w }
          let fin := fun (cost : Nat) (s : State σ) => s.charge cost fun s =>
            s.ask (P.host.selfdestruct P.msg.recipient a) fun first s =>
              { s with status := .stopped, ret := [],
                       refund := if first = true ∧ P.rev < LONDON then s.refund + 24000 else s.refund }
          if P.rev ≥ BERLIN then
            s.ask (P.host.accessAccount a) fun st s => fin (cost + (if st = .cold then 2600 else 0)) s
          else fin cost s)) := by
    rintro w cost dyn rfl
    simp only [ok_bind, State.ask, State.charge]
    split
    · simp only [ok_bind, ok_host]
      split
      · rw [ok_pure]
        have := finish (P.host.accessAccount a w).2 (cost + 2600) (cost + 2600) rfl
        exact this
      · rw [ok_pure]
        exact finish (P.host.accessAccount a w).2 cost cost rfl
    · rw [ok_pure]
      exact finish w cost cost rfl
  by_cases hb : (P.host.getBalance P.msg.recipient c.world).1 = 0
  · have hb' : (P.host.getBalance P.msg.recipient c.world).1.toNat = 0 := (toNat_eq_zero _).1 hb
    rw [if_neg (by simpa using hb), if_neg (by simpa using hb')]
    rw [ok_pure]
    have := access (P.host.getBalance P.msg.recipient c.world).2 0 0 rfl
    simp only [ok_bind, State.ask, State.charge] at this
    exact this
  · have hb' : (P.host.getBalance P.msg.recipient c.world).1.toNat ≠ 0 := (toNat_ne_zero _).1 hb
    rw [if_pos hb, if_pos hb']
    simp only [ok_bind, ok_host]
    have := access (P.host.accountExists a (P.host.getBalance P.msg.recipient c.world).2).2
      (if (P.host.accountExists a (P.host.getBalance P.msg.recipient c.world).2).1 = true then 0 else 25000)
    simp only [ok_bind, State.ask, State.charge] at this
    by_cases hx : (P.host.accountExists a (P.host.getBalance P.msg.recipient c.world).2).1 = true
    · simp only [hx, if_true, Bool.not_true, Bool.false_eq_true, if_false, ok_pure] at this ⊢
      exact this 0 rfl
    · have hx' : (P.host.accountExists a (P.host.getBalance P.msg.recipient c.world).2).1 = false := by simpa using hx
      simp only [hx', if_true, Bool.not_false, Bool.false_eq_true, if_false, ok_pure] at this ⊢
      exact this 25000 rfl

end Tosca.Proofs

namespace Tosca.Proofs

open Tosca.Model Tosca.Spec

variable {σ : Type} {P : Params σ} {c : Ctx σ} {E : Env σ}

theorem writeAt_gen {m m' : Memory} {off : Nat} {l : List Byte} (h : m.writeAt off l = .ok m') :
    m'.gen = m.gen := by
  unfold Memory.writeAt at h
  split at h
  · simp only [Except.ok.injEq] at h; rw [← h]
  · split at h
    · simp only [Except.ok.injEq] at h; rw [← h]
    · simp at h

theorem writeSpan_writeAt (m : Memory) (s : Span) (l : List Byte) (hg : s.gen = m.gen) (hl : l.length ≤ s.len) :
    m.writeSpan s l = m.writeAt s.off l := by
  unfold Memory.writeSpan
  by_cases h : l.length = 0
  · rw [if_pos h]; unfold Memory.writeAt; rw [if_pos h]
  · rw [if_neg h, if_neg (by simp [hg]), if_neg (by omega)]

/-- Filling a fresh span with the copied bytes and zeros. -/
theorem fillSpan_abs (m : Memory) (off n : Nat) (bytes : List Byte) (hb : bytes.length ≤ n)
    (h : n ≠ 0 → off + n + 31 < u64Mod) (ha : m.size % 32 = 0) :
    ∃ m1 m2, (m.grow off n).writeSpan ⟨(m.grow off n).gen, off, n⟩ bytes = .ok m1 ∧
      m1.writeSpan ⟨(m.grow off n).gen, off + bytes.length, n - bytes.length⟩
        (List.replicate (n - bytes.length) 0) = .ok m2 ∧
      absMem m2 = ((absMem m).expand off n).write off (slice bytes 0 n) := by
  obtain ⟨m', e, a, s⟩ := readFromWithSize_abs m bytes off n h ha
  unfold Memory.readFromWithSize at e
  simp only [bind, Except.bind, Nat.min_eq_left hb, List.take_length] at e
  cases e1 : (m.grow off n).writeAt off bytes with
  | error x => rw [e1] at e; simp at e
  | ok m1 =>
    rw [e1] at e
    refine ⟨m1, m', ?_, ?_, a⟩
    · rw [writeSpan_writeAt _ _ _ rfl hb]; exact e1
    · rw [writeSpan_writeAt _ _ _ (writeAt_gen e1).symm (by simp)]; exact e

theorem fillZero_abs (m : Memory) (off n : Nat)
    (h : n ≠ 0 → off + n + 31 < u64Mod) (ha : m.size % 32 = 0) :
    ∃ m2, (m.grow off n).writeSpan ⟨(m.grow off n).gen, off, n⟩ (List.replicate n 0) = .ok m2 ∧
      absMem m2 = ((absMem m).expand off n).write off (slice [] 0 n) := by
  obtain ⟨m1, m2, e1, e2, a⟩ := fillSpan_abs m off n [] (by simp) h ha
  refine ⟨m2, ?_, a⟩
  have : m1 = m.grow off n := by
    unfold Memory.writeSpan at e1
    simp at e1; exact e1.symm
  subst this
  simpa using e2

theorem extcodecopy_ok (hP : ParamsBase P) (hE : EnvOk P E) (hc : Fixed P c) (t g pc' : Nat) (ht : t + 4 ≤ 1024)
    (hm : MemOk c g) :
    Ok (Ops.extcodecopy E t g) c (Post P c pc' g ((t : Int) + 4) (extcodecopy P (absState c t g pc'))) := by
  unfold Ops.extcodecopy extcodecopy
  simp only [ok_bind, ok_rd0 t (show t < 1024 by omega), ok_rd1 t (show t + 1 < 1024 by omega),
    ok_rd2 t (show t + 2 < 1024 by omega), ok_rd3 t (show t + 3 < 1024 by omega)]
  simp only [State.pop4, State.pop3, State.pop2, State.pop1, absState, absStack_c4 c.stack.buf t (by omega),
    State.touch, State.charge, State.ask]
  obtain ⟨mc, hmc, hok⟩ := memCost_ok hm (c.stack.buf (t + 1)) (c.stack.buf (t + 3))
  rw [ok_memCost_eq hmc]
  have h54 : g ≤ 2 ^ 54 := by have := hm.gas; omega
  cases hok with
  | tooMuch hcost hcost' hgg hsz =>
    rw [if_pos (by omega), if_pos (by omega), ok_pure]
    exact post_outOfGas hc.frame hcost rfl rfl
  | exact hcost hgg hsz hoff hb =>
    rw [if_neg (show ¬ (g : Int) < mc.cost by omega), if_neg (show ¬ g < _ by omega)]
    have hsm := exact_small hb
    have hws := words_small _ hsm
    have hbd := exact_bound hsz hoff hb
    simp only [ok_bind, accountAccessCost_ok hE hc, accountAccess_eq, ← w_toAddress]
    have hacc := accCost_le P (toAddress (c.stack.buf t)) c.world
    generalize accCost P (toAddress (c.stack.buf t)) c.world = ac at hacc ⊢
    rw [show minWords mc.size = (words (c.stack.buf (t + 3)).toNat : Nat) by
      rw [hsz, minWords_small _ hsm]]
    rw [ok_chk64 _ (by unfold int64Min int64Max; omega), ok_chk64 _ (by unfold int64Min int64Max; omega),
      ok_chk64 _ (by unfold int64Min int64Max; omega)]
    split
    · rw [if_pos (by omega), ok_pure]
      exact post_outOfGas ⟨⟨hc.1, hc.2, hc.3, hc.4, hc.5, hc.6⟩, rfl, rfl⟩ (by dsimp only; omega) rfl rfl
    · rename_i hg'
      rw [if_neg (show ¬ g < _ by omega)]
      have fin : ∀ (c' : Ctx σ) (mm : Mem), Frame P c c' → c'.gasRefunds = c.gasRefunds →
          c'.returnData = c.returnData → absMem c'.memory = mm → c'.stack.buf = c.stack.buf →
          Post P c pc' g ((t : Int) + 4)
            { status := .running, pc := pc',
              gas := g - ((absMem c.memory).growGas ((absMem c.memory).sizeAfter (c.stack.buf (t + 1)).toNat
                (c.stack.buf (t + 3)).toNat) + (3 * words (c.stack.buf (t + 3)).toNat + ac.1)),
              refund := c.gasRefunds, stack := absStack c.stack.buf (t + 4), mem := mm,
              ret := c.returnData, host := c'.world }
            { dynGas := mc.cost + (3 * ((words (c.stack.buf (t + 3)).toNat : Nat) : Int) + (ac.1 : Int)) } c' := by
        rintro c' mm hf h1 h2 rfl h4
        refine ⟨hf, ?_⟩
        rw [outcome_enough _ _ (by dsimp only; omega) (by dsimp only; omega)]
        refine rel_running (t + 4) rfl h1 rfl rfl ?_ rfl (by omega) (by omega) (by rw [h4]) h2
        dsimp only; omega
      by_cases hn : (c.stack.buf (t + 3)).toNat = 0
      · rw [if_neg (by omega), if_pos hn, ok_pure]
        refine fin _ _ ⟨⟨hc.1, hc.2, hc.3, hc.4, hc.5, hc.6⟩, rfl, rfl⟩ rfl rfl ?_ rfl
        simp [Mem.expand, Mem.sizeAfter, hn]
      · rw [if_pos (by omega), if_neg hn, ok_bind, ok_getSpan]
        by_cases hco : (c.stack.buf (t + 2)).toNat < 2 ^ 64
        · rw [if_pos (by unfold u64Mod; omega), if_pos hco]
          have hlo : lo64 (c.stack.buf (t + 2)) = (c.stack.buf (t + 2)).toNat := by
            unfold lo64 u64Mod; omega
          simp only [ok_bind, ok_host, hE.host, hlo]
          have hcl := hP.host.copyCode (toAddress (c.stack.buf t)) (c.stack.buf (t + 2)).toNat mc.size ac.2
          rw [hsz] at hcl ⊢
          rw [hsz] at hbd
          obtain ⟨m1, m2, e1, e2, a⟩ := fillSpan_abs c.memory mc.offset (c.stack.buf (t + 3)).toNat
            (P.host.copyCode (toAddress (c.stack.buf t)) (c.stack.buf (t + 2)).toNat (c.stack.buf (t + 3)).toNat ac.2).1
            hcl hbd hm.aligned
          rw [ok_mem_eq (f := fun m => m.writeSpan ⟨(c.memory.grow mc.offset (c.stack.buf (t + 3)).toNat).gen, mc.offset, (c.stack.buf (t + 3)).toNat⟩ (P.host.copyCode (toAddress (c.stack.buf t)) (c.stack.buf (t + 2)).toNat (c.stack.buf (t + 3)).toNat ac.2).1) e1, if_pos hcl, ok_bind, ok_mem_eq e2, ok_pure]
          refine fin _ _ ⟨⟨hc.1, hc.2, hc.3, hc.4, hc.5, hc.6⟩, rfl, rfl⟩ rfl rfl ?_ rfl
          rw [a, hoff hn]
        · rw [if_neg (by unfold u64Mod; omega), if_neg hco]
          simp only [ok_bind]
          rw [hsz] at hbd ⊢
          obtain ⟨m2, e2, a⟩ := fillZero_abs c.memory mc.offset (c.stack.buf (t + 3)).toNat hbd hm.aligned
          rw [ok_mem_eq e2, ok_pure]
          refine fin _ _ ⟨⟨hc.1, hc.2, hc.3, hc.4, hc.5, hc.6⟩, rfl, rfl⟩ rfl rfl ?_ rfl
          rw [a, hoff hn]

end Tosca.Proofs

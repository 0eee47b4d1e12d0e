import Verif.Proofs.LfvmOps2

/-!
# The long-form EVM: accounts and storage
-/

namespace Tosca.Proofs.Lfvm

open Tosca.Spec Tosca.Spec.Go Tosca.Go Tosca.Model.Go Tosca.Model.Lfvm

variable {ω : Type} {E : Env ω} {rev : Revision} {p : Int} {q k : Nat} {l : St ω} {s : State ω}

/-- The part of the price of an account access that is charged up front before Berlin. -/
def accPre (rev : Revision) : Nat := if BERLIN ≤ rev then 0 else 700
/-- The same for SLOAD. -/
def sloadPre (rev : Revision) : Nat := if BERLIN ≤ rev then 0 else 800

/-- Charging for an account access from Berlin on. -/
theorem sim_access {β : Type} {Q : β → St ω → State ω → Prop} {a : Address} {f : Unit → M ω β} {k' : State ω → State ω} (hE : Setup E rev)
    (hb : BERLIN ≤ rev) (h : Rel k p q l s)
    (H : ∀ l' s', Rel k p q l' s' → s'.stack = s.stack → s'.mem = s.mem → Sim Q (f () l') (k' s')) :
    Sim Q ((chargeAccess E a >>= f) l) (accountAccess (frameOf E rev) a s fun cost s => s.charge cost k') := by
  unfold chargeAccess accountAccess
  rw [if_pos ((berlin hE).2 hb), if_pos (show (frameOf E rev).rev ≥ BERLIN from hb), assoc]
  refine sim_askDb h fun l1 h1 => ?_
  refine sim_useGas ?_ h1 fun l2 h2 => H l2 _ h2 rfl rfl
  show getAccessCost (E.db.accessAccount a s.host).1 = ((if (E.db.accessAccount a s.host).1 = .warm then 100 else 2600 : Nat) : Int)
  cases (E.db.accessAccount a s.host).1 <;> rfl

theorem noAccess {β : Type} {a : Address} {f : Unit → M ω β} (hE : Setup E rev) (hb : ¬ BERLIN ≤ rev) :
    (chargeAccess E a >>= f) = f () := by
  unfold chargeAccess
  rw [if_neg (fun hc => hb ((berlin hE).1 hc))]
  rfl

theorem noAccess' {a : Address} {k' : Nat → State ω → State ω} (hb : ¬ BERLIN ≤ rev) :
    accountAccess (frameOf E rev) a s k' = k' 700 s := by
  unfold accountAccess
  rw [if_neg (show ¬ (frameOf E rev).rev ≥ BERLIN from hb)]

/-- An up-front charge of nothing. -/
theorem sim_useGas0 {β : Type} {Q : β → St ω → State ω → Prop} {f : Unit → M ω β} {t : State ω} {n : Nat} (hn : n = 0) (h : Rel k p q l s)
    (H : ∀ l', Rel k p q l' s → Sim Q (f () l') t) : Sim Q ((useGas (n : Int) >>= f) l) t := by
  subst hn
  obtain ⟨l', e, h'⟩ := useGas_ok (n := 0) rfl h (by omega)
  rw [bind_ok e]
  exact H l' h'

theorem sim_account {f : Address → ω → U256 × ω} {rest : U256 → M ω Unit} (hE : Setup E rev)
    (h : Rel 0 p q l s) (hs : 1 ≤ s.stack.length)
    (H : ∀ a l s, Rel 1 p q l s → Sim (Post p q) (rest a l) (s.ask (f (Word.toAddress a)) fun v s => s.push v)) :
    Sim (Post p q) ((useGas (accPre rev : Int) >>= fun _ => (peek >>= fun a => (chargeAccess E (bytes20 a) >>= fun _ => rest a))) l)
      (accountOp (frameOf E rev) f s) := by
  obtain ⟨a, r, ha, hr⟩ := stack_cons hs
  unfold accountOp
  by_cases hb : BERLIN ≤ rev
  · refine sim_useGas0 (by unfold accPre; rw [if_pos hb]) h fun l1 h1 => ?_
    refine sim_peek h1 ha fun h2 => ?_
    rw [l_bytes20]
    exact sim_access hE hb h2 fun l3 s3 h3 _ _ => H a l3 s3 h3
  · have e : (s.pop1 fun a s => accountAccess (frameOf E rev) (Word.toAddress a) s fun cost s =>
        s.charge cost fun s => s.ask (f (Word.toAddress a)) fun v s => s.push v) =
        s.pop1 fun a s => s.charge 700 fun s => s.ask (f (Word.toAddress a)) fun v s => s.push v := by
      unfold State.pop1; rw [ha]; exact noAccess' hb
    rw [e]
    refine sim_like (alive_post p q) (pop1_charge ha _ _) ?_
    refine sim_useGas (by unfold accPre; rw [if_neg hb]) h fun l1 h1 => ?_
    refine sim_peek h1 ha fun h2 => ?_
    rw [noAccess hE hb]
    exact H a l1 _ h2

theorem sim_balance (hE : Setup E rev) (h : Rel 0 p q l s) (hs : 1 ≤ s.stack.length) :
    Sim (Post p q) ((useGas (accPre rev : Int) >>= fun _ => opBalance E) l)
      (accountOp (frameOf E rev) (frameOf E rev).host.getBalance s) := by
  refine sim_account hE h hs fun a l s h => ?_
  refine sim_readDb h ?_
  rw [l_bytes20]
  exact sim_setTop h fun l' h' => h'.match

theorem sim_extcodesize (hE : Setup E rev) (h : Rel 0 p q l s) (hs : 1 ≤ s.stack.length) :
    Sim (Post p q) ((useGas (accPre rev : Int) >>= fun _ => opExtcodesize E) l)
      (accountOp (frameOf E rev) (fun a w => (Word.ofN ((frameOf E rev).host.getCodeSize a w).1, ((frameOf E rev).host.getCodeSize a w).2)) s) := by
  refine sim_account hE h hs fun a l s h => ?_
  refine sim_readDb h ?_
  rw [l_bytes20, l_ofN64 (by have := hE.lengths.codeSize (Word.toAddress a) s.host; omega)]
  exact sim_setTop h fun l' h' => h'.match

theorem sim_extcodehash (hE : Setup E rev) (h : Rel 0 p q l s) (hs : 1 ≤ s.stack.length) :
    Sim (Post p q) ((useGas (accPre rev : Int) >>= fun _ => opExtcodehash E) l)
      (accountOp (frameOf E rev) (frameOf E rev).host.getCodeHash s) := by
  refine sim_account hE h hs fun a l s h => ?_
  refine sim_readDb h ?_
  rw [l_bytes20, isEmpty_iff]
  show Sim _ _ (s.push (if Absent E.db (Word.toAddress a) s.host then 0 else E.db.codeHash (Word.toAddress a) s.host))
  by_cases he : Absent E.db (Word.toAddress a) s.host
  · rw [if_pos (by simpa using he), if_pos he]
    exact sim_setTop h fun l' h' => h'.match
  · rw [if_neg (by simpa using he), if_neg he]
    refine sim_readDb h ?_
    exact sim_setTop h fun l' h' => h'.match

theorem slice_drop (code : List Byte) (o n : Nat) : slice ((code.drop o).take n) 0 n = slice code o n := by
  unfold slice
  apply List.map_congr_left
  intro i hi
  have hi' : i < n := by simpa using hi
  unfold byteAt
  rw [List.getD_eq_getElem?_getD, List.getD_eq_getElem?_getD, Nat.zero_add, List.getElem?_take, if_pos hi', List.getElem?_drop]

theorem slice_far (code : List Byte) (o n : Nat) (h : code.length ≤ o) : slice code o n = slice [] 0 n := by
  unfold slice
  apply List.map_congr_left
  intro i _
  unfold byteAt
  rw [List.getD_eq_getElem?_getD, List.getD_eq_getElem?_getD, List.getElem?_eq_none (by omega), List.getElem?_eq_none (by simp)]

theorem write_nothing (m : Mem) (o : Nat) (src : List Byte) (o' : Nat) : m.write o (slice src o' 0) = m := write_empty m o

theorem like_charge2 {s s' : State ω} {n : Nat} {k k' : State ω → State ω} (hg : s.gas = s'.gas)
    (h : Like (k { s with gas := s.gas - n }) (k' { s' with gas := s'.gas - n })) : Like (s.charge n k) (s'.charge n k') := by
  unfold State.charge
  by_cases hc : s.gas < n
  · rw [if_pos hc, if_pos (by omega)]; exact like_fail _ _ _ _
  · rw [if_neg hc, if_neg (by omega)]; exact h

/-- EXTCODECOPY in the order of the implementation. -/
theorem extcodecopy_like {a dst off n : U256} {r : List U256} (hE : Setup E rev) (hs : s.stack = a :: dst :: off :: n :: r) :
    Like (extcodecopy (frameOf E rev) s)
      (s.pop1 fun a s => accountAccess (frameOf E rev) (Word.toAddress a) s fun cost s => s.charge cost fun s =>
        copyOp (E.db.code (Word.toAddress a) s.host) s) := by
  have e1 : extcodecopy (frameOf E rev) s =
      if s.gas < s.mem.growGas (s.mem.sizeAfter dst.toNat n.toNat) then State.fail { s with stack := r } .outOfGas
      else accountAccess (frameOf E rev) (Word.toAddress a) { s with stack := r } fun cost s =>
        s.touch dst n (3 * words n.toNat + cost) fun s =>
          { s with mem := s.mem.write dst.toNat (slice (E.db.code (Word.toAddress a) s.host) off.toNat n.toNat) } := by
    unfold extcodecopy
    rw [pop4_eq]
    unfold State.pop1
    rw [hs]
    dsimp only
    split
    · rfl
    · congr 1
      funext cost s
      congr 1
      funext s
      by_cases hn : n.toNat = 0
      · rw [if_pos hn, hn, write_nothing]
      · rw [if_neg hn]
        split
        · show ({ s with mem := s.mem.write dst.toNat (slice (((E.db.code (Word.toAddress a) s.host).drop off.toNat).take n.toNat) 0 n.toNat) } : State ω) = _
          rw [slice_drop]
        · rw [slice_far (E.db.code (Word.toAddress a) s.host) off.toNat n.toNat
            (by have := hE.lengths.code (Word.toAddress a) s.host; omega)]
  have e2 : ∀ src (s : State ω), s.stack = dst :: off :: n :: r → copyOp src s = State.touch { s with stack := r } dst n (3 * words n.toNat) fun s =>
      { s with mem := s.mem.write dst.toNat (slice src off.toNat n.toNat) } := by
    intro src s hs
    unfold copyOp
    rw [pop3_eq]
    unfold State.pop1
    rw [hs]
  rw [e1]
  unfold State.pop1
  rw [hs]
  dsimp only
  rw [accountAccess_eq, accountAccess_eq]
  dsimp only
  by_cases hg : s.gas < s.mem.growGas (s.mem.sizeAfter dst.toNat n.toNat)
  · rw [if_pos hg]
    refine like_of_failed (failed_fail _ _) ?_
    unfold State.charge
    split
    · exact failed_fail _ _
    · dsimp only
      rw [e2 _ _ rfl]
      refine touch_poor ?_
      dsimp only
      omega
  · rw [if_neg hg, Nat.add_comm, touch_first, charge_add]
    refine like_charge2 (by rfl) ?_
    dsimp only
    rw [e2 _ _ rfl, touch_first]
    exact .refl _

theorem sim_extcodecopy (hE : Setup E rev) (h : Rel 0 p q l s) (hs : 4 ≤ s.stack.length) :
    Sim (Post p q) ((useGas (accPre rev : Int) >>= fun _ => opExtCodeCopy E) l) (extcodecopy (frameOf E rev) s) := by
  obtain ⟨a, r, ha, hr⟩ := stack_cons hs
  obtain ⟨b, r1, hb, hr1⟩ := stack_cons hr
  obtain ⟨c, r2, hc, hr2⟩ := stack_cons hr1
  obtain ⟨d, r3, hd, _⟩ := stack_cons hr2
  subst hd hc hb
  refine sim_like (alive_post p q) (extcodecopy_like hE ha) ?_
  unfold opExtCodeCopy
  by_cases hb : BERLIN ≤ rev
  · refine sim_useGas0 (by unfold accPre; rw [if_pos hb]) h fun l1 h1 => ?_
    refine sim_pop h1 ha fun l2 h2 => ?_
    rw [l_bytes20]
    refine sim_access hE hb h2 fun l3 s3 h3 hst hm => ?_
    refine sim_readDb h3 ?_
    exact sim_dataCopy (hE.lengths.code _ _) h3 (by rw [hst]; simp)
  · have e : (s.pop1 fun a s => accountAccess (frameOf E rev) (Word.toAddress a) s fun cost s =>
        s.charge cost fun s => copyOp (E.db.code (Word.toAddress a) s.host) s) =
        s.pop1 fun a s => s.charge 700 fun s => copyOp (E.db.code (Word.toAddress a) s.host) s := by
      unfold State.pop1; rw [ha]; exact noAccess' hb
    rw [e]
    refine sim_like (alive_post p q) (pop1_charge ha _ _) ?_
    refine sim_useGas (by unfold accPre; rw [if_neg hb]) h fun l1 h1 => ?_
    refine sim_pop h1 ha fun l2 h2 => ?_
    rw [noAccess hE hb, l_bytes20]
    refine sim_readDb h2 ?_
    exact sim_dataCopy (hE.lengths.code _ _) h2 (by simp)

/-! ## Storage -/

theorem sim_sload (hE : Setup E rev) (h : Rel 0 p q l s) (hs : 1 ≤ s.stack.length) :
    Sim (Post p q) ((useGas (sloadPre rev : Int) >>= fun _ => opSload E) l) (sload (frameOf E rev) s) := by
  obtain ⟨a, r, ha, hr⟩ := stack_cons hs
  unfold opSload sload chargeSlot
  by_cases hb : BERLIN ≤ rev
  · refine sim_useGas0 (by unfold sloadPre; rw [if_pos hb]) h fun l1 h1 => ?_
    refine sim_peek h1 ha fun h2 => ?_
    rw [if_pos ((berlin hE).2 hb)]
    dsimp only
    rw [if_pos (show (frameOf E rev).rev ≥ BERLIN from hb), assoc]
    refine sim_askDb h2 fun l3 h3 => ?_
    refine sim_useGas ?_ h3 fun l4 h4 => ?_
    · show (if (E.db.accessStorage E.params.recipient a s.host).1 = .cold then (2100 : Int) else 100) =
        ((if (E.db.accessStorage E.params.recipient a s.host).1 = .warm then 100 else 2100 : Nat) : Int)
      cases (E.db.accessStorage E.params.recipient a s.host).1 <;> rfl
    · refine sim_readDb h4 ?_
      exact sim_setTop h4 fun l' h' => h'.match
  · have hb' : ¬ (frameOf E rev).rev ≥ BERLIN := hb
    simp only [if_neg hb']
    refine sim_like (alive_post p q) (pop1_charge ha _ _) ?_
    refine sim_useGas (by unfold sloadPre; rw [if_neg hb]) h fun l1 h1 => ?_
    refine sim_peek h1 ha fun h2 => ?_
    rw [if_neg (fun hc => hb ((berlin hE).1 hc)), pure_bind']
    refine sim_readDb h2 ?_
    exact sim_setTop h2 fun l' h' => h'.match

theorem rev_ge (hE : Setup E rev) (n : Int) (m : Nat) (hm : (m : Int) = n + 7) : E.params.block.revision ≥ n ↔ m ≤ rev := by
  have := hE.revision
  omega

theorem dynamicCosts (hE : Setup E rev) (st : StorageStatus) :
    getDynamicCostsForSstore E.params.block.revision st = (sstoreGas rev st : Int) := by
  have hb : E.params.block.revision ≥ R09_Berlin ↔ rev ≥ BERLIN := rev_ge hE 1 8 rfl
  unfold getDynamicCostsForSstore sstoreGas
  by_cases h : rev ≥ BERLIN
  · have h' := hb.2 h
    cases st <;> simp only [if_pos h, if_pos h'] <;> rfl
  · have h' := fun hc => h (hb.1 hc)
    cases st <;> simp only [if_neg h, if_neg h'] <;> rfl

theorem refundCosts (hE : Setup E rev) (st : StorageStatus) :
    getRefundForSstore E.params.block.revision st = sstoreRefund rev true st := by
  have hb : E.params.block.revision ≥ R09_Berlin ↔ rev ≥ BERLIN := rev_ge hE 1 8 rfl
  have hl : E.params.block.revision ≥ R10_London ↔ rev ≥ LONDON := rev_ge hE 2 9 rfl
  unfold getRefundForSstore sstoreRefund clearRefund restoreRefund
  by_cases h : rev ≥ BERLIN
  · have h' := hb.2 h
    by_cases h2 : rev ≥ LONDON
    · have h2' := hl.2 h2
      cases st <;> simp only [if_pos h, if_pos h', if_pos h2, if_pos h2', if_true] <;> decide
    · have h2' := fun hc => h2 (hl.1 hc)
      cases st <;> simp only [if_pos h, if_pos h', if_neg h2, if_neg h2', if_true] <;> decide
  · have h' := fun hc => h (hb.1 hc)
    have h2 : ¬ rev ≥ LONDON := by
      unfold LONDON
      unfold BERLIN at h
      have h : ¬ (8 : Nat) ≤ rev := h
      show ¬ (9 : Nat) ≤ rev
      omega
    have h2' := fun hc => h2 (hl.1 hc)
    cases st <;> simp only [if_neg h, if_neg h', if_neg h2, if_neg h2']

/-- Adding to the refund counter. -/
theorem rel_refund (x : Int) (h : Rel k p q l s) :
    ∃ l', (addRefund x : M ω Unit) l = .ok () l' ∧ Rel k p q l' { s with refund := s.refund + x } := by
  refine ⟨{ l with refund := i64 (l.refund + x) }, rfl, ?_⟩
  refine ⟨h.status, h.pc, h.pc', h.gas, ?_, h.sp, h.stack, h.limit, h.size, h.mem, h.aligned, h.cost, h.ret, h.retLen, h.world, h.bound⟩
  show i64 (l.refund + x) = i64 (s.refund + x)
  rw [h.refund]
  unfold i64
  rw [Int.bmod_add_bmod]

/-- The end of SSTORE. -/
theorem sim_sstoreTail {key value : U256} {surcharge : Nat} (hE : Setup E rev) (h : Rel 0 p q l s) :
    Sim (Post p q)
      ((do
        let storageStatus ← askDb (E.db.setStorage E.params.recipient key value)
        useGas ((surcharge : Int) + getDynamicCostsForSstore E.params.block.revision storageStatus)
        addRefund (getRefundForSstore E.params.block.revision storageStatus) : M ω Unit) l)
      (s.ask (E.db.setStorage E.params.recipient key value) fun status s =>
          s.charge (sstoreGas rev status + surcharge) fun s =>
            { s with refund := s.refund + sstoreRefund rev true status }) := by
  refine sim_askDb h fun l1 h1 => ?_
  refine sim_useGas (by rw [dynamicCosts hE]; omega) h1 fun l2 h2 => ?_
  rw [refundCosts hE]
  obtain ⟨l3, e3, h3⟩ := rel_refund (sstoreRefund rev true (E.db.setStorage E.params.recipient key value s.host).1) h2
  rw [e3]
  exact h3.match

theorem sim_sstore (hE : Setup E rev) (hst : E.params.static = false) (h : Rel 0 p q l s) (hs : 2 ≤ s.stack.length) :
    Sim (Post p q) (opSstore E l) (sstoreEip (frameOf E rev) s) := by
  obtain ⟨a, r, ha, hr⟩ := stack_cons hs
  obtain ⟨b, r', hb, _⟩ := stack_cons hr
  unfold opSstore sstoreEip
  rw [if_neg (by rw [hst]; decide), bind_ok (show (getSt : M ω _) l = .ok l l from rfl)]
  by_cases hg : s.gas ≤ 2300
  · rw [if_pos (by rw [h.gas]; omega)]
    refine sim_err ?_
    rw [pop2_eq]
    unfold State.pop1
    rw [ha, hb]
    dsimp only
    rw [if_pos hg]
    exact failed_fail _ _
  · rw [if_neg (by rw [h.gas]; omega)]
    refine sim_pop h ha fun l1 h1 => sim_pop h1 (show r = b :: r' from hb) fun l2 h2 => ?_
    dsimp only
    rw [if_neg hg]
    unfold slotSurcharge
    by_cases hB : BERLIN ≤ rev
    · rw [if_pos ((berlin hE).2 hB), if_pos (show (frameOf E rev).rev ≥ BERLIN from hB), assoc]
      refine sim_askDb h2 fun l3 h3 => ?_
      rw [pure_bind']
      have e : (if (E.db.accessStorage E.params.recipient a s.host).1 = .cold then (2100 : Int) else 0) =
          ((if (E.db.accessStorage E.params.recipient a s.host).1 = .warm then 0 else 2100 : Nat) : Int) := by
        cases (E.db.accessStorage E.params.recipient a s.host).1 <;> rfl
      dsimp only at h3 ⊢
      rw [e]
      exact sim_sstoreTail hE h3
    · rw [if_neg (fun hc => hB ((berlin hE).1 hc)), if_neg (show ¬ (frameOf E rev).rev ≥ BERLIN from hB), pure_bind']
      exact sim_sstoreTail (surcharge := 0) hE h2

theorem sim_tload (hE : Setup E rev) (hc : CANCUN ≤ rev) (h : Rel 0 p q l s) (hs : 1 ≤ s.stack.length) :
    Sim (Post p q) (opTload E l)
      (s.pop1 fun key s => s.ask ((frameOf E rev).host.getTransient (frameOf E rev).msg.recipient key) fun v s => s.push v) := by
  obtain ⟨a, r, ha, hr⟩ := stack_cons hs
  unfold opTload
  rw [if_neg (by rw [(cancun hE).2 hc]; decide)]
  refine sim_peek h ha fun h2 => ?_
  refine sim_readDb h2 ?_
  exact sim_setTop h2 fun l' h' => h'.match

theorem rel_world {w : ω} (h : Rel k p q l s) : Rel k p q { l with world := w } { s with host := w } :=
  ⟨h.status, h.pc, h.pc', h.gas, h.refund, h.sp, h.stack, h.limit, h.size, h.mem, h.aligned, h.cost, h.ret, h.retLen, rfl, h.bound⟩

theorem sim_tstore (hE : Setup E rev) (hc : CANCUN ≤ rev) (hst : E.params.static = false) (h : Rel 0 p q l s) (hs : 2 ≤ s.stack.length) :
    Sim (Post p q) (opTstore E l)
      (s.pop2 fun key v s => { s with host := (frameOf E rev).host.setTransient (frameOf E rev).msg.recipient key v s.host }) := by
  obtain ⟨a, r, ha, hr⟩ := stack_cons hs
  obtain ⟨b, r', hb, _⟩ := stack_cons hr
  unfold opTstore
  rw [if_neg (by rw [(cancun hE).2 hc]; decide), if_neg (by rw [hst]; decide)]
  refine sim_pop h ha fun l1 h1 => sim_pop h1 (show r = b :: r' from hb) fun l2 h2 => ?_
  have := rel_world (w := E.db.setTransient E.params.recipient a b s.host) h2
  have hw : l2.world = s.host := h2.world
  show Match p q { l2 with world := E.db.setTransient E.params.recipient a b l2.world } _
  rw [hw]
  exact this.match

theorem sim_selfbalance (h : Rel 0 p q l s) (hs : s.stack.length + 1 ≤ 1024) :
    Sim (Post p q) (opSelfbalance E l)
      (s.ask ((frameOf E rev).host.getBalance (frameOf E rev).msg.recipient) fun b s => s.push b) := by
  refine sim_readDb h ?_
  exact sim_pushV h hs fun l' h' => h'.match

theorem sim_basefee (hE : Setup E rev) (hc : LONDON ≤ rev) (h : Rel 0 p q l s) (hs : s.stack.length + 1 ≤ 1024) :
    Sim (Post p q) (opBaseFee E l) (s.push E.params.block.baseFee) := by
  unfold opBaseFee
  rw [if_neg (by rw [(london hE).2 hc]; decide)]
  exact sim_push rfl h hs

theorem sim_blobbasefee (hE : Setup E rev) (hc : CANCUN ≤ rev) (h : Rel 0 p q l s) (hs : s.stack.length + 1 ≤ 1024) :
    Sim (Post p q) (opBlobBaseFee E l) (s.push E.params.block.blobBaseFee) := by
  unfold opBlobBaseFee
  rw [if_neg (by rw [(cancun hE).2 hc]; decide)]
  exact sim_push rfl h hs

theorem sim_blobhash (hE : Setup E rev) (hc : CANCUN ≤ rev) (h : Rel 0 p q l s) (hs : 1 ≤ s.stack.length) :
    Sim (Post p q) (opBlobHash E l) (s.pop1 fun i s => s.push (E.params.tx.blobHashes.getD i.toNat 0)) := by
  obtain ⟨a, r, ha, hr⟩ := stack_cons hs
  have hbl := hE.run.chain.blobHashes
  unfold opBlobHash
  rw [if_neg (by rw [(cancun hE).2 hc]; decide)]
  refine sim_pop h ha fun l1 h1 => ?_
  have hlim : r.length + 1 ≤ 1024 := by have := h.limit; rw [ha] at this; simpa using this
  by_cases hx : a.toNat < E.params.tx.blobHashes.length
  · have hu : (uint64 a).toNat = a.toNat := by rw [uint64_toNat, Nat.mod_eq_of_lt (by omega)]
    rw [if_pos ⟨(isUint64_iff a).2 (by omega), by rw [BitVec.lt_def, hu, BitVec.toNat_ofNat]; omega⟩, hu]
    exact sim_push rfl h1 hlim
  · rw [if_neg]
    · refine sim_push ?_ h1 hlim
      rw [List.getD_eq_getElem?_getD, List.getElem?_eq_none (by omega)]; rfl
    · rintro ⟨h1', h2'⟩
      rw [isUint64_iff] at h1'
      rw [BitVec.lt_def, uint64_toNat, BitVec.toNat_ofNat] at h2'
      omega

theorem sim_blockhash (hE : Setup E rev) (h : Rel 0 p q l s) (hs : 1 ≤ s.stack.length) :
    Sim (Post p q) (opBlockhash E l) (blockhash (frameOf E rev) s) := by
  obtain ⟨a, r, ha, hr⟩ := stack_cons hs
  obtain ⟨hn0, hn1⟩ := hE.run.chain.blockNumber
  obtain ⟨N, hN⟩ := Int.eq_ofNat_of_zero_le hn0
  have hcur : (u64 E.params.block.blockNumber).toNat = N := by
    rw [hN]; unfold u64; rw [BitVec.toNat_ofInt]; omega
  unfold opBlockhash blockhash
  refine sim_peek h ha fun h2 => ?_
  dsimp only
  rw [show (frameOf E rev).host.txContext.blockNumber = E.params.block.blockNumber from rfl, hN]
  have hzero : ¬ ((a.toNat : Int) < (N : Int) ∧ (N : Int) ≤ a.toNat + 256) →
      Sim (Post p q) ((setTop 0 : M ω Unit) l) (if (a.toNat : Int) < (N : Int) ∧ (N : Int) ≤ a.toNat + 256 then
        State.ask { s with stack := r } ((frameOf E rev).host.getBlockHash a.toNat) fun h s => s.push h
        else State.push { s with stack := r } 0) := by
    intro hc
    rw [if_neg hc]
    exact sim_setTop h2 fun l' h' => h'.match
  rw [hN] at hcur
  by_cases hx : isUint64 a = false ∨ uint64 a ≥ u64 (N : Int)
  · rw [if_pos hx]
    refine hzero ?_
    rw [isUint64_false, ge_iff_le, BitVec.le_def, hcur, uint64_toNat] at hx
    have := Nat.mod_le a.toNat (2 ^ 64)
    omega
  · rw [if_neg hx]
    have ha64 : a.toNat < 2 ^ 64 := by
      refine (isUint64_iff a).1 ?_
      cases hy : isUint64 a with | true => rfl | false => exact absurd (.inl hy) hx
    have hlt : a.toNat < N := by
      rcases Nat.lt_or_ge a.toNat N with h | h
      · exact h
      · exact absurd (.inr (by rw [ge_iff_le, BitVec.le_def, hcur, uint64_toNat, Nat.mod_eq_of_lt ha64]; exact h)) hx
    have hold : (u64 (N : Int) - (if u64 (N : Int) < 256 then u64 (N : Int) else 256)).toNat = N - 256 := by
      by_cases hy : u64 (N : Int) < 256
      · rw [if_pos hy]
        rw [BitVec.lt_def, hcur] at hy
        have hy' : N < 256 := hy
        rw [BitVec.sub_self]
        show 0 = _
        omega
      · rw [if_neg hy]
        rw [BitVec.lt_def, hcur] at hy
        have hy' : ¬ N < 256 := hy
        have hc2 := (u64 (N : Int)).isLt
        rw [BitVec.toNat_sub, hcur]
        show (2 ^ 64 - 256 + N) % 2 ^ 64 = _
        omega
    by_cases hz : uint64 a < u64 (N : Int) - (if u64 (N : Int) < 256 then u64 (N : Int) else 256)
    · rw [if_pos hz]
      refine hzero ?_
      rw [BitVec.lt_def, hold, uint64_toNat, Nat.mod_eq_of_lt ha64] at hz
      omega
    · rw [if_neg hz]
      rw [BitVec.lt_def, hold, uint64_toNat, Nat.mod_eq_of_lt ha64] at hz
      rw [if_pos (by omega)]
      refine sim_readDb h2 ?_
      have e : s64 (uint64 a) = (a.toNat : Int) := by
        rw [s64_small _ (by rw [uint64_toNat]; omega), uint64_toNat, Nat.mod_eq_of_lt ha64]
      rw [e]
      exact sim_setTop h2 fun l' h' => h'.match

end Tosca.Proofs.Lfvm

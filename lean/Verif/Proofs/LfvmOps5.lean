import Verif.Proofs.LfvmOps4

/-!
# The long-form EVM: nested calls and creations
-/

namespace Tosca.Proofs.Lfvm

open Tosca.Spec Tosca.Spec.Go Tosca.Go Tosca.Model.Go Tosca.Model.Lfvm

variable {ω : Type} {E : Env ω} {rev : Revision} {p : Int} {q k : Nat} {l : St ω} {s : State ω}

/-! ## Answers -/

theorem answer_gas (f : Err → EvmcStatus) (r : Except Err CallRes) : (answerOf f r).gasLeft = (resultOr r).gasLeft := by cases r <;> rfl
theorem answer_refund (f : Err → EvmcStatus) (r : Except Err CallRes) : (answerOf f r).gasRefund = (resultOr r).gasRefund := by cases r <;> rfl
theorem answer_output (f : Err → EvmcStatus) (r : Except Err CallRes) : (answerOf f r).output = (resultOr r).output := by cases r <;> rfl
theorem answer_created (f : Err → EvmcStatus) (r : Except Err CallRes) : (answerOf f r).createAddress = (resultOr r).createdAddress := by
  cases r <;> rfl

theorem answer_success (r : Except Err CallRes) :
    (answerOf failures.error r).status = .success ↔ ¬ ((resultOr r).success = false ∨ noError r = false) := by
  cases r with
  | error e => simp [answerOf, noError, failures]
  | ok r => cases h : r.success <;> simp [answerOf, noError, resultOr, h]

theorem answer_revert (r : Except Err CallRes) :
    (answerOf failures.error r).status = .revert ↔ ((resultOr r).success = false ∧ noError r = true) := by
  cases r with
  | error e => simp [answerOf, noError, failures]
  | ok r => cases h : r.success <;> simp [answerOf, noError, resultOr, h]

/-- The gas that comes back. -/
theorem callOk (hE : Setup E rev) {kind : Kind} {cp : CallParameters} {w : ω} (hr : InRange rev kind cp)
    (hi : cp.input.length ≤ 2 ^ 30) : 0 ≤ (resultOr (E.call kind cp w).1).gasLeft ∧ (resultOr (E.call kind cp w).1).gasLeft ≤ cp.gas := by
  cases h : E.call kind cp w with
  | mk r w' =>
    cases r with
    | error e => exact ⟨Int.le_refl _, hr.1.1⟩
    | ok r =>
      have e : inRange rev E.call kind cp w = (.ok r, w') := by unfold inRange; rw [if_pos hr, h]
      exact hE.call kind cp w r w' hr.1.1 (by have := hr.1.2; omega) hi e

theorem checkBalance_eq {value : U256} {k' : Bool → State ω → State ω} :
    checkBalance (frameOf E rev) value s k' =
      k' (decide (value.toNat = 0 ∨ value.toNat ≤ (E.db.balance E.params.recipient s.host).toNat)) s := by
  unfold checkBalance
  by_cases h : value.toNat = 0
  · rw [if_pos h, decide_eq_true (.inl h)]
  · rw [if_neg h]
    show k' (decide (value.toNat ≤ (E.db.balance E.params.recipient s.host).toNat)) s = _
    congr 1
    rw [decide_eq_decide]
    constructor
    · exact .inr
    · rintro (h' | h')
      · exact absurd h' h
      · exact h'

theorem tooPoor_eq {value : U256} {c : Bool} (hc : c = true ∨ value = 0) (h : Rel k p q l s) :
    (tooPoor E c value : M ω Bool) l =
      .ok (!decide (value.toNat = 0 ∨ value.toNat ≤ (E.db.balance E.params.recipient s.host).toNat)) l := by
  unfold tooPoor
  by_cases hv : value = 0
  · rw [if_neg (fun hx => hx.2 hv), decide_eq_true (.inl (by rw [hv]; rfl))]; rfl
  · have hc' : c = true := by rcases hc with h | h; exact h; exact absurd h hv
    rw [if_pos ⟨hc', hv⟩]
    have e : readDb (E.db.balance E.params.recipient) l = .ok (E.db.balance E.params.recipient s.host) l := by
      unfold readDb; rw [h.world]
    rw [bind_ok e]
    show Res.ok _ _ = _
    congr 1
    have hv' : value.toNat ≠ 0 := fun hx => hv ((zero_iff _).2 hx)
    by_cases hx : (E.db.balance E.params.recipient s.host).toNat < value.toNat
    · rw [decide_eq_true hx, decide_eq_false (by omega)]; rfl
    · rw [decide_eq_false hx, decide_eq_true (by omega)]; rfl

/-! ## Creations -/

theorem host_call {m : Message} {w : ω} (h : m.input.length ≤ 2 ^ 30) (hr : InRange rev (kindOf m) (paramsOf m)) :
    (frameOf E rev).host.call m w =
      (answerOf failures.error (E.call (kindOf m) (paramsOf m) w).1, (E.call (kindOf m) (paramsOf m) w).2) := by
  show (if m.input.length ≤ 2 ^ 30 then _ else _) = _
  rw [if_pos h]
  unfold inRange
  rw [if_pos hr]

theorem rel_ret {x : List Byte} (h : Rel k p q l s) (hx : x.length < 2 ^ 64) : Rel k p q { l with returnData := x } { s with ret := x } :=
  ⟨h.status, h.pc, h.pc', h.gas, h.refund, h.sp, h.stack, h.limit, h.size, h.mem, h.aligned, h.cost, rfl, hx, h.world, h.bound⟩

theorem i64_sub {a b : Int} (ha : 0 ≤ a) (hb : b ≤ a) (hb0 : 0 ≤ b) (ha1 : a ≤ 2 ^ 41) : i64 (a - b) = a - b := i64_id (by omega) (by omega)

theorem sim_createTail {salt : Option U256} {value off n : U256} {kind : Kind} (hE : Setup E rev)
    (hk : kind = if salt.isSome then .create2 else .create)
    (h : Rel 0 p q l s) (hs : s.stack.length + 1 ≤ 1024) (hn : n.toNat ≤ 2 ^ 30) (hS : SHANGHAI ≤ rev → n.toNat ≤ 49152)
    (hcov : Covered s.mem off.toNat n.toNat) :
    Sim (Post p q)
      ((tooPoor E true value >>= fun poor =>
        if poor = true then (do
          pushV 0
          setReturnData [])
        else do
          let gas := (← getSt).gas
          let nested := i64 (gas - div64 gas)
          let input ← readView (viewOf off n)
          let r ← callOut E kind
            { sender := E.params.recipient, value := value, input := input, gas := nested, salt := salt.getD 0 }
          let res := resultOr r
          pushV (if res.success = false ∨ noError r = false then 0 else ofBytes20 res.createdAddress)
          setReturnData (if res.success = false ∧ noError r = true then res.output else [])
          addGas (-nested)
          addGas res.gasLeft
          addRefund res.gasRefund : M ω Unit) l)
      (createTail (frameOf E rev) salt value off n s) := by
  have hb := h.bound
  unfold createTail
  dsimp only
  rw [checkBalance_eq, bind_ok (tooPoor_eq (.inl rfl) h)]
  dsimp only
  by_cases hok : value.toNat = 0 ∨ value.toNat ≤ (E.db.balance E.params.recipient s.host).toNat
  · rw [decide_eq_true hok, if_neg (by decide), if_neg (by decide), bind_ok (show (getSt : M ω _) l = .ok l l from rfl)]
    have hnest : i64 (l.gas - div64 l.gas) = (allBut64th s.gas : Nat) := by
      rw [h.gas]
      unfold div64
      rw [tdiv64]
      have : allBut64th s.gas ≤ s.gas := by unfold allBut64th; omega
      exact i64_id (by omega) (by omega)
    have hle : allBut64th s.gas ≤ s.gas := by unfold allBut64th; omega
    rw [hnest, bind_ok (readView_ok h hcov)]
    have hin : (s.mem.read off.toNat n.toNat).length ≤ 2 ^ 30 := by unfold Mem.read; simpa using hn
    unfold State.ask
    dsimp only
    have hkind : kindOf (createMessage (frameOf E rev) salt value (s.mem.read off.toNat n.toNat) (allBut64th s.gas)) = kind := by
      rw [hk]; cases salt <;> rfl
    have hpar : paramsOf (createMessage (frameOf E rev) salt value (s.mem.read off.toNat n.toNat) (allBut64th s.gas)) =
        { sender := E.params.recipient, value := value, input := s.mem.read off.toNat n.toNat, gas := (allBut64th s.gas : Nat), salt := salt.getD 0 } := by
      rfl
    have hrange : InRange rev kind
        { sender := E.params.recipient, value := value, input := s.mem.read off.toNat n.toNat, gas := (allBut64th s.gas : Nat), salt := salt.getD 0 } := by
      refine ⟨⟨?_, ?_⟩, fun hs _ => ?_⟩
      · show (0 : Int) ≤ (allBut64th s.gas : Nat); omega
      · show ((allBut64th s.gas : Nat) : Int) ≤ _; omega
      · show (s.mem.read off.toNat n.toNat).length ≤ 49152
        unfold Mem.read; simpa using hS hs
    rw [host_call (show (createMessage (frameOf E rev) salt value (s.mem.read off.toNat n.toNat) (allBut64th s.gas)).input.length ≤ 2 ^ 30 from hin)
      (by rw [hkind, hpar]; exact hrange)]
    rw [hkind, hpar]
    generalize hcp : ({ sender := E.params.recipient, value := value, input := s.mem.read off.toNat n.toNat, gas := (allBut64th s.gas : Nat), salt := salt.getD 0 } : CallParameters) = cp
    have hgas := callOk hE (kind := kind) (cp := cp) (w := s.host) (by rw [← hcp]; exact hrange) (by rw [← hcp]; exact hin)
    rw [show cp.gas = (allBut64th s.gas : Nat) by rw [← hcp]] at hgas
    have hco : callOut E kind cp l = .ok (E.call kind cp s.host).1 { l with world := (E.call kind cp s.host).2 } := by
      unfold callOut askDb; rw [h.world]
    rw [bind_ok hco]
    generalize E.call kind cp s.host = out at hgas ⊢
    obtain ⟨r, w'⟩ := out
    dsimp only at hgas ⊢
    have hpush : ∀ v, ∃ l', (pushV v : M ω Unit) { l with world := w' } = .ok () l' ∧ Rel 0 p q l' (State.push { s with host := w' } v) :=
      fun v => pushV_ok (rel_world h) hs
    obtain ⟨l1, e1, h1⟩ := hpush (if (resultOr r).success = false ∨ noError r = false then 0 else ofBytes20 (resultOr r).createdAddress)
    rw [bind_ok e1]
    rw [answer_gas, answer_refund, answer_output, answer_created]
    have g1 : l1.gas = s.gas := h1.gas
    have r1 : l1.refund = i64 s.refund := h1.refund
    have hfin : (do
          setReturnData (if (resultOr r).success = false ∧ noError r = true then (resultOr r).output else [])
          addGas (-((allBut64th s.gas : Nat) : Int))
          addGas (resultOr r).gasLeft
          addRefund (resultOr r).gasRefund : M ω Unit) l1 =
        .ok () { l1 with
          returnData := if (resultOr r).success = false ∧ noError r = true then (resultOr r).output else []
          gas := i64 (i64 (l1.gas + -((allBut64th s.gas : Nat) : Int)) + (resultOr r).gasLeft)
          refund := i64 (l1.refund + (resultOr r).gasRefund) } := rfl
    rw [hfin]
    refine ⟨h1.status, h1.pc, h1.pc', ?_, ?_, ?_, ?_, h1.match.limit, h1.size, h1.mem, h1.aligned, h1.cost, ?_, h1.world⟩
    · show i64 (i64 (l1.gas + -((allBut64th s.gas : Nat) : Int)) + (resultOr r).gasLeft) = ((s.gas - allBut64th s.gas + (resultOr r).gasLeft.toNat : Nat) : Int)
      rw [g1, i64_id (x := (s.gas : Int) + -((allBut64th s.gas : Nat) : Int)) (by omega) (by omega), i64_id (by omega) (by omega)]
      omega
    · show i64 (l1.refund + (resultOr r).gasRefund) = i64 (s.refund + (resultOr r).gasRefund)
      rw [r1]; unfold i64; rw [Int.bmod_add_bmod]
    · exact h1.match.sp
    · show words' l1.data (s.stack.length + 1) = _ :: s.stack
      have := h1.stack
      rw [show (State.push { s with host := w' } (if (resultOr r).success = false ∨ noError r = false then 0 else ofBytes20 (resultOr r).createdAddress)).stack =
        (if (resultOr r).success = false ∨ noError r = false then 0 else ofBytes20 (resultOr r).createdAddress) :: s.stack from rfl] at this
      rw [List.length_cons] at this
      rw [this]
      congr 1
      by_cases hx : (resultOr r).success = false ∨ noError r = false
      · rw [if_pos hx, if_neg (fun hc => (answer_success r).1 hc hx)]
      · rw [if_neg hx, if_pos ((answer_success r).2 hx), l_ofBytes20]
    · show (if (resultOr r).success = false ∧ noError r = true then (resultOr r).output else []) = if (answerOf failures.error r).status = .revert then _ else _
      by_cases hx : (resultOr r).success = false ∧ noError r = true
      · rw [if_pos hx, if_pos ((answer_revert r).2 hx)]
      · rw [if_neg hx, if_neg (fun hc => hx ((answer_revert r).1 hc))]
  · rw [decide_eq_false hok, if_pos (show (!false) = true from rfl), if_pos (show false = false from rfl)]
    obtain ⟨l1, e1, h1⟩ := pushV_ok (v := 0) h hs
    rw [bind_ok e1]
    show Match p q { l1 with returnData := [] } _
    exact (rel_ret (x := []) h1 (by simp)).match

/-- A creation, after the operands were taken. -/
theorem sim_createWith {salt : Option U256} {value off n : U256} {kind : Kind} (hE : Setup E rev)
    (hk : kind = if salt.isSome then .create2 else .create) (h : Rel 0 p q l s) (hs : s.stack.length + 1 ≤ 1024) :
    Sim (Post p q)
      ((do
        let view ← getSlice off n
        chargeInitCode E (uint64 n)
        useGasIf (kind = .create2) (s64 (6 * sizeInWords (uint64 n)))
        let poor ← tooPoor E true value
        if poor = true then
          pushV 0
          setReturnData []
        else
          let gas := (← getSt).gas
          let nested := i64 (gas - div64 gas)
          let input ← readView view
          let r ← callOut E kind
            { sender := E.params.recipient, value := value, input := input, gas := nested, salt := salt.getD 0 }
          let res := resultOr r
          pushV (if res.success = false ∨ noError r = false then 0 else ofBytes20 res.createdAddress)
          setReturnData (if res.success = false ∧ noError r = true then res.output else [])
          addGas (-nested)
          addGas res.gasLeft
          addRefund res.gasRefund : M ω Unit) l)
      (createWith (frameOf E rev) salt value off n s) := by
  rw [createWith_eq]
  refine sim_getSlice h fun l1 g hn hc h1 => ?_
  have hsm := not_small hn
  have hu : (uint64 n).toNat = n.toNat := by rw [uint64_toNat, Nat.mod_eq_of_lt (by omega)]
  have hw : ∀ c : BitVec 64, c.toNat ≤ 8 → s64 (c * sizeInWords (uint64 n)) = ((c.toNat * words n.toNat : Nat) : Int) :=
    fun c hc => s64_words hc (by omega)
  rw [show (frameOf E rev).rev = rev from rfl]
  unfold chargeInitCode computeCodeSizeCost
  -- the charge for CREATE2 and the rest
  have tail : ∀ (l2 : St ω) (s2 : State ω), Rel 0 p q l2 s2 → s2.stack = s.stack → s2.mem = s.mem.expand off.toNat n.toNat →
      (SHANGHAI ≤ rev → n.toNat ≤ 49152) → Sim (Post p q)
      ((useGasIf (kind = .create2) (s64 (6 * sizeInWords (uint64 n))) >>= fun _ => (do
        let poor ← tooPoor E true value
        if poor = true then
          pushV 0
          setReturnData []
        else
          let gas := (← getSt).gas
          let nested := i64 (gas - div64 gas)
          let input ← readView (viewOf off n)
          let r ← callOut E kind
            { sender := E.params.recipient, value := value, input := input, gas := nested, salt := salt.getD 0 }
          let res := resultOr r
          pushV (if res.success = false ∨ noError r = false then 0 else ofBytes20 res.createdAddress)
          setReturnData (if res.success = false ∧ noError r = true then res.output else [])
          addGas (-nested)
          addGas res.gasLeft
          addRefund res.gasRefund : M ω Unit)) l2)
      (s2.charge (if salt.isSome then 6 * words n.toNat else 0) (createTail (frameOf E rev) salt value off n)) := by
    intro l2 s2 h2 hst hm hSn
    unfold useGasIf
    cases salt with
    | none =>
      have hk' : kind = .create := hk
      subst hk'
      rw [if_neg (show ¬ (Option.isSome (none : Option U256)) = true from by decide), charge_zero, if_neg (by decide), pure_bind']
      exact sim_createTail (salt := none) hE rfl h2 (by rw [hst]; exact hs) hsm hSn (by rw [hm]; exact hc)
    | some v =>
      have hk' : kind = .create2 := hk
      subst hk'
      rw [if_pos (show (Option.isSome (some v)) = true from rfl), if_pos (by decide)]
      refine sim_useGas (by rw [hw 6 (by decide)]; rfl) h2 fun l3 h3 => ?_
      exact sim_createTail (salt := some v) hE rfl h3 (by show s2.stack.length + 1 ≤ 1024; rw [hst]; exact hs) hsm hSn
        (by show Covered s2.mem _ _; rw [hm]; exact hc)
  by_cases hS : SHANGHAI ≤ rev
  · rw [if_pos ((shanghai hE).2 hS), hu]
    by_cases hbig : n.toNat > 49152
    · rw [if_pos hbig, if_pos ⟨hS, hbig⟩]
      exact failed_fail _ _
    · rw [if_neg hbig, if_neg (fun hx => hbig hx.2), if_pos hS, charge_add, pure_bind']
      refine sim_useGas (by rw [hw 2 (by decide)]; rfl) h1 fun l2 h2 => ?_
      exact tail l2 _ h2 rfl rfl fun _ => by omega
  · rw [if_neg (fun hx => hS ((shanghai hE).1 hx)), if_neg (fun hx => hS hx.1), if_neg hS, Nat.zero_add, pure_bind']
    exact tail l1 _ h1 rfl rfl fun h => absurd h hS

theorem sim_create (hE : Setup E rev) (hst : E.params.static = false) (h : Rel 0 p q l s) (hs : 3 ≤ s.stack.length) :
    Sim (Post p q) (genericCreate E .create l) (create (frameOf E rev) false s) := by
  obtain ⟨a, r, ha, hr⟩ := stack_cons hs
  obtain ⟨b, r1, hb, hr1⟩ := stack_cons hr
  obtain ⟨c, r2, hc, hr2⟩ := stack_cons hr1
  have hlim : r2.length + 3 ≤ 1024 := by have := h.limit; rw [ha, hb, hc] at this; simpa using this
  unfold genericCreate create
  rw [if_neg (by rw [hst]; decide), if_neg (show ¬ (frameOf E rev).msg.depth > 1024 from by show ¬ (0 : Int) > 1024; decide), pop3_eq]
  refine sim_pop h ha fun l1 h1 => ?_
  refine sim_pop h1 (show r = b :: r1 from hb) fun l2 h2 => ?_
  refine sim_pop h2 (show r1 = c :: r2 from hc) fun l3 h3 => ?_
  rw [if_neg (by decide)]
  exact sim_createWith (salt := none) hE rfl h3 (by show r2.length + 1 ≤ 1024; omega)

theorem sim_create2 (hE : Setup E rev) (hst : E.params.static = false) (h : Rel 0 p q l s) (hs : 4 ≤ s.stack.length) :
    Sim (Post p q) (genericCreate E .create2 l) (create (frameOf E rev) true s) := by
  obtain ⟨a, r, ha, hr⟩ := stack_cons hs
  obtain ⟨b, r1, hb, hr1⟩ := stack_cons hr
  obtain ⟨c, r2, hc, hr2⟩ := stack_cons hr1
  obtain ⟨d, r3, hd, hr3⟩ := stack_cons hr2
  have hlim : r3.length + 4 ≤ 1024 := by have := h.limit; rw [ha, hb, hc, hd] at this; simpa using this
  unfold genericCreate create
  rw [if_neg (by rw [hst]; decide), if_neg (show ¬ (frameOf E rev).msg.depth > 1024 from by show ¬ (0 : Int) > 1024; decide), pop3_eq]
  refine sim_pop h ha fun l1 h1 => ?_
  refine sim_pop h1 (show r = b :: r1 from hb) fun l2 h2 => ?_
  refine sim_pop h2 (show r1 = c :: r2 from hc) fun l3 h3 => ?_
  rw [if_pos rfl]
  refine sim_pop h3 (show r2 = d :: r3 from hd) fun l4 h4 => ?_
  exact sim_createWith (salt := some d) hE rfl h4 (by show r3.length + 1 ≤ 1024; omega)

end Tosca.Proofs.Lfvm

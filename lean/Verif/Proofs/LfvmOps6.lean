import Verif.Proofs.LfvmOps5

/-!
# The long-form EVM: calls
-/

namespace Tosca.Proofs.Lfvm

open Tosca.Spec Tosca.Spec.Go Tosca.Go Tosca.Model.Go Tosca.Model.Lfvm

variable {ω : Type} {E : Env ω} {rev : Revision} {p : Int} {q k : Nat} {l : St ω} {s : State ω}

/-- The tail of a call in the specification. -/
def callTail (P : Params ω) (v : CallVariant) (gasReq : U256) (dest : Address) (value inOff inLen outOff outLen : U256) (s : State ω) : State ω :=
  let fwd := min gasReq.toNat (allBut64th s.gas)
  let stipend := if value.toNat ≠ 0 then 2300 else 0
  let s := { s with ret := [] }
  checkBalance P value s fun ok s =>
    if ok = false then { s with gas := s.gas + stipend }.push 0
    else
      let msg := callMessage P v dest value (s.mem.read inOff.toNat inLen.toNat) (fwd + stipend)
      s.ask (P.host.call msg) fun r s =>
        { s with
          gas := s.gas - fwd + r.gasLeft.toNat
          refund := s.refund + r.gasRefund
          ret := r.output
          mem := s.mem.write outOff.toNat (r.output.take outLen.toNat)
          stack := (if r.status = .success then 1 else 0) :: s.stack }

/-- The price of creating the account. -/
noncomputable def newCost (E : Env ω) (v : CallVariant) (dest : Address) (value : U256) (w : ω) : Nat :=
  if v ≠ .callcode ∧ value.toNat ≠ 0 ∧ Absent E.db dest w then 25000 else 0

theorem newAccountGas_eq {v : CallVariant} {dest : Address} {value : U256} {k' : Nat → State ω → State ω} :
    newAccountGas (frameOf E rev) v dest value s k' = k' (newCost E v dest value s.host) s := by
  unfold newAccountGas newCost
  by_cases h : v ≠ .callcode ∧ value.toNat ≠ 0
  · rw [if_pos h]
    show k' (if decide (¬ Absent E.db dest s.host) = true then 0 else 25000) s = _
    by_cases ha : Absent E.db dest s.host
    · rw [if_neg (by simpa using ha), if_pos ⟨h.1, h.2, ha⟩]
    · rw [if_pos (by simpa using ha), if_neg (fun hc => ha hc.2.2)]
  · rw [if_neg h, if_neg (fun hc => h ⟨hc.1, hc.2.1⟩)]

/-- The charges for the value. -/
noncomputable def callValue (E : Env ω) (rev : Revision) (v : CallVariant) (gasReq : U256) (dest : Address) (value inOff inLen outOff outLen : U256)
    (s : State ω) : State ω :=
  s.charge (if value.toNat ≠ 0 then 9000 else 0) fun s => s.charge (newCost E v dest value s.host)
    (callTail (frameOf E rev) v gasReq dest value inOff inLen outOff outLen)

theorem callWith_eq {v : CallVariant} {gasReq : U256} {dest : Address} {value inOff inLen outOff outLen : U256} :
    callWith (frameOf E rev) v gasReq dest value inOff inLen outOff outLen s =
      s.touch2 inOff inLen outOff outLen 0 fun s =>
        if v = .call ∧ value.toNat ≠ 0 ∧ (frameOf E rev).msg.isStatic then s.fail .staticViolation
        else accountAccess (frameOf E rev) dest s fun access s => s.charge access
          (callValue E rev v gasReq dest value inOff inLen outOff outLen) := by
  show (s.touch2 inOff inLen outOff outLen 0 fun s =>
    if v = .call ∧ value.toNat ≠ 0 ∧ (frameOf E rev).msg.isStatic then s.fail .staticViolation
    else accountAccess (frameOf E rev) dest s fun access s =>
      newAccountGas (frameOf E rev) v dest value s fun newAccount s =>
      s.charge (access + (if value.toNat ≠ 0 then 9000 else 0) + newAccount)
        (callTail (frameOf E rev) v gasReq dest value inOff inLen outOff outLen)) = _
  congr 1
  funext s
  split
  · rfl
  · rw [accountAccess_eq, accountAccess_eq, newAccountGas_eq, charge_add, charge_add]
    rfl

theorem touch2_charge (o n o' n' : U256) (e : Nat) (k : State ω → State ω) :
    Like (s.touch2 o n o' n' 0 fun s => s.charge e k) (s.charge e fun s => s.touch2 o n o' n' 0 k) := by
  unfold State.touch2
  rw [show (s.charge e fun s => s.charge (s.mem.growGas (max (s.mem.sizeAfter o.toNat n.toNat) (s.mem.sizeAfter o'.toNat n'.toNat)) + 0) fun s =>
      k { s with mem := (s.mem.expand o.toNat n.toNat).expand o'.toNat n'.toNat }) =
    s.charge (s.mem.growGas (max (s.mem.sizeAfter o.toNat n.toNat) (s.mem.sizeAfter o'.toNat n'.toNat)) + 0) fun s => s.charge e fun s =>
      k { s with mem := (s.mem.expand o.toNat n.toNat).expand o'.toNat n'.toNat } from by rw [← charge_add, Nat.add_comm, charge_add]; rfl]
  refine like_charge ?_
  dsimp only
  generalize s.mem.growGas (max (s.mem.sizeAfter o.toNat n.toNat) (s.mem.sizeAfter o'.toNat n'.toNat)) = G
  unfold State.charge
  dsimp only
  split
  · exact like_fail _ _ _ _
  · exact .refl _

/-- The account charge after the part charged up front. -/
noncomputable def accountRest (E : Env ω) (rev : Revision) (dest : Address) (s : State ω) (k : State ω → State ω) : State ω :=
  if BERLIN ≤ rev then accountAccess (frameOf E rev) dest s fun access s => s.charge access k else k s

/-- A call in the order of the implementation. -/
theorem callWith_like {v : CallVariant} {gasReq : U256} {dest : Address} {value inOff inLen outOff outLen : U256}
    (hst : ¬ (v = .call ∧ value.toNat ≠ 0 ∧ (frameOf E rev).msg.isStatic)) :
    Like (callWith (frameOf E rev) v gasReq dest value inOff inLen outOff outLen s)
      (s.charge (accPre rev) fun s => s.touch inOff inLen 0 fun s => s.touch outOff outLen 0 fun s =>
        accountRest E rev dest s (callValue E rev v gasReq dest value inOff inLen outOff outLen)) := by
  rw [callWith_eq]
  simp only [if_neg hst]
  unfold accPre accountRest
  by_cases hb : BERLIN ≤ rev
  · simp only [if_pos hb, charge_zero]
    exact touch2_split _ _ _ _ _
  · simp only [if_neg hb]
    rw [show (fun s : State ω => accountAccess (frameOf E rev) dest s fun access s => s.charge access
          (callValue E rev v gasReq dest value inOff inLen outOff outLen)) =
        fun s => s.charge 700 (callValue E rev v gasReq dest value inOff inLen outOff outLen) from by
      funext s; exact noAccess' hb]
    refine Like.trans (touch2_charge _ _ _ _ _ _) ?_
    exact like_charge (touch2_split _ _ _ _ _)

theorem callWith_static {v : CallVariant} {gasReq : U256} {dest : Address} {value inOff inLen outOff outLen : U256}
    (hst : v = .call ∧ value.toNat ≠ 0 ∧ (frameOf E rev).msg.isStatic) :
    Failed (callWith (frameOf E rev) v gasReq dest value inOff inLen outOff outLen s) := by
  rw [callWith_eq]
  simp only [if_pos hst]
  unfold State.touch2 State.charge
  split
  · exact failed_fail _ _
  · exact failed_fail _ _

/-- The kind of a call instruction. -/
def kindV : CallVariant → Kind
  | .call => .call
  | .callcode => .callCode
  | .delegatecall => .delegateCall
  | .staticcall => .staticCall

theorem rel_gas {g : Nat} (h : Rel k p q l s) (hg : g ≤ s.gas) : Rel k p q { l with gas := (g : Int) } { s with gas := g } :=
  ⟨h.status, h.pc, h.pc', rfl, h.refund, h.sp, h.stack, h.limit, h.size, h.mem, h.aligned, h.cost, h.ret, h.retLen, h.world,
    by have := h.bound; show g + memGas (words s.mem.size) ≤ 2 ^ 40; omega⟩

theorem nestedGas_eq {g : Nat} (req : U256) (hg : g ≤ 2 ^ 40) :
    nestedGas (g : Int) req = ((min req.toNat (allBut64th g) : Nat) : Int) := by
  have hle : allBut64th g ≤ g := by unfold allBut64th; omega
  unfold nestedGas
  dsimp only
  have hnest : i64 ((g : Int) - div64 g) = (allBut64th g : Nat) := by
    unfold div64
    rw [tdiv64]
    exact i64_id (by omega) (by omega)
  rw [hnest]
  by_cases hx : req.toNat ≤ allBut64th g
  · have hu : (uint64 req).toNat = req.toNat := by rw [uint64_toNat, Nat.mod_eq_of_lt (by omega)]
    have hs : s64 (uint64 req) = req.toNat := by rw [s64_small _ (by omega), hu]
    rw [if_pos ⟨(isUint64_iff req).2 (by omega), by omega, by omega⟩, hs]
    omega
  · rw [if_neg]
    · omega
    · rintro ⟨h1, h2, h3⟩
      rw [isUint64_iff] at h1
      have hu : (uint64 req).toNat = req.toNat := by rw [uint64_toNat, Nat.mod_eq_of_lt (by omega)]
      rw [s64_small _ (by omega), hu] at h3
      omega

theorem room {f s g : Nat} (hs : s ≤ 2300) (hf : f ≤ allBut64th g) (hg : g ≤ 1099511627776) : f + s ≤ 1099511627776 := by
  unfold allBut64th at hf
  omega

theorem sim_callTail {v : CallVariant} {gasReq : U256} {dest : Address} {value inOff inLen outOff outLen : U256} (hE : Setup E rev)
    (hval : v = .call ∨ v = .callcode ∨ value = 0) (hst : ¬ (v = .call ∧ value.toNat ≠ 0 ∧ (frameOf E rev).msg.isStatic))
    (h : Rel 0 p q l s) (hs : s.stack.length + 1 ≤ 1024) (hin : inLen.toNat ≤ 2 ^ 30) (hout : Covered s.mem outOff.toNat outLen.toNat) :
    Sim (Post p q)
      ((getSt >>= fun st =>
        let given := nestedGas st.gas gasReq
        addGas (-given) >>= fun _ =>
        let nested := if value ≠ 0 then i64 (given + 2300) else given
        tooPoor E (kindV v = .call ∨ kindV v = .callCode) value >>= fun poor =>
        if poor = true then (do
          pushV 0
          setReturnData []
          addGas nested)
        else do
          let kind' : Kind := if E.params.static = true ∧ kindV v = .call then .staticCall else kindV v
          let r ← callOut E kind' (nestedParams E kind' dest value (s.mem.read inOff.toNat inLen.toNat) nested)
          let ret := resultOr r
          copyTo (viewOf outOff outLen) (if noError r = true then ret.output else [])
          pushV (if noError r = false ∨ ret.success = false then 0 else 1)
          addGas ret.gasLeft
          addRefund ret.gasRefund
          setReturnData ret.output : M ω Unit) l)
      (callTail (frameOf E rev) v gasReq dest value inOff inLen outOff outLen s) := by
  have hb := h.bound
  unfold callTail
  dsimp only
  rw [checkBalance_eq, bind_ok (show (getSt : M ω _) l = .ok l l from rfl)]
  have hle : allBut64th s.gas ≤ s.gas := by unfold allBut64th; omega
  rw [show l.gas = (s.gas : Int) from h.gas, nestedGas_eq gasReq (by omega)]
  generalize hf : min gasReq.toNat (allBut64th s.gas) = fwd
  have hfw : fwd ≤ s.gas := by omega
  have hadd : (addGas (-(fwd : Int)) : M ω Unit) l = .ok () { l with gas := ((s.gas - fwd : Nat) : Int) } := by
    show Res.ok () { l with gas := i64 (l.gas + -(fwd : Int)) } = _
    rw [h.gas, i64_id (x := (s.gas : Int) + -(fwd : Int)) (by omega) (by omega)]
    rw [show (s.gas : Int) + -(fwd : Int) = ((s.gas - fwd : Nat) : Int) by omega]
  rw [bind_ok hadd]
  have h1 : Rel 0 p q { l with gas := ((s.gas - fwd : Nat) : Int) } { s with gas := s.gas - fwd } := rel_gas h (by omega)
  have hkc : (decide (kindV v = .call ∨ kindV v = .callCode)) = true ∨ value = 0 := by
    rcases hval with h | h | h
    · left; rw [h]; rfl
    · left; rw [h]; rfl
    · right; exact h
  rw [bind_ok (tooPoor_eq hkc h1)]
  dsimp only
  generalize hsp : (if value.toNat ≠ 0 then 2300 else 0) = stipend
  have hstip : stipend ≤ 2300 := by rw [← hsp]; split <;> omega
  have hnested : (if value ≠ 0 then i64 ((fwd : Int) + 2300) else (fwd : Int)) = ((fwd + stipend : Nat) : Int) := by
    by_cases hv : value = 0
    · rw [if_neg (by simpa using hv), ← hsp, if_neg (by rw [hv]; decide)]; rfl
    · rw [if_pos hv, ← hsp, if_pos (fun hx => hv ((zero_iff _).2 hx)), i64_id (by omega) (by omega)]; omega
  rw [hnested]
  by_cases hok : value.toNat = 0 ∨ value.toNat ≤ (E.db.balance E.params.recipient s.host).toNat
  · rw [decide_eq_true hok, if_neg (show ¬ (!true) = true from by decide), if_neg (show ¬ true = false from by decide)]
    have hlen : (s.mem.read inOff.toNat inLen.toNat).length ≤ 2 ^ 30 := by unfold Mem.read; simpa using hin
    unfold State.ask
    dsimp only
    have hkind : kindOf (callMessage (frameOf E rev) v dest value (s.mem.read inOff.toNat inLen.toNat) (fwd + stipend)) =
        if E.params.static = true ∧ kindV v = .call then .staticCall else kindV v := by
      cases v <;> cases hstat : E.params.static
      all_goals
        unfold kindOf callMessage kindV
        dsimp only
        try rw [show (frameOf E rev).msg.flags = if E.params.static = true then 1 else 0 from rfl, hstat]
        rfl
    have hpar : paramsOf (callMessage (frameOf E rev) v dest value (s.mem.read inOff.toNat inLen.toNat) (fwd + stipend)) =
        nestedParams E (if E.params.static = true ∧ kindV v = .call then .staticCall else kindV v) dest value
          (s.mem.read inOff.toNat inLen.toNat) ((fwd + stipend : Nat) : Int) := by
      cases v <;> cases hstat : E.params.static <;> rfl
    have hnc : ¬ ((if E.params.static = true ∧ kindV v = .call then Kind.staticCall else kindV v) = .create ∨
        (if E.params.static = true ∧ kindV v = .call then Kind.staticCall else kindV v) = .create2) := by
      split
      · decide
      · cases v <;> decide
    have hfs : fwd + stipend ≤ 2 ^ 40 := by
      have h40 : s.gas ≤ 1099511627776 := Nat.le_trans (Nat.le_add_right _ _) hb
      exact room hstip (hf ▸ Nat.min_le_right _ _) h40
    have hrange : InRange rev (if E.params.static = true ∧ kindV v = .call then .staticCall else kindV v)
        (nestedParams E (if E.params.static = true ∧ kindV v = .call then .staticCall else kindV v) dest value
          (s.mem.read inOff.toNat inLen.toNat) ((fwd + stipend : Nat) : Int)) := by
      refine ⟨?_, fun _ hx => absurd hx hnc⟩
      generalize (if E.params.static = true ∧ kindV v = .call then Kind.staticCall else kindV v) = kind'
      rw [show (nestedParams E kind' dest value (s.mem.read inOff.toNat inLen.toNat) ((fwd + stipend : Nat) : Int)).gas = ((fwd + stipend : Nat) : Int) from by
        cases kind' <;> rfl]
      constructor <;> omega
    rw [host_call (show (callMessage (frameOf E rev) v dest value (s.mem.read inOff.toNat inLen.toNat) (fwd + stipend)).input.length ≤ 2 ^ 30 from hlen)
      (by rw [hkind, hpar]; exact hrange)]
    rw [hkind, hpar]
    generalize (if E.params.static = true ∧ kindV v = .call then Kind.staticCall else kindV v) = kind' at hrange
    have hcpg : (nestedParams E kind' dest value (s.mem.read inOff.toNat inLen.toNat) ((fwd + stipend : Nat) : Int)).gas = ((fwd + stipend : Nat) : Int) := by
      cases kind' <;> rfl
    have hcpi : (nestedParams E kind' dest value (s.mem.read inOff.toNat inLen.toNat) ((fwd + stipend : Nat) : Int)).input = s.mem.read inOff.toNat inLen.toNat := by
      cases kind' <;> rfl
    generalize nestedParams E kind' dest value (s.mem.read inOff.toNat inLen.toNat) ((fwd + stipend : Nat) : Int) = cp at hcpg hcpi hrange ⊢
    have hgas := callOk hE (kind := kind') (cp := cp) (w := s.host) hrange (by rw [hcpi]; exact hlen)
    rw [hcpg] at hgas
    have hco : ∀ l : St ω, l.world = s.host → callOut E kind' cp l = .ok (E.call kind' cp s.host).1 { l with world := (E.call kind' cp s.host).2 } := by
      intro l hw; unfold callOut askDb; rw [hw]
    rw [bind_ok (hco _ h1.world)]
    generalize E.call kind' cp s.host = out at hgas ⊢
    obtain ⟨r, w'⟩ := out
    dsimp only at hgas ⊢
    have h2 := rel_world (w := w') h1
    have hob : (if noError r = true then (resultOr r).output else []) = (resultOr r).output := by cases r <;> rfl
    rw [hob]
    obtain ⟨l3, e3, h3⟩ := copyTo_ok (bytes := (resultOr r).output) h2 hout
    rw [bind_ok e3]
    obtain ⟨l4, e4, h4⟩ := pushV_ok (v := if noError r = false ∨ (resultOr r).success = false then 0 else 1) h3 hs
    rw [bind_ok e4]
    rw [answer_gas, answer_refund, answer_output]
    have hfin : (do
          addGas (resultOr r).gasLeft
          addRefund (resultOr r).gasRefund
          setReturnData (resultOr r).output : M ω Unit) l4 =
        .ok () { l4 with
          gas := i64 (l4.gas + (resultOr r).gasLeft)
          refund := i64 (l4.refund + (resultOr r).gasRefund)
          returnData := (resultOr r).output } := rfl
    rw [hfin]
    have g4 : l4.gas = ((s.gas - fwd : Nat) : Int) := h4.gas
    have r4 : l4.refund = i64 s.refund := h4.refund
    refine ⟨h4.status, h4.pc, h4.pc', ?_, ?_, h4.match.sp, ?_, h4.match.limit, h4.size, h4.mem, h4.aligned, h4.cost, rfl, h4.world⟩
    · show i64 (l4.gas + (resultOr r).gasLeft) = ((s.gas - fwd + (resultOr r).gasLeft.toNat : Nat) : Int)
      rw [g4, i64_id (by omega) (by omega)]
      omega
    · show i64 (l4.refund + (resultOr r).gasRefund) = i64 (s.refund + (resultOr r).gasRefund)
      rw [r4]; unfold i64; rw [Int.bmod_add_bmod]
    · show words' l4.data (s.stack.length + 1) = _ :: s.stack
      have := h4.stack
      rw [show (State.push { s with gas := s.gas - fwd, host := w', mem := s.mem.write outOff.toNat ((resultOr r).output.take outLen.toNat) } (if noError r = false ∨ (resultOr r).success = false then 0 else 1)).stack =
        (if noError r = false ∨ (resultOr r).success = false then 0 else 1) :: s.stack from rfl] at this
      rw [List.length_cons] at this
      rw [this]
      congr 1
      by_cases hx : noError r = false ∨ (resultOr r).success = false
      · rw [if_pos hx, if_neg (fun hc => (answer_success r).1 hc hx.symm)]
      · rw [if_neg hx, if_pos ((answer_success r).2 (fun hc => hx hc.symm))]
  · rw [decide_eq_false hok, if_pos (show (!false) = true from rfl), if_pos (show false = false from rfl)]
    obtain ⟨l2, e2, h2⟩ := pushV_ok (v := 0) h1 hs
    rw [bind_ok e2]
    have h3 := rel_ret (x := []) h2 (by simp)
    have g2 : l2.gas = ((s.gas - fwd : Nat) : Int) := h2.gas
    show Match p q { l2 with returnData := [], gas := i64 (l2.gas + ((fwd + stipend : Nat) : Int)) } _
    refine ⟨h3.status, h3.pc, h3.pc', ?_, h3.refund, h3.match.sp, h3.stack, h3.match.limit, h3.size, h3.mem, h3.aligned, h3.cost, rfl, h3.world⟩
    show i64 (l2.gas + ((fwd + stipend : Nat) : Int)) = ((s.gas + stipend : Nat) : Int)
    rw [g2, i64_id (by omega) (by omega)]
    omega

/-- A call, after the operands were taken. -/
theorem sim_callWith {v : CallVariant} {gasReq : U256} {dest : Address} {value inOff inLen outOff outLen : U256} (hE : Setup E rev)
    (hval : v = .call ∨ v = .callcode ∨ value = 0) (hst : ¬ (v = .call ∧ value.toNat ≠ 0 ∧ (frameOf E rev).msg.isStatic))
    (h : Rel 0 p q l s) (hs : s.stack.length + 1 ≤ 1024) :
    Sim (Post p q)
      ((do
        let argsView ← getSlice inOff inLen
        let args ← readView argsView
        let output ← getSlice outOff outLen
        chargeAccess E dest
        useGasIf (value ≠ 0) 9000
        chargeNewAccount E (kindV v) dest value
        let given := nestedGas (← getSt).gas gasReq
        addGas (-given)
        let nested := if value ≠ 0 then i64 (given + 2300) else given
        let poor ← tooPoor E (kindV v = .call ∨ kindV v = .callCode) value
        if poor = true then
          pushV 0
          setReturnData []
          addGas nested
        else
          let kind' : Kind := if E.params.static = true ∧ kindV v = .call then .staticCall else kindV v
          let r ← callOut E kind' (nestedParams E kind' dest value args nested)
          let ret := resultOr r
          copyTo output (if noError r = true then ret.output else [])
          pushV (if noError r = false ∨ ret.success = false then 0 else 1)
          addGas ret.gasLeft
          addRefund ret.gasRefund
          setReturnData ret.output : M ω Unit) l)
      (s.touch inOff inLen 0 fun s => s.touch outOff outLen 0 fun s =>
        accountRest E rev dest s (callValue E rev v gasReq dest value inOff inLen outOff outLen)) := by
  refine sim_getSlice h fun l1 g1 hn1 hc1 h1 => ?_
  refine sim_readView h1 hc1 ?_
  refine sim_getSlice h1 fun l2 g2 hn2 hc2 h2 => ?_
  dsimp only at h2 ⊢
  have hin := not_small hn1
  -- the charges for the value, and the rest
  have rest : ∀ (l3 : St ω) (s3 : State ω), Rel 0 p q l3 s3 → s3.stack = s.stack →
      s3.mem = (s.mem.expand inOff.toNat inLen.toNat).expand outOff.toNat outLen.toNat →
      Sim (Post p q)
        ((do
          useGasIf (value ≠ 0) 9000
          chargeNewAccount E (kindV v) dest value
          let given := nestedGas (← getSt).gas gasReq
          addGas (-given)
          let nested := if value ≠ 0 then i64 (given + 2300) else given
          let poor ← tooPoor E (kindV v = .call ∨ kindV v = .callCode) value
          if poor = true then
            pushV 0
            setReturnData []
            addGas nested
          else
            let kind' : Kind := if E.params.static = true ∧ kindV v = .call then .staticCall else kindV v
            let r ← callOut E kind' (nestedParams E kind' dest value ((s.mem.expand inOff.toNat inLen.toNat).read inOff.toNat inLen.toNat) nested)
            let ret := resultOr r
            copyTo (viewOf outOff outLen) (if noError r = true then ret.output else [])
            pushV (if noError r = false ∨ ret.success = false then 0 else 1)
            addGas ret.gasLeft
            addRefund ret.gasRefund
            setReturnData ret.output : M ω Unit) l3)
        (callValue E rev v gasReq dest value inOff inLen outOff outLen s3) := by
    intro l3 s3 h3 hst3 hm3
    have hread : (s.mem.expand inOff.toNat inLen.toNat).read inOff.toNat inLen.toNat = s3.mem.read inOff.toNat inLen.toNat := by rw [hm3]; rfl
    rw [hread]
    have hcov : Covered s3.mem outOff.toNat outLen.toNat := by rw [hm3]; exact hc2
    unfold callValue useGasIf
    -- after the charge for a new account
    have fin : ∀ (l5 : St ω) (s5 : State ω), Rel 0 p q l5 s5 → s5.stack = s3.stack → s5.mem = s3.mem → _ :=
      fun l5 s5 h5 hst5 hm5 => sim_callTail (v := v) (gasReq := gasReq) (dest := dest) (inOff := inOff) (inLen := inLen) hE hval hst h5 (by rw [hst5, hst3]; exact hs) hin
        (by rw [hm5]; exact hcov)
    by_cases hv : value = 0
    · have hv' : value.toNat = 0 := by rw [hv]; rfl
      rw [if_neg (show ¬ decide (value ≠ 0) = true from by simpa using hv), if_neg (show ¬ value.toNat ≠ 0 from by simpa using hv'), charge_zero, pure_bind']
      unfold chargeNewAccount newCost
      rw [if_neg (show ¬ (kindV v = .call ∧ value ≠ 0) from fun hx => hx.2 hv), if_neg (show ¬ (v ≠ .callcode ∧ value.toNat ≠ 0 ∧ Absent E.db dest s3.host) from fun hx => hx.2.1 hv'), charge_zero, pure_bind']
      exact fin l3 s3 h3 rfl rfl
    · have hv' : value.toNat ≠ 0 := fun hx => hv ((zero_iff _).2 hx)
      rw [if_pos (show decide (value ≠ 0) = true from by simpa using hv), if_pos hv']
      refine sim_useGas rfl h3 fun l4 h4 => ?_
      unfold chargeNewAccount newCost
      by_cases hcall : v = .call
      · subst hcall
        rw [if_pos (show kindV .call = .call ∧ value ≠ 0 from ⟨rfl, hv⟩), assoc]
        refine sim_readDb h4 ?_
        rw [isEmpty_iff]
        unfold useGasIf
        by_cases ha : Absent E.db dest s3.host
        · rw [if_pos (show decide (Absent E.db dest s3.host) = true from by simpa using ha),
            if_pos (show CallVariant.call ≠ .callcode ∧ value.toNat ≠ 0 ∧ Absent E.db dest s3.host from ⟨by decide, hv', ha⟩)]
          refine sim_useGas rfl h4 fun l5 h5 => ?_
          have e9 := fin l5 _ h5 rfl rfl
          dsimp only at e9 ⊢
          exact e9
        · rw [if_neg (show ¬ decide (Absent E.db dest s3.host) = true from by simpa using ha),
            if_neg (show ¬ (CallVariant.call ≠ .callcode ∧ value.toNat ≠ 0 ∧ Absent E.db dest s3.host) from fun hx => ha hx.2.2), charge_zero, pure_bind']
          have e9 := fin l4 _ h4 rfl rfl
          dsimp only at e9 ⊢
          exact e9
      · have hcc : v = .callcode := by
          rcases hval with h | h | h
          · exact absurd h hcall
          · exact h
          · exact absurd h hv
        subst hcc
        rw [if_neg (show ¬ (kindV .callcode = .call ∧ value ≠ 0) from fun hx => by cases hx.1), if_neg (show ¬ (CallVariant.callcode ≠ .callcode ∧ value.toNat ≠ 0 ∧ Absent E.db dest s3.host) from fun hx => hx.1 rfl), charge_zero, pure_bind']
        have e9 := fin l4 _ h4 rfl rfl
        dsimp only at e9 ⊢
        exact e9
  unfold accountRest
  by_cases hb : BERLIN ≤ rev
  · rw [if_pos hb]
    refine sim_access hE hb h2 fun l3 s3 h3 hst3 hm3 => ?_
    exact rest l3 s3 h3 hst3 hm3
  · rw [if_neg hb, noAccess hE hb]
    exact rest l2 _ h2 rfl rfl

theorem pop7_eq (k : U256 → U256 → U256 → U256 → U256 → U256 → U256 → State ω → State ω) {a b c d e f g : U256} {r : List U256}
    (hs : s.stack = a :: b :: c :: d :: e :: f :: g :: r) :
    (s.pop3 fun a b c s => s.pop4 fun d e f g s => k a b c d e f g s) = k a b c d e f g { s with stack := r } := by
  rw [pop3_eq]
  unfold State.pop1
  rw [hs]
  dsimp only
  rw [pop4_eq]
  rfl

theorem pop6_eq (k : U256 → U256 → U256 → U256 → U256 → U256 → State ω → State ω) {a b d e f g : U256} {r : List U256}
    (hs : s.stack = a :: b :: d :: e :: f :: g :: r) :
    (s.pop2 fun a b s => s.pop4 fun d e f g s => k a b d e f g s) = k a b d e f g { s with stack := r } := by
  rw [pop2_eq]
  unfold State.pop1
  rw [hs]
  dsimp only
  rw [pop4_eq]
  rfl

theorem pop_ok {a : U256} {r : List U256} (h : Rel 0 p q l s) (hs : s.stack = a :: r) :
    ∃ l', (pop : M ω U256) l = .ok a l' ∧ Rel 0 p q l' { s with stack := r } := by
  obtain ⟨l', e', h'⟩ := popTopics_ok 1 h (by rw [hs]; simp)
  have hlen : s.stack.length = r.length + 1 := by rw [hs]; rfl
  have hlim := h.limit
  have ⟨e1, e2⟩ := cons_data (by rw [hs]) (h.stack.trans hs)
  refine ⟨{ l with sp := l.sp + -1 }, ?_, ?_⟩
  · unfold pop
    rw [bind_ok (show (moveSp (-1) : M ω Unit) l = .ok () { l with sp := l.sp + -1 } from rfl)]
    show (slot (l.sp + -1) : M ω U256) _ = _
    rw [slot_ok (j := r.length) (by rw [h.sp]; omega) (by omega)]
    show Res.ok (l.data r.length) _ = _
    rw [e1]
  · exact ⟨h.status, h.pc, h.pc', h.gas, h.refund, by show l.sp + -1 = _; rw [h.sp]; simp; omega, e2, by show r.length + 0 ≤ 1024; omega,
      h.size, h.mem, h.aligned, h.cost, h.ret, h.retLen, h.world, h.bound⟩

theorem cons7 {n : Nat} {st : List U256} (hs : n + 6 ≤ st.length) : ∃ b c d e f g r, st = b :: c :: d :: e :: f :: g :: r ∧ n ≤ r.length := by
  obtain ⟨b, r1, h1, k1⟩ := stack_cons hs
  obtain ⟨c, r2, h2, k2⟩ := stack_cons k1
  obtain ⟨d, r3, h3, k3⟩ := stack_cons k2
  obtain ⟨e, r4, h4, k4⟩ := stack_cons k3
  obtain ⟨f, r5, h5, k5⟩ := stack_cons k4
  obtain ⟨g, r6, h6, k6⟩ := stack_cons k5
  subst h6 h5 h4 h3 h2
  exact ⟨b, c, d, e, f, g, r6, h1, k6⟩

theorem noDepth : ¬ (frameOf E rev).msg.depth > 1024 := by show ¬ (0 : Int) > 1024; decide

/-- The static bit of the frame. -/
theorem static_iff : (frameOf E rev).msg.isStatic = E.params.static := by
  show (if E.params.static = true then (1 : BitVec 32) else 0).getLsbD 0 = _
  cases E.params.static <;> decide

theorem like_charge_stack {n : Nat} {r : List U256} {k' : State ω → State ω} :
    Like (State.charge { s with stack := r } n k') (s.charge n fun s => k' { s with stack := r }) := like_charge2 rfl (.refl _)

/-- CALL and CALLCODE. -/
theorem sim_call7 {v : CallVariant} (hv : v = .call ∨ v = .callcode) (hE : Setup E rev) (h : Rel 0 p q l s) (hs : 7 ≤ s.stack.length)
    (hst : ¬ (v = .call ∧ (s.stack.getD 2 0).toNat ≠ 0 ∧ E.params.static = true)) :
    Sim (Post p q) ((useGas (accPre rev : Int) >>= fun _ => genericCall E (kindV v)) l) (call (frameOf E rev) v s) := by
  obtain ⟨a, b, c, d, e, f, r', hs1, hr'⟩ := cons7 (n := 1) hs
  obtain ⟨g, r, hg, _⟩ := stack_cons hr'
  subst hg
  have hlim : r.length + 7 ≤ 1024 := by have := h.limit; rw [hs1] at this; simpa using this
  rw [hs1] at hst
  have hst' : ¬ (v = .call ∧ c.toNat ≠ 0 ∧ (frameOf E rev).msg.isStatic = true) := by rw [static_iff]; exact hst
  have espec : call (frameOf E rev) v s = callWith (frameOf E rev) v a (Word.toAddress b) c d e f g { s with stack := r } := by
    unfold call
    rw [if_neg noDepth]
    rcases hv with rfl | rfl
    · exact pop7_eq (fun g a value io il oo ol s => callWith (frameOf E rev) .call g (Word.toAddress a) value io il oo ol s) hs1
    · exact pop7_eq (fun g a value io il oo ol s => callWith (frameOf E rev) .callcode g (Word.toAddress a) value io il oo ol s) hs1
  rw [espec]
  refine sim_like (alive_post p q) (callWith_like hst') ?_
  refine sim_like (alive_post p q) like_charge_stack ?_
  refine sim_useGas rfl h fun l1 h1 => ?_
  unfold genericCall
  obtain ⟨l2, e2, h2⟩ := pop_ok h1 hs1
  rw [bind_ok e2]
  obtain ⟨l3, e3, h3⟩ := pop_ok h2 rfl
  rw [bind_ok e3]
  obtain ⟨l4, e4, h4⟩ := pop_ok h3 rfl
  have hpi : (popIf (kindV v = .call ∨ kindV v = .callCode) : M ω U256) = pop := by
    unfold popIf
    rcases hv with rfl | rfl <;> rfl
  rw [hpi, bind_ok e4]
  obtain ⟨l5, e5, h5⟩ := pop_ok h4 rfl
  rw [bind_ok e5]
  obtain ⟨l6, e6, h6⟩ := pop_ok h5 rfl
  rw [bind_ok e6]
  obtain ⟨l7, e7, h7⟩ := pop_ok h6 rfl
  rw [bind_ok e7]
  obtain ⟨l8, e8, h8⟩ := pop_ok h7 rfl
  rw [bind_ok e8, l_bytes20]
  exact sim_callWith hE (hv.imp_right .inl) hst' h8 (by show r.length + 1 ≤ 1024; omega)

/-- DELEGATECALL and STATICCALL. -/
theorem sim_call6 {v : CallVariant} (hv : v = .delegatecall ∨ v = .staticcall) (hE : Setup E rev) (h : Rel 0 p q l s) (hs : 6 ≤ s.stack.length) :
    Sim (Post p q) ((useGas (accPre rev : Int) >>= fun _ => genericCall E (kindV v)) l) (call (frameOf E rev) v s) := by
  obtain ⟨a, b, d, e, f, g, r, hs1, hr'⟩ := cons7 (n := 0) hs
  have hlim : r.length + 6 ≤ 1024 := by have := h.limit; rw [hs1] at this; simpa using this
  have hst' : ¬ (v = .call ∧ (0 : U256).toNat ≠ 0 ∧ (frameOf E rev).msg.isStatic = true) := fun hx => hx.2.1 rfl
  have espec : call (frameOf E rev) v s = callWith (frameOf E rev) v a (Word.toAddress b) 0 d e f g { s with stack := r } := by
    unfold call
    rw [if_neg noDepth]
    rcases hv with rfl | rfl
    · exact pop6_eq (fun g a io il oo ol s => callWith (frameOf E rev) .delegatecall g (Word.toAddress a) 0 io il oo ol s) hs1
    · exact pop6_eq (fun g a io il oo ol s => callWith (frameOf E rev) .staticcall g (Word.toAddress a) 0 io il oo ol s) hs1
  rw [espec]
  refine sim_like (alive_post p q) (callWith_like hst') ?_
  refine sim_like (alive_post p q) like_charge_stack ?_
  refine sim_useGas rfl h fun l1 h1 => ?_
  unfold genericCall
  obtain ⟨l2, e2, h2⟩ := pop_ok h1 hs1
  rw [bind_ok e2]
  obtain ⟨l3, e3, h3⟩ := pop_ok h2 rfl
  rw [bind_ok e3]
  have hpi : (popIf (kindV v = .call ∨ kindV v = .callCode) : M ω U256) = pure 0 := by
    unfold popIf
    rcases hv with rfl | rfl <;> rfl
  rw [hpi, pure_bind']
  obtain ⟨l5, e5, h5⟩ := pop_ok h3 rfl
  rw [bind_ok e5]
  obtain ⟨l6, e6, h6⟩ := pop_ok h5 rfl
  rw [bind_ok e6]
  obtain ⟨l7, e7, h7⟩ := pop_ok h6 rfl
  rw [bind_ok e7]
  obtain ⟨l8, e8, h8⟩ := pop_ok h7 rfl
  rw [bind_ok e8, l_bytes20]
  exact sim_callWith hE (.inr (.inr rfl)) hst' h8 (by show r.length + 1 ≤ 1024; omega)

/-- CALL. -/
theorem sim_call (hE : Setup E rev) (h : Rel 0 p q l s) (hs : 7 ≤ s.stack.length) :
    Sim (Post p q) ((useGas (accPre rev : Int) >>= fun _ => opCall E) l) (call (frameOf E rev) .call s) := by
  have hpk : ∀ {l : St ω} {s : State ω}, Rel 0 p q l s → 7 ≤ s.stack.length → (peekN 2 : M ω U256) l = .ok (s.stack.getD 2 0) l := by
    intro l s h hs
    have hsp := h.sp
    have hlim := h.limit
    show (slot (l.sp - 2 - 1) : M ω U256) l = _
    rw [slot_ok (j := s.stack.length - 3) (by rw [hsp]; omega) (by omega)]
    have := words'_getD l.data s.stack.length 2 (by omega)
    rw [h.stack] at this
    rw [this, show s.stack.length - 1 - 2 = s.stack.length - 3 by omega]
  by_cases hst : (s.stack.getD 2 0).toNat ≠ 0 ∧ E.params.static = true
  · have hf : Failed (call (frameOf E rev) .call s) := by
      obtain ⟨a, b, c, d, e, f, r', hs1, hr'⟩ := cons7 (n := 1) hs
      obtain ⟨g, r, hg, _⟩ := stack_cons hr'
      subst hg
      unfold call
      rw [if_neg noDepth]
      dsimp only
      rw [pop7_eq (fun g a value io il oo ol s => callWith (frameOf E rev) .call g (Word.toAddress a) value io il oo ol s) hs1]
      rw [hs1] at hst
      exact callWith_static ⟨rfl, hst.1, by rw [static_iff]; exact hst.2⟩
    by_cases hg : s.gas < accPre rev
    · obtain ⟨l', e⟩ := useGas_err (.inl rfl) h hg
      rw [bind_err e]; exact hf
    · obtain ⟨l', e, h'⟩ := useGas_ok (n := accPre rev) rfl h (by omega)
      rw [bind_ok e]
      unfold opCall
      rw [bind_ok (hpk h' hs), if_pos ⟨hst.2, fun hx => hst.1 (by rw [show s.stack.getD 2 0 = 0 from hx]; rfl)⟩]
      exact hf
  · have := sim_call7 (v := .call) (.inl rfl) hE h hs (fun hx => hst hx.2)
    by_cases hg : s.gas < accPre rev
    · obtain ⟨l', e⟩ := useGas_err (.inl rfl) h hg
      rw [bind_err e]; rw [bind_err e] at this; exact this
    · obtain ⟨l', e, h'⟩ := useGas_ok (n := accPre rev) rfl h (by omega)
      rw [bind_ok e]; rw [bind_ok e] at this
      unfold opCall
      rw [bind_ok (hpk h' hs), if_neg (fun hx => hst ⟨fun hz => hx.2 ((zero_iff _).2 hz), hx.1⟩)]
      exact this

end Tosca.Proofs.Lfvm

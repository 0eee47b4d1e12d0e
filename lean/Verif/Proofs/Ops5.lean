import Verif.Proofs.Ops4

/-!
# Instruction bodies, part 5: calls
-/

namespace Tosca.Proofs

open Tosca.Model Tosca.Spec

variable {σ : Type} {P : Params σ} {c : Ctx σ} {E : Env σ}

/-- The call instruction an instance of `CallImpl` implements. -/
def variantOf : Ops.CallOp → CallVariant
  | .call => .call
  | .callcode => .callcode
  | .delegatecall => .delegatecall
  | .staticcall => .staticcall

/-- The tail of a call in the specification. -/
def callTail (P : Params σ) (v : CallVariant) (gasReq : U256) (acct : Address)
    (value inOff inLen outOff outLen : U256) (s : State σ) : State σ :=
  let fwd := min gasReq.toNat (allBut64th s.gas)
  let stipend := if value.toNat ≠ 0 then 2300 else 0
  let s := { s with ret := [] }
  checkBalance P value s fun ok s =>
    if ok = false then { s with gas := s.gas + stipend }.push 0
    else
      let msg := callMessage P v acct value (s.mem.read inOff.toNat inLen.toNat) (fwd + stipend)
      s.ask (P.host.call msg) fun r s =>
        { s with
          gas := s.gas - fwd + r.gasLeft.toNat
          refund := s.refund + r.gasRefund
          ret := r.output
          mem := s.mem.write outOff.toNat (r.output.take outLen.toNat)
          stack := (if r.status = .success then 1 else 0) :: s.stack }

theorem callWith_eq (v : CallVariant) (gasReq : U256) (acct : Address)
    (value inOff inLen outOff outLen : U256) (s : State σ) :
    callWith P v gasReq acct value inOff inLen outOff outLen s =
      s.touch2 inOff inLen outOff outLen 0 fun s =>
        if v = .call ∧ value.toNat ≠ 0 ∧ P.msg.isStatic then s.fail .staticViolation
        else
          accountAccess P acct s fun access s =>
          newAccountGas P v acct value s fun newAccount s =>
          s.charge (access + (if value.toNat ≠ 0 then 9000 else 0) + newAccount)
            (callTail P v gasReq acct value inOff inLen outOff outLen) := rfl

theorem slice_min_take (l : List Byte) (n : Nat) : slice l 0 (min n l.length) = l.take n := by
  apply List.ext_getElem?
  intro i
  unfold slice byteAt
  by_cases hi : i < min n l.length
  · rw [List.getElem?_map, List.getElem?_range hi, List.getElem?_take_of_lt (by omega)]
    simp only [Option.map_some, Nat.zero_add]
    rw [List.getD_eq_getElem?_getD, List.getElem?_eq_getElem (by omega)]
    rfl
  · rw [List.getElem?_eq_none (by simp; omega), List.getElem?_eq_none (by simp; omega)]

theorem sizeAfter_covered (m : Mem) (o n k : Nat) (hk : k ≤ n) :
    (m.expand o n).expand o k = m.expand o n := by
  apply Mem.ext
  · unfold Mem.expand Mem.sizeAfter words
    dsimp only
    split <;> split <;> omega
  · intro i; rfl

theorem expand_get (m : Mem) (o n : Nat) : (m.expand o n).get = m.get := rfl

theorem read_expand (m : Mem) (o n a k : Nat) : (m.expand o n).read a k = m.read a k := rfl

/-- The requested gas, capped. -/
theorem callGas_min (req : U256) (g : Nat) (hg : g ≤ 2 ^ 54) :
    min (if (req.toNat : Int) < int64Max then toInt64 (lo64 req) else int64Max) ((allBut64th g : Nat) : Int)
      = ((min req.toNat (allBut64th g) : Nat) : Int) := by
  have hf : allBut64th g ≤ g := by unfold allBut64th; omega
  unfold int64Max lo64 u64Mod
  split
  · rw [Nat.mod_eq_of_lt (by omega), toInt64_small _ (by omega)]; omega
  · omega

theorem callCall_ok (hP : ParamsBase P) (hE : EnvOk P E) (hc : Fixed P c) (op : Ops.CallOp)
    (r g0 g1 pc' : Nat) (gasReq : U256) (acct : Address) (value inOff inLen outOff outLen : U256)
    (mi mo : MemCost) (hr : r < 1024) (hg : g1 + (if value.toNat ≠ 0 then 2300 else 0) ≤ g0) (hm : MemOk c g0)
    (hrf : RefundOk P c g0) (hd : P.msg.depth ≤ 1024)
    (hszi : mi.size = inLen.toNat) (hoffi : inLen.toNat ≠ 0 → mi.offset = inOff.toNat)
    (hbi : inLen.toNat ≠ 0 → inOff.toNat + inLen.toNat ≤ 2 ^ 37)
    (hszo : mo.size = outLen.toNat) (hoffo : outLen.toNat ≠ 0 → mo.offset = outOff.toNat)
    (hbo : outLen.toNat ≠ 0 → outOff.toNat + outLen.toNat ≤ 2 ^ 37) :
    Ok (Ops.callCall E op (r : Int) g0 g1 gasReq acct value mi mo) c
      (Post P c pc' g0 (r : Int) (callTail P (variantOf op) gasReq acct value inOff inLen outOff outLen
        (mkState c pc' r g1 (((absMem c.memory).expand inOff.toNat inLen.toNat).expand outOff.toNat outLen.toNat)))) := by
  have hbdi := exact_bound hszi hoffi hbi
  have hbdo := exact_bound hszo hoffo hbo
  have h54 : g0 ≤ 2 ^ 54 := by have := hm.gas; omega
  have hdep := hP.depth
  have halo : (c.memory.grow mo.offset mo.size).size % 32 = 0 := grow_size_mod _ _ _ hbdo hm.aligned
  have hmo := (grow_abs _ _ _ hbdo hm.aligned).1
  rw [exact_expand hszo hoffo] at hmo
  have hmem := (grow_abs _ _ _ hbdi halo).1
  rw [exact_expand hszi hoffi, hmo, expand_comm] at hmem
  have halio : ((c.memory.grow mo.offset mo.size).grow mi.offset mi.size).size % 32 = 0 :=
    grow_size_mod _ _ _ hbdi halo
  have hread : ((c.memory.grow mo.offset mo.size).grow mi.offset mi.size).readSpan
      ⟨((c.memory.grow mo.offset mo.size).grow mi.offset mi.size).gen, mi.offset, mi.size⟩ =
      .ok ((((absMem c.memory).expand inOff.toNat inLen.toNat).expand outOff.toNat outLen.toNat).read inOff.toNat inLen.toNat) := by
    rw [readSpan_grow _ _ _ hbdi halo, hmo, exact_expand hszi hoffi, exact_read hszi hoffi, expand_comm]
  generalize hM : ((absMem c.memory).expand inOff.toNat inLen.toNat).expand outOff.toNat outLen.toNat = M at *
  generalize hmm : (c.memory.grow mo.offset mo.size).grow mi.offset mi.size = mm at *
  unfold Ops.callCall callTail checkBalance mkState
  simp only [ok_bind, ok_modify]
  rw [ok_mem_eq (f := fun m => .ok (m.grow mo.offset mo.size)) rfl, ok_getSpan, ok_get]
  dsimp only
  rw [hmm, ok_chk32 _ (by rw [hc.msg]; omega), tdiv64]
  have hfwd : allBut64th g1 ≤ g1 := by unfold allBut64th; omega
  have hg1 : g1 ≤ 2 ^ 54 := by omega
  rw [ok_chk64 _ (by unfold int64Min int64Max; omega), callGas_min gasReq g1 hg1]
  generalize hF : min gasReq.toNat (allBut64th g1) = fwd at *
  have hF' : fwd ≤ g1 := by omega
  -- poor
  have poor : ∀ (w : σ) (stip : Nat), g1 + stip ≤ g0 → Ok (do
        OpM.wr ((r : Int) + 0) 0
        let d ← OpM.lift (chk64 ((g0 : Int) - ((g1 + stip : Nat) : Int)))
        pure { dynGas := d } : OpM σ OpResult)
      { c with returnData := [], memory := mm, world := w }
      (Post P c pc' g0 (r : Int)
        { status := .running, pc := pc', gas := g1 + stip, refund := c.gasRefunds
          stack := 0 :: absStack c.stack.buf (r + 1), mem := M
          ret := [], host := w }) := by
    intro w stip hst
    simp only [ok_bind, ok_wr0 r hr]
    rw [ok_chk64 _ (by unfold int64Min int64Max; omega), ok_pure]
    refine ⟨⟨⟨hc.1, hc.2, hc.3, hc.4, hc.5, hc.6⟩, rfl, rfl⟩, ?_⟩
    rw [outcome_enough _ _ (by dsimp only; omega) (by dsimp only; omega)]
    refine rel_running r rfl rfl rfl rfl ?_ hmem.symm (by omega) (by omega) ?_ rfl
    · dsimp only; omega
    · rw [absStack_push _ _ _ hr]
  have rich : ∀ (w : σ) (stip : Nat), g1 + stip ≤ g0 → Asked P.host c.world w → Ok (do
        let input ← OpM.readSpan ⟨mm.gen, mi.offset, mi.size⟩
        let result ← Ops.hostCall E {
          kind := match op with
            | .delegatecall => .delegatecall
            | .callcode => .callcode
            | _ => .call
          flags := if op = .staticcall then 1 else c.message.flags
          depth := c.message.depth + 1
          gas := ((fwd + stip : Nat) : Int)
          recipient := if op = .call ∨ op = .staticcall then acct else c.message.recipient
          sender := if op = .delegatecall then c.message.sender else c.message.recipient
          input := input
          value := if op = .delegatecall then c.message.value else value
          codeAddress := acct }
        OpM.modify fun c => { c with returnData := result.output }
        (if result.output.length > 0 then
            OpM.mem fun m => m.readFromWithSize result.output mo.offset
              (min mo.size result.output.length)
          else return () : OpM σ Unit)
        let used ← OpM.lift (chk64 (((fwd + stip : Nat) : Int) - result.gasLeft))
        let gas ← OpM.lift (chk64 (((g1 + stip : Nat) : Int) - used))
        if gas < 0 then
          let d ← OpM.lift (chk64 ((g0 : Int) - gas))
          return { dynGas := d }
        else
          Ops.addRefund result.gasRefund
          OpM.wr ((r : Int) + 0) (ofBool (result.status = .success))
          let d ← OpM.lift (chk64 ((g0 : Int) - gas))
          return { dynGas := d } : OpM σ OpResult)
      { c with returnData := [], memory := mm, world := w }
      (Post P c pc' g0 (r : Int)
        (let res := P.host.call (callMessage P (variantOf op) acct value
            (M.read inOff.toNat inLen.toNat) (fwd + stip)) w
         { status := .running, pc := pc'
           gas := g1 - fwd + res.1.gasLeft.toNat
           refund := c.gasRefunds + res.1.gasRefund
           ret := res.1.output
           stack := (if res.1.status = .success then 1 else 0) :: absStack c.stack.buf (r + 1)
           mem := M.write outOff.toNat (res.1.output.take outLen.toNat)
           host := res.2 })) := by
    intro w stip hst hask
    simp only [ok_bind]
    rw [ok_readSpan hread, ok_hostCall]
    rw [hE.host]
    have hmsg : ({ kind := match op with
                    | .delegatecall => .delegatecall
                    | .callcode => .callcode
                    | _ => .call
                   flags := if op = .staticcall then 1 else c.message.flags
                   depth := c.message.depth + 1
                   gas := ((fwd + stip : Nat) : Int)
                   recipient := if op = .call ∨ op = .staticcall then acct else c.message.recipient
                   sender := if op = .delegatecall then c.message.sender else c.message.recipient
                   input := M.read inOff.toNat inLen.toNat
                   value := if op = .delegatecall then c.message.value else value
                   codeAddress := acct } : Message) = callMessage P (variantOf op) acct value
            (M.read inOff.toNat inLen.toNat) (fwd + stip) := by
      rw [hc.msg]; cases op <;> rfl
    rw [hmsg]
    have hgas : (callMessage P (variantOf op) acct value
            (M.read inOff.toNat inLen.toNat) (fwd + stip)).gas = ((fwd + stip : Nat) : Int) := rfl
    have hcg := hP.host.callGas (callMessage P (variantOf op) acct value
            (M.read inOff.toNat inLen.toNat) (fwd + stip)) w (by rw [hgas]; omega) (by rw [hgas]; omega)
    have hcr := hrf.call (callMessage P (variantOf op) acct value
            (M.read inOff.toNat inLen.toNat) (fwd + stip)) w hask (by rw [hgas]; omega) (by rw [hgas]; omega)
    rw [hgas] at hcg
    have hre := fun s => Fixed.reenter (s := s) hE hc (callMessage P (variantOf op) acct value
            (M.read inOff.toNat inLen.toNat) (fwd + stip)) w
    dsimp only
    generalize callMessage P (variantOf op) acct value
            (M.read inOff.toNat inLen.toNat) (fwd + stip) = msg at *
    generalize P.host.call msg w = res at *
    have hhi := hrf.hi
    have hlo := hrf.lo
    rw [ok_modify]
    have tail : ∀ m' : Memory, absMem m' = M.write outOff.toNat (res.1.output.take outLen.toNat) →
        Ok (do
          let used ← OpM.lift (chk64 (((fwd + stip : Nat) : Int) - res.1.gasLeft))
          let gas ← OpM.lift (chk64 (((g1 + stip : Nat) : Int) - used))
          if gas < 0 then
            let d ← OpM.lift (chk64 ((g0 : Int) - gas))
            return { dynGas := d }
          else
            Ops.addRefund res.1.gasRefund
            OpM.wr ((r : Int) + 0) (ofBool (res.1.status = .success))
            let d ← OpM.lift (chk64 ((g0 : Int) - gas))
            return { dynGas := d } : OpM σ OpResult)
          { c with returnData := res.1.output, memory := m', world := res.2,
                   sha3 := c.sha3.map (E.reenter msg w) }
          (Post P c pc' g0 (r : Int) { status := .running, pc := pc'
                                       gas := g1 - fwd + res.1.gasLeft.toNat
                                       refund := c.gasRefunds + res.1.gasRefund
                                       ret := res.1.output
                                       stack := (if res.1.status = .success then 1 else 0) :: absStack c.stack.buf (r + 1)
                                       mem := M.write outOff.toNat (res.1.output.take outLen.toNat)
                                       host := res.2 }) := by
      intro m' hm'
      simp only [ok_bind]
      rw [ok_chk64 _ (by unfold int64Min int64Max; omega), ok_chk64 _ (by unfold int64Min int64Max; omega),
        if_neg (by omega), ok_bind, addRefund_ok _ (by dsimp only; exact hcr), ok_bind]
      simp only [ok_wr0 r hr]
      rw [ok_bind, ok_chk64 _ (by unfold int64Min int64Max; omega), ok_pure]
      refine ⟨⟨⟨hc.1, hc.2, hc.3, hc.4, hc.5, hre⟩, rfl, rfl⟩, ?_⟩
      rw [outcome_enough _ _ (by dsimp only; omega) (by dsimp only; omega)]
      refine rel_running r rfl rfl rfl rfl ?_ hm'.symm (by omega) (by omega) ?_ rfl
      · dsimp only; omega
      · rw [absStack_push _ _ _ hr]
        simp [ofBool]
    simp only [ok_bind] at tail
    by_cases hlen : res.1.output.length > 0
    · rw [if_pos hlen]
      obtain ⟨m', e1, a1, _⟩ := readFromWithSize_abs mm res.1.output mo.offset (min mo.size res.1.output.length)
        (fun h => by have := hbdo (by omega); omega) halio
      rw [ok_mem_eq e1]
      refine tail m' ?_
      rw [a1, slice_min_take, hszo, hmem]
      by_cases ho : outLen.toNat = 0
      · rw [ho]
        simp only [Nat.zero_min, List.take_zero, write_nil]
        rfl
      · rw [hoffo ho, ← hM, sizeAfter_covered _ _ _ _ (Nat.min_le_left _ _)]
    · rw [if_neg hlen, ok_pure]
      refine tail mm ?_
      have : res.1.output = [] := List.length_eq_zero_iff.1 (by omega)
      rw [hmem, this]
      simp [write_nil]
  simp only [ok_bind] at poor rich
  by_cases hv : value = 0
  · have hv' : value.toNat = 0 := (toNat_eq_zero _).1 hv
    subst hv
    have h0 := rich c.world 0 (by simpa using hg) .here
    rw [Nat.add_zero, Nat.add_zero] at h0
    simp only [ne_eq, not_true_eq_false, decide_false, Bool.false_eq_true, if_false, ok_pure, ok_bind,
      Bool.true_eq_false]
    exact h0
  · have hv' : ¬ value.toNat = 0 := (toNat_ne_zero _).1 hv
    have hdv : (decide (value ≠ 0)) = true := by simpa using hv
    rw [if_neg hv']
    simp only [hdv, hv', if_true, ok_bind, ne_eq, not_false_eq_true] at hg ⊢
    rw [ok_chk64 _ (by unfold int64Min int64Max; omega), ok_chk64 _ (by unfold int64Min int64Max; omega)]
    rw [show P.msg.recipient = c.message.recipient by rw [hc.msg]]
    simp only [ok_host, ok_pure, State.ask, hE.host]
    have hbal : Asked P.host c.world (P.host.getBalance c.message.recipient c.world).2 := .balance _ .here
    generalize P.host.getBalance c.message.recipient c.world = bal at hbal ⊢
    by_cases hlt : bal.1.toNat < value.toNat
    · rw [if_pos (show bal.1.ult value = true by simpa [BitVec.ult] using hlt),
        if_pos (show decide (value.toNat ≤ bal.1.toNat) = false by simpa using hlt)]
      simp only [ok_bind]
      exact poor bal.2 2300 hg
    · rw [if_neg (show ¬ bal.1.ult value = true by simpa [BitVec.ult] using hlt),
        if_neg (show ¬ decide (value.toNat ≤ bal.1.toNat) = false by simpa using hlt)]
      simp only [ok_bind]
      exact rich bal.2 2300 hg hbal

/-- The host's answer about the new-account surcharge. -/
def newAcc (P : Params σ) (v : CallVariant) (a : Address) (value : U256) (w : σ) : Nat × σ :=
  if v ≠ .callcode ∧ value.toNat ≠ 0 then
    (if (P.host.accountExists a w).1 then 0 else 25000, (P.host.accountExists a w).2)
  else (0, w)

theorem asked_new {w w1 : σ} (h : Asked P.host w w1) (v : CallVariant) (a : Address) (value : U256) :
    Asked P.host w (newAcc P v a value w1).2 := by
  unfold newAcc
  split
  · exact .exist _ h
  · exact h

theorem asked_acc (a : Address) (w : σ) : Asked P.host w (accCost P a w).2 := by
  unfold accCost
  split
  · exact .access _ .here
  · exact .here

theorem newAcc_le (v : CallVariant) (a : Address) (value : U256) (w : σ) : (newAcc P v a value w).1 ≤ 25000 := by
  unfold newAcc
  split
  · dsimp only; split <;> omega
  · dsimp only; omega

theorem newAccountGas_eq (v : CallVariant) (a : Address) (value : U256) (s : State σ) (k : Nat → State σ → State σ) :
    newAccountGas P v a value s k = k (newAcc P v a value s.host).1 { s with host := (newAcc P v a value s.host).2 } := by
  unfold newAccountGas newAcc
  split <;> rfl

theorem newAccountCost_ok (hE : EnvOk P E) (op : Ops.CallOp) (a : Address) (value : U256) (Q : Int → Ctx σ → Prop) :
    Ok (if op ≠ .callcode ∧ (decide (value ≠ 0)) = true then do
          let ex ← OpM.host (E.host.accountExists a)
          if !ex then return 25000 else return 0
        else return 0 : OpM σ Int) c Q ↔ Q ((newAcc P (variantOf op) a value c.world).1 : Int)
      { c with world := (newAcc P (variantOf op) a value c.world).2 } := by
  have hv : (op ≠ .callcode ∧ (decide (value ≠ 0)) = true) ↔ (variantOf op ≠ .callcode ∧ value.toNat ≠ 0) := by
    have := toNat_ne_zero value
    rw [decide_eq_true_iff, this]
    cases op <;> simp [variantOf]
  unfold newAcc
  by_cases h : variantOf op ≠ .callcode ∧ value.toNat ≠ 0
  · rw [if_pos (hv.2 h), if_pos h, ok_bind, ok_host, hE.host]
    by_cases hx : (P.host.accountExists a c.world).1 = true
    · simp only [hx, Bool.not_true, Bool.false_eq_true, if_false, if_true, ok_pure]; rfl
    · rw [Bool.not_eq_true] at hx
      simp only [hx, Bool.not_false, Bool.false_eq_true, if_false, if_true, ok_pure]; rfl
  · rw [if_neg (fun h' => h (hv.1 h')), if_neg h, ok_pure]; rfl

theorem charge_poor (s : State σ) (n : Nat) (k : State σ → State σ) (h : s.gas < n) :
    s.charge n k = s.fail .outOfGas := by unfold State.charge; rw [if_pos h]

theorem charge_rich (s : State σ) (n : Nat) (k : State σ → State σ) (h : ¬ s.gas < n) :
    s.charge n k = k { s with gas := s.gas - n } := by unfold State.charge; rw [if_neg h]

/-- The part of `CallImpl::Run` after reading the operands. -/
theorem callBody_ok (hP : ParamsBase P) (hE : EnvOk P E) (hc : Fixed P c) (op : Ops.CallOp)
    (r g pc' : Nat) (gasReq : U256) (acct : Address) (value inOff inLen outOff outLen : U256)
    (hr : r < 1024) (hm : MemOk c g) (hrf : RefundOk P c g) (hd : P.msg.depth ≤ 1024) :
    Ok (do
      let mcIn ← memCost inOff inLen
      let mcOut ← memCost outOff outLen
      let gas ← OpM.lift (chk64 ((g : Int) - max mcIn.cost mcOut.cost))
      if gas < 0 then
        let d ← OpM.lift (chk64 ((g : Int) - gas))
        return { dynGas := d }
      else if op = .call ∧ decide (value ≠ 0) = true ∧ c.isStatic = true then return { state := .errorStaticCall }
      else
        let access ← Ops.accountAccessCost E acct
        let newAccount ← (if op ≠ .callcode ∧ decide (value ≠ 0) = true then do
            let ex ← OpM.host (E.host.accountExists acct)
            if !ex then return 25000 else return 0
          else return 0 : OpM σ Int)
        let gas ← OpM.lift (chk64 (gas - (access + (if decide (value ≠ 0) = true then 9000 else 0) + newAccount)))
        if gas < 0 then
          let d ← OpM.lift (chk64 ((g : Int) - gas))
          return { dynGas := d }
        else Ops.callCall E op (r : Int) g gas gasReq acct value mcIn mcOut : OpM σ OpResult) c
      (Post P c pc' g (r : Int) (callWith P (variantOf op) gasReq acct value inOff inLen outOff outLen
        (mkState c pc' r g (absMem c.memory)))) := by
  rw [callWith_eq]
  simp only [State.touch2, growGas_max]
  have h54 : g ≤ 2 ^ 54 := by have := hm.gas; omega
  obtain ⟨mi, hmi, hoki⟩ := memCost_ok hm inOff inLen
  obtain ⟨mo, hmo, hoko⟩ := memCost_ok hm outOff outLen
  rw [ok_bind, ok_memCost_eq hmi, ok_bind, ok_memCost_eq hmo]
  simp only [show (mkState c pc' r g (absMem c.memory)).mem = absMem c.memory from rfl]
  have big : (g : Int) < max mi.cost mo.cost → max mi.cost mo.cost ≤ int64Max →
      g < max ((absMem c.memory).growGas ((absMem c.memory).sizeAfter inOff.toNat inLen.toNat))
        ((absMem c.memory).growGas ((absMem c.memory).sizeAfter outOff.toNat outLen.toNat)) + 0 := by
    intro h1 _
    cases hoki <;> cases hoko <;> omega
  have hmx : max mi.cost mo.cost ≤ int64Max ∧ 0 ≤ max mi.cost mo.cost := by
    unfold int64Max
    cases hoki <;> cases hoko <;> (unfold int64Max at *; omega)
  have hmx' := hmx.1
  unfold int64Max at hmx'
  rw [ok_bind, ok_chk64 _ (by unfold int64Min int64Max; omega)]
  by_cases hbig : (g : Int) < max mi.cost mo.cost
  · rw [if_pos (by omega), charge_poor _ _ _ (big hbig hmx.1), ok_bind, ok_chk64 _ (by unfold int64Min int64Max; omega), ok_pure]
    exact post_outOfGas hc.frame (by dsimp only; omega) rfl rfl
  · rw [if_neg (by omega)]
    clear big
    cases hoki with
    | tooMuch a _ _ _ => omega
    | exact hci hgi hszi hoffi hbi =>
    cases hoko with
    | tooMuch a _ _ _ => omega
    | exact hco hgo hszo hoffo hbo =>
    have hmax : max mi.cost mo.cost = ((max ((absMem c.memory).growGas ((absMem c.memory).sizeAfter inOff.toNat inLen.toNat))
        ((absMem c.memory).growGas ((absMem c.memory).sizeAfter outOff.toNat outLen.toNat)) : Nat) : Int) := by
      rw [hci, hco]; omega
    rw [hmax] at hbig ⊢
    generalize max ((absMem c.memory).growGas ((absMem c.memory).sizeAfter inOff.toNat inLen.toNat))
        ((absMem c.memory).growGas ((absMem c.memory).sizeAfter outOff.toNat outLen.toNat)) = G at *
    rw [charge_rich _ _ _ (show ¬ g < G + 0 by omega)]
    have hst : (op = .call ∧ decide (value ≠ 0) = true ∧ c.isStatic = true) ↔
        (variantOf op = .call ∧ value.toNat ≠ 0 ∧ P.msg.isStatic = true) := by
      have := toNat_ne_zero value
      rw [decide_eq_true_iff, hc.static, this]
      cases op <;> simp [variantOf]
    by_cases hs : variantOf op = .call ∧ value.toNat ≠ 0 ∧ P.msg.isStatic = true
    · rw [if_pos (hst.2 hs), if_pos hs, ok_pure]
      exact post_fail rfl hc.frame rfl rfl
    · rw [if_neg (fun h => hs (hst.1 h)), if_neg hs, ok_bind, accountAccessCost_ok hE hc, accountAccess_eq, ok_bind,
        newAccountCost_ok hE, newAccountGas_eq]
      have ha := accCost_le P acct c.world
      dsimp only [mkState]
      let ac := accCost P acct c.world
      have hn := newAcc_le (P := P) (variantOf op) acct value ac.2
      let na := newAcc P (variantOf op) acct value ac.2
      change 100 ≤ ac.1 ∧ ac.1 ≤ 2600 at ha
      change na.1 ≤ 25000 at hn
      have hval : (if decide (value ≠ 0) = true then (9000 : Int) else 0) =
          (((if value.toNat ≠ 0 then 9000 else 0) : Nat) : Int) := by
        have := toNat_ne_zero value
        by_cases h : value.toNat = 0
        · rw [if_neg (by rw [decide_eq_true_iff]; intro h'; exact this.1 h' h), if_neg (not_not_intro h)]; rfl
        · rw [if_pos (by rw [decide_eq_true_iff]; exact this.2 h), if_pos h]; rfl
      rw [hval]
      have hle : (if value.toNat ≠ 0 then 9000 else 0) ≤ 9000 := by split <;> omega
      have hstip : (if value.toNat ≠ 0 then 2300 else 0) ≤ (if value.toNat ≠ 0 then 9000 else 0) := by
        split <;> omega
      generalize hvv : (if value.toNat ≠ 0 then 9000 else 0) = vv at *
      rw [ok_bind, ok_chk64 _ (by unfold int64Min int64Max; show _ ≤ (g : Int) - G - (ac.1 + vv + na.1) ∧ (g : Int) - G - (ac.1 + vv + na.1) ≤ _; omega)]
      by_cases hpoor : g - (G + 0) < (accCost P acct c.world).1 + vv + (newAcc P (variantOf op) acct value (accCost P acct c.world).2).1
      · have hpoor' : g - (G + 0) < ac.1 + vv + na.1 := hpoor
        rw [if_pos (show (g : Int) - G - (ac.1 + vv + na.1) < 0 by omega), charge_poor _ _ _ hpoor, ok_bind,
          ok_chk64 _ (by
            unfold int64Min int64Max
            show _ ≤ (g : Int) - ((g : Int) - G - (ac.1 + vv + na.1)) ∧ (g : Int) - ((g : Int) - G - (ac.1 + vv + na.1)) ≤ _
            omega), ok_pure]
        exact post_outOfGas ⟨⟨hc.1, hc.2, hc.3, hc.4, hc.5, hc.6⟩, rfl, rfl⟩
          (show (g : Int) < (g : Int) - ((g : Int) - G - (ac.1 + vv + na.1)) by omega) rfl rfl
      · have hpoor' : ¬ g - (G + 0) < ac.1 + vv + na.1 := hpoor
        rw [if_neg (show ¬ (g : Int) - G - (ac.1 + vv + na.1) < 0 by omega), charge_rich _ _ _ hpoor]
        have := callCall_ok (c := { c with world := na.2 }) hP hE ⟨hc.1, hc.2, hc.3, hc.4, hc.5, hc.6⟩ op r g
          (g - (G + 0) - (ac.1 + vv + na.1)) pc' gasReq acct value inOff inLen outOff outLen mi mo hr
          (by omega) ⟨hm.1, hm.2⟩ ⟨hrf.1, hrf.2, hrf.3.ask (asked_new (asked_acc _ _) _ _ _)⟩ hd hszi hoffi hbi hszo hoffo hbo
        rw [show (((g - (G + 0) - (ac.1 + vv + na.1) : Nat)) : Int) = (g : Int) - G - (ac.1 + vv + na.1) by omega] at this
        exact ok_mono this fun a c' h => ⟨⟨h.1.1, h.1.2, h.1.3⟩, h.2⟩

/-- Position of the result of a call relative to the top. -/
def callResult : Ops.CallOp → Nat
  | .call | .callcode => 6
  | .delegatecall | .staticcall => 5

theorem call_ok (hP : ParamsBase P) (hE : EnvOk P E) (hc : Fixed P c) (op : Ops.CallOp) (t g pc' : Nat)
    (ht : t + callResult op + 1 ≤ 1024) (hm : MemOk c g) (hrf : RefundOk P c g) :
    Ok (Ops.call E op t g) c (Post P c pc' g ((t : Int) + (callResult op : Int))
      (call P (variantOf op) (absState c t g pc'))) := by
  unfold Ops.call call
  rw [ok_bind, ok_get]
  by_cases hd : P.msg.depth > 1024
  · rw [if_pos (by rw [hc.msg]; exact hd), if_pos hd, ok_pure]
    exact post_fail rfl hc.frame rfl rfl
  rw [if_neg (by rw [hc.msg]; exact hd), if_neg hd]
  cases op <;> simp only [callResult] at ht ⊢ <;> dsimp only [variantOf] <;> unfold Ops.callArgs
  all_goals simp only [reduceCtorEq, or_self, if_false, if_true, or_true, true_or]
  · simp only [ok_bind, ok_rd0 t (show t < 1024 by omega), ok_rd1 t (show t + 1 < 1024 by omega),
      ok_rd2 t (show t + 2 < 1024 by omega), ok_rd3 t (show t + 3 < 1024 by omega),
      ok_rd4 t (show t + 4 < 1024 by omega), ok_rd5 t (show t + 5 < 1024 by omega),
      ok_rd6 t (show t + 6 < 1024 by omega), ok_pure]
    simp only [State.pop4, State.pop3, State.pop2, State.pop1, absState, absStack_c7 c.stack.buf t (by omega)]
    have := callBody_ok hP hE hc .call (t + 6) g pc' (c.stack.buf t) (Word.toAddress (c.stack.buf (t + 1)))
      (c.stack.buf (t + 2)) (c.stack.buf (t + 3)) (c.stack.buf (t + 4)) (c.stack.buf (t + 5)) (c.stack.buf (t + 6))
      (by omega) hm hrf (by omega)
    simp only [ok_bind] at this
    exact this
  · simp only [ok_bind, ok_rd0 t (show t < 1024 by omega), ok_rd1 t (show t + 1 < 1024 by omega),
      ok_rd2 t (show t + 2 < 1024 by omega), ok_rd3 t (show t + 3 < 1024 by omega),
      ok_rd4 t (show t + 4 < 1024 by omega), ok_rd5 t (show t + 5 < 1024 by omega),
      ok_rd6 t (show t + 6 < 1024 by omega), ok_pure]
    simp only [State.pop4, State.pop3, State.pop2, State.pop1, absState, absStack_c7 c.stack.buf t (by omega)]
    have := callBody_ok hP hE hc .callcode (t + 6) g pc' (c.stack.buf t) (Word.toAddress (c.stack.buf (t + 1)))
      (c.stack.buf (t + 2)) (c.stack.buf (t + 3)) (c.stack.buf (t + 4)) (c.stack.buf (t + 5)) (c.stack.buf (t + 6))
      (by omega) hm hrf (by omega)
    simp only [ok_bind] at this
    exact this
  · simp only [ok_bind, ok_rd0 t (show t < 1024 by omega), ok_rd1 t (show t + 1 < 1024 by omega),
      ok_rd2 t (show t + 2 < 1024 by omega), ok_rd3 t (show t + 3 < 1024 by omega),
      ok_rd4 t (show t + 4 < 1024 by omega), ok_rd5 t (show t + 5 < 1024 by omega), ok_pure]
    simp only [State.pop4, State.pop3, State.pop2, State.pop1, absState, absStack_c6 c.stack.buf t (by omega)]
    have := callBody_ok hP hE hc .delegatecall (t + 5) g pc' (c.stack.buf t) (Word.toAddress (c.stack.buf (t + 1)))
      0 (c.stack.buf (t + 2)) (c.stack.buf (t + 3)) (c.stack.buf (t + 4)) (c.stack.buf (t + 5))
      (by omega) hm hrf (by omega)
    simp only [ok_bind] at this
    exact this
  · simp only [ok_bind, ok_rd0 t (show t < 1024 by omega), ok_rd1 t (show t + 1 < 1024 by omega),
      ok_rd2 t (show t + 2 < 1024 by omega), ok_rd3 t (show t + 3 < 1024 by omega),
      ok_rd4 t (show t + 4 < 1024 by omega), ok_rd5 t (show t + 5 < 1024 by omega), ok_pure]
    simp only [State.pop4, State.pop3, State.pop2, State.pop1, absState, absStack_c6 c.stack.buf t (by omega)]
    have := callBody_ok hP hE hc .staticcall (t + 5) g pc' (c.stack.buf t) (Word.toAddress (c.stack.buf (t + 1)))
      0 (c.stack.buf (t + 2)) (c.stack.buf (t + 3)) (c.stack.buf (t + 4)) (c.stack.buf (t + 5))
      (by omega) hm hrf (by omega)
    simp only [ok_bind] at this
    exact this

end Tosca.Proofs

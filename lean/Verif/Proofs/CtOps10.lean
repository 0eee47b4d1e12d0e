import Verif.Proofs.CtOps9

/-!
# Rules of calls
-/

namespace Tosca.Proofs.Ct

open Tosca.Spec Tosca.Spec.Go Tosca.Go Tosca.Model.Go Tosca.Model.Ct Tosca.Proofs.Lfvm
open Tosca.Model.Lfvm (isUint64 uint64 ofU64 bytes20 bytes32 ofBytes20 setBytes)

variable {c d : S} {t : State World} {keccak : List Byte → U256} {x : Model.Ct.Fixed} {rev : Revision}

/-! ## The reference -/

/-- A call after paying. -/
noncomputable def callTail (P : Params World) (v : CallVariant) (gasReq : U256) (tg : Address) (value inOff inLen outOff outLen : U256) (s : State World) : State World :=
  let fwd := min gasReq.toNat (allBut64th s.gas)
  let stipend := if value.toNat ≠ 0 then 2300 else 0
  let s := { s with ret := [] }
  checkBalance P value s fun ok s =>
    if ok = false then { s with gas := s.gas + stipend }.push 0
    else
      let msg := callMessage P v tg value (s.mem.read inOff.toNat inLen.toNat) (fwd + stipend)
      s.ask (P.host.call msg) fun r s =>
        { s with
          gas := s.gas - fwd + r.gasLeft.toNat
          refund := s.refund + r.gasRefund
          ret := r.output
          mem := s.mem.write outOff.toNat (r.output.take outLen.toNat)
          stack := (if r.status = .success then 1 else 0) :: s.stack }

/-- The price of value transfers. -/
def valueCost (value : U256) : Nat := if value.toNat ≠ 0 then 9000 else 0
def newCost (v : CallVariant) (w : World) (tg : Address) (value : U256) : Nat := if v ≠ .callcode ∧ value.toNat ≠ 0 ∧ w.isEmpty tg = true then 25000 else 0

theorem access_gen (hr : revisionOf x.revision = some rev) (a : Address) (s : State World) (K : Nat → State World → State World) :
    accountAccess (testFrame keccak x c rev) a s K = K (accCost x s.host a) { s with host := touched x s.host a } := by
  unfold accountAccess accCost touched
  by_cases hb : x.revision ≥ 1
  · rw [if_pos (show (testFrame keccak x c rev).rev ≥ BERLIN from (berlin_iff hr).2 hb), if_pos hb, if_pos hb, ask_eq]
    show K (if (if s.host.warmAccounts a = true then AccessStatus.warm else AccessStatus.cold) = .warm then 100 else 2600) _ = _
    by_cases hw : s.host.warmAccounts a = true
    · rw [if_pos hw, if_pos hw]; rfl
    · rw [if_neg hw, if_neg hw]; rfl
  · rw [if_neg (show ¬ (testFrame keccak x c rev).rev ≥ BERLIN from fun h => hb ((berlin_iff hr).1 h)), if_neg hb, if_neg hb]

theorem exists_eq (w : World) (a : Address) : decide (¬ Absent (ctDb x) a w) = !w.isEmpty a := by
  have := absent_iff (x := x) w a
  by_cases h : w.isEmpty a = true
  · rw [h]; simp [this.2 h]
  · rw [decide_eq_true (show ¬ Absent (ctDb x) a w from fun hc => h (this.1 hc))]; simp [h]

theorem new_gen (v : CallVariant) (a : Address) (value : U256) (s : State World) (K : Nat → State World → State World) :
    newAccountGas (testFrame keccak x c rev) v a value s K = K (newCost v s.host a value) s := by
  unfold newAccountGas newCost
  by_cases h : v ≠ .callcode ∧ value.toNat ≠ 0
  · rw [if_pos h, ask_eq]
    show K (if decide (¬ Absent (ctDb x) a s.host) = true then 0 else 25000) _ = _
    rw [exists_eq]
    cases he : s.host.isEmpty a
    · rw [if_pos (by rfl), if_neg (by simp)]; rfl
    · rw [if_neg (by simp), if_pos ⟨h.1, h.2, rfl⟩]; rfl
  · rw [if_neg h, if_neg (fun h' => h ⟨h'.1, h'.2.1⟩)]

/-- A call that moves value in a static frame. -/
theorem call_static {v : CallVariant} {g : U256} {tg : Address} {value io il oo ol : U256} {st : State World} (h : v = .call ∧ value.toNat ≠ 0 ∧ x.readOnly = true) :
    Failed (callWith (testFrame keccak x c rev) v g tg value io il oo ol st) := by
  unfold callWith State.touch2 State.charge
  split
  · exact failed_fail _ _
  · dsimp only
    rw [if_pos (show v = .call ∧ value.toNat ≠ 0 ∧ (testFrame keccak x c rev).msg.isStatic = true from ⟨h.1, h.2.1, by rw [frame_static]; exact h.2.2⟩)]
    exact failed_fail _ _

/-- Other calls. -/
theorem call_like {v : CallVariant} {g : U256} {tg : Address} {value io il oo ol : U256} (hr : revisionOf x.revision = some rev)
    (h : ¬ (v = .call ∧ value.toNat ≠ 0 ∧ x.readOnly = true)) {base addr : Nat} (hc : accCost x d.world tg = base + addr) (hg : (base : Int) ≤ d.gas) :
    Like (callWith (testFrame keccak x c rev) v g tg value io il oo ol (frameState d))
      ((frameState { d with gas := d.gas - (base : Int) }).touch2 io il oo ol (valueCost value + newCost v d.world tg value + addr) fun s =>
        callTail (testFrame keccak x c rev) v g tg value io il oo ol { s with host := touched x d.world tg }) := by
  have hst : ¬ (v = .call ∧ value.toNat ≠ 0 ∧ (testFrame keccak x c rev).msg.isStatic = true) := by rw [frame_static]; exact h
  have e0 : (frameState d).gas = d.gas.toNat := rfl
  have e1 : (frameState { d with gas := d.gas - (base : Int) }).gas = (d.gas - (base : Int)).toNat := rfl
  unfold callWith
  simp only [if_neg hst]
  have : (fun s : State World => accountAccess (testFrame keccak x c rev) tg s fun access s => newAccountGas (testFrame keccak x c rev) v tg value s fun newAccount s =>
      s.charge (access + (if value.toNat ≠ 0 then 9000 else 0) + newAccount) (callTail (testFrame keccak x c rev) v g tg value io il oo ol)) =
      fun s => { s with host := touched x s.host tg }.charge (accCost x s.host tg + valueCost value + newCost v (touched x s.host tg) tg value) (callTail (testFrame keccak x c rev) v g tg value io il oo ol) := by
    funext s
    rw [access_gen hr, new_gen]
    rfl
  show Like ((frameState d).touch2 io il oo ol 0 (fun s : State World => accountAccess (testFrame keccak x c rev) tg s fun access s => newAccountGas (testFrame keccak x c rev) v tg value s fun newAccount s =>
      s.charge (access + (if value.toNat ≠ 0 then 9000 else 0) + newAccount) (callTail (testFrame keccak x c rev) v g tg value io il oo ol))) _
  rw [this]
  have hnew : newCost v (touched x d.world tg) tg value = newCost v d.world tg value := by
    unfold newCost; rw [touched_empty]
  unfold State.touch2 State.charge
  have em : (frameState { d with gas := d.gas - (base : Int) }).mem = (frameState d).mem := rfl
  have eh : (frameState d).host = d.world := rfl
  rw [em, e0, e1]
  generalize (frameState d).mem.growGas (max ((frameState d).mem.sizeAfter io.toNat il.toNat) ((frameState d).mem.sizeAfter oo.toNat ol.toNat)) = G
  by_cases h1 : d.gas.toNat < G + 0
  · rw [if_pos h1, if_pos (by omega)]
    exact .inr ⟨failed_fail _ _, failed_fail _ _⟩
  · rw [if_neg h1]
    dsimp only
    rw [eh, hnew, hc]
    by_cases h2 : d.gas.toNat - (G + 0) < base + addr + valueCost value + newCost v d.world tg value
    · rw [if_pos h2, if_pos (by omega)]
      exact .inr ⟨failed_fail _ _, failed_fail _ _⟩
    · rw [if_neg h2, if_neg (by omega), show d.gas.toNat - (G + 0) - (base + addr + valueCost value + newCost v d.world tg value) =
        (d.gas - (base : Int)).toNat - (G + (valueCost value + newCost v d.world tg value + addr)) by omega]
      exact .inl rfl

/-- Without the gas for the access. -/
theorem call_broke {v : CallVariant} {g : U256} {tg : Address} {value io il oo ol : U256} (hr : revisionOf x.revision = some rev) (h0 : 0 ≤ d.gas)
    (hc : d.gas < (accCost x d.world tg : Int)) : Failed (callWith (testFrame keccak x c rev) v g tg value io il oo ol (frameState d)) := by
  unfold callWith State.touch2 
  rw [State.charge]
  split
  · exact failed_fail _ _
  · dsimp only
    split
    · exact failed_fail _ _
    · rw [access_gen hr, new_gen]
      unfold State.charge
      have e0 : (frameState d).gas = d.gas.toNat := rfl
      have eh : (frameState d).host = d.world := rfl
      dsimp only
      rw [e0, eh, if_pos (by omega)]
      exact failed_fail _ _

/-! ## Memory -/

theorem expand_within (M : Mem) (a n k : Nat) (h : k ≤ n) : (M.expand a n).expand a k = M.expand a n := by
  refine Mem.ext ?_ fun _ => rfl
  show Mem.sizeAfter (M.expand a n) a k = M.sizeAfter a n
  unfold Mem.sizeAfter
  show (if k = 0 then M.sizeAfter a n else max (M.sizeAfter a n) _) = M.sizeAfter a n
  by_cases hk : k = 0
  · rw [if_pos hk]
  · rw [if_neg hk]
    unfold Mem.sizeAfter
    rw [if_neg (by omega)]
    have : words (a + k) ≤ words (a + n) := by unfold words; omega
    omega

/-! ## The effect -/

/-- The variants and their opcodes. -/
def Variant (op : Nat) (v : CallVariant) (value : U256) : Prop :=
  (op = 0xf1 ∧ v = .call) ∨ (op = 0xf2 ∧ v = .callcode) ∨ (op = 0xfa ∧ v = .staticcall ∧ value = 0) ∨ (op = 0xf4 ∧ v = .delegatecall ∧ value = 0)

/-- `callEffect` after paying. -/
def callRest (op : Nat) (x : Model.Ct.Fixed) (gas target value : U256) (argsOffset64 argsSize64 retOffset64 retSize64 : BitVec 64) (s : S) : Option S := do
  let s := if x.revision ≥ 1 then { s with world := s.world.markWarm (bytes20 target) } else s
  let s := { s with memory := grow (grow s.memory argsOffset64 argsSize64) retOffset64 retSize64 }
  let limit := s.gas - s.gas.tdiv 64
  let endowment := if isUint64 gas = true ∧ uint64 gas < u64 limit then s64 (uint64 gas) else limit
  let stipend : Int := if value ≠ 0 then 2300 else 0
  let s := { s with gas := i64 (s.gas + stipend) }
  let (input, m) ← readMem s.memory argsOffset64 argsSize64
  let s := { s with memory := m }
  if value ≠ 0 ∧ (s.world.account x.account).balance.toNat < value.toNat then
    some { push s 0 with lastCallReturnData := [] }
  else do
    let (kind, sender, recipient, value) : Kind × Address × Address × U256 :=
      if op = 0xf4 then (.delegateCall, x.caller, x.account, x.value)
      else if op = 0xf2 then (.callCode, x.account, x.account, value)
      else (.call, x.account, bytes20 target, value)
    let kind := if (x.readOnly = true ∧ op = 0xf1) ∨ op = 0xfa then .staticCall else kind
    let (res, w) := s.world.call kind
      { sender := sender, recipient := recipient, value := value, gas := i64 (endowment + stipend), input := input, codeAddress := bytes20 target }
    let s := { s with world := w }
    let m ← if retSize64.toNat > 0 then writeMem s.memory (res.output.take retSize64.toNat) retOffset64 else some s.memory
    let s := { s with memory := m, gas := s.gas - (i64 (endowment + stipend) - res.gasLeft), refund := i64 (s.refund + res.gasRefund)
                      lastCallReturnData := res.output }
    some (push s (if res.success = true then 1 else 0))

theorem balance_eq {c2 : S} (value : U256) (k : Bool → State World → State World) :
    checkBalance (testFrame keccak x c rev) value (frameState c2) k =
      k (!decide (value ≠ 0 ∧ (c2.world.account x.account).balance.toNat < value.toNat)) (frameState c2) := by
  have hv : value ≠ 0 ↔ value.toNat ≠ 0 := by rw [ne_eq, ne_eq, ← BitVec.toNat_inj]; rfl
  unfold checkBalance
  by_cases h : value.toNat = 0
  · rw [if_pos h, decide_eq_false (fun hc => hv.1 hc.1 h)]
    rfl
  · rw [if_neg h, ask_eq]
    have e1 : (testFrame keccak x c rev).host.getBalance (testFrame keccak x c rev).msg.recipient (frameState c2).host = ((c2.world.account x.account).balance, c2.world) := rfl
    rw [e1]
    dsimp only
    have : decide (value.toNat ≤ (c2.world.account x.account).balance.toNat) = !decide (value ≠ 0 ∧ (c2.world.account x.account).balance.toNat < value.toNat) := by
      by_cases hl : (c2.world.account x.account).balance.toNat < value.toNat
      · rw [decide_eq_true (show value ≠ 0 ∧ _ from ⟨hv.2 h, hl⟩), decide_eq_false (by omega)]; rfl
      · rw [decide_eq_false (show ¬ (value ≠ 0 ∧ (c2.world.account x.account).balance.toNat < value.toNat) from fun hc => hl hc.2), decide_eq_true (by omega)]; rfl
    rw [this]
    rfl

/-- The gas given to a call. -/
theorem endowment_eq {g : Int} (h0 : 0 ≤ g) (h1 : g ≤ 1099511627776) (gas : U256) :
    (if isUint64 gas = true ∧ uint64 gas < u64 (g - g.tdiv 64) then s64 (uint64 gas) else g - g.tdiv 64) = ((min gas.toNat (allBut64th g.toNat) : Nat) : Int) := by
  have hl : g - g.tdiv 64 = ((allBut64th g.toNat : Nat) : Int) := by
    unfold allBut64th
    rw [Int.tdiv_eq_ediv_of_nonneg h0]
    omega
  have hb : allBut64th g.toNat ≤ 1099511627776 := by unfold allBut64th; omega
  have hu : (u64 (g - g.tdiv 64)).toNat = allBut64th g.toNat := by
    rw [hl]
    unfold u64
    rw [BitVec.toNat_ofInt]
    omega
  rw [hl] at hu ⊢
  by_cases hi : isUint64 gas = true
  · have hlt := (isUint64_iff gas).1 hi
    have hn : (uint64 gas).toNat = gas.toNat := by rw [uint64_toNat]; omega
    by_cases hc : uint64 gas < u64 ((allBut64th g.toNat : Nat) : Int)
    · have hc' : gas.toNat < allBut64th g.toNat := by
        have := BitVec.lt_def.1 hc
        rw [hu, hn] at this
        exact this
      rw [if_pos ⟨hi, hc⟩, s64_small _ (by omega), hn]
      omega
    · have hc' : ¬ gas.toNat < allBut64th g.toNat := by
        intro h
        apply hc
        rw [BitVec.lt_def, hu, hn]
        exact h
      rw [if_neg (fun h => hc h.2)]
      omega
  · have hlt : ¬ gas.toNat < 2 ^ 64 := fun h => hi ((isUint64_iff gas).2 h)
    rw [if_neg (fun h => hi h.1)]
    omega

theorem sum_toNat {a : Int} (b : Nat) (h : 0 ≤ a) : (a + (b : Int)).toNat = a.toNat + b := by omega
theorem left_nonneg (p k : Nat) : (0 : Int) ≤ if (p : Int) < (k : Int) then 0 else (p : Int) - (k : Int) := by split <;> omega
theorem gas_after {g l : Int} {F st : Nat} (h0 : 0 ≤ g) (hF : F ≤ g.toNat) (hl : 0 ≤ l) :
    0 ≤ g + (st : Int) - (((F + st : Nat) : Int) - l) ∧ (g + (st : Int) - (((F + st : Nat) : Int) - l)).toNat = g.toNat - F + l.toNat := by omega

theorem i64_sum {a : Int} {b : Nat} (h0 : 0 ≤ a) (h1 : a ≤ 1099511627776) (h2 : b ≤ 2300) : i64 (a + (b : Int)) = a + (b : Int) := i64_id (by omega) (by omega)

theorem call_rest {op : Nat} {v : CallVariant} {gas target value io il oo ol : U256} {o s o' s' : BitVec 64} (hv : Variant op v value)
    (hok : Ok c) (hg : c.gas ≤ 1099511627776) (hl : c.memory.length ≤ 2 ^ 30) (hl2 : (grow c.memory o s).length ≤ 2 ^ 30)
    (hl3 : (grow (grow c.memory o s) o' s').length ≤ 2 ^ 30) (hr : Range io il o s) (hr' : Range oo ol o' s') {W : World} (hW : W = touched x c.world (bytes20 target)) :
    Does (callRest op x gas target value o s o' s' c)
      (callTail (testFrame keccak x d rev) v gas (bytes20 target) value io il oo ol
        { frameState c with mem := ((memOf c.memory).expand io.toNat il.toNat).expand oo.toNat ol.toNat, host := W }) := by
  have h0 := hok.gas
  have hvz : value ≠ 0 ↔ value.toNat ≠ 0 := by rw [ne_eq, ne_eq, ← BitVec.toNat_inj]; rfl
  obtain ⟨g1, g2, g3⟩ := grow_ok hl hok.memory hr.size hr.pos
  obtain ⟨k1, k2, k3⟩ := grow_ok hl2 g1 hr'.size hr'.pos
  rw [g3] at k3
  have hrd := read_ok hl3 k1 hr.size hr.pos
  obtain ⟨l1, l2, l3⟩ := grow_ok hl3 k1 hr.size hr.pos
  rw [k3, expand_comm ((memOf c.memory).expand io.toNat il.toNat), expand_within _ _ _ _ (Nat.le_refl _)] at l3
  rw [k3] at hrd
  have l4 : (grow (grow (grow c.memory o s) o' s') o s).length ≤ 2 ^ 30 := by
    have e1 := memOf_size l1
    have e2 := memOf_size k1
    rw [l3, ← k3, e2] at e1
    omega
  generalize grow (grow (grow c.memory o s) o' s') o s = m2 at *
  have hfr : ∀ L : List Byte, ({ frameState c with mem := ((memOf c.memory).expand io.toNat il.toNat).expand oo.toNat ol.toNat, host := W, ret := L } : State World) =
      frameState { c with memory := m2, world := W, lastCallReturnData := L } := by
    intro L
    rw [frame_mem (c := { c with world := W, lastCallReturnData := L }) l3]
    rfl
  have hWe : (if x.revision ≥ 1 then { c with world := c.world.markWarm (bytes20 target) } else c) = ({ c with world := W } : S) := by
    rw [hW]; unfold touched
    by_cases hb : x.revision ≥ 1
    · rw [if_pos hb, if_pos hb]
    · rw [if_neg hb, if_neg hb]
  have hstip : (if value ≠ 0 then (2300 : Int) else 0) = ((if value.toNat ≠ 0 then 2300 else 0 : Nat) : Int) := by
    by_cases h : value.toNat ≠ 0
    · rw [if_pos h, if_pos (hvz.2 h)]; rfl
    · rw [if_neg h, if_neg (fun h' => h (hvz.1 h'))]; rfl
  unfold callRest callTail
  simp only [hWe]
  rw [show ({ frameState c with mem := ((memOf c.memory).expand io.toNat il.toNat).expand oo.toNat ol.toNat, host := W, ret := [] } : State World) =
    frameState { c with memory := m2, world := W, lastCallReturnData := [] } from hfr [], balance_eq, hstip, endowment_eq h0 hg gas]
  have hst : (if value.toNat ≠ 0 then 2300 else 0 : Nat) ≤ 2300 := by split <;> omega
  generalize (if value.toNat ≠ 0 then 2300 else 0 : Nat) = stip at *
  have hF : min gas.toNat (allBut64th c.gas.toNat) ≤ c.gas.toNat := by
    have : allBut64th c.gas.toNat ≤ c.gas.toNat := by unfold allBut64th; omega
    omega
  have hfgc : (frameState c).gas = c.gas.toNat := rfl
  dsimp only
  rw [hfgc]
  generalize min gas.toNat (allBut64th c.gas.toNat) = F at *
  rw [hrd]
  simp only [Option.bind_eq_bind, Option.bind_some]
  have hgs : i64 (c.gas + (stip : Int)) = c.gas + (stip : Int) := i64_sum h0 hg hst
  have hfs : i64 ((F : Int) + (stip : Int)) = ((F + stip : Nat) : Int) := by
    rw [i64_sum (Int.natCast_nonneg _) (Int.le_trans (show (F : Int) ≤ c.gas by omega) hg) hst, Int.natCast_add]
  rw [hgs, hfs]
  by_cases hlow : value ≠ 0 ∧ (W.account x.account).balance.toNat < value.toNat
  · rw [if_pos hlow, decide_eq_true hlow, if_pos (by rfl)]
    refine does_next ⟨hok.status, hok.result, l1, Int.add_nonneg h0 (Int.natCast_nonneg _), hok.refund⟩ ?_
    have : (c.gas + (stip : Int)).toNat = c.gas.toNat + stip := sum_toNat _ h0
    show _ = ({ frameState { c with memory := m2, world := W, lastCallReturnData := [] } with gas := (c.gas + (stip : Int)).toNat, stack := 0 :: c.stack } : State World)
    rw [this]
    rfl
  rw [if_neg hlow, decide_eq_false hlow, if_neg (show ¬ (!false) = false by simp), ask_eq]
  have hm : (frameState { c with memory := m2, world := W, lastCallReturnData := [] }).mem = memOf m2 := rfl
  rw [hm, l3]
  have hin : (((memOf c.memory).expand io.toNat il.toNat).expand oo.toNat ol.toNat).read io.toNat il.toNat = (memOf c.memory).read io.toNat il.toNat := rfl
  rw [hin]
  generalize hI : (memOf c.memory).read io.toNat il.toNat = input
  have hlen : input.length ≤ 2 ^ 30 := by rw [← hI, read_length]; exact range_small hr
  have hmsg : kindOf (callMessage (testFrame keccak x d rev) v (bytes20 target) value input (F + stip)) =
        (if (x.readOnly = true ∧ op = 0xf1) ∨ op = 0xfa then Kind.staticCall else
          (if op = 0xf4 then (Kind.delegateCall, x.caller, x.account, x.value)
          else if op = 0xf2 then (.callCode, x.account, x.account, value)
          else (.call, x.account, bytes20 target, value) : Kind × Address × Address × U256).1) ∧
      paramsOf (callMessage (testFrame keccak x d rev) v (bytes20 target) value input (F + stip)) =
        { sender := (if op = 0xf4 then (Kind.delegateCall, x.caller, x.account, x.value)
            else if op = 0xf2 then (.callCode, x.account, x.account, value)
            else (.call, x.account, bytes20 target, value) : Kind × Address × Address × U256).2.1
          recipient := (if op = 0xf4 then (Kind.delegateCall, x.caller, x.account, x.value)
            else if op = 0xf2 then (.callCode, x.account, x.account, value)
            else (.call, x.account, bytes20 target, value) : Kind × Address × Address × U256).2.2.1
          value := (if op = 0xf4 then (Kind.delegateCall, x.caller, x.account, x.value)
            else if op = 0xf2 then (.callCode, x.account, x.account, value)
            else (.call, x.account, bytes20 target, value) : Kind × Address × Address × U256).2.2.2
          gas := ((F + stip : Nat) : Int), input := input, codeAddress := bytes20 target } := by
    rcases hv with ⟨rfl, rfl⟩ | ⟨rfl, rfl⟩ | ⟨rfl, rfl, rfl⟩ | ⟨rfl, rfl, rfl⟩
    · refine ⟨?_, rfl⟩
      have hfl : (callMessage (testFrame keccak x d rev) .call (bytes20 target) value input (F + stip)).flags = if x.readOnly = true then 1 else 0 := rfl
      have hkd : (callMessage (testFrame keccak x d rev) .call (bytes20 target) value input (F + stip)).kind = .call := rfl
      unfold kindOf
      rw [hfl, hkd]
      cases x.readOnly <;> rfl
    · refine ⟨?_, rfl⟩
      rw [if_neg (by simp)]; rfl
    · refine ⟨?_, rfl⟩
      rw [if_pos (by simp)]; rfl
    · refine ⟨?_, rfl⟩
      rw [if_neg (by simp)]; rfl
  generalize hT : (if op = 0xf4 then (Kind.delegateCall, x.caller, x.account, x.value)
            else if op = 0xf2 then (.callCode, x.account, x.account, value)
            else (.call, x.account, bytes20 target, value) : Kind × Address × Address × U256) = T at *
  obtain ⟨kind, sender, recipient, value'⟩ := T
  dsimp only at hmsg ⊢
  generalize hK : (if (x.readOnly = true ∧ op = 0xf1) ∨ op = 0xfa then Kind.staticCall else kind) = K at *
  generalize hR : W.call K { sender := sender, recipient := recipient, value := value', gas := ((F + stip : Nat) : Int), input := input, codeAddress := bytes20 target } = R
  obtain ⟨res, w⟩ := R
  have hcall : (testFrame keccak x d rev).host.call (callMessage (testFrame keccak x d rev) v (bytes20 target) value input (F + stip))
      (frameState { c with memory := m2, world := W, lastCallReturnData := [] }).host = (answerOf failures.error (.ok res), w) := by
    show (if input.length ≤ 2 ^ 30 then (answerOf failures.error (ctCall (kindOf _) (paramsOf _) W).1, (ctCall (kindOf _) (paramsOf _) W).2) else _) = _
    rw [if_pos hlen, hmsg.1, hmsg.2]
    show (answerOf failures.error (.ok (W.call K _).1), (W.call K _).2) = _
    rw [hR]
  have hleft : 0 ≤ res.gasLeft := by
    have : res.gasLeft = (W.call K { sender := sender, recipient := recipient, value := value', gas := ((F + stip : Nat) : Int), input := input, codeAddress := bytes20 target }).1.gasLeft := by rw [hR]
    rw [this]
    show (0 : Int) ≤ (if ((F + stip : Nat) : Int) < ((W.future.headD {}).gasCosts : Int) then 0 else ((F + stip : Nat) : Int) - ((W.future.headD {}).gasCosts : Int))
    exact left_nonneg _ _
  rw [hcall]
  unfold answerOf
  dsimp only
  obtain ⟨hgas0, hgas⟩ := gas_after (st := stip) h0 hF hleft
  clear hleft hcall hR hmsg
  -- the output
  obtain ⟨m3, p1, p2, p3⟩ : ∃ m3, (if s'.toNat > 0 then writeMem m2 (res.output.take s'.toNat) o' else some m2) = some m3 ∧ m3.length % 32 = 0 ∧
      memOf m3 = (((memOf c.memory).expand io.toNat il.toNat).expand oo.toNat ol.toNat).write oo.toNat (res.output.take ol.toNat) := by
    rw [hr'.size]
    by_cases hz : ol.toNat > 0
    · rw [if_pos hz]
      have hle : (res.output.take ol.toNat).length ≤ ol.toNat := by rw [List.length_take]; omega
      obtain ⟨m3, q1, q2, q3, q4⟩ := write_ok (m := m2) (o := o') (off := oo.toNat) (data := res.output.take ol.toNat) l4 l1
        (fun _ => ⟨(hr'.pos (by omega)).1, by have := (hr'.pos (by omega)).2; omega⟩)
      refine ⟨m3, q1, q2, ?_⟩
      rw [q4, l3, expand_within _ _ _ _ hle]
    · rw [if_neg hz]
      have : ol.toNat = 0 := by omega
      refine ⟨m2, rfl, l1, ?_⟩
      rw [this, List.take_zero, write_nil, l3, this]
  have fin : Does (some (push { c with gas := c.gas + (stip : Int) - (((F + stip : Nat) : Int) - res.gasLeft), refund := i64 (c.refund + res.gasRefund), memory := m3, lastCallReturnData := res.output, world := w } (if res.success = true then 1 else 0)))
      { frameState c with mem := (((memOf c.memory).expand io.toNat il.toNat).expand oo.toNat ol.toNat).write oo.toNat (res.output.take ol.toNat), host := w
                          gas := c.gas.toNat - F + res.gasLeft.toNat, refund := c.refund + res.gasRefund, ret := res.output, stack := (if res.success = true then 1 else 0) :: c.stack } := by
    refine does_next' (r := c.refund + res.gasRefund) ⟨hok.status, hok.result, p2, hgas0, (by show (-2 ^ 63 : Int) ≤ 0 ∧ (0 : Int) < 2 ^ 63; decide)⟩ rfl ?_
    show _ = ({ frameState c with mem := memOf m3, host := w, gas := (c.gas + (stip : Int) - (((F + stip : Nat) : Int) - res.gasLeft)).toNat, refund := c.refund + res.gasRefund, ret := res.output, stack := (if res.success = true then 1 else 0) :: c.stack } : State World)
    rw [hgas, p3]
  obtain ⟨output, gasLeft, gasRefund, createdAddress, suc⟩ := res
  dsimp only at fin p1 ⊢
  by_cases hz : s'.toNat > 0
  · rw [if_pos hz] at p1 ⊢
    rw [p1]
    cases suc <;> exact fin
  · rw [if_neg hz] at p1 ⊢
    injection p1 with p1
    subst p1
    cases suc <;> exact fin

end Tosca.Proofs.Ct

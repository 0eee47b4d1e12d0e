import Verif.Proofs.CtOps8

/-!
# Rules of CREATE
-/

namespace Tosca.Proofs.Ct

open Tosca.Spec Tosca.Spec.Go Tosca.Go Tosca.Model.Go Tosca.Model.Ct Tosca.Proofs.Lfvm
open Tosca.Model.Lfvm (isUint64 uint64 ofU64 bytes20 bytes32 ofBytes20 setBytes)

variable {c d : S} {t : State World} {keccak : List Byte → U256} {x : Model.Ct.Fixed} {rev : Revision}

/-- Paying for memory first and for the rest then. -/
theorem touch_charge {off n : U256} {extra : Nat} (st : State World) (K : State World → State World) :
    Like (st.touch off n 0 fun s => s.charge extra K) (st.touch off n extra K) := by
  unfold State.touch State.charge
  generalize st.mem.growGas (st.mem.sizeAfter off.toNat n.toNat) = G
  by_cases h1 : st.gas < G + 0
  · rw [if_pos h1, if_pos (by omega)]
    exact .inr ⟨failed_fail _ _, failed_fail _ _⟩
  · rw [if_neg h1]
    dsimp only
    by_cases h2 : st.gas - (G + 0) < extra
    · rw [if_pos h2, if_pos (by omega)]
      exact .inr ⟨failed_fail _ _, failed_fail _ _⟩
    · rw [if_neg h2, if_neg (by omega), show st.gas - (G + 0) - extra = st.gas - (G + extra) by omega]
      exact .inl rfl

theorem sum_one {a : Int} {g : Int} (h : g < a) (h0 : 0 ≤ a) (hm : a ≤ maxInt64) {b n : Int} (hn : sumGas [a, b] 0 = some n) : g < n ∧ 0 ≤ n ∧ n ≤ maxInt64 := by
  have h1 := sum_far h h0 hm n hn
  have h2 := sum_far (g := -1) (by omega) h0 hm n hn
  refine ⟨h1, by omega, ?_⟩
  have hx : maxInt64 = 9223372036854775807 := rfl
  unfold sumGas at hn
  split at hn
  · cases hn
  unfold sumGas at hn
  split at hn
  · cases hn
  unfold sumGas at hn
  injection hn with hn
  have : i64 (i64 (0 + a) + b) < 2 ^ 63 := by
    unfold i64
    exact Int.lt_of_lt_of_le (Int.bmod_lt (by decide)) (by decide)
  omega

/-- What CREATE does after paying. -/
theorem create_body {c2 : S} (hok : Ok c2) (hg : c2.gas ≤ 2 ^ 40) {value off n : U256} {input : List Byte} (hin : input = (memOf c2.memory).read off.toNat n.toNat) (hlen : input.length ≤ 2 ^ 30)
    (salt : Option U256) :
    Does (if value ≠ 0 ∧ (c2.world.account x.account).balance.toNat < value.toNat then
          some { push c2 (ofBytes20 0) with lastCallReturnData := [] }
        else
          let limit := c2.gas - c2.gas.tdiv 64
          let (res, w) := c2.world.call (if salt.isSome = true then .create2 else .create)
            { sender := x.account, value := value, gas := limit, input := input, salt := salt.getD 0 }
          let s : S := { c2 with world := w, gas := c2.gas - (limit - res.gasLeft), refund := i64 (c2.refund + res.gasRefund) }
          if res.success = false then some { push s (ofBytes20 0) with lastCallReturnData := res.output }
          else some (push { s with lastCallReturnData := [] } (ofBytes20 res.createdAddress)))
      (checkBalance (testFrame keccak x c rev) value { frameState c2 with ret := [] } fun ok s =>
          if ok = false then s.push 0
          else
            let fwd := allBut64th s.gas
            let msg := createMessage (testFrame keccak x c rev) salt value (s.mem.read off.toNat n.toNat) fwd
            s.ask ((testFrame keccak x c rev).host.call msg) fun r s =>
              { s with
                gas := s.gas - fwd + r.gasLeft.toNat
                refund := s.refund + r.gasRefund
                ret := if r.status = .revert then r.output else []
                stack := (if r.status = .success then Word.ofAddress r.createAddress else 0)
                  :: s.stack }) := by
  have h0 := hok.gas
  have hv : value ≠ 0 ↔ value.toNat ≠ 0 := by rw [ne_eq, ne_eq, ← BitVec.toNat_inj]; rfl
  have hz : ofBytes20 0 = 0 := by decide
  have hbal : checkBalance (testFrame keccak x c rev) value { frameState c2 with ret := [] } = fun k =>
      k (!decide (value ≠ 0 ∧ (c2.world.account x.account).balance.toNat < value.toNat)) (frameState { c2 with lastCallReturnData := [] }) := by
    funext k
    unfold checkBalance
    by_cases h : value.toNat = 0
    · rw [if_pos h, decide_eq_false (fun hc => hv.1 hc.1 h)]
      rfl
    · rw [if_neg h, ask_eq]
      have e1 : (testFrame keccak x c rev).host.getBalance (testFrame keccak x c rev).msg.recipient ({ frameState c2 with ret := [] } : State World).host = ((c2.world.account x.account).balance, c2.world) := rfl
      rw [e1]
      dsimp only
      have : decide (value.toNat ≤ (c2.world.account x.account).balance.toNat) = !decide (value ≠ 0 ∧ (c2.world.account x.account).balance.toNat < value.toNat) := by
        by_cases hl : (c2.world.account x.account).balance.toNat < value.toNat
        · rw [decide_eq_true (show value ≠ 0 ∧ _ from ⟨hv.2 h, hl⟩), decide_eq_false (by omega)]; rfl
        · rw [decide_eq_false (show ¬ (value ≠ 0 ∧ (c2.world.account x.account).balance.toNat < value.toNat) from fun hc => hl hc.2), decide_eq_true (by omega)]; rfl
      rw [this]
      rfl
  rw [hbal]
  dsimp only
  by_cases hlow : value ≠ 0 ∧ (c2.world.account x.account).balance.toNat < value.toNat
  · rw [if_pos hlow, decide_eq_true hlow, if_pos (by rfl)]
    refine does_next ⟨hok.status, hok.result, hok.memory, hok.gas, hok.refund⟩ ?_
    rw [hz]
    rfl
  rw [if_neg hlow, decide_eq_false hlow, if_neg (show ¬ (!false) = false by simp), ask_eq]
  have hlim : c2.gas - c2.gas.tdiv 64 = ((allBut64th c2.gas.toNat : Nat) : Int) := by
    unfold allBut64th
    rw [Int.tdiv_eq_ediv_of_nonneg h0]
    omega
  have hfg : (frameState { c2 with lastCallReturnData := [] }).gas = c2.gas.toNat := rfl
  have hm : (frameState { c2 with lastCallReturnData := [] }).mem = memOf c2.memory := rfl
  rw [hfg, hm, ← hin, hlim]
  generalize hF : allBut64th c2.gas.toNat = F
  have hF' : F ≤ c2.gas.toNat := by rw [← hF]; unfold allBut64th; omega
  generalize hR : c2.world.call (if salt.isSome = true then Kind.create2 else .create)
    { sender := x.account, value := value, gas := (F : Int), input := input, salt := salt.getD 0 } = R
  obtain ⟨res, w⟩ := R
  have hcall : (testFrame keccak x c rev).host.call (createMessage (testFrame keccak x c rev) salt value input F) (frameState { c2 with lastCallReturnData := [] }).host =
      (answerOf failures.error (.ok res), w) := by
    show (if input.length ≤ 2 ^ 30 then _ else _) = _
    rw [if_pos hlen]
    have ek : kindOf (createMessage (testFrame keccak x c rev) salt value input F) = if salt.isSome = true then Kind.create2 else .create := by
      unfold kindOf createMessage
      cases salt <;> rfl
    have ep : paramsOf (createMessage (testFrame keccak x c rev) salt value input F) = { sender := x.account, value := value, gas := (F : Int), input := input, salt := salt.getD 0 } := rfl
    rw [ek, ep]
    show (answerOf failures.error (.ok (c2.world.call _ _).1), (c2.world.call _ _).2) = _
    rw [hR]
  have hleft : 0 ≤ res.gasLeft := by
    have : res.gasLeft = (c2.world.call (if salt.isSome = true then Kind.create2 else .create)
      { sender := x.account, value := value, gas := (F : Int), input := input, salt := salt.getD 0 }).1.gasLeft := by rw [hR]
    rw [this]
    show (0 : Int) ≤ (if (F : Int) < ((c2.world.future.headD {}).gasCosts : Int) then 0 else (F : Int) - ((c2.world.future.headD {}).gasCosts : Int))
    split <;> omega
  rw [hcall]
  unfold answerOf
  dsimp only
  have hgas0 : 0 ≤ c2.gas - ((F : Int) - res.gasLeft) := by omega
  have hgas : (c2.gas - ((F : Int) - res.gasLeft)).toNat = c2.gas.toNat - F + res.gasLeft.toNat := by omega
  clear hleft hcall hR
  obtain ⟨output, gasLeft, gasRefund, createdAddress, suc⟩ := res
  dsimp only at hgas hgas0
  cases suc
  · rw [if_pos (by rfl)]
    refine does_next' (r := c2.refund + gasRefund) ⟨hok.status, hok.result, hok.memory, hgas0, (by show (-2 ^ 63 : Int) ≤ 0 ∧ (0 : Int) < 2 ^ 63; decide)⟩ rfl ?_
    show ({ frameState c2 with gas := c2.gas.toNat - F + gasLeft.toNat, host := w, ret := output, refund := c2.refund + gasRefund, stack := 0 :: c2.stack } : State World) = { frameState c2 with gas := (c2.gas - ((F : Int) - gasLeft)).toNat, host := w, ret := output, refund := c2.refund + gasRefund, stack := ofBytes20 0 :: c2.stack }
    rw [hgas, hz]
  · rw [if_neg (by simp)]
    refine does_next' (r := c2.refund + gasRefund) ⟨hok.status, hok.result, hok.memory, hgas0, (by show (-2 ^ 63 : Int) ≤ 0 ∧ (0 : Int) < 2 ^ 63; decide)⟩ rfl ?_
    show ({ frameState c2 with gas := c2.gas.toNat - F + gasLeft.toNat, host := w, ret := [], refund := c2.refund + gasRefund, stack := Word.ofAddress createdAddress :: c2.stack } : State World) = { frameState c2 with gas := (c2.gas - ((F : Int) - gasLeft)).toNat, host := w, ret := [], refund := c2.refund + gasRefund, stack := ofBytes20 createdAddress :: c2.stack }
    rw [hgas, l_ofBytes20]

/-- The price of init code and of hashing it. -/
def createExtra (x : Model.Ct.Fixed) (salt : Option U256) (n : U256) : Nat := (if x.revision ≥ 4 then 2 * words n.toNat else 0) + (if salt.isSome = true then 6 * words n.toNat else 0)

/-- The effect of CREATE with the operands taken. -/
def createRest (x : Model.Ct.Fixed) (salt : Option U256) (value : U256) (s : S) (cost : Option Int) (offset size : BitVec 64) : Option S :=
  pay s cost fun s => do
    let (input, m) ← readMem s.memory offset size
    let s := { s with memory := m }
    if value ≠ 0 ∧ (s.world.account x.account).balance.toNat < value.toNat then
      some { push s (ofBytes20 0) with lastCallReturnData := [] }
    else do
      let limit := s.gas - s.gas.tdiv 64
      let (res, w) := s.world.call (if salt.isSome = true then .create2 else .create)
        { sender := x.account, value := value, gas := limit, input := input, salt := salt.getD 0 }
      let s := { s with world := w, gas := s.gas - (limit - res.gasLeft), refund := i64 (s.refund + res.gasRefund) }
      if res.success = false then some { push s (ofBytes20 0) with lastCallReturnData := res.output }
      else some (push { s with lastCallReturnData := [] } (ofBytes20 res.createdAddress))

/-- CREATE with the operands taken. -/
theorem create_with {c1 : S} (hr : revisionOf x.revision = some rev) (hok : Ok c1) (hb : Bounded c1) (salt : Option U256) (value off n : U256) {cost : Int} {o s : BitVec 64}
    (hE : expansionCosts c1.memory off n = (cost, o, s)) {e : Option S}
    (he : e = if x.revision ≥ 4 ∧ (isUint64 n = false ∨ s.toNat > 49152) then e
      else match (if x.revision ≥ 4 then sumGas [cost, s64 (2 * Model.Go.sizeInWords s)] 0 else some cost) with
        | none => e
        | some dynamicGas => createRest x salt value c1 (if salt.isSome = true then sumGas [dynamicGas, s64 (6 * Model.Go.sizeInWords s)] 0 else some dynamicGas) o s)
    (he1 : x.revision ≥ 4 ∧ (isUint64 n = false ∨ s.toNat > 49152) → ∃ c', e = some c' ∧ c'.status = .failed)
    (he2 : ¬ (x.revision ≥ 4 ∧ (isUint64 n = false ∨ s.toNat > 49152)) → (if x.revision ≥ 4 then sumGas [cost, s64 (2 * Model.Go.sizeInWords s)] 0 else some cost) = none →
      ∃ c', e = some c' ∧ c'.status = .failed) :
    Does e (createWith (testFrame keccak x c rev) salt value off n (frameState c1)) := by
  have hsh := shanghai_iff hr
  have hg : c1.gas ≤ 2 ^ 40 := by
    unfold Bounded at hb
    have := hok.gas
    omega
  rcases exp_range hok hb hE with ⟨hrg, ec⟩ | ⟨⟨f1, f2, f3⟩, f4⟩
  · have hsmall := range_small hrg
    have hu : isUint64 n = true := (isUint64_iff n).2 (by omega)
    by_cases hbig : x.revision ≥ 4 ∧ n.toNat > 49152
    · obtain ⟨c', e1, e2⟩ := he1 ⟨hbig.1, .inr (by rw [hrg.size]; exact hbig.2)⟩
      refine does_fail ?_ e1 e2
      unfold createWith State.touch State.charge
      split
      · exact failed_fail _ _
      · dsimp only
        rw [if_pos (show (testFrame keccak x c rev).rev ≥ SHANGHAI ∧ n.toNat > 49152 from ⟨hsh.2 hbig.1, hbig.2⟩)]
        exact failed_fail _ _
    · have hnot : ¬ (x.revision ≥ 4 ∧ (isUint64 n = false ∨ s.toNat > 49152)) := by
        rintro ⟨k1, k2 | k2⟩
        · rw [hu] at k2; cases k2
        · rw [hrg.size] at k2; exact hbig ⟨k1, k2⟩
      have hgs := grow_small hb hok hrg
      obtain ⟨w2, w2'⟩ := range_words (k := 2) hrg (by omega) 2 rfl
      obtain ⟨w6, w6'⟩ := range_words (k := 6) hrg (by omega) 6 rfl
      generalize hG : (memOf c1.memory).growGas ((memOf c1.memory).sizeAfter off.toNat n.toNat) = G at *
      have hdyn : (if x.revision ≥ 4 then sumGas [cost, s64 (2 * Model.Go.sizeInWords s)] 0 else some cost) =
          some ((G + (if x.revision ≥ 4 then 2 * words n.toNat else 0) : Nat) : Int) := by
        split
        · rw [ec, w2, sum_near (by omega)]
        · rw [ec]; rfl
      have hsum : (if salt.isSome = true then sumGas [((G + (if x.revision ≥ 4 then 2 * words n.toNat else 0) : Nat) : Int), s64 (6 * Model.Go.sizeInWords s)] 0
          else some ((G + (if x.revision ≥ 4 then 2 * words n.toNat else 0) : Nat) : Int)) = some ((G + createExtra x salt n : Nat) : Int) := by
        unfold createExtra
        have : (if x.revision ≥ 4 then 2 * words n.toNat else 0) < 2 ^ 60 := by split <;> omega
        generalize (if x.revision ≥ 4 then 2 * words n.toNat else 0) = E at *
        split
        · rw [w6, sum_near (by omega), Nat.add_assoc]
        · rfl
      rw [if_neg hnot, hdyn] at he
      dsimp only at he
      rw [hsum] at he
      rw [he]
      refine does_like (t' := (frameState c1).touch off n (createExtra x salt n) fun s =>
        checkBalance (testFrame keccak x c rev) value { s with ret := [] } fun ok s =>
          if ok = false then s.push 0
          else
            let fwd := allBut64th s.gas
            let msg := createMessage (testFrame keccak x c rev) salt value (s.mem.read off.toNat n.toNat) fwd
            s.ask ((testFrame keccak x c rev).host.call msg) fun r s =>
              { s with
                gas := s.gas - fwd + r.gasLeft.toNat
                refund := s.refund + r.gasRefund
                ret := if r.status = .revert then r.output else []
                stack := (if r.status = .success then Word.ofAddress r.createAddress else 0)
                  :: s.stack }) ?_ ?_
      · have := touch_charge (off := off) (n := n) (extra := createExtra x salt n) (frameState c1) (fun s =>
          checkBalance (testFrame keccak x c rev) value { s with ret := [] } fun ok s =>
          if ok = false then s.push 0
          else
            let fwd := allBut64th s.gas
            let msg := createMessage (testFrame keccak x c rev) salt value (s.mem.read off.toNat n.toNat) fwd
            s.ask ((testFrame keccak x c rev).host.call msg) fun r s =>
              { s with
                gas := s.gas - fwd + r.gasLeft.toNat
                refund := s.refund + r.gasRefund
                ret := if r.status = .revert then r.output else []
                stack := (if r.status = .success then Word.ofAddress r.createAddress else 0)
                  :: s.stack })
        refine cast ?_ this
        congr 1
        unfold createWith createExtra
        congr 1
        funext st
        rw [if_neg (show ¬ ((testFrame keccak x c rev).rev ≥ SHANGHAI ∧ n.toNat > 49152) from fun h => hbig ⟨hsh.1 h.1, h.2⟩)]
        congr 2
        by_cases h4 : x.revision ≥ 4
        · rw [if_pos h4, if_pos (show (testFrame keccak x c rev).rev ≥ SHANGHAI from hsh.2 h4)]
        · rw [if_neg h4, if_neg (show ¬ (testFrame keccak x c rev).rev ≥ SHANGHAI from fun h => h4 (hsh.1 h))]
      · unfold createRest
        refine does_touch hok (by rw [hG]) ?_
        intro g hle hgr hok2
        have hrd := range_read hok hb hrg
        simp only [hrd, Option.bind_eq_bind, Option.bind_some]
        have hgw := range_grow hok hb hrg
        have := create_body (keccak := keccak) (x := x) (c := c) (rev := rev) (c2 := { less c1 g with memory := grow c1.memory o s }) (ok_mem hok2 hgw.1) (by show c1.gas - (g : Int) ≤ _; omega)
          (value := value) (off := off) (n := n) (input := (memOf c1.memory).read off.toNat n.toNat) (by rw [hgw.2.2]; rfl) (by rw [read_length]; omega) salt
        rw [frame_grow hok hb hrg g] at this
        exact this
  · refine (?_ : Failed (createWith (testFrame keccak x c rev) salt value off n (frameState c1)) → _) (touch_broke f4 _ _)
    intro hf
    by_cases hnot : x.revision ≥ 4 ∧ (isUint64 n = false ∨ s.toNat > 49152)
    · obtain ⟨c', e1, e2⟩ := he1 hnot
      exact does_fail hf e1 e2
    · cases hd : (if x.revision ≥ 4 then sumGas [cost, s64 (2 * Model.Go.sizeInWords s)] 0 else some cost) with
      | none =>
        obtain ⟨c', e1, e2⟩ := he2 hnot hd
        exact does_fail hf e1 e2
      | some dg =>
        rw [if_neg hnot, hd] at he
        dsimp only at he
        rw [he]
        have hdg : c1.gas < dg ∧ 0 ≤ dg ∧ dg ≤ maxInt64 := by
          split at hd
          · exact sum_one f1 f2 f3 hd
          · injection hd with hd; subst hd; exact ⟨f1, f2, f3⟩
        unfold createRest
        refine does_broke ?_ hf
        split
        · exact sum_far hdg.1 hdg.2.1 hdg.2.2
        · intro m hm; injection hm with hm; omega

theorem sounds_static {o : Nat} {I : Instr} {g : Int} {p q : Nat} {ks : List Cond} (hd : decode o = some I) (hp : p ≤ I.pops) (hq : q > p → I.pushes > I.pops) (hw : I.writes = true)
    (hk : .readOnly true ∈ ks) : Sounds keccak (rulesFor { op := o, staticGas := g, pops := p, pushes := q, conditions := ks, effect := failEffect }) := by
  refine sounds_rulesFor hd hp hq ?_ ?_
  · intro x c rev hat hks _
    exact exec_refused (.inr (.inl ⟨hw, by rw [frame_static]; exact check_readOnly.1 (hks _ hk)⟩))
  · intro x c rev hat hks _ _ _
    exact does_fail (exec_refused (.inr (.inl ⟨hw, by rw [frame_static]; exact check_readOnly.1 (hks _ hk)⟩))) rfl rfl

theorem sounds_create : Sounds keccak Model.Ct.create := by
  unfold Model.Ct.create
  refine sounds_append (sounds_append (sounds_append ?_ ?_) ?_) ?_
  · exact sounds_static (I := .create) rfl (by decide) (by decide) rfl (by simp)
  · refine sounds_simple (I := .create) rfl rfl rfl rfl rfl (by decide) (by decide) (by show (0xf0 : Nat) ≠ 0; decide) ?_ ?_
    · intro x c rev hat hk
      have hro := check_readOnly.1 (hk (.readOnly false) (by simp))
      exact ⟨Nat.not_lt_zero _, by rw [hro]; rintro ⟨_, h⟩; cases h⟩
    · intro x c rev hat hk hs hok hb
      obtain ⟨v, off, n, r, hst⟩ := stack3 hs
      have hst' : (next c (Instr.baseGas .create)).stack = v :: off :: n :: r := hst
      show Does _ (Spec.create (testFrame keccak x c rev) false (frameState (next c (Instr.baseGas .create))))
      unfold Spec.create
      rw [if_neg (show ¬ (testFrame keccak x c rev).msg.depth > 1024 from (by decide : ¬ ((0 : Int) > 1024)))]
      generalize next c (Instr.baseGas .create) = c1 at *
      rw [pop3_eq hst', if_neg (by simp)]
      rcases hE : expansionCosts c1.memory off n with ⟨cost, o, s⟩
      refine create_with (c1 := { c1 with stack := r }) hat.rev (ok_stack hok r) hb none v off n hE ?_ ?_ ?_
      · show createEffect false x c1 = _
        unfold createEffect
        simp only [pop_eq hst', pop_mk, Option.bind_eq_bind, Option.bind_some, hE]
        split
        · rfl
        · generalize (if x.revision ≥ 4 then sumGas [cost, s64 (2 * Model.Go.sizeInWords s)] 0 else some cost) = D
          cases D <;> rfl
      · intro h
        show ∃ c', createEffect false x c1 = _ ∧ _
        unfold createEffect
        simp only [pop_eq hst', pop_mk, Option.bind_eq_bind, Option.bind_some, hE]
        rw [if_pos h]
        exact ⟨_, rfl, rfl⟩
      · intro h h'
        show ∃ c', createEffect false x c1 = _ ∧ _
        unfold createEffect
        simp only [pop_eq hst', pop_mk, Option.bind_eq_bind, Option.bind_some, hE]
        rw [if_neg h, h']
        exact ⟨_, rfl, rfl⟩
  · exact sounds_static (I := .create2) rfl (by decide) (by decide) rfl (by simp)
  · refine sounds_simple (I := .create2) rfl rfl rfl rfl rfl (by decide) (by decide) (by show (0xf5 : Nat) ≠ 0; decide) ?_ ?_
    · intro x c rev hat hk
      have hro := check_readOnly.1 (hk (.readOnly false) (by simp))
      exact ⟨Nat.not_lt_zero _, by rw [hro]; rintro ⟨_, h⟩; cases h⟩
    · intro x c rev hat hk hs hok hb
      obtain ⟨v, off, n, salt, r, hst⟩ := stack4 hs
      have hst' : (next c (Instr.baseGas .create2)).stack = v :: off :: n :: salt :: r := hst
      show Does _ (Spec.create (testFrame keccak x c rev) true (frameState (next c (Instr.baseGas .create2))))
      unfold Spec.create
      rw [if_neg (show ¬ (testFrame keccak x c rev).msg.depth > 1024 from (by decide : ¬ ((0 : Int) > 1024)))]
      generalize next c (Instr.baseGas .create2) = c1 at *
      rw [pop3_eq hst', if_pos rfl, pop1_eq (c := { c1 with stack := salt :: r }) rfl]
      rcases hE : expansionCosts c1.memory off n with ⟨cost, o, s⟩
      refine create_with (c1 := { c1 with stack := r }) hat.rev (ok_stack hok r) hb (some salt) v off n hE ?_ ?_ ?_
      · show createEffect true x c1 = _
        unfold createEffect
        simp only [pop_eq hst', pop_mk, Option.bind_eq_bind, Option.bind_some, hE]
        split
        · rfl
        · generalize (if x.revision ≥ 4 then sumGas [cost, s64 (2 * Model.Go.sizeInWords s)] 0 else some cost) = D
          cases D <;> rfl
      · intro h
        show ∃ c', createEffect true x c1 = _ ∧ _
        unfold createEffect
        simp only [pop_eq hst', pop_mk, Option.bind_eq_bind, Option.bind_some, hE]
        rw [if_pos h]
        exact ⟨_, rfl, rfl⟩
      · intro h h'
        show ∃ c', createEffect true x c1 = _ ∧ _
        unfold createEffect
        simp only [pop_eq hst', pop_mk, Option.bind_eq_bind, Option.bind_some, hE]
        rw [if_neg h, h']
        exact ⟨_, rfl, rfl⟩

end Tosca.Proofs.Ct

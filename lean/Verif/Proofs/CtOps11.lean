import Verif.Proofs.CtOps10

/-!
# Rules of calls, and all rules
-/

namespace Tosca.Proofs.Ct

open Tosca.Spec Tosca.Spec.Go Tosca.Go Tosca.Model.Go Tosca.Model.Ct Tosca.Proofs.Lfvm
open Tosca.Model.Lfvm (isUint64 uint64 ofU64 bytes20 bytes32 ofBytes20 setBytes)

variable {c d : S} {t : State World} {keccak : List Byte → U256} {x : Model.Ct.Fixed} {rev : Revision}

theorem sum_ge : ∀ (l : List Int) (r n : Int), sumGas l r = some n → r ≤ n
  | [], r, n, h => by unfold sumGas at h; injection h with h; omega
  | a :: l, r, n, h => by
    unfold sumGas at h
    split at h
    · cases h
    · have := sum_ge l _ n h
      omega

theorem sum_far' {cost g : Int} {l : List Int} (h : g < cost) (h0 : 0 ≤ cost) (hm : cost ≤ maxInt64) : ∀ n, sumGas (cost :: l) 0 = some n → g < n := by
  intro n hn
  have hx : maxInt64 = 9223372036854775807 := rfl
  have hi : i64 (0 + cost) = cost := by rw [Int.zero_add]; exact i64_id (by omega) (by omega)
  unfold sumGas at hn
  rw [hi, if_neg (by omega)] at hn
  have := sum_ge _ _ _ hn
  omega

theorem sum_four {a b e f : Nat} (h : a + b + e + f < 2 ^ 63) : sumGas [(a : Int), (b : Int), (e : Int), (f : Int)] 0 = some ((a + (b + e + f) : Nat) : Int) := by
  unfold sumGas
  rw [i64_id (by omega) (by omega), if_neg (by omega)]
  unfold sumGas
  rw [i64_id (by omega) (by omega), if_neg (by omega)]
  unfold sumGas
  rw [i64_id (by omega) (by omega), if_neg (by omega)]
  unfold sumGas
  rw [i64_id (by omega) (by omega), if_neg (by omega)]
  unfold sumGas
  congr 1
  omega

theorem grow_two (hok : Ok c) (hb : Bounded c) {io il oo ol : U256} {o s o' s' : BitVec 64} (hr : Range io il o s) (hr' : Range oo ol o' s') :
    (grow c.memory o s).length ≤ 2 ^ 30 ∧ (grow (grow c.memory o s) o' s').length ≤ 2 ^ 30 := by
  have h1 := grow_length hok hb hr
  refine ⟨h1, ?_⟩
  obtain ⟨g1, g2, g3⟩ := range_grow hok hb hr
  obtain ⟨k1, k2, k3⟩ := grow_ok h1 g1 hr'.size hr'.pos
  rw [k2]
  unfold Mem.sizeAfter
  rw [memOf_size g1]
  split
  · exact h1
  · rename_i hz
    have := (hr'.pos hz).2
    unfold words
    omega

/-- A call with the operands taken. -/
theorem call_core {op : Nat} {v : CallVariant} {gas target value io il oo ol : U256} {base addr : Nat} {ic oc : Int} {o s o' s' : BitVec 64}
    (hv : Variant op v value) (hr : revisionOf x.revision = some rev) (hst : ¬ (v = .call ∧ value.toNat ≠ 0 ∧ x.readOnly = true))
    (hc : accCost x d.world (bytes20 target) = base + addr) (ha : addr ≤ 2600) (hg : (base : Int) ≤ d.gas)
    (hok : Ok { d with gas := d.gas - (base : Int) }) (hb : Bounded { d with gas := d.gas - (base : Int) })
    (hE : expansionCosts d.memory io il = (ic, o, s)) (hE' : expansionCosts d.memory oo ol = (oc, o', s')) :
    Does (pay { d with gas := d.gas - (base : Int) } (sumGas [if ic < oc then oc else ic, if value ≠ 0 then 9000 else 0,
        if value ≠ 0 ∧ d.world.isEmpty (bytes20 target) = true ∧ op ≠ 0xf2 then 25000 else 0, (addr : Int)] 0) (callRest op x gas target value o s o' s'))
      (callWith (testFrame keccak x c rev) v gas (bytes20 target) value io il oo ol (frameState d)) := by
  refine does_like (call_like hr hst hc hg) ?_
  have hvz : value ≠ 0 ↔ value.toNat ≠ 0 := by rw [ne_eq, ne_eq, ← BitVec.toNat_inj]; rfl
  have hop : op ≠ 0xf2 ↔ v ≠ .callcode := by
    rcases hv with ⟨rfl, rfl⟩ | ⟨rfl, rfl⟩ | ⟨rfl, rfl, rfl⟩ | ⟨rfl, rfl, rfl⟩ <;> decide
  have hp : (if value ≠ 0 then (9000 : Int) else 0) = ((valueCost value : Nat) : Int) := by
    unfold valueCost
    by_cases h : value.toNat ≠ 0
    · rw [if_pos h, if_pos (hvz.2 h)]; rfl
    · rw [if_neg h, if_neg (fun h' => h (hvz.1 h'))]; rfl
  have hn : (if value ≠ 0 ∧ d.world.isEmpty (bytes20 target) = true ∧ op ≠ 0xf2 then (25000 : Int) else 0) = ((newCost v d.world (bytes20 target) value : Nat) : Int) := by
    unfold newCost
    by_cases h : v ≠ .callcode ∧ value.toNat ≠ 0 ∧ d.world.isEmpty (bytes20 target) = true
    · rw [if_pos h, if_pos ⟨hvz.2 h.2.1, h.2.2, hop.2 h.1⟩]; rfl
    · rw [if_neg h, if_neg (fun h' => h ⟨hop.1 h'.2.2, hvz.1 h'.1, h'.2.1⟩)]; rfl
  have hp1 : valueCost value ≤ 9000 := by unfold valueCost; split <;> omega
  have hn1 : newCost v d.world (bytes20 target) value ≤ 25000 := by unfold newCost; split <;> omega
  have hmax : (if ic < oc then oc else ic) = max ic oc := by split <;> omega
  rw [hp, hn, hmax]
  rcases exp_two hok hb hE hE' with ⟨hrg, hrg', e, hlt⟩ | ⟨⟨h1, h2, h3⟩, h4⟩
  · rw [e, sum_four (by omega)]
    unfold State.touch2
    have hgb : d.gas - (base : Int) ≤ 1099511627776 := by
      unfold Bounded at hb
      have h0 : 0 ≤ d.gas - (base : Int) := hok.gas
      have hb' : (d.gas - (base : Int)).toNat + memGas (words d.memory.length) ≤ 1099511627776 := hb
      omega
    refine does_pay hok rfl fun hle hok2 => ?_
    obtain ⟨m1, m2⟩ := grow_two hok hb hrg hrg'
    exact call_rest hv hok2 (Int.le_trans (Int.sub_le_self _ (Int.natCast_nonneg _)) hgb) (bounded_length (c := { d with gas := d.gas - (base : Int) }) hb) m1 m2 hrg hrg' rfl
  · exact does_broke (sum_far' h1 h2 h3) (touch2_broke (c := { d with gas := d.gas - (base : Int) }) (Nat.lt_of_lt_of_le h4 (Nat.le_add_right _ _)))

/-- Seven and six operands. -/
theorem stack6 {l : List U256} (h : 6 ≤ l.length) : ∃ a b e f g i r, l = a :: b :: e :: f :: g :: i :: r := by
  obtain ⟨a, b, e, f, r, rfl⟩ := stack4 (show 4 ≤ l.length by omega)
  obtain ⟨g, i, r, rfl⟩ := stack2 (show 2 ≤ r.length by simpa using h)
  exact ⟨a, b, e, f, g, i, r, rfl⟩

theorem stack7 {l : List U256} (h : 7 ≤ l.length) : ∃ a b e f g i j r, l = a :: b :: e :: f :: g :: i :: j :: r := by
  obtain ⟨a, b, e, f, g, i, r, rfl⟩ := stack6 (show 6 ≤ l.length by omega)
  obtain ⟨j, r, rfl⟩ := stack1 (show 1 ≤ r.length by simpa using h)
  exact ⟨a, b, e, f, g, i, j, r, rfl⟩

theorem param_two {a b e : U256} {r : List U256} (h : c.stack = a :: b :: e :: r) : param c 1 = some b ∧ param c 2 = some e := by
  unfold param; rw [h]; exact ⟨rfl, rfl⟩

theorem param_one {a b : U256} {r : List U256} (h : c.stack = a :: b :: r) : param c 1 = some b := by
  unfold param; rw [h]; rfl

theorem check_paramIs {i : Nat} {v w : U256} (h : param c i = some w) : (Cond.paramEq i v).check x c = some true ↔ w = v := by
  unfold Cond.check
  dsimp only
  rw [h]
  simp

theorem check_paramNe {i : Nat} {v w : U256} (h : param c i = some w) : (Cond.paramNe i v).check x c = some true ↔ w ≠ v := by
  unfold Cond.check
  dsimp only
  rw [h]
  simp

/-- The price of the access under the conditions of a rule. -/
theorem acc_split {rv : Int} {warm : Bool} {a : Address} (h0 : 0 ≤ x.revision) (hrv : x.revision = rv) (hw : c.world.warmAccounts a = warm) :
    accCost x c.world a = (if rv = 0 then 700 else 0) + (if rv = 0 then 0 else if warm = true then 100 else 2600) := by
  unfold accCost
  rw [hrv, hw]
  by_cases h : rv = 0
  · rw [if_neg (by omega), if_pos h, if_pos h]
  · rw [if_pos (by omega), if_neg h, if_neg h, Nat.zero_add]

theorem cond_warm {ks : List Cond} {warm : Bool} {a : U256} (hk : Holds ks x c) (hm : (if warm = true then Cond.addressWarm 1 else .addressCold 1) ∈ ks) (hp : param c 1 = some a) :
    c.world.warmAccounts (bytes20 a) = warm := by
  have := hk _ hm
  cases warm
  · exact (check_warm hp).2.1 this
  · exact (check_warm hp).1.1 this

/-- CALL and CALLCODE. -/
theorem sounds_call7 {op : Nat} {I : Instr} {v : CallVariant} (hop : (op = 0xf1 ∧ I = .call ∧ v = .call) ∨ (op = 0xf2 ∧ I = .callcode ∧ v = .callcode)) (rv : Int) (warm zero static : Bool) :
    Sounds keccak (getRulesForCall op rv warm zero (decide (op = 0xf1) && static && !zero) static) := by
  have hdec : decode op = some I := by rcases hop with ⟨rfl, rfl, _⟩ | ⟨rfl, rfl, _⟩ <;> rfl
  have hI : I.pops = 7 ∧ I.pushes = 1 ∧ I.since = 0 ∧ I.writes = false ∧ I.baseGas = 0 ∧ I.length = 1 ∧ I ≠ .sstore := by
    rcases hop with ⟨_, rfl, _⟩ | ⟨_, rfl, _⟩ <;> decide
  obtain ⟨i1, i2, i3, i4, i5, i6, i7⟩ := hI
  have hval : (op = 0xf1 ∨ op = 0xf2) := by rcases hop with ⟨rfl, _, _⟩ | ⟨rfl, _, _⟩ <;> simp
  have ho : op ≠ 0 := by rcases hop with ⟨rfl, _, _⟩ | ⟨rfl, _, _⟩ <;> decide
  have hV : ∀ value, Variant op v value := by
    intro value
    rcases hop with ⟨h1, _, h2⟩ | ⟨h1, _, h2⟩
    · exact .inl ⟨h1, h2⟩
    · exact .inr (.inl ⟨h1, h2⟩)
  have run : ∀ x c rev g a value io il oo ol r, At x c rev op → c.stack = g :: a :: value :: io :: il :: oo :: ol :: r →
      execInstrEip (testFrame keccak x c rev) I (frameState c) = callWith (testFrame keccak x c rev) v g (bytes20 a) value io il oo ol (frameState { moved c with stack := r }) := by
    intro x c rev g a value io il oo ol r hat hst
    have h3 := hat.scope.stack
    have hlen : c.stack.length = r.length + 7 := by rw [hst]; rfl
    rw [exec_free hat ho (I := I) (by rw [i3]; exact Nat.not_lt_zero _) (fun h => by rw [i4] at h; cases h.1) i5 i6 (by omega) (by omega)]
    have he : execEip (testFrame keccak x c rev) c.pc.toNat I (frameState (moved c)) = Spec.call (testFrame keccak x c rev) v (frameState (moved c)) := by
      rcases hop with ⟨_, rfl, rfl⟩ | ⟨_, rfl, rfl⟩ <;> rfl
    have he2 : Spec.call (testFrame keccak x c rev) v (frameState (moved c)) = (frameState (moved c)).pop3 fun g a value s => s.pop4 fun io il oo ol s =>
        callWith (testFrame keccak x c rev) v g (Word.toAddress a) value io il oo ol s := by
      unfold Spec.call
      rw [if_neg (show ¬ (testFrame keccak x c rev).msg.depth > 1024 from (by decide : ¬ ((0 : Int) > 1024)))]
      rcases hop with ⟨_, rfl, rfl⟩ | ⟨_, rfl, rfl⟩ <;> rfl
    rw [he, he2, pop3_eq (c := moved c) hst, pop4_eq (c := { moved c with stack := io :: il :: oo :: ol :: r }) rfl, l_bytes20]
  unfold getRulesForCall
  refine sounds_rulesFor (I := I) hdec (by rw [i1]; simp only [hval, if_true]; omega) (by simp only [hval, if_true]; omega) ?_ ?_
  · intro x c rev hat hk hlt
    by_cases hs : c.stack.length < 7
    · exact exec_refused (.inr (.inr (.inl (by rw [i1]; exact hs))))
    · obtain ⟨g, a, value, io, il, oo, ol, r, hst⟩ := stack7 (show 7 ≤ c.stack.length by omega)
      rw [run x c rev g a value io il oo ol r hat hst]
      have hrv := check_revision.1 (hk (.revision rv rv) (by simp))
      have hw := cond_warm hk (warm := warm) (by simp) (param_one hst)
      have hacc := acc_split (c := c) (rv := rv) hat.scope.revision.1 (by omega) hw
      refine call_broke (d := { moved c with stack := r }) hat.rev hat.scope.gas.1 ?_
      show c.gas < (accCost x c.world (bytes20 a) : Int)
      rw [hacc]
      have hlt' : c.gas < if rv = 0 then (700 : Int) else 0 := hlt
      have := hat.scope.gas.1
      by_cases hr0 : rv = 0
      · rw [if_pos hr0] at hlt'; rw [if_pos hr0, if_pos hr0]; omega
      · rw [if_neg hr0] at hlt'; omega
  · intro x c rev hat hk hgas hst7 _
    have hst7' : 7 ≤ c.stack.length := by simpa only [hval, if_true] using hst7
    obtain ⟨g, a, value, io, il, oo, ol, r, hst⟩ := stack7 hst7'
    rw [run x c rev g a value io il oo ol r hat hst]
    have hrv := check_revision.1 (hk (.revision rv rv) (by simp))
    have hw := cond_warm hk (warm := warm) (by simp) (param_one hst)
    have hacc := acc_split (c := c) (rv := rv) hat.scope.revision.1 (by omega) hw
    have hro := check_readOnly.1 (hk (.readOnly static) (by simp))
    have hz : (if zero = true then Cond.paramEq 2 0 else .paramNe 2 0).check x c = some true := hk _ (by simp [hval])
    have hz' : zero = true ↔ value = 0 := by
      cases zero
      · have := (check_paramNe (param_two hst).2).1 hz
        exact ⟨fun h => by (cases h), fun h => absurd h this⟩
      · have := (check_paramIs (param_two hst).2).1 hz
        simp [this]
    by_cases hf : (decide (op = 0xf1) && static && !zero) = true
    · rw [hf]
      simp only [Bool.and_eq_true, decide_eq_true_eq, Bool.not_eq_true'] at hf
      refine does_fail (call_static ⟨?_, ?_, ?_⟩) rfl rfl
      · rcases hop with ⟨_, _, h⟩ | ⟨h, _, _⟩
        · exact h
        · rw [h] at hf; exact absurd hf.1.1 (by decide)
      · intro h
        have : value = 0 := BitVec.eq_of_toNat_eq h
        rw [hz'.2 this] at hf
        cases hf.2
      · rw [hro]; exact hf.1.2
    · have hsv : ¬ (v = .call ∧ value.toNat ≠ 0 ∧ x.readOnly = true) := by
        rintro ⟨h1, h2, h3⟩
        apply hf
        have hop1 : op = 0xf1 := by
          rcases hop with ⟨h, _, _⟩ | ⟨_, _, h⟩
          · exact h
          · rw [h] at h1; cases h1
        have hst1 : static = true := by rw [← hro]; exact h3
        have hzf : zero = false := by
          cases zero
          · rfl
          · exact absurd (hz'.1 rfl) (fun h => h2 (by rw [h]; rfl))
        simp [hop1, hst1, hzf]
      rw [Bool.eq_false_iff.2 hf]
      have hbase : ((if rv = 0 then 700 else 0 : Nat) : Int) = (if rv = 0 then (700 : Int) else 0) := by split <;> rfl
      have haddr : ((if rv = 0 then 0 else if warm = true then 100 else 2600 : Nat) : Int) = (if rv = 0 then (0 : Int) else if warm = true then 100 else 2600) := by
        split
        · rfl
        · split <;> rfl
      have hle : ((if rv = 0 then 700 else 0 : Nat) : Int) ≤ c.gas := by rw [hbase]; exact hgas
      obtain ⟨hok, hb⟩ := next_ok hat hle
      rcases hE : expansionCosts c.memory io il with ⟨ic, o, s⟩
      rcases hE' : expansionCosts c.memory oo ol with ⟨oc, o', s'⟩
      have := call_core (keccak := keccak) (c := c) (gas := g) (d := { moved c with stack := r }) (hV value) hat.rev hsv hacc (by split <;> (try split) <;> omega) hle
        (ok_stack hok r) hb hE hE'
      refine cast ?_ this
      congr 1
      rw [hbase, haddr]
      show _ = callEffect (if rv = 0 then 0 else if warm = true then 100 else 2600) op x { c with gas := c.gas - (if rv = 0 then (700 : Int) else 0), pc := c.pc + 1 }
      unfold callEffect
      rw [pop_eq (c := { c with gas := c.gas - (if rv = 0 then (700 : Int) else 0), pc := c.pc + 1 }) hst]
      simp only [pop_mk, Option.bind_eq_bind, Option.bind_some, if_pos hval, hE, hE']
      rfl

/-- STATICCALL and DELEGATECALL. -/
theorem sounds_call6 {op : Nat} {I : Instr} {v : CallVariant} (hop : (op = 0xfa ∧ I = .staticcall ∧ v = .staticcall) ∨ (op = 0xf4 ∧ I = .delegatecall ∧ v = .delegatecall)) (rv : Int) (warm zero static : Bool) :
    Sounds keccak (getRulesForCall op rv warm zero (decide (op = 0xf1) && static && !zero) static) := by
  have hdec : decode op = some I := by rcases hop with ⟨rfl, rfl, _⟩ | ⟨rfl, rfl, _⟩ <;> rfl
  have hI : I.pops = 6 ∧ I.pushes = 1 ∧ I.since = 0 ∧ I.writes = false ∧ I.baseGas = 0 ∧ I.length = 1 ∧ I ≠ .sstore := by
    rcases hop with ⟨_, rfl, _⟩ | ⟨_, rfl, _⟩ <;> decide
  obtain ⟨i1, i2, i3, i4, i5, i6, i7⟩ := hI
  have hval : ¬ (op = 0xf1 ∨ op = 0xf2) := by rcases hop with ⟨rfl, _, _⟩ | ⟨rfl, _, _⟩ <;> decide
  have ho : op ≠ 0 := by rcases hop with ⟨rfl, _, _⟩ | ⟨rfl, _, _⟩ <;> decide
  have hV : Variant op v 0 := by
    rcases hop with ⟨h1, _, h2⟩ | ⟨h1, _, h2⟩
    · exact .inr (.inr (.inl ⟨h1, h2, rfl⟩))
    · exact .inr (.inr (.inr ⟨h1, h2, rfl⟩))
  have run : ∀ x c rev g a io il oo ol r, At x c rev op → c.stack = g :: a :: io :: il :: oo :: ol :: r →
      execInstrEip (testFrame keccak x c rev) I (frameState c) = callWith (testFrame keccak x c rev) v g (bytes20 a) 0 io il oo ol (frameState { moved c with stack := r }) := by
    intro x c rev g a io il oo ol r hat hst
    have h3 := hat.scope.stack
    have hlen : c.stack.length = r.length + 6 := by rw [hst]; rfl
    rw [exec_free hat ho (I := I) (by rw [i3]; exact Nat.not_lt_zero _) (fun h => by rw [i4] at h; cases h.1) i5 i6 (by omega) (by omega)]
    have he : execEip (testFrame keccak x c rev) c.pc.toNat I (frameState (moved c)) = Spec.call (testFrame keccak x c rev) v (frameState (moved c)) := by
      rcases hop with ⟨_, rfl, rfl⟩ | ⟨_, rfl, rfl⟩ <;> rfl
    have he2 : Spec.call (testFrame keccak x c rev) v (frameState (moved c)) = (frameState (moved c)).pop2 fun g a s => s.pop4 fun io il oo ol s =>
        callWith (testFrame keccak x c rev) v g (Word.toAddress a) 0 io il oo ol s := by
      unfold Spec.call
      rw [if_neg (show ¬ (testFrame keccak x c rev).msg.depth > 1024 from (by decide : ¬ ((0 : Int) > 1024)))]
      rcases hop with ⟨_, rfl, rfl⟩ | ⟨_, rfl, rfl⟩ <;> rfl
    rw [he, he2, pop2_eq (c := moved c) hst, pop4_eq (c := { moved c with stack := io :: il :: oo :: ol :: r }) rfl, l_bytes20]
  unfold getRulesForCall
  refine sounds_rulesFor (I := I) hdec (by rw [i1]; simp only [hval, if_false]; omega) (by simp only [hval, if_false]; omega) ?_ ?_
  · intro x c rev hat hk hlt
    by_cases hs : c.stack.length < 6
    · exact exec_refused (.inr (.inr (.inl (by rw [i1]; exact hs))))
    · obtain ⟨g, a, io, il, oo, ol, r, hst⟩ := stack6 (show 6 ≤ c.stack.length by omega)
      rw [run x c rev g a io il oo ol r hat hst]
      have hrv := check_revision.1 (hk (.revision rv rv) (by simp))
      have hw := cond_warm hk (warm := warm) (by simp) (param_one hst)
      have hacc := acc_split (c := c) (rv := rv) hat.scope.revision.1 (by omega) hw
      refine call_broke (d := { moved c with stack := r }) hat.rev hat.scope.gas.1 ?_
      show c.gas < (accCost x c.world (bytes20 a) : Int)
      rw [hacc]
      have hlt' : c.gas < if rv = 0 then (700 : Int) else 0 := hlt
      have := hat.scope.gas.1
      by_cases hr0 : rv = 0
      · rw [if_pos hr0] at hlt'; rw [if_pos hr0, if_pos hr0]; omega
      · rw [if_neg hr0] at hlt'; omega
  · intro x c rev hat hk hgas hst7 _
    have hst7' : 6 ≤ c.stack.length := by simpa only [hval, if_false] using hst7
    obtain ⟨g, a, io, il, oo, ol, r, hst⟩ := stack6 hst7'
    rw [run x c rev g a io il oo ol r hat hst]
    have hrv := check_revision.1 (hk (.revision rv rv) (by simp))
    have hw := cond_warm hk (warm := warm) (by simp) (param_one hst)
    have hacc := acc_split (c := c) (rv := rv) hat.scope.revision.1 (by omega) hw
    have hsv : ¬ (v = .call ∧ (0 : U256).toNat ≠ 0 ∧ x.readOnly = true) := fun h => h.2.1 rfl
    have hf : (decide (op = 0xf1) && static && !zero) = false := by
      have : op ≠ 0xf1 := fun h => hval (.inl h)
      simp [this]
    rw [hf]
    have hbase : ((if rv = 0 then 700 else 0 : Nat) : Int) = (if rv = 0 then (700 : Int) else 0) := by split <;> rfl
    have haddr : ((if rv = 0 then 0 else if warm = true then 100 else 2600 : Nat) : Int) = (if rv = 0 then (0 : Int) else if warm = true then 100 else 2600) := by
      split
      · rfl
      · split <;> rfl
    have hle : ((if rv = 0 then 700 else 0 : Nat) : Int) ≤ c.gas := by rw [hbase]; exact hgas
    obtain ⟨hok, hb⟩ := next_ok hat hle
    rcases hE : expansionCosts c.memory io il with ⟨ic, o, s⟩
    rcases hE' : expansionCosts c.memory oo ol with ⟨oc, o', s'⟩
    have := call_core (keccak := keccak) (c := c) (gas := g) (d := { moved c with stack := r }) (hV) hat.rev hsv hacc (by split <;> (try split) <;> omega) hle
      (ok_stack hok r) hb hE hE'
    refine cast ?_ this
    congr 1
    rw [hbase, haddr]
    show _ = callEffect (if rv = 0 then 0 else if warm = true then 100 else 2600) op x { c with gas := c.gas - (if rv = 0 then (700 : Int) else 0), pc := c.pc + 1 }
    unfold callEffect
    rw [pop_eq (c := { c with gas := c.gas - (if rv = 0 then (700 : Int) else 0), pc := c.pc + 1 }) hst]
    simp only [pop_mk, Option.bind_eq_bind, Option.bind_some, if_neg hval, hE, hE']
    rfl

end Tosca.Proofs.Ct

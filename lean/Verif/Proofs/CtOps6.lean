import Verif.Proofs.CtOps5

/-!
# Rules about accounts and storage
-/

namespace Tosca.Proofs.Ct

open Tosca.Spec Tosca.Spec.Go Tosca.Go Tosca.Model.Go Tosca.Model.Ct Tosca.Proofs.Lfvm
open Tosca.Model.Lfvm (isUint64 uint64 ofU64 bytes20 bytes32 ofBytes20 setBytes)

variable {c d : S} {t : State World} {keccak : List Byte → U256} {x : Model.Ct.Fixed} {rev : Revision}

/-! ## Instructions without base gas -/

/-- The state after the program counter has moved. -/
def moved (c : S) : S := { c with pc := c.pc + 1 }

theorem frame_moved {o : Nat} (h : At x c rev o) (ho : o ≠ 0) : frameState (moved c) = { frameState c with gas := (frameState c).gas - 0, pc := (frameState c).pc + 1 } := by
  show ({ frameState c with pc := (c.pc + 1).toNat } : State World) = _
  rw [pc_next h ho]
  rfl

theorem exec_free {o : Nat} (h : At x c rev o) (ho : o ≠ 0) {I : Instr} (h1 : ¬ rev < I.since) (h2 : ¬ (I.writes = true ∧ x.readOnly = true)) (hg : I.baseGas = 0)
    (hl : I.length = 1) (h3 : I.pops ≤ c.stack.length) (h4 : c.stack.length + I.pushes ≤ 1024 + I.pops) :
    execInstrEip (testFrame keccak x c rev) I (frameState c) = execEip (testFrame keccak x c rev) c.pc.toNat I (frameState (moved c)) := by
  rw [exec_done h1 (by rw [frame_static]; exact h2) (by exact h3) (by exact h4) (by rw [hg]; exact Nat.zero_le _), frame_moved h ho, hg, hl]
  rfl

theorem charge_eq {n : Nat} (h : (n : Int) ≤ d.gas) (K : State World → State World) :
    (frameState d).charge n K = K (frameState { d with gas := d.gas - (n : Int) }) := by
  unfold State.charge
  rw [if_neg (by show ¬ d.gas.toNat < n; omega), frame_gas]

theorem charge_broke {n : Nat} (h0 : 0 ≤ d.gas) (h : d.gas < (n : Int)) (K : State World → State World) : Failed ((frameState d).charge n K) := by
  unfold State.charge
  rw [if_pos (by show d.gas.toNat < n; omega)]
  exact failed_fail _ _

/-! ## Access to accounts -/

/-- The price of an access. -/
def accCost (x : Model.Ct.Fixed) (w : World) (a : Address) : Nat := if x.revision ≥ 1 then (if w.warmAccounts a = true then 100 else 2600) else 700

/-- The world after an access. -/
def touched (x : Model.Ct.Fixed) (w : World) (a : Address) : World := if x.revision ≥ 1 then w.markWarm a else w

theorem markWarm_warm {w : World} {a : Address} (h : w.warmAccounts a = true) : w.markWarm a = w := by
  unfold World.markWarm
  have : (fun b => if b = a then true else w.warmAccounts b) = w.warmAccounts := by
    funext b
    split
    · rename_i hb; rw [hb, h]
    · rfl
  rw [this]

theorem markWarmKey_warm {w : World} {k : U256} (h : w.warmKeys k = true) : w.markWarmKey k = w := by
  unfold World.markWarmKey
  have : (fun b => if b = k then true else w.warmKeys b) = w.warmKeys := by
    funext b
    split
    · rename_i hb; rw [hb, h]
    · rfl
  rw [this]

theorem berlin_iff (hr : revisionOf x.revision = some rev) : rev ≥ BERLIN ↔ x.revision ≥ 1 := by
  have := rev_eq hr
  show (8 : Nat) ≤ rev ↔ _
  omega

theorem london_iff (hr : revisionOf x.revision = some rev) : rev < LONDON ↔ x.revision < 2 := by
  have := rev_eq hr
  show Nat.lt rev 9 ↔ _
  rw [Nat.lt_eq]
  omega

theorem shanghai_iff (hr : revisionOf x.revision = some rev) : rev ≥ SHANGHAI ↔ x.revision ≥ 4 := by
  have := rev_eq hr
  show (11 : Nat) ≤ rev ↔ _
  omega

theorem access_eq (hr : revisionOf x.revision = some rev) (a : Address) (K : Nat → State World → State World) :
    accountAccess (testFrame keccak x c rev) a (frameState d) K = K (accCost x d.world a) (frameState { d with world := touched x d.world a }) := by
  unfold accountAccess accCost touched
  by_cases hb : x.revision ≥ 1
  · rw [if_pos (show (testFrame keccak x c rev).rev ≥ BERLIN from (berlin_iff hr).2 hb), if_pos hb, if_pos hb]
    show K (if (if d.world.warmAccounts a = true then AccessStatus.warm else AccessStatus.cold) = .warm then 100 else 2600) _ = _
    by_cases hw : d.world.warmAccounts a = true
    · rw [if_pos hw, if_pos hw]; rfl
    · rw [if_neg hw, if_neg hw]; rfl
  · rw [if_neg (show ¬ (testFrame keccak x c rev).rev ≥ BERLIN from fun h => hb ((berlin_iff hr).1 h)), if_neg hb, if_neg hb]

/-- What the conditions on an access say. -/
theorem check_warm {i : Nat} {a : U256} (h : param c i = some a) :
    ((Cond.addressWarm i).check x c = some true ↔ c.world.warmAccounts (bytes20 a) = true) ∧
    ((Cond.addressCold i).check x c = some true ↔ c.world.warmAccounts (bytes20 a) = false) := by
  unfold Cond.check
  dsimp only
  rw [h]
  simp

theorem sounds_account {i : Instruction} {I : Instr} {g : Nat} {value : World → Address → U256} {f : Address → World → U256 × World} (hd : decode i.op = some I)
    (hpi : i.pops = 1) (hp : I.pops = 1) (hqi : i.pushes = 1) (hq : I.pushes = 1) (hg : I.baseGas = 0) (hl : I.length = 1) (h1 : I.since = 0) (h2 : I.writes = false) (hne : I ≠ .sstore) (ho : i.op ≠ 0)
    (hsg : i.staticGas = (g : Int))
    (he : ∀ x c rev at_ s, exec (testFrame keccak x c rev) at_ I s = Spec.accountOp (testFrame keccak x c rev) f s)
    (hf : ∀ x w a, f a (touched x w a) = (value w a, touched x w a))
    (H : ∀ x c a r, 0 ≤ x.revision → Holds i.conditions x c → c.stack = a :: r → accCost x c.world (bytes20 a) = g ∧
      i.effect x (next c g) = some { next c g with stack := value c.world (bytes20 a) :: r, world := touched x c.world (bytes20 a) }) : Sounds keccak (rulesFor i) := by
  have run : ∀ x c rev a r, At x c rev i.op → c.stack = a :: r → execInstrEip (testFrame keccak x c rev) I (frameState c) =
      (frameState { moved c with stack := r, world := touched x c.world (bytes20 a) }).charge (accCost x c.world (bytes20 a)) fun s =>
        s.ask (f (bytes20 a)) fun v s => s.push v := by
    intro x c rev a r hat hst
    have h3 := hat.scope.stack
    have hlen : c.stack.length = r.length + 1 := by rw [hst]; rfl
    rw [exec_free hat ho (by rw [h1]; exact Nat.not_lt_zero _) (fun h => by rw [h2] at h; cases h.1) hg hl (by omega) (by omega)]
    unfold execEip
    rw [if_neg hne, he]
    unfold Spec.accountOp
    rw [pop1_eq (c := moved c) hst, l_bytes20, access_eq (d := { moved c with stack := r }) hat.rev]
    rfl
  refine sounds_rulesFor hd (by omega) (by omega) ?_ ?_
  · intro x c rev hat hk hlt
    by_cases hs : c.stack.length < 1
    · exact exec_refused (.inr (.inr (.inl (by show c.stack.length < _; omega))))
    · obtain ⟨a, r, hst⟩ := stack1 (show 1 ≤ c.stack.length by omega)
      rw [run x c rev a r hat hst, (H x c a r hat.scope.revision.1 hk hst).1]
      exact charge_broke (d := { moved c with stack := r, world := touched x c.world (bytes20 a) }) hat.scope.gas.1 (by rw [hsg] at hlt; exact hlt) _
  · intro x c rev hat hk hgas hst2 _
    rw [hsg] at hgas
    rw [hpi] at hst2
    obtain ⟨a, r, hst⟩ := stack1 hst2
    obtain ⟨hA, hB⟩ := H x c a r hat.scope.revision.1 hk hst
    rw [run x c rev a r hat hst, hA, charge_eq (by exact hgas)]
    have e : ({ c with gas := c.gas - i.staticGas, pc := c.pc + 1 } : S) = next c g := by rw [hsg]; rfl
    rw [e, hB]
    have hok := (next_ok hat hgas).1
    refine does_next ⟨hok.status, hok.result, hok.memory, hok.gas, hok.refund⟩ ?_
    have hfx := hf x c.world (bytes20 a)
    unfold State.ask
    show State.push { frameState { next c g with stack := r, world := touched x c.world (bytes20 a) } with host := (f (bytes20 a) (touched x c.world (bytes20 a))).2 }
      (f (bytes20 a) (touched x c.world (bytes20 a))).1 = _
    rw [hfx]
    rfl

theorem touched_early {a : Address} {w : World} (h0 : 0 ≤ x.revision) (h : (Cond.revision 0 0).check x c = some true) : accCost x w a = 700 ∧ touched x w a = w := by
  have := check_revision.1 h
  unfold accCost touched
  rw [if_neg (by omega), if_neg (by omega)]
  exact ⟨rfl, rfl⟩

theorem touched_warm {a : Address} {w : World} (h : x.revision ≥ 1) (hw : w.warmAccounts a = true) : accCost x w a = 100 ∧ touched x w a = w := by
  unfold accCost touched
  rw [if_pos h, if_pos h, if_pos hw, markWarm_warm hw]
  exact ⟨rfl, rfl⟩

theorem touched_cold {a : Address} {w : World} (h : x.revision ≥ 1) (hw : w.warmAccounts a = false) : accCost x w a = 2600 ∧ touched x w a = w.markWarm a := by
  unfold accCost touched
  rw [if_pos h, if_pos h, if_neg (by rw [hw]; simp)]
  exact ⟨rfl, rfl⟩

theorem sounds_accountOp {op : Nat} {I : Instr} {value : World → Address → U256} {f : Address → World → U256 × World} (hd : decode op = some I) (hp : I.pops = 1)
    (hq : I.pushes = 1) (hg : I.baseGas = 0) (hl : I.length = 1) (h1 : I.since = 0) (h2 : I.writes = false) (hne : I ≠ .sstore) (ho : op ≠ 0)
    (he : ∀ x c rev at_ s, exec (testFrame keccak x c rev) at_ I s = Spec.accountOp (testFrame keccak x c rev) f s)
    (hf : ∀ x w a, f a (touched x w a) = (value w a, touched x w a)) : Sounds keccak (Model.Ct.accountOp op value) := by
  unfold Model.Ct.accountOp
  refine sounds_append (sounds_append ?_ ?_) ?_
  · refine sounds_account (I := I) (g := 2600) hd rfl hp rfl hq hg hl h1 h2 hne ho rfl he hf ?_
    intro x c a r h0 hk hst
    have hrev := check_revision.1 (hk (.revision 1 5) (by simp))
    have hw := (check_warm (param0 hst)).2.1 (hk (.addressCold 0) (by simp))
    obtain ⟨e1, e2⟩ := touched_cold (x := x) (w := c.world) hrev.1 hw
    refine ⟨e1, ?_⟩
    rw [e2]
    simp only [pop_eq (c := next c _) hst, Option.bind_eq_bind, Option.bind_some]
    rfl
  · refine sounds_account (I := I) (g := 100) hd rfl hp rfl hq hg hl h1 h2 hne ho rfl he hf ?_
    intro x c a r h0 hk hst
    have hrev := check_revision.1 (hk (.revision 1 5) (by simp))
    have hw := (check_warm (param0 hst)).1.1 (hk (.addressWarm 0) (by simp))
    obtain ⟨e1, e2⟩ := touched_warm (x := x) (w := c.world) hrev.1 hw
    refine ⟨e1, ?_⟩
    rw [e2]
    simp only [pop_eq (c := next c _) hst, Option.bind_eq_bind, Option.bind_some]
    rfl
  · refine sounds_account (I := I) (g := 700) hd rfl hp rfl hq hg hl h1 h2 hne ho rfl he hf ?_
    intro x c a r h0 hk hst
    obtain ⟨e1, e2⟩ := touched_early (w := c.world) (a := bytes20 a) h0 (hk (.revision 0 0) (by simp))
    refine ⟨e1, ?_⟩
    rw [e2]
    simp only [pop_eq (c := next c _) hst, Option.bind_eq_bind, Option.bind_some]
    rfl

theorem touched_account (x : Model.Ct.Fixed) (w : World) (a b : Address) : (touched x w a).account b = w.account b := by
  unfold touched
  split <;> rfl

theorem sounds_balance : Sounds keccak (Model.Ct.accountOp 0x31 fun w a => (w.account a).balance) := by
  refine sounds_accountOp (I := .balance) (f := fun a w => ((w.account a).balance, w)) rfl rfl rfl rfl rfl rfl rfl (by decide) (by decide) (fun _ _ _ _ _ => rfl) ?_
  intro x w a
  rw [touched_account]

theorem sounds_extcodesize : Sounds keccak (Model.Ct.accountOp 0x3b fun w a => ofU64 (BitVec.ofNat 64 (w.account a).code.data.length)) := by
  refine sounds_accountOp (I := .extcodesize) (f := fun a w => (Word.ofN (w.account a).code.data.length, w)) rfl rfl rfl rfl rfl rfl rfl (by decide) (by decide)
    (fun _ _ _ _ _ => rfl) ?_
  intro x w a
  rw [touched_account, l_ofN64 (by have := (w.account a).code.short; omega)]

theorem absent_iff (w : World) (a : Address) : Absent (ctDb x) a w ↔ w.isEmpty a = true := by
  unfold Absent World.isEmpty
  rw [decide_eq_true_iff]
  show (0 : BitVec 64) = 0 ∧ (w.account a).balance = 0 ∧ (w.account a).code.data.length = 0 ↔ _
  constructor
  · rintro ⟨_, h1, h2⟩
    rcases e : w.account a with ⟨b, ⟨l, hl⟩⟩
    rw [e] at h1 h2
    dsimp only at h1 h2
    subst h1
    have : l = [] := List.eq_nil_of_length_eq_zero h2
    subst this
    rfl
  · intro h
    rw [h]
    exact ⟨rfl, rfl, rfl⟩

theorem touched_empty (x : Model.Ct.Fixed) (w : World) (a b : Address) : (touched x w a).isEmpty b = w.isEmpty b := by
  unfold World.isEmpty
  rw [touched_account]

theorem sounds_extcodehash : Sounds keccak extcodehash := by
  unfold extcodehash
  refine sounds_flatMap fun rv hrv => sounds_flatMap fun warm _ => sounds_flatMap fun em _ => ?_
  unfold extcodehashFor
  refine sounds_account (I := .extcodehash) (g := if rv < 1 then 700 else if warm = true then 100 else 2600)
    (value := fun w a => if w.isEmpty a = true then 0 else w.codeHash a) (f := fun a w => (if Absent (ctDb { revision := 0, code := [] }) a w then 0 else w.codeHash a, w))
    rfl rfl rfl rfl rfl rfl rfl rfl rfl (by decide) (by show (0x3f : Nat) ≠ 0; decide) ?_ (fun _ _ _ _ _ => rfl) ?_ ?_
  · show (if rv < 1 then (700 : Int) else if warm = true then 100 else 2600) = _
    split
    · rfl
    · split <;> rfl
  · intro x w a
    have := absent_iff (x := { revision := 0, code := [] }) (touched x w a) a
    rw [touched_empty] at this
    by_cases h : w.isEmpty a = true
    · rw [if_pos (this.2 h), if_pos h]
    · rw [if_neg (fun hc => h (this.1 hc)), if_neg h]
      rfl
  · intro x c a r h0 hk hst
    have hrev := check_revision.1 (hk (.revision rv rv) (by simp))
    have hrv1 : x.revision = rv := by omega
    have main : ∀ g : Nat, accCost x c.world (bytes20 a) = g → touched x c.world (bytes20 a) = (if rv ≥ 1 ∧ warm = false then c.world.markWarm (bytes20 a) else c.world) →
        accCost x c.world (bytes20 a) = g ∧ (do
          let (a, s) ← Model.Ct.pop (next c g)
          let s := if s.world.isEmpty (bytes20 a) = true then push s 0 else push s (s.world.codeHash (bytes20 a))
          some (if rv ≥ 1 ∧ warm = false then { s with world := s.world.markWarm (bytes20 a) } else s)) =
        some { next c g with stack := (if c.world.isEmpty (bytes20 a) = true then 0 else c.world.codeHash (bytes20 a)) :: r, world := touched x c.world (bytes20 a) } := by
      intro g e1 e2
      refine ⟨e1, ?_⟩
      rw [e2]
      simp only [pop_eq (c := next c g) hst, Option.bind_eq_bind, Option.bind_some]
      have ew : (next c g).world = c.world := rfl
      simp only [ew]
      by_cases h : c.world.isEmpty (bytes20 a) = true
      · simp only [h, if_true]
        split <;> rfl
      · simp only [h, if_false, Bool.false_eq_true]
        split <;> rfl
    by_cases hr1 : rv < 1
    · rw [if_pos hr1]
      have hc : (Cond.revision 0 0).check x c = some true := check_revision.2 (by omega)
      obtain ⟨e1, e2⟩ := touched_early (w := c.world) (a := bytes20 a) h0 hc
      refine main 700 e1 ?_
      rw [e2, if_neg (by omega)]
    · rw [if_neg hr1]
      cases warm with
      | true =>
        have hw := (check_warm (x := x) (param0 hst)).1.1 (hk (.addressWarm 0) (by simp))
        obtain ⟨e1, e2⟩ := touched_warm (x := x) (w := c.world) (by omega) hw
        refine main 100 e1 ?_
        rw [e2, if_neg (by simp)]
      | false =>
        have hw := (check_warm (x := x) (param0 hst)).2.1 (hk (.addressCold 0) (by simp))
        obtain ⟨e1, e2⟩ := touched_cold (x := x) (w := c.world) (by omega) hw
        refine main 2600 e1 ?_
        rw [e2, if_pos ⟨by omega, rfl⟩]

end Tosca.Proofs.Ct

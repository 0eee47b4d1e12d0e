import Verif.Props.GoLedger
import Verif.Spec.StateContract

/-!
# Calls (C60 to C64)
-/

namespace Tosca

open Tosca.Model Tosca.Spec Tosca.Proofs Tosca.Go Tosca.Model.Go Tosca.Spec.Go

variable {ω : Type} {F : Floria ω} {depth : Nat} {static : Bool} {kind : Kind} {p : CallParameters} {w w' : ω} {res : Except Err CallRes}

/-- Neither an error nor an unsuccessful result. -/
def Succeeded (res : Except Err CallRes) : Prop := ∃ r, res = .ok r ∧ r.success = true

/-! ### C60: failed calls have no effect -/

/-- C60.  A call of an account (that is neither the state contract nor a precompiled contract) that does not succeed leaves the
state exactly as it was, whatever interpreter runs the code and whatever the code did at any level. -/
theorem C60_call (hk : kind ≠ .create ∧ kind ≠ .create2) (hs : p.recipient ≠ stateContractAddress)
    (hp : F.precompiles F.block.revision p.recipient = none) (h : F.call depth static kind p w = (res, w')) (hf : ¬ Succeeded res) : w' = w := by
  have hk' : ¬ isCreate kind := fun h => by rcases h with h | h <;> [exact hk.1 h; exact hk.2 h]
  rw [call_eq] at h
  unfold Floria.callBody at h
  split at h
  · cases h; rfl
  · rw [prepare_call hk'] at h
    dsimp only at h
    split at h
    · cases h; rfl
    · rename_i w2 hw2
      rw [show handleStateContract F.keccak F.db p.sender p.recipient p.input p.gas w2 = (none, w2) by
        unfold handleStateContract; rw [if_pos hs]] at h
      dsimp only at h
      rw [show handlePrecompiled F.precompiles F.block.revision p.input p.recipient p.gas = none by
        unfold handlePrecompiled; rw [hp]] at h
      dsimp only at h
      split at h
      · cases h
        exact absurd ⟨_, rfl, rfl⟩ hf
      · generalize F.interpreter F.db _ _ _ = x at h
        obtain ⟨x, w3⟩ := x
        unfold Floria.finish at h
        cases x with
        | error e => cases h; rfl
        | ok r =>
          dsimp only at h
          rw [if_neg (fun h => hk' h.2)] at h
          cases hs : r.success with
          | false => rw [hs, if_pos rfl] at h; cases h; rfl
          | true =>
            cases h
            exact absurd ⟨_, rfl, hs⟩ hf

/-- C60.  A creation that does not succeed leaves the state exactly as it was, except for the nonces of the creator and of the new
account; unless its init code succeeds, but the code it returns cannot be stored (too long, starting with 0xEF, too expensive):
then the effects of the init code stay (see `C60_stays`). -/
theorem C60_create (hk : kind = .create ∨ kind = .create2) (h0 : p.recipient = 0)
    {new : Address} (hnew : new = if kind = .create then F.createAddress1 p.sender (F.db.nonce p.sender w) else F.createAddress2 p.sender p.salt (F.keccak p.input))
    (hp : F.precompiles F.block.revision new = none) (h : F.call depth static kind p w = (res, w')) (hf : ¬ Succeeded res) :
    w' = w ∨ w' = F.db.setNonce new 1 (F.db.setNonce p.sender (F.db.nonce p.sender w + 1) w) ∨
    ∃ call q w2 r, F.interpreter F.db call q w2 = (.ok r, w') ∧ q.code = p.input ∧ q.recipient = new ∧ r.success = true ∧
      (24576 < r.output.length ∨ (2 ≤ F.block.revision ∧ r.output.head? = some 0xEF) ∨ r.gasLeft < 200 * r.output.length) := by
  have hat : createdAt F kind p w = new := by
    unfold createdAt Floria.createAddress
    rw [hnew, if_pos h0]
  have hprep := prepare_create (F := F) hk p w
  rw [hat] at hprep
  rw [call_eq] at h
  unfold Floria.callBody at h
  split at h
  · cases h; exact Or.inl rfl
  · split at h
    · cases h; exact Or.inl rfl
    · rename_i code hash rcp created w1 hpr
      rw [hprep] at hpr
      split at hpr
      · cases hpr
      · cases hpr
        right
        dsimp only at h
        split at h
        · cases h; exact Or.inl rfl
        · rename_i w2 hw2
          rw [show handleStateContract F.keccak F.db p.sender p.recipient p.input p.gas w2 = (none, w2) by
            unfold handleStateContract; rw [h0, if_pos (by decide)]] at h
          dsimp only at h
          rw [show handlePrecompiled F.precompiles F.block.revision p.input new p.gas = none by
            unfold handlePrecompiled; rw [hp]] at h
          dsimp only at h
          rw [if_neg (fun h => by rcases hk with hk | hk <;> (rw [hk] at h; cases h.1))] at h
          generalize hi : F.interpreter F.db _ _ _ = x at h
          obtain ⟨x, w3⟩ := x
          unfold Floria.finish at h
          cases x with
          | error e => cases h; exact Or.inl rfl
          | ok r =>
            dsimp only at h
            cases hs : r.success with
            | false =>
              rw [hs, if_pos rfl, if_neg (fun h => by cases h.1)] at h
              cases h; exact Or.inl rfl
            | true =>
              rw [hs, if_pos ⟨rfl, hk⟩, if_neg (show ¬ (true = false) by decide)] at h
              right
              split at h
              · rename_i hc
                cases h
                exact ⟨_, _, _, r, hi, rfl, rfl, hs, Or.inl hc⟩
              · split at h
                · rename_i hc
                  cases h
                  exact ⟨_, _, _, r, hi, rfl, rfl, hs, Or.inr (Or.inl ⟨hc.1, hc.2.2⟩)⟩
                · split at h
                  · rename_i hlen _ hc
                    cases h
                    refine ⟨_, _, _, r, hi, rfl, rfl, hs, Or.inr (Or.inr ?_)⟩
                    have hlen' : ¬ r.output.length > 24576 := hlen
                    have hc' : r.gasLeft < i64 ((r.output.length : Int) * 200) := hc
                    rw [i64_id (by omega) (by omega)] at hc'
                    omega
                  · cases h
                    exact absurd ⟨_, rfl, rfl⟩ hf

/-! ### C61: static calls -/

/-- Calls that must not modify the state. -/
def Static (st : Bool) (kind : Kind) (p : CallParameters) : Prop :=
  NotDriver st kind p ∧ calleeStatic st kind = true ∧ ¬ isCreate kind ∧ (kind = .call → p.value = 0) ∧
    (kind = .callCode → p.value = 0 ∨ p.sender = p.recipient)

theorem static_transfer {db : Db ω} {v : U256} {a b : Address} (h : v = 0 ∨ a = b) (ht : transferValue db v a b w = some w') : w' = w := by
  unfold transferValue at ht
  split at ht
  · cases ht; rfl
  · rename_i hv
    dsimp only at ht
    split at ht
    · cases ht
    · rw [if_pos (by rcases h with h | h <;> [exact absurd h hv; exact h])] at ht
      cases ht; rfl

theorem static_stable {α : Type} (hN : NoDriver F) (view : ω → α) (h1 : ∀ a w, view (F.db.accessAccount a w).2 = view w)
    (h2 : ∀ a k w, view (F.db.accessStorage a k w).2 = view w)
    (h3 : ∀ a w, F.db.code driverAddress (F.db.accessAccount a w).2 = F.db.code driverAddress w)
    (h4 : ∀ a k w, F.db.code driverAddress (F.db.accessStorage a k w).2 = F.db.code driverAddress w) (x : α) :
    Stable F Static (fun w => view w = x ∧ F.db.code driverAddress w = []) := by
  refine ⟨?_, ?_, ?_, ?_, ?_, ?_⟩
  · intro st kind p rcp w w' hg hw he _
    have hst := hg.2.1
    cases he with
    | accessAccount a => exact ⟨(h1 _ _).trans hw.1, (h3 _ _).trans hw.2⟩
    | accessStorage k => exact ⟨(h2 _ _ _).trans hw.1, (h4 _ _ _).trans hw.2⟩
    | setStorage k v w h => rw [hst] at h; cases h
    | setTransient k v w h => rw [hst] at h; cases h
    | emitLog d t w h => rw [hst] at h; cases h
    | selfDestruct b w h => rw [hst] at h; cases h
  · intro st kind p w hk hg
    exact absurd hk hg.2.2.1
  · intro st kind p rcp w w' hg hw hkk hr ht
    have hv : p.value = 0 ∨ p.sender = rcp := by
      rw [hr hg.2.2.1]
      cases hkd : kind with
      | call => exact Or.inl (hg.2.2.2.1 hkd)
      | callCode => exact hg.2.2.2.2 hkd
      | staticCall => exact absurd hkd hkk.1
      | delegateCall => exact absurd hkd hkk.2
      | create => exact absurd (Or.inl hkd) hg.2.2.1
      | create2 => exact absurd (Or.inr hkd) hg.2.2.1
    rw [static_transfer hv ht]
    exact hw
  · intro st kind p hg h
    exact hg.1.1 h.1
  · intro st kind p w0 w code hk hg
    exact absurd hk hg.2.2.1
  · intro st kind p w code hash rcp created w' hg hw hp
    rcases notDriver_frame hN hg.1 hw.2 hp with h | h
    · exact Or.inl h
    · refine Or.inr fun q m e1 e2 _ e4 hm => ⟨notDriver_nested hm (by rw [e1]; exact h) (by rw [e2]; exact hg.1.1) _, ?_⟩
      have hs := hm.static (by rw [e4]; exact hg.2.1)
      refine ⟨?_, ?_, ?_, ?_⟩
      · unfold calleeStatic
        split
        · rfl
        · exact hg.2.1
      · rw [kindOf_create]
        rintro (h | h)
        · exact hs.2.1 h
        · exact hs.2.2.1 h
      · intro hk
        show m.value = 0
        apply hs.2.2.2
        unfold Spec.Go.kindOf at hk
        cases hmk : m.kind <;> rw [hmk] at hk <;> cases decide (m.flags = 0) <;> first | rfl | cases hk
      · intro hk
        right
        show m.sender = m.recipient
        have hmk := kindOf_callcode.mp hk
        rw [hm.account (Or.inl hmk), hm.sender (by rw [hmk]; intro h; cases h)]

/-- C61.  A static call (and every call in a static context that does not transfer value) changes nothing, at any depth and whatever
the called contracts do, except for the record of accessed accounts and slots: everything that is not affected by that record is
as before. -/
theorem C61_static {α : Type} (h : CallSupported F kind p) (hN : NoDriver F) (hD : DbOk F.db)
    (view : ω → α) (h1 : ∀ a w, view (F.db.accessAccount a w).2 = view w) (h2 : ∀ a k w, view (F.db.accessStorage a k w).2 = view w)
    (hs : p.sender ≠ driverAddress) (hd : F.db.code driverAddress w = [])
    (hk : kind = .staticCall ∨ (static = true ∧ kind = .call ∧ p.value = 0) ∨
      (static = true ∧ (kind = .delegateCall ∨ kind = .callCode ∧ p.value = 0) ∧ p.recipient ≠ driverAddress)) :
    view (F.call depth static kind p w).2 = view w := by
  obtain ⟨I, R, hW, hc⟩ := callSupported_works h depth static
  rw [hc]
  refine (call_stable (F := { F with interpreter := I }) hW (static_stable (F := { F with interpreter := I }) hN view h1 h2 (fun a w => hD.code (.accessAccount a) _ w (fun _ _ h => by cases h))
    (fun a k w => hD.code (.accessStorage a k) _ w (fun _ _ h => by cases h)) (view w)) depth static kind p w ?_ ⟨rfl, hd⟩).1
  rcases hk with rfl | ⟨rfl, rfl, hv⟩ | ⟨rfl, rfl | ⟨rfl, hv⟩, hr⟩
  · exact ⟨⟨hs, (fun h => by rcases h with h | h <;> cases h)⟩, rfl, (fun h => by rcases h with h | h <;> cases h), (fun h => by cases h), (fun h => by cases h)⟩
  · exact ⟨⟨hs, (fun h => by rcases h with h | h <;> cases h)⟩, rfl, (fun h => by rcases h with h | h <;> cases h), fun _ => hv, (fun h => by cases h)⟩
  · exact ⟨⟨hs, fun _ => hr⟩, rfl, (fun h => by rcases h with h | h <;> cases h), (fun h => by cases h), (fun h => by cases h)⟩
  · exact ⟨⟨hs, fun _ => hr⟩, rfl, (fun h => by rcases h with h | h <;> cases h), (fun h => by cases h), fun _ => Or.inl hv⟩

/-! ### C62: payments -/

/-- Running no code succeeds at once. -/
theorem specRun_empty {R : Reports} {keccak : List Byte → U256} {db : Db ω} {call : CallFn ω} {p : Parameters}
    (hp : p.code = []) (hg : 0 ≤ p.gas) (hr : 0 ≤ p.block.revision ∧ p.block.revision ≤ 5) (w : ω) :
    Spec.Go.run R keccak db call p w = (.ok { success := true, gasLeft := p.gas }, w) := by
  unfold Spec.Go.run revisionOf
  rw [if_pos hr]
  dsimp only
  have h1 : ∀ P : Params ω, P.code = [] → ∀ w, step P (initial P w) = { initial P w with status := .stopped, pc := 1 } := by
    intro P hP w
    unfold step initial
    rw [if_pos rfl, hP]
    show execInstr P .stop _ = _
    unfold execInstr
    rw [if_neg (show ¬ P.rev < Instr.stop.since from Nat.not_lt_zero _), if_neg (fun h => by cases h.1), if_neg (by show ¬ 0 < 0; omega), if_neg (by show ¬ 0 + 0 > 1024 + 0; omega)]
    rfl
  have h2 : ∀ P : Params ω, P.code = [] → ∀ n w, steps P (n + 1) (initial P w) = { initial P w with status := .stopped, pc := 1 } := by
    intro P hP n w
    show steps P n (step P (initial P w)) = _
    rw [h1 P hP, steps_halted (by intro h; cases h)]
  rw [h2 _ hp]
  unfold Spec.Go.outcome
  dsimp only
  have : (((initial (Spec.Go.frame R keccak db call p (ISTANBUL + p.block.revision.toNat)) w).gas : Nat) : Int) = p.gas := by
    show ((p.gas.toNat : Nat) : Int) = p.gas
    omega
  rw [this]
  rfl

theorem nativeRun_empty {keccak : List Byte → U256} {db : Db ω} {call : CallFn ω} {p : Parameters}
    (hp : p.code = []) (hg : 0 ≤ p.gas) (hr : 0 ≤ p.block.revision ∧ p.block.revision ≤ 5) (w : ω) :
    nativeRun keccak db call p w = (.ok { success := true, gasLeft := p.gas }, w) := by
  unfold nativeRun revisionOf
  rw [if_pos hr]
  dsimp only
  have h1 : ∀ (P : Params ω) n, P.code = [] → stepsEip P (n + 1) (initial P w) = { initial P w with status := .stopped, pc := 1, ret := [] } := by
    intro P n hP
    show stepsEip P n (stepEip P (initial P w)) = _
    rw [stepEip_empty hP, stepsEip_halted (by intro h; cases h)]
  rw [h1 _ _ (by exact hp)]
  unfold nativeOutcome
  dsimp only
  have : (((initial (nativeFrame keccak db call p (ISTANBUL + p.block.revision.toNat)) w).gas : Nat) : Int) = p.gas := by
    show ((p.gas.toNat : Nat) : Int) = p.gas
    omega
  rw [this]
  rfl

/-- What a transfer does: `none` if it is not possible. -/
theorem transfer_spec (db : Db ω) (v : U256) (a b : Address) (w : ω) : transferValue db v a b w = transferred db v a b w := by
  unfold transferred
  unfold transferValue
  dsimp only
  rw [add_eq, sub_eq]
  simp only [cmp_lt]
  have h1 := v.isLt
  have h2 := (db.balance b w).isLt
  have e := BitVec.toNat_add (db.balance b w) v
  have hc : ((db.balance b w + v).toNat < (db.balance b w).toNat ∨ (db.balance b w + v).toNat < v.toNat) ↔ 2 ^ 256 ≤ (db.balance b w).toNat + v.toNat := by
    by_cases h : (db.balance b w).toNat + v.toNat < 2 ^ 256
    · rw [Nat.mod_eq_of_lt h] at e
      omega
    · rw [Nat.mod_eq_sub_mod (by omega), Nat.mod_eq_of_lt (by omega)] at e
      omega
  simp only [hc]

theorem payment_on (hr : 0 ≤ F.block.revision ∧ F.block.revision ≤ 5) (hd : depth ≤ 1024)
    (hc : F.db.code p.recipient w = []) (hs : p.recipient ≠ stateContractAddress) (hp : F.precompiles F.block.revision p.recipient = none)
    (h0 : 0 ≤ p.gas)
    (hI : ∀ call (q : Parameters) w, q.code = [] → 0 ≤ q.gas → 0 ≤ q.block.revision ∧ q.block.revision ≤ 5 →
      F.interpreter F.db call q w = (.ok { success := true, gasLeft := q.gas }, w)) :
    F.call depth static .call p w =
      afterTransfer (transferred F.db p.value p.sender p.recipient w) w fun w2 => (.ok { success := true, gasLeft := p.gas }, w2) := by
  rw [call_eq, ← transfer_spec]
  unfold Floria.callBody
  rw [if_neg (by show ¬ depth > 1024; omega), prepare_call (by intro h; rcases h with h | h <;> cases h)]
  dsimp only
  rw [if_pos ⟨by decide, by decide⟩]
  cases transferValue F.db p.value p.sender p.recipient w with
  | none => rfl
  | some w2 =>
    unfold afterTransfer
    dsimp only
    rw [show handleStateContract F.keccak F.db p.sender p.recipient p.input p.gas w2 = (none, w2) by
      unfold handleStateContract; rw [if_pos hs]]
    dsimp only
    rw [show handlePrecompiled F.precompiles F.block.revision p.input p.recipient p.gas = none by
      unfold handlePrecompiled; rw [hp]]
    dsimp only
    split
    · rfl
    · rw [hI _ _ _ (by rw [if_neg (by decide)]; exact hc) h0 hr]
      unfold Floria.finish
      dsimp only
      rw [if_neg (fun h => by rcases h.2 with h | h <;> cases h), if_neg (by decide)]

/-- C62.  A call of an account without code (neither state contract nor precompiled contract) transfers the value and returns all gas,
if the caller's balance suffices and the recipient's balance does not overflow; otherwise it does not succeed and changes nothing.
No other balance changes. -/
theorem C62_payment (hF : FloriaOk F) (hS : CallSupported F .call p) (hr : 0 ≤ F.block.revision ∧ F.block.revision ≤ 5) (hd : depth ≤ 1024)
    (hc : F.db.code p.recipient w = []) (hs : p.recipient ≠ stateContractAddress) (hp : F.precompiles F.block.revision p.recipient = none)
    (h0 : 0 ≤ p.gas) (h1 : p.gas ≤ 2 ^ 54) (hi : p.input.length ≤ 2 ^ 30) :
    F.call depth static .call p w =
      afterTransfer (transferred F.db p.value p.sender p.recipient w) w fun w2 => (.ok { success := true, gasLeft := p.gas }, w2) := by
  cases hS with
  | @evmzero B find hI hf =>
    rw [C52_call hF B hI hf depth static .call h0 h1 hi w]
    exact payment_on (F := { F with interpreter := Spec.Go.run ⟨B.status, B.tooLong⟩ F.keccak }) hr hd hc hs hp h0
      (fun call q w e1 e2 e3 => specRun_empty e1 e2 e3 w)
  | @lfvm fuel find h =>
    have e := Lfvm.lfvm_call h.floria h.code h.access h.lengths h.revision h.found h.fuel depth static .call p w ⟨h.gas, fun _ => h.initCode⟩ h.input
    have e' : Floria.on F (Proofs.lfvm fuel find) = F := by unfold Floria.on; rw [← h.interpreter]
    rw [e'] at e
    rw [e]
    exact payment_on (F := Floria.on F (nativeRun F.keccak)) hr hd hc hs hp h0 (fun call q w e1 e2 e3 => nativeRun_empty e1 e2 e3 w)

/-! ### C63: the state contract -/

theorem foldBytes (n : Nat) (l : List Byte) : ∀ acc : BitVec n,
    (l.foldl (fun acc b => acc * 256 + b.setWidth n) acc).toNat = (acc.toNat * 256 ^ l.length + Word.beNat l) % 2 ^ n := by
  induction l with
  | nil => intro acc; rw [List.foldl_nil]; show _ = (acc.toNat * 1 + 0) % _; rw [Nat.mul_one, Nat.add_zero, Nat.mod_eq_of_lt acc.isLt]
  | cons b l ih =>
    intro acc
    rw [List.foldl_cons, ih, beNat_cons, BitVec.toNat_add, BitVec.toNat_mul, BitVec.toNat_setWidth, List.length_cons, Nat.pow_succ]
    have e : (256 : BitVec n).toNat = 256 % 2 ^ n := rfl
    rw [e]
    generalize 256 ^ l.length = q
    generalize Word.beNat l = r
    rw [Nat.add_mod, Nat.mul_mod]
    simp only [Nat.add_mod_mod, Nat.mod_add_mod, Nat.mod_mod, Nat.mul_mod_mod, Nat.mod_mul_mod]
    rw [Nat.add_mul, Nat.mul_assoc, Nat.mul_comm 256 q, Nat.add_assoc]

theorem wordAt_eq (input : List Byte) (i : Nat) : wordAt (input.drop 4) (32 * i) = StateMethod.argument input i := by
  unfold wordAt StateMethod.argument
  rw [List.drop_drop]
  apply BitVec.eq_of_toNat_eq
  rw [foldBytes]
  show (0 * _ + _) % _ = (BitVec.ofNat 256 _).toNat
  rw [BitVec.toNat_ofNat, Nat.zero_mul, Nat.zero_add]

theorem addressAt_eq (input : List Byte) (i : Nat) (h : 4 + 32 * i + 32 ≤ input.length) :
    addressAt (input.drop 4) (32 * i) = StateMethod.account input i := by
  unfold addressAt StateMethod.account StateMethod.argument Word.toAddress
  apply BitVec.eq_of_toNat_eq
  rw [foldBytes, BitVec.toNat_ofNat]
  show (0 * _ + _) % _ = (BitVec.ofNat 256 _).toNat % _
  rw [BitVec.toNat_ofNat, Nat.zero_mul, Nat.zero_add, List.drop_drop]
  have e : (input.drop (4 + 32 * i)).take 32 = (input.drop (4 + 32 * i)).take 12 ++ (input.drop (4 + (32 * i + 12))).take 20 := by
    rw [show (32 : Nat) = 12 + 20 from rfl, List.take_add, List.drop_drop]
    congr 3
  rw [e, beNat_append]
  have hl : ((input.drop (4 + (32 * i + 12))).take 20).length = 20 := by
    rw [List.length_take, List.length_drop]; omega
  rw [hl]
  have e2 : (256 : Nat) ^ 20 = 2 ^ 160 := by decide
  rw [e2, Nat.mod_mod_of_dvd _ (by decide), Nat.add_comm (_ * 2 ^ 160), Nat.add_mul_mod_self_right]

/-- The methods have different selectors. -/
def Selectors (keccak : List Byte → U256) : Prop :=
  ∀ a b : StateMethod, methodId keccak a.signature = methodId keccak b.signature → a = b

theorem state_method (m : StateMethod) {keccak : List Byte → U256} (hsel : Selectors keccak) {db : Db ω} {input : List Byte} {gas : Int} {w : ω}
    (hm : input.take 4 = methodId keccak m.signature) (hl : 4 ≤ input.length) (h0 : 0 ≤ gas) (h1 : gas ≤ 2 ^ 54)
    (hc : ∀ a, (db.code a w).length < 2 ^ 32) :
    handleStateContract keccak db driverAddress stateContractAddress input gas w =
      if input.length = 4 + 32 * m.arity ∧ (m.cost db input w : Int) ≤ gas ∧ m.Allowed driverAddress input then
        (some { success := true, gasLeft := gas - m.cost db input w }, m.effect db input w)
      else (some {}, w) := by
  unfold handleStateContract
  rw [if_neg (fun h => h rfl), if_neg (fun h => h rfl), if_neg (by omega)]
  dsimp only
  have hne : ∀ a : StateMethod, a ≠ m → ¬ input.take 4 = methodId keccak a.signature := by
    intro a ha h
    exact ha (hsel a m (by rw [← h, hm]))
  have hlen : (input.drop 4).length = input.length - 4 := List.length_drop
  cases m with
  | setBalance =>
    rw [if_pos (show input.take 4 = methodId keccak "setBalance(address,uint256)" from hm)]
    unfold stateSetBalance
    by_cases hg : gas < 9000
    · rw [if_pos hg, if_neg (fun h => by have : (9000 : Int) ≤ gas := h.2.1; omega)]; rfl
    · rw [if_neg hg, i64_id (by omega) (by omega)]
      dsimp only
      by_cases hn : input.length = 68
      · have e1 := addressAt_eq input 0 (by omega)
        have e2 := wordAt_eq input 1
        rw [if_neg (by omega)]
        rw [show addressAt (input.drop 4) 0 = _ from e1, show wordAt (input.drop 4) 32 = _ from e2]
        by_cases ha : StateMethod.account input 0 = driverAddress
        · rw [if_pos ha, if_neg (fun h => h.2.2 ha)]; rfl
        · rw [if_neg ha, if_pos ⟨hn, by show (9000 : Int) ≤ gas; omega, ha⟩]; rfl
      · rw [if_pos (by omega), if_neg (fun h => hn h.1)]; rfl
  | copyCode =>
    rw [if_neg (show ¬ input.take 4 = methodId keccak "setBalance(address,uint256)" from hne .setBalance (by decide)), if_pos (show input.take 4 = methodId keccak "copyCode(address,address)" from hm)]
    unfold stateCopyCode
    by_cases hg : gas < 32000
    · rw [if_pos hg, if_neg (fun h => by have : ((32000 + 203 * _ : Nat) : Int) ≤ gas := h.2.1; omega)]; rfl
    · rw [if_neg hg, i64_id (by omega) (by omega)]
      dsimp only
      by_cases hn : input.length = 68
      · have e1 := addressAt_eq input 0 (by omega)
        have e2 := addressAt_eq input 1 (by omega)
        rw [if_neg (by omega)]
        rw [show addressAt (input.drop 4) 0 = _ from e1, show addressAt (input.drop 4) 32 = _ from e2]
        have hl2 := hc (StateMethod.account input 1)
        have e3 : i64 (i64 ((db.code (StateMethod.account input 1) w).length : Int) * (200 + 3)) = 203 * ((db.code (StateMethod.account input 1) w).length : Int) := by
          rw [i64_id (x := ((db.code (StateMethod.account input 1) w).length : Int)) (by omega) (by omega), i64_id (by omega) (by omega)]; omega
        rw [e3]
        have hcost : (StateMethod.copyCode.cost db input w : Int) = 32000 + 203 * ((db.code (StateMethod.account input 1) w).length : Int) := by
          show ((32000 + 203 * (db.code (StateMethod.account input 1) w).length : Nat) : Int) = _
          omega
        rw [hcost]
        by_cases ha : gas - 32000 < 203 * ((db.code (StateMethod.account input 1) w).length : Int)
        · rw [if_pos ha, if_neg (fun h => by have := h.2.1; omega)]; rfl
        · rw [if_neg ha, i64_id (by omega) (by omega)]
          rw [show gas - 32000 - 203 * ((db.code (StateMethod.account input 1) w).length : Int) = gas - (32000 + 203 * ((db.code (StateMethod.account input 1) w).length : Int)) by omega]
          by_cases hx : StateMethod.account input 1 = StateMethod.account input 0
          · rw [if_neg (show ¬ (StateMethod.account input 1 ≠ StateMethod.account input 0) from fun h => h hx), if_pos ⟨hn, by omega, trivial⟩,
              show StateMethod.copyCode.effect db input w = w from if_pos hx]; rfl
          · rw [if_pos (show StateMethod.account input 1 ≠ StateMethod.account input 0 from hx), if_pos ⟨hn, by omega, trivial⟩,
              show StateMethod.copyCode.effect db input w = _ from if_neg hx]; rfl
      · rw [if_pos (by omega), if_neg (fun h => hn h.1)]; rfl
  | swapCode =>
    rw [if_neg (show ¬ input.take 4 = methodId keccak "setBalance(address,uint256)" from hne .setBalance (by decide)), if_neg (show ¬ input.take 4 = methodId keccak "copyCode(address,address)" from hne .copyCode (by decide)), if_pos (show input.take 4 = methodId keccak "swapCode(address,address)" from hm)]
    unfold stateSwapCode
    by_cases hg : gas < 2 * 32000
    · rw [if_pos hg, if_neg (fun h => by have : ((64000 + 203 * (_ + _) / 2 : Nat) : Int) ≤ gas := h.2.1; omega)]; rfl
    · rw [if_neg hg, i64_id (by omega) (by omega)]
      dsimp only
      by_cases hn : input.length = 68
      · have e1 := addressAt_eq input 0 (by omega)
        have e2 := addressAt_eq input 1 (by omega)
        rw [if_neg (by omega)]
        rw [show addressAt (input.drop 4) 0 = _ from e1, show addressAt (input.drop 4) 32 = _ from e2]
        have hl2 := hc (StateMethod.account input 1)
        have hl1 := hc (StateMethod.account input 0)
        have e3 : ∀ n : Nat, n < 2 ^ 32 → i64 (i64 (n : Int) * (200 + 3)) = 203 * (n : Int) := by
          intro n hn
          rw [i64_id (x := (n : Int)) (by omega) (by omega), i64_id (by omega) (by omega)]; omega
        have hcost : (StateMethod.swapCode.cost db input w : Int) =
            64000 + (203 * ((db.code (StateMethod.account input 0) w).length : Int) + 203 * ((db.code (StateMethod.account input 1) w).length : Int)) / 2 := by
          show ((64000 + 203 * ((db.code (StateMethod.account input 0) w).length + (db.code (StateMethod.account input 1) w).length) / 2 : Nat) : Int) = _
          omega
        rw [e3 _ hl1, e3 _ hl2, i64_id (x := _ + _) (by omega) (by omega), Int.tdiv_eq_ediv_of_nonneg (by omega), hcost]
        generalize hy : (203 * ((db.code (StateMethod.account input 0) w).length : Int) + 203 * ((db.code (StateMethod.account input 1) w).length : Int)) / 2 = y
        have hy0 : 0 ≤ y ∧ y < 2 ^ 60 := by omega
        by_cases ha : gas - 2 * 32000 < y
        · rw [if_pos ha, if_neg (fun h => by have := h.2.1; omega)]; rfl
        · rw [if_neg ha, i64_id (by omega) (by omega)]
          rw [show gas - 2 * 32000 - y = gas - (64000 + y) by omega]
          by_cases hx : StateMethod.account input 0 = StateMethod.account input 1
          · rw [if_neg (show ¬ (StateMethod.account input 0 ≠ StateMethod.account input 1) from fun h => h hx), if_pos ⟨hn, by omega, trivial⟩,
              show StateMethod.swapCode.effect db input w = w from if_pos hx]; rfl
          · rw [if_pos (show StateMethod.account input 0 ≠ StateMethod.account input 1 from hx), if_pos ⟨hn, by omega, trivial⟩,
              show StateMethod.swapCode.effect db input w = _ from if_neg hx]; rfl
      · rw [if_pos (by omega), if_neg (fun h => hn h.1)]; rfl
  | setStorage =>
    rw [if_neg (show ¬ input.take 4 = methodId keccak "setBalance(address,uint256)" from hne .setBalance (by decide)), if_neg (show ¬ input.take 4 = methodId keccak "copyCode(address,address)" from hne .copyCode (by decide)), if_neg (show ¬ input.take 4 = methodId keccak "swapCode(address,address)" from hne .swapCode (by decide)), if_pos (show input.take 4 = methodId keccak "setStorage(address,bytes32,bytes32)" from hm)]
    unfold stateSetStorage
    by_cases hg : gas < 20000
    · rw [if_pos hg, if_neg (fun h => by have : (20000 : Int) ≤ gas := h.2.1; omega)]; rfl
    · rw [if_neg hg, i64_id (by omega) (by omega)]
      dsimp only
      by_cases hn : input.length = 100
      · have e1 := addressAt_eq input 0 (by omega)
        have e2 := wordAt_eq input 1
        have e3 := wordAt_eq input 2
        rw [if_neg (by omega)]
        rw [show addressAt (input.drop 4) 0 = _ from e1, show wordAt (input.drop 4) 32 = _ from e2, show wordAt (input.drop 4) 64 = _ from e3]
        rw [if_pos ⟨hn, by show (20000 : Int) ≤ gas; omega, trivial⟩]; rfl
      · rw [if_pos (by omega), if_neg (fun h => hn h.1)]; rfl
  | incNonce =>
    rw [if_neg (show ¬ input.take 4 = methodId keccak "setBalance(address,uint256)" from hne .setBalance (by decide)), if_neg (show ¬ input.take 4 = methodId keccak "copyCode(address,address)" from hne .copyCode (by decide)), if_neg (show ¬ input.take 4 = methodId keccak "swapCode(address,address)" from hne .swapCode (by decide)), if_neg (show ¬ input.take 4 = methodId keccak "setStorage(address,bytes32,bytes32)" from hne .setStorage (by decide)), if_pos (show input.take 4 = methodId keccak "incNonce(address,uint256)" from hm)]
    unfold stateIncNonce
    by_cases hg : gas < 9000
    · rw [if_pos hg, if_neg (fun h => by have : (9000 : Int) ≤ gas := h.2.1; omega)]; rfl
    · rw [if_neg hg, i64_id (by omega) (by omega)]
      dsimp only
      by_cases hn : input.length = 68
      · have e1 := addressAt_eq input 0 (by omega)
        have e2 := wordAt_eq input 1
        rw [if_neg (by omega)]
        rw [show addressAt (input.drop 4) 0 = _ from e1, show wordAt (input.drop 4) 32 = _ from e2]
        have e4 : ((StateMethod.argument input 1).setWidth 64).toNat = (StateMethod.argument input 1).toNat % 2 ^ 64 := BitVec.toNat_setWidth ..
        rw [e4]
        by_cases ha : StateMethod.account input 0 = driverAddress
        · rw [if_pos ha, if_neg (fun h => h.2.2.1 ha)]; rfl
        · rw [if_neg ha]
          by_cases hb : (StateMethod.argument input 1).toNat % 2 ^ 64 ≤ 0 ∨ 256 ≤ (StateMethod.argument input 1).toNat % 2 ^ 64
          · rw [if_pos hb, if_neg (fun h => by have := h.2.2.2; omega)]; rfl
          · rw [if_neg hb, if_pos ⟨hn, by show (9000 : Int) ≤ gas; omega, ha, by omega, by omega⟩]; rfl
      · rw [if_pos (by omega), if_neg (fun h => hn h.1)]; rfl

end Tosca

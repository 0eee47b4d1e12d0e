import Verif.Model.GoBridge
import Verif.Spec.GoSetting
import Verif.Proofs.Sent

/-!
# The Go bridge
-/

namespace Tosca.Proofs

open Tosca.Spec Tosca.Model Tosca.Go Tosca.Model.Go

variable {ω : Type}

theorem isEmpty_iff (db : Db ω) (a : Address) (w : ω) : isEmpty db a w = decide (Spec.Go.Absent db a w) := by
  have h : isEmpty db a w = true ↔ Spec.Go.Absent db a w := by
    unfold isEmpty Spec.Go.Absent
    rw [Bool.and_eq_true, Bool.and_eq_true, beq_iff_eq, beq_iff_eq, beq_iff_eq, and_assoc]
  by_cases ha : Spec.Go.Absent db a w
  · rw [decide_eq_true ha]; exact h.mpr ha
  · rw [decide_eq_false ha]; exact Bool.eq_false_iff.mpr fun hx => ha (h.mp hx)

theorem callKind_eq (m : Message) : callKind m.kind (m.flags != 0) = Spec.Go.kindOf m := by
  unfold callKind Spec.Go.kindOf
  by_cases h : m.flags = 0
  · have h1 : (m.flags != 0) = false := by rw [h]; rfl
    have h2 : decide (m.flags = 0) = true := decide_eq_true h
    rw [h1, h2]; cases m.kind <;> rfl
  · have h1 : (m.flags != 0) = true := bne_iff_ne.mpr h
    have h2 : decide (m.flags = 0) = false := decide_eq_false h
    rw [h1, h2]; cases m.kind <;> rfl

theorem hostCall_eq (B : Binding) (db : Db ω) (call : CallFn ω) (p : Parameters) (m : Message) (w : ω) :
    hostCall B call m w = (Spec.Go.host (reports B) db call p).call m w := by
  show _ = if m.input.length ≤ 2 ^ 30 then _ else _
  unfold hostCall
  by_cases hl : 2 ^ 30 < m.input.length
  · rw [if_pos hl, if_neg (by omega)]; rfl
  · rw [if_neg hl, if_pos (by omega), callKind_eq]
    show (match call (Spec.Go.kindOf m) (Spec.Go.paramsOf m) w with
      | (.error e, w') => _
      | (.ok r, w') => _) = _
    cases h : call (Spec.Go.kindOf m) (Spec.Go.paramsOf m) w with
    | mk r w' => cases r <;> rfl

theorem hostOf_eq (B : Binding) (db : Db ω) (call : CallFn ω) (p : Parameters) :
    hostOf B db call p = Spec.Go.host (reports B) db call p := by
  unfold hostOf
  have h1 : (fun a w => (!isEmpty db a w, w)) = (Spec.Go.host (reports B) db call p).accountExists := by
    funext a w
    rw [isEmpty_iff]
    show _ = (decide (¬ Spec.Go.Absent db a w), w)
    rw [decide_not]
  have h2 : (fun a w => (if isEmpty db a w then 0 else db.codeHash a w, w)) = (Spec.Go.host (reports B) db call p).getCodeHash := by
    funext a w
    rw [isEmpty_iff]
    show _ = (if Spec.Go.Absent db a w then 0 else db.codeHash a w, w)
    by_cases h : Spec.Go.Absent db a w <;> simp [h]
  have h3 : (fun m w => hostCall B call m w) = (Spec.Go.host (reports B) db call p).call := by
    funext m w; exact hostCall_eq B db call p m w
  rw [h1, h2, h3]
  rfl

theorem revision_eq (r : Int) : (if r > 5 then none else toEvmcRevision r) = Spec.Go.revisionOf r := by
  unfold Spec.Go.revisionOf
  by_cases h : 0 ≤ r ∧ r ≤ 5
  · rw [if_pos h, if_neg (by omega)]
    obtain ⟨h0, h5⟩ := h
    obtain ⟨n, rfl⟩ := Int.eq_ofNat_of_zero_le h0
    match n, h5 with
    | 0, _ | 1, _ | 2, _ | 3, _ | 4, _ | 5, _ => rfl
    | n + 6, h5 => exfalso; omega
  · rw [if_neg h]
    split
    · rfl
    · unfold toEvmcRevision
      rw [if_neg (by omega), if_neg (by omega), if_neg (by omega), if_neg (by omega), if_neg (by omega), if_neg (by omega)]

theorem runResult_eq {r : EvmcResult} {s : State ω} (hr : s.status ≠ .running) (h1 : r.status = statusCode s.status)
    (h2 : r.gasLeft = s.gas) (h3 : r.gasRefund = s.refund) (h4 : r.output = s.ret) : runResult r = Spec.Go.outcome s := by
  unfold runResult Spec.Go.outcome
  rw [h1, h2, h3, h4]
  cases hs : s.status with
  | running => exact absurd hs hr
  | failed f => cases f <;> rfl
  | _ => rfl

theorem goHost_ok (R : Spec.Go.Reports) (db : Db ω) {call : CallFn ω} (hc : Spec.Go.CallFnOk call) {p : Parameters}
    (hp : Spec.Go.ChainOk p.block p.tx) : HostOk (Spec.Go.host R db call p) := by
  have key : ∀ m w, 0 ≤ m.gas → m.gas ≤ 2 ^ 54 → ResultOk m ((Spec.Go.host R db call p).call m w).1 := by
    intro m w h0 h1
    have hz : ∀ st, ResultOk m { status := st } := fun st =>
      ⟨⟨Int.le_refl _, h0⟩, by show (0 : Int) ≤ 199 * (m.gas - 0) ∧ -(199 * (m.gas - 0)) ≤ (0 : Int); omega, by show 0 < 2 ^ 64; omega⟩
    show ResultOk m (if m.input.length ≤ 2 ^ 30 then
      (Spec.Go.answerOf R.error (call (Spec.Go.kindOf m) (Spec.Go.paramsOf m) w).1, (call (Spec.Go.kindOf m) (Spec.Go.paramsOf m) w).2)
      else ({ status := R.tooLong }, w)).1
    split
    · rename_i hl
      cases h : call (Spec.Go.kindOf m) (Spec.Go.paramsOf m) w with
      | mk r w' =>
        cases r with
        | error e => exact hz _
        | ok r =>
          have := hc _ _ w r w' h0 h1 hl h
          exact ⟨this.gas, this.refund, this.output⟩
    · exact hz _
  exact
    { callGas := fun m w h0 h1 => (key m w h0 h1).gas
      callRefund := fun m w h0 h1 => (key m w h0 h1).refund
      callOutput := fun m w h0 h1 => (key m w h0 h1).output
      copyCode := fun a off n w => by
        show (((db.code a w).drop off).take n).length ≤ n
        rw [List.length_take]; omega
      blockNumber := hp.blockNumber
      timestamp := hp.timestamp
      gasLimit := hp.gasLimit
      blobHashes := hp.blobHashes }

theorem goFrame_ok (R : Spec.Go.Reports) (keccak : List Byte → U256) (db : Db ω) {call : CallFn ω} (hc : Spec.Go.CallFnOk call)
    {p : Parameters} (hp : Spec.Go.RunOk p) (rev : Revision) : ParamsOk (Spec.Go.frame R keccak db call p rev) :=
  ⟨goHost_ok R db hc hp.chain, hp.code, hp.input, hp.depth⟩

theorem evmzeroRun_eq (B : Binding) (keccak : List Byte → U256) (db : Db ω) {call : CallFn ω} (hc : Spec.Go.CallFnOk call)
    {p : Parameters} (hp : Spec.Go.RunOk p) {f : Found ω} (hf : FoundFor keccak p f) (w : ω) :
    evmzeroRun B keccak f db call p w = Spec.Go.run (reports B) keccak db call p w := by
  have hrev := revision_eq p.block.revision
  unfold evmzeroRun Spec.Go.run
  rw [← hrev]
  by_cases h5 : p.block.revision > 5
  · rw [if_pos h5, if_pos h5]
  · rw [if_neg h5, if_neg h5]
    cases hr : toEvmcRevision p.block.revision with
    | none => rfl
    | some rev =>
      dsimp only
      obtain ⟨codeOf, hv, hh⟩ := hf.vm
      have hP := goFrame_ok (reports B) keccak db hc hp rev
      obtain ⟨res, w', vm', o', h1, _, _, s', h3, h4, h5, h6, h7, h8⟩ := executeWith_ok
        (P := Spec.Go.frame (reports B) keccak db call p rev)
        (E := ⟨hostOf B db call p, keccak, f.reenter⟩) hP ⟨hostOf_eq B db call p, rfl, hf.reenter⟩ hv hh hp.gas.1 hp.gas.2
        noObserver (p.gas.toNat + 2 + f.fuel) (by show p.gas.toNat + 2 ≤ _; omega) f.buf w ()
      have hx : f.vm.execute ⟨hostOf B db call p, keccak, f.reenter⟩ (p.gas.toNat + 2 + f.fuel) p.code (messageOf p) rev f.buf w =
          .ok (some (res, w', vm')) := by
        unfold Vm.execute
        rw [show f.vm.executeWith ⟨hostOf B db call p, keccak, f.reenter⟩ noObserver (p.gas.toNat + 2 + f.fuel) p.code (messageOf p)
          rev f.buf w () = .ok (some (res, w', vm', o')) from h1]
        rfl
      rw [hx]
      have hs : s' = steps (Spec.Go.frame (reports B) keccak db call p rev) (p.gas.toNat + 1)
          (initial (Spec.Go.frame (reports B) keccak db call p rev) w) :=
        final_unique h3 ⟨halts_bound hP _ (wf_initial w hp.gas.2) (Nat.le_refl _), _, rfl⟩
      dsimp only
      rw [runResult_eq h3.1 h4 h5 h6 h7, h8, ← hs]

end Tosca.Proofs

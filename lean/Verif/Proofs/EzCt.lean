import Verif.Proofs.EzCall
import Verif.Proofs.EzBytes
import Verif.Proofs.CtCover
import Verif.Spec.GoEvmzero

/-!
# evmzero and the conformance tests
-/

namespace Tosca.Proofs.Ez

open Tosca.Spec Tosca.Spec.Go Tosca.Go Tosca.Model Tosca.Model.Go Tosca.Model.Ct Tosca.Proofs.Ct

variable {keccak : List Byte → U256} {x : Model.Ct.Fixed} {c : S} {rev : Revision} {R : Reports}

/-- The frame as evmzero sees it. -/
abbrev ezFrame (R : Reports) (keccak : List Byte → U256) (x : Model.Ct.Fixed) (c : S) (rev : Revision) : Params World :=
  Spec.Go.frame R keccak (ctDb x) ctCall (toVmParameters keccak x c) rev

theorem short_of (h : InScope x c) : Short (frameState c).mem (frameState c).gas := by
  intro off n hg
  by_cases hn : Near off n
  · unfold Near at hn
    omega
  · exact absurd hg (Nat.not_le.2 (far_gas (m := c.memory) h.gas.2 h.memory hn))

theorem ez_call (m : Message) (w : World) (hl : m.input.length ≤ 2 ^ 30) :
    (Spec.Go.host R (ctDb x) ctCall (toVmParameters keccak x c)).call m w =
      ({ status := if (w.call (kindOf m) (paramsOf m)).1.success = true then .success else .revert
         gasLeft := (w.call (kindOf m) (paramsOf m)).1.gasLeft, gasRefund := (w.call (kindOf m) (paramsOf m)).1.gasRefund
         output := (w.call (kindOf m) (paramsOf m)).1.output, createAddress := (w.call (kindOf m) (paramsOf m)).1.createdAddress },
        (w.call (kindOf m) (paramsOf m)).2) := by
  show (if m.input.length ≤ 2 ^ 30 then _ else _) = _
  rw [if_pos hl]
  rfl

/-- How the binding reports errors plays no role. -/
theorem step_test (h : InScope x c) : step (ezFrame R keccak x c rev) (frameState c) = step (testFrame keccak x c rev) (frameState c) := by
  refine step_rel (P := ezFrame R keccak x c rev) (c := (Spec.Go.host failures (ctDb x) ctCall (toVmParameters keccak x c)).call) (Q := Eq)
    (fun _ => rfl) ?_ (short_of h)
  intro t m k _ _ _ _ _ hl
  show t.ask ((Spec.Go.host R (ctDb x) ctCall (toVmParameters keccak x c)).call m) k = t.ask _ k
  unfold State.ask
  rw [ez_call _ _ hl, ez_call _ _ hl]

theorem base_ok (h : InScope x c) : ParamsBase (ezFrame R keccak x c rev) := by
  have hr := ct_run (keccak := keccak) h
  refine ⟨?_, hr.code, hr.input, hr.depth⟩
  exact
    { callGas := fun m w h0 h1 => by
        by_cases hl : m.input.length ≤ 2 ^ 30
        · show 0 ≤ ((Spec.Go.host R (ctDb x) ctCall (toVmParameters keccak x c)).call m w).1.gasLeft ∧
            ((Spec.Go.host R (ctDb x) ctCall (toVmParameters keccak x c)).call m w).1.gasLeft ≤ m.gas
          have := ct_kept (kindOf m) (paramsOf m) w (w.call (kindOf m) (paramsOf m)).1 (w.call (kindOf m) (paramsOf m)).2 h0 h1 hl rfl
          rw [ez_call _ _ hl]
          exact this
        · show 0 ≤ (if m.input.length ≤ 2 ^ 30 then _ else (({ status := R.tooLong }, w) : Tosca.CallResult × World)).1.gasLeft ∧
            (if m.input.length ≤ 2 ^ 30 then _ else (({ status := R.tooLong }, w) : Tosca.CallResult × World)).1.gasLeft ≤ m.gas
          rw [if_neg hl]
          exact ⟨Int.le_refl _, h0⟩
      copyCode := fun a off n w => by
        show ((((ctDb x).code a w).drop off).take n).length ≤ n
        rw [List.length_take]; omega
      blockNumber := hr.chain.blockNumber
      timestamp := hr.chain.timestamp
      gasLimit := hr.chain.gasLimit
      blobHashes := hr.chain.blobHashes }

/-- The host with calls that give no refund and no output. -/
def quiet (H : Host World) (m : Message) (w : World) : Tosca.CallResult × World :=
  ({ (H.call m w).1 with gasRefund := 0, output := [] }, (H.call m w).2)

theorem quiet_ok (h : InScope x c) : ParamsOk (recall (ezFrame R keccak x c rev) (quiet (ezFrame R keccak x c rev).host)) := by
  have hb := base_ok (R := R) (keccak := keccak) (rev := rev) h
  refine ⟨?_, hb.code, hb.input, hb.depth⟩
  exact
    { callGas := hb.host.callGas
      callRefund := fun m w h0 h1 => by
        have := hb.host.callGas m w h0 h1
        show (0 : Int) ≤ 199 * (m.gas - ((ezFrame R keccak x c rev).host.call m w).1.gasLeft) ∧
          -(199 * (m.gas - ((ezFrame R keccak x c rev).host.call m w).1.gasLeft)) ≤ (0 : Int)
        omega
      callOutput := fun m w _ _ => by show 0 < 2 ^ 64; decide
      copyCode := hb.host.copyCode
      blockNumber := hb.host.blockNumber
      timestamp := hb.host.timestamp
      gasLimit := hb.host.gasLimit
      blobHashes := hb.host.blobHashes }

theorem asked_future {w w' : World} (h : Asked (ezFrame R keccak x c rev).host w w') : w'.future = w.future := by
  induction h with
  | here => rfl
  | access a _ ih => exact ih
  | exist a _ ih => exact ih
  | balance a _ ih => exact ih

theorem call_refund (h : InScope x c) (hr : Room x c) (m : Message) {w : World} (hw : w.future = c.world.future) :
    -2 ^ 63 ≤ c.refund + ((ezFrame R keccak x c rev).host.call m w).1.gasRefund ∧
      c.refund + ((ezFrame R keccak x c rev).host.call m w).1.gasRefund ≤ 2 ^ 63 - 1 := by
  have h0 := hr.call
  have h1 := hr.refund
  by_cases hl : m.input.length ≤ 2 ^ 30
  · have e : ((ezFrame R keccak x c rev).host.call m w).1.gasRefund = (w.future.headD {}).gasRefund := by
      show ((Spec.Go.host R (ctDb x) ctCall (toVmParameters keccak x c)).call m w).1.gasRefund = _
      rw [ez_call _ _ hl]
      rfl
    rw [e, hw]
    exact h0
  · have e : ((ezFrame R keccak x c rev).host.call m w).1.gasRefund = 0 := by
      show (if m.input.length ≤ 2 ^ 30 then _ else (({ status := R.tooLong }, w) : Tosca.CallResult × World)).1.gasRefund = 0
      rw [if_neg hl]
    rw [e]
    have := h.gas.1
    omega

/-- What one step is known to do whatever calls refund and return. -/
def Near (t t' : State World) : Prop :=
  t.status = t'.status ∧ t.pc = t'.pc ∧ t.mem.size = t'.mem.size ∧ (t.refund = t'.refund ∨ (-2 ^ 63 ≤ t.refund ∧ t.refund ≤ 2 ^ 63 - 1))

theorem step_near (h : InScope x c) (hr : Room x c) :
    Near (step (ezFrame R keccak x c rev) (frameState c)) (step (recall (ezFrame R keccak x c rev) (quiet (ezFrame R keccak x c rev).host)) (frameState c)) := by
  refine step_rel (P := ezFrame R keccak x c rev) (Q := Near) (fun _ => ⟨rfl, rfl, rfl, .inl rfl⟩) ?_ (short_of h)
  intro t m k hk ha ht _ _ _
  have ht : t.refund = c.refund := ht
  have hf := call_refund (R := R) (keccak := keccak) (rev := rev) h hr m (asked_future ha)
  rw [← ht] at hf
  cases hk with
  | call fwd oo ol => exact ⟨rfl, rfl, rfl, .inr hf⟩
  | create fwd => exact ⟨rfl, rfl, rfl, .inr hf⟩

theorem wf_state (h : InScope x c) (hr : Room x c) : Wf (ezFrame R keccak x c rev) (frameState c) := by
  have hg := h.gas
  refine ⟨h.stack, ?_, ?_, ?_, ?_, ?_, fun _ => hr.pc⟩
  · show 32 * words c.memory.length % 32 = 0
    omega
  · show c.gas.toNat + memGas (words (memOf c.memory).size) ≤ 2 ^ 54
    rw [memOf_size h.memory]
    omega
  · show c.refund + 199 * (c.gas.toNat : Int) ≤ 2 ^ 63 - 1
    rw [Int.toNat_of_nonneg hg.1]
    exact hr.refund.1
  · show -(2 ^ 63 - 1) ≤ c.refund - 199 * (c.gas.toNat : Int)
    rw [Int.toNat_of_nonneg hg.1]
    exact hr.refund.2
  · exact Nat.lt_trans h.returned (by decide)

/-- The frame after one step, if it has not failed. -/
theorem step_kept (h : InScope x c) (hr : Room x c) (hnf : ∀ f, (step (ezFrame R keccak x c rev) (frameState c)).status ≠ .failed f) :
    (step (ezFrame R keccak x c rev) (frameState c)).mem.size % 32 = 0 ∧
    ((step (ezFrame R keccak x c rev) (frameState c)).status = .running → (step (ezFrame R keccak x c rev) (frameState c)).pc ≤ x.code.length + 32) ∧
    i64 (step (ezFrame R keccak x c rev) (frameState c)).refund = (step (ezFrame R keccak x c rev) (frameState c)).refund := by
  obtain ⟨n1, n2, n3, n4⟩ := step_near (R := R) (keccak := keccak) (rev := rev) h hr
  have hw : Wf (recall (ezFrame R keccak x c rev) (quiet (ezFrame R keccak x c rev).host)) (frameState c) := by
    have := wf_state (R := R) (keccak := keccak) (rev := rev) h hr
    exact ⟨this.stack, this.memAligned, this.gas, this.refundHi, this.refundLo, this.ret, this.pc⟩
  have ⟨hq, _⟩ := step_wf (quiet_ok (R := R) (keccak := keccak) (rev := rev) h) hw rfl (by rw [← n1]; exact hnf)
  generalize step (ezFrame R keccak x c rev) (frameState c) = t at *
  generalize step (recall (ezFrame R keccak x c rev) (quiet (ezFrame R keccak x c rev).host)) (frameState c) = t' at *
  refine ⟨by rw [n3]; exact hq.memAligned, fun hs => ?_, ?_⟩
  · rw [n2]
    exact hq.pc (by rw [← n1]; exact hs)
  · have hb : -2 ^ 63 ≤ t.refund ∧ t.refund ≤ 2 ^ 63 - 1 := by
      rcases n4 with e | e
      · have h1 := hq.refundHi
        have h2 := hq.refundLo
        omega
      · exact e
    unfold i64
    rw [Int.bmod_def]
    omega

theorem read_all (m : List Byte) (h : m.length ≤ 2 ^ 30) : Model.Ct.readMem m 0 (BitVec.ofNat 64 m.length) = some (m, m) := by
  unfold Model.Ct.readMem
  have hl : (BitVec.ofNat 64 m.length).toNat = m.length := by rw [BitVec.toNat_ofNat]; omega
  have hz : (0 : BitVec 64) + BitVec.ofNat 64 m.length = BitVec.ofNat 64 m.length := BitVec.zero_add _
  by_cases h0 : m.length = 0
  · rw [List.length_eq_zero_iff] at h0
    subst h0
    rfl
  · rw [if_neg (by intro e; rw [e] at hl; exact h0 hl.symm)]
    have hg : Model.Ct.grow m 0 (BitVec.ofNat 64 m.length) = m := by
      unfold Model.Ct.grow
      rw [if_neg (by intro e; rw [e] at hl; exact h0 hl.symm)]
      dsimp only
      rw [hz, hl, if_neg (by omega)]
    rw [hg]
    dsimp only
    rw [hz, hl, if_pos ⟨by rw [BitVec.le_def, hl]; exact Nat.zero_le _, Nat.le_refl _⟩]
    show some ((m.drop 0).take _, m) = _
    rw [List.drop_zero, List.take_length]

theorem frame_state (c : S) : Spec.frame .running c.pc.toNat c.gas c.refund c.stack.reverse c.memory c.lastCallReturnData c.world = frameState c := by
  unfold Spec.frame frameState
  rw [List.reverse_reverse]
  rfl

/-- One step of evmzero through the adapters. -/
theorem ez_step (h : InScope x c) (hroom : Room x c) (hr : revisionOf x.revision = some rev) (B : Binding) {f : Found World}
    (hf : FoundFor keccak (toVmParameters keccak x c) f) :
    ∃ c', EvmzeroCt.stepN B keccak f (ctDb x) ctCall (toVmParameters keccak x c) c 1 = some (some c', none) ∧ ExpectedHere keccak x c rev c' := by
  have hrev : toEvmcRevision x.revision = some rev := by
    have := revision_eq x.revision
    rw [if_neg (by have := h.revision; omega), hr] at this
    exact this
  have hlen : c.memory.length ≤ 2 ^ 30 := length_le h.gas.2
  obtain ⟨codeOf, hv, hh⟩ := hf.vm
  have hP := base_ok (R := reports B) (keccak := keccak) (rev := rev) h
  have hw := wf_state (R := reports B) (keccak := keccak) (rev := rev) h hroom
  have hk := step_kept (R := reports B) (keccak := keccak) (rev := rev) h hroom
  have h1 : ∀ s, steps (ezFrame (reports B) keccak x c rev) 1 s = step (ezFrame (reports B) keccak x c rev) s := fun _ => rfl
  obtain ⟨res, w', vm', hx, _, _, hd, hfr⟩ := stepN_base (P := ezFrame (reports B) keccak x c rev)
    (E := ⟨hostOf B (ctDb x) ctCall (toVmParameters keccak x c), keccak, f.reenter⟩) hP ⟨hostOf_eq B _ _ _, rfl, hf.reenter⟩ hv hh h.gas.1
    c.pc.toNat c.refund c.stack.reverse c.memory c.lastCallReturnData 1 (by decide) ((1 : Int).toNat + 1 + f.fuel) (by omega) f.buf c.world
    (by rw [show (ezFrame (reports B) keccak x c rev).msg.gas = c.gas from rfl, frame_state]; exact hw)
    (by
      intro k hk1
      have : k = 0 := by omega
      subst this
      intro s _
      have es : s = frameState c := by
        show Spec.frame _ _ _ _ _ _ _ _ = _
        exact frame_state c
      rw [es]
      refine ⟨hw, ?_⟩
      intro m w' ha _ _
      exact call_refund (R := reports B) (keccak := keccak) (rev := rev) h hroom m (asked_future ha))
    (by
      rw [show (ezFrame (reports B) keccak x c rev).msg.gas = c.gas from rfl, frame_state, h1]
      exact fun hnf => (hk hnf).1)
  rw [show (ezFrame (reports B) keccak x c rev).msg.gas = c.gas from rfl, frame_state, h1] at hd hfr
  have hx' : f.vm.stepN ⟨hostOf B (ctDb x) ctCall (toVmParameters keccak x c), keccak, f.reenter⟩ ((1 : Int).toNat + 1 + f.fuel) x.code
      { messageOf (toVmParameters keccak x c) with gas := c.gas } rev .running c.pc.toNat c.refund c.stack.reverse c.memory c.lastCallReturnData 1 f.buf c.world =
      .ok (some (res, w', vm')) := hx
  unfold ExpectedHere
  rw [← step_test (R := reports B) h]
  generalize ht : step (ezFrame (reports B) keccak x c rev) (frameState c) = t at *
  unfold EvmzeroCt.stepN
  rw [if_neg (show ¬ (toVmParameters keccak x c).block.revision > 5 by have := h.revision; show ¬ x.revision > 5; omega), if_neg (by rw [h.status]; simp)]
  unfold EvmzeroCt.bridgeStepN
  rw [show (toVmParameters keccak x c).block.revision = x.revision from rfl, hrev]
  dsimp only
  rw [read_all _ hlen, Option.bind_some, sent_words, h.status]
  rw [show (toVmParameters keccak x c).code = x.code from rfl, show EvmzeroCt.toEvmc .running = .running from rfl, hx']
  dsimp only
  rw [ofStackBytes_eq]
  cases hs : t.status with
  | failed e =>
    obtain ⟨f1, _⟩ := hd.failed e hs
    rw [f1]
    refine ⟨_, rfl, ?_⟩
    unfold Shows
    rw [hs]
  | running =>
    have hres := hd.ok (by rw [hs]; simp)
    have hk' := hk (by rw [hs]; simp)
    rw [hres]
    unfold resultOf
    dsimp only
    rw [hs]
    refine ⟨_, rfl, ?_⟩
    unfold Shows
    rw [hs]
    refine ⟨rfl, rfl, rfl, hd.host, List.reverse_reverse _, rfl, rfl, rfl, .inl ?_⟩
    show (BitVec.ofNat 16 t.pc).toNat = t.pc
    have hpc := hk'.2.1 hs
    have := h.code
    rw [BitVec.toNat_ofNat]
    omega
  | stopped =>
    have hres := hd.ok (by rw [hs]; simp)
    rw [hres]
    unfold resultOf
    dsimp only
    rw [hs]
    refine ⟨_, rfl, ?_⟩
    unfold Shows
    rw [hs]
    exact ⟨rfl, rfl, rfl, hd.host, rfl⟩
  | returned =>
    have hres := hd.ok (by rw [hs]; simp)
    rw [hres]
    unfold resultOf
    dsimp only
    rw [hs]
    refine ⟨_, rfl, ?_⟩
    unfold Shows
    rw [hs]
    exact ⟨rfl, rfl, rfl, hd.host, rfl⟩
  | reverted =>
    have hres := hd.ok (by rw [hs]; simp)
    rw [hres]
    unfold resultOf
    dsimp only
    rw [hs]
    refine ⟨_, rfl, ?_⟩
    unfold Shows
    rw [hs]
    exact ⟨rfl, rfl, rfl, hd.host, rfl⟩

/-! ## Refunds of SSTORE -/

theorem sstore_eq {σ : Type} {P : Params σ} {s : State σ}
    (h : ∀ k v r, s.stack = k :: v :: r → 2300 < s.gas → P.rev ≥ BERLIN →
      (P.host.accessStorage P.msg.recipient k s.host).1 = .warm ∨
        (P.host.setStorage P.msg.recipient k v (P.host.accessStorage P.msg.recipient k s.host).2).1 ≠ .deletedRestored ∧
          (P.host.setStorage P.msg.recipient k v (P.host.accessStorage P.msg.recipient k s.host).2).1 ≠ .modifiedRestored) :
    Spec.sstore P s = sstoreEip P s := by
  unfold Spec.sstore sstoreEip State.pop2 State.pop1
  split
  · rename_i k r _
    dsimp only
    split
    · rename_i v r' e
      by_cases hg : s.gas ≤ 2300
      · rw [if_pos hg, if_pos hg]
      · rw [if_neg hg, if_neg hg]
        by_cases hb : P.rev ≥ BERLIN
        · rw [if_pos hb, if_pos hb]
          unfold State.ask
          dsimp only
          have := h k v r' e (by omega) hb
          generalize P.host.accessStorage P.msg.recipient k s.host = A at this ⊢
          obtain ⟨st, w⟩ := A
          dsimp only at this ⊢
          generalize P.host.setStorage P.msg.recipient k v w = W at this ⊢
          obtain ⟨status, w'⟩ := W
          dsimp only at this ⊢
          cases st with
          | warm => simp [hb]
          | cold =>
            have this : status ≠ .deletedRestored ∧ status ≠ .modifiedRestored := by
              rcases this with e | e
              · cases e
              · exact e
            have er : sstoreRefund P.rev false status = sstoreRefund P.rev true status := by
              cases status <;> first | rfl | exact absurd rfl this.1 | exact absurd rfl this.2
            simp [hb, er]
        · rw [if_neg hb, if_neg hb]
          have er : ∀ status, sstoreRefund P.rev false status = sstoreRefund P.rev true status := by
            intro status
            cases status <;> simp [sstoreRefund, restoreRefund, hb]
          simp only [hb, false_and, if_false, er]
    · rfl
  · rfl

theorem status_new {o u v : U256} (h : ¬ (o ≠ u ∧ v = o ∧ v ≠ 0)) : getStorageStatus o u v ≠ .deletedRestored ∧ getStorageStatus o u v ≠ .modifiedRestored := by
  have h7 : ¬ (o ≠ 0 ∧ u = 0 ∧ v = o) := fun ⟨a, b, e⟩ => h ⟨by rw [b]; exact a, e, by rw [e]; exact a⟩
  have h9 : ¬ (o ≠ 0 ∧ u ≠ o ∧ u ≠ 0 ∧ v = o) := fun ⟨a, b, _, e⟩ => h ⟨fun q => b q.symm, e, by rw [e]; exact a⟩
  unfold getStorageStatus
  dsimp only
  rw [if_neg h7, if_neg h9]
  constructor
  all_goals
    intro hc
    repeat' split at hc
    all_goals cases hc

theorem sstore_op : ∀ o : _root_.Fin 256, decode o.val = some .sstore → o.val = 0x55 := by decide +kernel

theorem instr_eip (h : InScope x c) (hr : revisionOf x.revision = some rev) (hn : ¬ ColdRestore x c) {i : Instr}
    (hi : decode (byteAt x.code c.pc.toNat).toNat = some i) :
    execInstr (testFrame keccak x c rev) i (frameState c) = execInstrEip (testFrame keccak x c rev) i (frameState c) := by
  unfold execInstr execInstrEip execEip
  by_cases hs : i = .sstore
  · subst hs
    have hop : byteAt x.code c.pc.toNat = 0x55 := BitVec.eq_of_toNat_eq (sstore_op ⟨_, (byteAt x.code c.pc.toNat).isLt⟩ hi)
    split
    · rfl
    split
    · rfl
    rename_i hst
    split
    · rfl
    split
    · rfl
    have hro : x.readOnly = false := by
      cases hx : x.readOnly with
      | false => rfl
      | true =>
        refine absurd ⟨rfl, ?_⟩ hst
        unfold testFrame nativeFrame Spec.Go.frame toVmParameters Message.isStatic
        dsimp only
        rw [hx, if_pos rfl]
        rfl
    unfold State.charge
    split
    · rfl
    show Spec.sstore _ _ = if Instr.sstore = .sstore then sstoreEip _ _ else _
    rw [if_pos rfl]
    apply sstore_eq
    intro k v r hk hg hb
    have hk : c.stack = k :: v :: r := hk
    have hg : 2300 < c.gas.toNat := hg
    have hb : BERLIN ≤ rev := hb
    have h1 : 1 ≤ x.revision := by
      unfold revisionOf at hr
      rw [if_pos h.revision] at hr
      have e : ISTANBUL + x.revision.toNat = rev := Option.some.inj hr
      rw [← e] at hb
      have hb : 8 ≤ 7 + x.revision.toNat := hb
      omega
    by_cases hwm : c.world.warmKeys k = true
    · refine .inl ?_
      show (if c.world.warmKeys k = true then AccessStatus.warm else .cold) = .warm
      rw [if_pos hwm]
    · refine .inr ?_
      rw [Bool.not_eq_true] at hwm
      show getStorageStatus ((c.world.original k).getD 0) ((c.world.current k).getD 0) v ≠ _ ∧
        getStorageStatus ((c.world.original k).getD 0) ((c.world.current k).getD 0) v ≠ _
      apply status_new
      intro ⟨e1, e2, e3⟩
      exact hn ⟨hop, h1, hro, by omega, k, v, r, hk, hwm, e1, e2, e3⟩
  · simp only [if_neg hs]

/-- The two references agree where evmzero's host keeps to EIP-2929. -/
theorem step_eip (h : InScope x c) (hr : revisionOf x.revision = some rev) (hn : ¬ ColdRestore x c) :
    step (testFrame keccak x c rev) (frameState c) = stepEip (testFrame keccak x c rev) (frameState c) := by
  unfold step stepEip
  by_cases hs : (frameState c).status = .running
  · rw [if_pos hs, if_pos hs]
    cases hi : decode (byteAt (testFrame keccak x c rev).code (frameState c).pc).toNat with
    | none => rfl
    | some i => exact instr_eip h hr hn hi
  · rw [if_neg hs, if_neg hs]

theorem restored {o u v : U256} (h1 : o ≠ u) (h2 : v = o) (h3 : v ≠ 0) :
    getStorageStatus o u v = .deletedRestored ∨ getStorageStatus o u v = .modifiedRestored := by
  subst h2
  unfold getStorageStatus
  dsimp only
  rw [if_neg (fun e => h1 e.symm), if_neg (fun e => h3 e.1), if_neg (fun e => h1 e.2.1.symm), if_neg (fun e => h1 e.2.1.symm),
    if_neg (fun e => e.2.2.1 rfl), if_neg (fun e => h3 e.2.2.2)]
  by_cases hu : u = 0
  · exact .inl (if_pos ⟨h3, hu, rfl⟩)
  · refine .inr ?_
    rw [if_neg (fun e => hu e.2.1), if_neg (fun e => h3 e.1), if_pos ⟨h3, fun e => h1 e.symm, hu, rfl⟩]

/-- Where they differ. -/
theorem step_cold (h : InScope x c) (hr : revisionOf x.revision = some rev) (hn : ColdRestore x c) :
    (stepEip (testFrame keccak x c rev) (frameState c)).status = .running ∧
      step (testFrame keccak x c rev) (frameState c) =
        { stepEip (testFrame keccak x c rev) (frameState c) with refund := (stepEip (testFrame keccak x c rev) (frameState c)).refund + 2100 } := by
  obtain ⟨h1, h2, h3, h4, k, v, r, hk, h5, h6, h7, h8⟩ := hn
  have hi : decode (byteAt (testFrame keccak x c rev).code (frameState c).pc).toNat = some .sstore := by
    show decode (byteAt x.code c.pc.toNat).toNat = some .sstore
    rw [h1]
    rfl
  have hb : BERLIN ≤ rev := by
    unfold revisionOf at hr
    rw [if_pos h.revision] at hr
    have e : ISTANBUL + x.revision.toNat = rev := Option.some.inj hr
    rw [← e]
    show 8 ≤ 7 + x.revision.toNat
    omega
  have hst : (testFrame keccak x c rev).msg.isStatic = false := by
    unfold testFrame nativeFrame Spec.Go.frame toVmParameters Message.isStatic
    dsimp only
    rw [h3, if_neg (by decide)]
    rfl
  have hl : (frameState c).stack = k :: v :: r := hk
  have hlen := h.stack
  rw [hk, List.length_cons, List.length_cons] at hlen
  have hg : ¬ (frameState c).gas ≤ 2300 := by
    show ¬ c.gas.toNat ≤ 2300
    omega
  have hp : ∀ K : U256 → U256 → State World → State World, ({ frameState c with pc := (frameState c).pc + 1 } : State World).pop2 K =
      K k v { frameState c with pc := (frameState c).pc + 1, stack := r } := by
    intro K
    unfold State.pop2 State.pop1
    dsimp only
    rw [hl]
  have hacc : (testFrame keccak x c rev).host.accessStorage (testFrame keccak x c rev).msg.recipient k c.world = (.cold, c.world.markWarmKey k) := by
    show (if c.world.warmKeys k = true then AccessStatus.warm else .cold, _) = _
    rw [h5]
    rfl
  have hset : (testFrame keccak x c rev).host.setStorage (testFrame keccak x c rev).msg.recipient k v (c.world.markWarmKey k) =
      (getStorageStatus ((c.world.original k).getD 0) ((c.world.current k).getD 0) v, (c.world.markWarmKey k).setCurrent k v) := rfl
  have e1 : step (testFrame keccak x c rev) (frameState c) = Spec.sstore (testFrame keccak x c rev) { frameState c with pc := (frameState c).pc + 1 } := by
    unfold step
    rw [if_pos (show (frameState c).status = .running from rfl), hi]
    dsimp only
    unfold execInstr
    rw [if_neg (show ¬ (testFrame keccak x c rev).rev < Instr.sstore.since from Nat.not_lt_zero _), if_neg (by rw [hst]; simp), if_neg (by rw [hl]; show ¬ _ + 1 + 1 < 2; omega),
      if_neg (by rw [hl]; show ¬ r.length + 1 + 1 + 0 > 1024 + 2; omega)]
    unfold State.charge
    rw [if_neg (show ¬ (frameState c).gas < Instr.sstore.baseGas from Nat.not_lt_zero _)]
    rfl
  have e2 : stepEip (testFrame keccak x c rev) (frameState c) = sstoreEip (testFrame keccak x c rev) { frameState c with pc := (frameState c).pc + 1 } := by
    unfold stepEip
    rw [if_pos (show (frameState c).status = .running from rfl), hi]
    dsimp only
    unfold execInstrEip
    rw [if_neg (show ¬ (testFrame keccak x c rev).rev < Instr.sstore.since from Nat.not_lt_zero _), if_neg (by rw [hst]; simp), if_neg (by rw [hl]; show ¬ _ + 1 + 1 < 2; omega),
      if_neg (by rw [hl]; show ¬ r.length + 1 + 1 + 0 > 1024 + 2; omega)]
    unfold State.charge
    rw [if_neg (show ¬ (frameState c).gas < Instr.sstore.baseGas from Nat.not_lt_zero _)]
    unfold execEip
    simp only [if_true]
    rfl
  rw [e1, e2]
  unfold Spec.sstore sstoreEip
  rw [hp, hp]
  have hb' : (testFrame keccak x c rev).rev ≥ BERLIN := hb
  have hg' : ¬ ({ frameState c with pc := (frameState c).pc + 1, stack := r } : State World).gas ≤ 2300 := hg
  rw [if_neg hg', if_neg hg', if_pos hb', if_pos hb']
  unfold State.ask
  dsimp only
  rw [show (frameState c).host = c.world from rfl, hacc]
  dsimp only
  rw [hset]
  have hgas : ¬ (frameState c).gas < 100 + 2100 := by
    show ¬ c.gas.toNat < 100 + 2100
    omega
  rcases restored h6 h7 h8 with e | e
  all_goals
    rw [e]
    unfold State.charge sstoreGas sstoreRefund restoreRefund
    simp only [hb', if_true, and_self, reduceCtorEq, decide_false, if_false, hgas]
    refine ⟨rfl, ?_⟩
    congr 1
    omega

/-- A state with a rule has no cold slot to restore. -/
theorem rule_warm {o : Nat} (ho : (byteAt x.code c.pc.toNat).toNat = o) (hn : ¬ NoRule x c o) : ¬ ColdRestore x c := by
  intro ⟨h1, h2, h3, h4, k, v, r, hk, h5, h6, h7, h8⟩
  refine hn (.inl ⟨?_, by omega, k, v, r, hk, ?_⟩)
  · rw [← ho, h1]; rfl
  · rw [if_pos (.inl h6)]
    exact .inr ⟨h3, h2, h5⟩

end Tosca.Proofs.Ez

import Verif.Model.Nest
import Verif.Proofs.Halt
import Verif.Proofs.Bound
import Verif.Proofs.Fuel
import Verif.Spec.Setting

/-!
# Hosts that differ in the answers to nested calls only
-/

namespace Tosca.Proofs

open Tosca.Spec Tosca.Model

variable {σ : Type}

/-- The same frame on a host that answers calls differently. -/
def recall (P : Params σ) (c : Message → σ → CallResult × σ) : Params σ := { P with host := { P.host with call := c } }

/-- The answers agree on the messages a frame at depth `d` can send. -/
def Agree (d : Int) (c c' : Message → σ → CallResult × σ) : Prop :=
  d ≤ 1024 → ∀ m w, m.depth = d + 1 → c m w = c' m w

variable {P : Params σ} {c : Message → σ → CallResult × σ}

theorem ask_congr {α : Type} (s : State σ) {f f' : σ → α × σ} (k : α → State σ → State σ) (h : f = f') :
    s.ask f k = s.ask f' k := by rw [h]

theorem call_recall (v : CallVariant) (s : State σ) (h : Agree P.msg.depth P.host.call c) :
    call (recall P c) v s = call P v s := by
  have hw : ¬ P.msg.depth > 1024 → ∀ g a value io il oo ol (s : State σ), callWith (recall P c) v g a value io il oo ol s =
      callWith P v g a value io il oo ol s := by
    intro hd g a value io il oo ol s
    have hc : ∀ input gas, P.host.call (callMessage P v a value input gas) = c (callMessage P v a value input gas) := by
      intro input gas
      funext w
      exact h (by omega) _ w (by cases v <;> rfl)
    have hm : ∀ input gas, callMessage (recall P c) v a value input gas = callMessage P v a value input gas := fun _ _ => rfl
    have hh : ∀ m, (recall P c).host.call m = c m := fun _ => rfl
    have ha : ∀ s k, accountAccess (recall P c) a s k = accountAccess P a s k := fun _ _ => rfl
    have hn : ∀ s k, newAccountGas (recall P c) v a value s k = newAccountGas P v a value s k := fun _ _ => rfl
    have hb : ∀ s k, checkBalance (recall P c) value s k = checkBalance P value s k := fun _ _ => rfl
    unfold callWith
    simp only [ha, hn, hb, hm, hh, ← hc]
    rfl
  unfold call
  by_cases hd : P.msg.depth > 1024
  · rw [if_pos hd, if_pos (show (recall P c).msg.depth > 1024 from hd)]
  · rw [if_neg hd, if_neg (show ¬ (recall P c).msg.depth > 1024 from hd)]
    simp only [hw hd]

theorem create_recall (is2 : Bool) (s : State σ) (h : Agree P.msg.depth P.host.call c) :
    create (recall P c) is2 s = create P is2 s := by
  have hw : ¬ P.msg.depth > 1024 → ∀ salt value off n (s : State σ), createWith (recall P c) salt value off n s =
      createWith P salt value off n s := by
    intro hd salt value off n s
    have hc : ∀ input gas, P.host.call (createMessage P salt value input gas) = c (createMessage P salt value input gas) := by
      intro input gas
      funext w
      exact h (by omega) _ w rfl
    have hm : ∀ input gas, createMessage (recall P c) salt value input gas = createMessage P salt value input gas := fun _ _ => rfl
    have hh : ∀ m, (recall P c).host.call m = c m := fun _ => rfl
    have hb : ∀ s k, checkBalance (recall P c) value s k = checkBalance P value s k := fun _ _ => rfl
    unfold createWith
    simp only [hb, hm, hh, ← hc]
    rfl
  unfold create
  by_cases hd : P.msg.depth > 1024
  · rw [if_pos hd, if_pos (show (recall P c).msg.depth > 1024 from hd)]
  · rw [if_neg hd, if_neg (show ¬ (recall P c).msg.depth > 1024 from hd)]
    simp only [hw hd]

theorem exec_recall (at_ : Nat) (i : Instr) (s : State σ) (h : Agree P.msg.depth P.host.call c) :
    exec (recall P c) at_ i s = exec P at_ i s := by
  cases i with
  | create => exact create_recall false s h
  | create2 => exact create_recall true s h
  | call => exact call_recall .call s h
  | callcode => exact call_recall .callcode s h
  | delegatecall => exact call_recall .delegatecall s h
  | staticcall => exact call_recall .staticcall s h
  | _ => rfl

theorem step_recall (s : State σ) (h : Agree P.msg.depth P.host.call c) : step (recall P c) s = step P s := by
  unfold step
  have e : ∀ i s, execInstr (recall P c) i s = execInstr P i s := by
    intro i s
    unfold execInstr
    simp only [exec_recall _ _ _ h]
    rfl
  simp only [e]
  rfl

theorem steps_recall (h : Agree P.msg.depth P.host.call c) (n : Nat) : ∀ s : State σ, steps (recall P c) n s = steps P n s := by
  induction n with
  | zero => intro s; rfl
  | succ n ih => intro s; show steps (recall P c) n (step (recall P c) s) = steps P n (step P s); rw [step_recall s h, ih]

/-- A run depends only on the answers to messages one level deeper. -/
theorem run_congr (N : Nest σ) {c c' : Message → σ → CallResult × σ} (code : List Byte) (m : Message) (w : σ)
    (h : Agree m.depth c c') : N.run (N.with c) code m w = N.run (N.with c') code m w := by
  have h1 := steps_recall (P := N.frame (N.with c) code m) (c := c') h (m.gas.toNat + 1) (initial (N.frame (N.with c) code m) w)
  have h2 : steps (N.frame (N.with c') code m) (m.gas.toNat + 1) (initial (N.frame (N.with c') code m) w) =
      steps (N.frame (N.with c) code m) (m.gas.toNat + 1) (initial (N.frame (N.with c) code m) w) := h1
  unfold Nest.run
  rw [h2]

theorem answer_congr (N : Nest σ) (hN : NestOk N) {c c' : Message → σ → CallResult × σ} (m : Message) (w : σ)
    (h : Agree m.depth c c') : N.answer (N.with c) m w = N.answer (N.with c') m w := by
  unfold Nest.answer
  cases he : N.enter m w with
  | inl r => rfl
  | inr t =>
    obtain ⟨code, m', w'⟩ := t
    have hd := (hN.entered m w code m' w' he).2.2.2.1
    dsimp only
    rw [run_congr N code m' w' (by rw [hd]; exact h)]

theorem host_with (N : Nest σ) (d : Nat) : N.host d = N.with (N.host d).call := by
  cases d <;> rfl

/-- Levels beyond the depth limit do not matter. -/
theorem host_levels (N : Nest σ) (hN : NestOk N) (n : Nat) : ∀ (a b : Nat) (m : Message) (w : σ), (1025 - m.depth).toNat ≤ n →
    (1025 - m.depth).toNat + 1 ≤ a → (1025 - m.depth).toNat + 1 ≤ b → (N.host a).call m w = (N.host b).call m w := by
  induction n with
  | zero =>
    intro a b m w h ha hb
    obtain ⟨a, rfl⟩ : ∃ k, a = k + 1 := ⟨a - 1, by omega⟩
    obtain ⟨b, rfl⟩ : ∃ k, b = k + 1 := ⟨b - 1, by omega⟩
    show N.answer (N.host a) m w = N.answer (N.host b) m w
    rw [host_with N a, host_with N b]
    exact answer_congr N hN m w (fun hd => by omega)
  | succ n ih =>
    intro a b m w h ha hb
    obtain ⟨a, rfl⟩ : ∃ k, a = k + 1 := ⟨a - 1, by omega⟩
    obtain ⟨b, rfl⟩ : ∃ k, b = k + 1 := ⟨b - 1, by omega⟩
    show N.answer (N.host a) m w = N.answer (N.host b) m w
    rw [host_with N a, host_with N b]
    refine answer_congr N hN m w (fun hd m2 w2 h2 => ?_)
    exact ih a b m2 w2 (by omega) (by omega) (by omega)

/-- The closed system solves its equation. -/
theorem closed_fix (N : Nest σ) (hN : NestOk N) (m : Message) (w : σ) : N.closed.call m w = N.answer N.closed m w := by
  show N.answer (N.host (1025 - m.depth).toNat) m w = N.answer (N.with N.closed.call) m w
  rw [host_with N]
  refine answer_congr N hN m w (fun hd m2 w2 h2 => ?_)
  show (N.host (1025 - m.depth).toNat).call m2 w2 = (N.host ((1025 - m2.depth).toNat + 1)).call m2 w2
  exact host_levels N hN (1025 - m2.depth).toNat _ _ m2 w2 (Nat.le_refl _) (by omega) (by omega)

/-- It is the only solution. -/
theorem closed_only (N : Nest σ) (hN : NestOk N) {c : Message → σ → CallResult × σ}
    (hc : ∀ m w, c m w = N.answer (N.with c) m w) (n : Nat) : ∀ (m : Message) (w : σ), (1025 - m.depth).toNat ≤ n →
    c m w = N.closed.call m w := by
  induction n with
  | zero =>
    intro m w h
    rw [hc, closed_fix N hN]
    exact answer_congr N hN m w (fun hd => by omega)
  | succ n ih =>
    intro m w h
    rw [hc, closed_fix N hN]
    exact answer_congr N hN m w (fun hd m2 w2 h2 => ih m2 w2 (by omega))

/-! ### The hosts keep the EVMC contract -/

theorem nestFrame_ok (N : Nest σ) (hN : NestOk N) {H : Host σ} (hH : HostOk H) {m : Message} {w : σ} {code : List Byte} {m' : Message} {w' : σ}
    (he : N.enter m w = .inr (code, m', w')) : ParamsOk (N.frame H code m') := by
  obtain ⟨_, _, _, hd, h1, h2, h3, h4⟩ := hN.entered m w code m' w' he
  exact ⟨hH, h3, h4, by show -2 ^ 31 ≤ m'.depth ∧ m'.depth < 2 ^ 31; rw [hd]; exact ⟨h1, h2⟩⟩

/-- A failed frame has no return data. -/
theorem step_lost {P : Params σ} {s : State σ} (hr : s.status = .running) {f : Failure} (hf : (step P s).status = .failed f) :
    (step P s).ret = [] := by
  unfold step at hf ⊢
  rw [if_pos hr] at hf ⊢
  cases hd : decode (byteAt P.code s.pc).toNat with
  | none => rfl
  | some i =>
    rw [hd] at hf
    dsimp only at hf ⊢
    unfold execInstr at hf ⊢
    by_cases h1 : P.rev < i.since
    · rw [if_pos h1]; rfl
    rw [if_neg h1] at hf ⊢
    by_cases h2 : i.writes = true ∧ P.msg.isStatic = true
    · rw [if_pos h2]; rfl
    rw [if_neg h2] at hf ⊢
    by_cases h3 : s.stack.length < i.pops
    · rw [if_pos h3]; rfl
    rw [if_neg h3] at hf ⊢
    by_cases h4 : s.stack.length + i.pushes > stackLimit + i.pops
    · rw [if_pos h4]; rfl
    rw [if_neg h4] at hf ⊢
    by_cases hg : s.gas < i.baseGas
    · rw [charge_poor _ _ _ hg]; rfl
    rw [charge_rich _ _ _ hg] at hf ⊢
    dsimp only at hf ⊢
    exact (ends_exec s.pc i (s := { s with gas := s.gas - i.baseGas, pc := s.pc + i.length }) hr (by show i.pops ≤ s.stack.length; omega) f hf).2.2.2

theorem steps_lost {P : Params σ} (n : Nat) : ∀ {s : State σ}, s.status = .running → ∀ {f : Failure}, (steps P n s).status = .failed f →
    (steps P n s).ret = [] := by
  induction n with
  | zero => intro s hr f hf; rw [show (steps P 0 s) = s from rfl, hr] at hf; cases hf
  | succ n ih =>
    intro s hr f hf
    by_cases hr' : (step P s).status = .running
    · exact ih (s := step P s) hr' hf
    · have e : steps P n (step P s) = step P s := steps_halted hr' n
      have e2 : steps P (n + 1) s = step P s := e
      rw [e2] at hf ⊢
      exact step_lost hr hf

theorem run_ok' (N : Nest σ) (hN : NestOk N) {H : Host σ} (hH : HostOk H) {m : Message} {w : σ} {code : List Byte} {m' : Message} {w' : σ}
    (he : N.enter m w = .inr (code, m', w')) : ResultOk m (N.run H code m' w').1 := by
  obtain ⟨hg, hg0, hg1, _⟩ := hN.entered m w code m' w' he
  have hP := nestFrame_ok N hN hH he
  have hg2 : (N.frame H code m').msg.gas ≤ 2 ^ 54 := by show m'.gas ≤ 2 ^ 54; omega
  have hb := (steps_bound hP (m'.gas.toNat + 1) (wf_initial w' hg2) rfl).1
  have h1 := hb.hi
  have h2 := hb.lo
  have e1 : (((initial (N.frame H code m') w').gas : Nat) : Int) = m.gas := by
    show ((m'.gas.toNat : Nat) : Int) = m.gas
    rw [hg]; exact Int.toNat_of_nonneg hg0
  have e2 : (initial (N.frame H code m') w').refund = 0 := rfl
  rw [e1, e2] at h1 h2
  refine ⟨?_, ?_, ?_⟩
  · have := hb.gas
    constructor
    · show (0 : Int) ≤ ((steps _ _ _).gas : Nat)
      omega
    · show ((steps (N.frame H code m') (m'.gas.toNat + 1) (initial (N.frame H code m') w')).gas : Int) ≤ m.gas
      omega
  · show _ ∧ _
    constructor
    · show (steps _ _ _).refund ≤ 199 * (m.gas - ((steps _ _ _).gas : Nat))
      omega
    · show -(199 * (m.gas - ((steps _ _ _).gas : Nat))) ≤ (steps _ _ _).refund
      omega
  · show (steps (N.frame H code m') (m'.gas.toNat + 1) (initial (N.frame H code m') w')).ret.length < 2 ^ 64
    cases hs : (steps (N.frame H code m') (m'.gas.toNat + 1) (initial (N.frame H code m') w')).status with
    | failed f => rw [steps_lost _ rfl hs]; show 0 < 2 ^ 64; omega
    | _ => exact (wf_steps_alive hP _ (wf_initial w' hg2) (fun f hf => by rw [hf] at hs; cases hs)).ret

theorem nestAnswer_ok (N : Nest σ) (hN : NestOk N) {H : Host σ} (hH : HostOk H) {m : Message} (h0 : 0 ≤ m.gas) (h1 : m.gas ≤ 2 ^ 54) (w : σ) :
    ResultOk m (N.answer H m w).1 := by
  unfold Nest.answer
  cases he : N.enter m w with
  | inl r => exact hN.answered m w r.1 r.2 h0 h1 he
  | inr t => exact hN.left _ _ _ _ (run_ok' N hN hH he)

theorem nestWith_ok (N : Nest σ) (hN : NestOk N) {c : Message → σ → CallResult × σ}
    (hc : ∀ m w, 0 ≤ m.gas → m.gas ≤ 2 ^ 54 → ResultOk m (c m w).1) : HostOk (N.with c) where
  callGas m w h0 h1 := (hc m w h0 h1).gas
  callRefund m w h0 h1 := (hc m w h0 h1).refund
  callOutput m w h0 h1 := (hc m w h0 h1).output
  copyCode := hN.copyCode
  blockNumber := hN.blockNumber
  timestamp := hN.timestamp
  gasLimit := hN.gasLimit
  blobHashes := hN.blobHashes

theorem nestHost_ok (N : Nest σ) (hN : NestOk N) (d : Nat) : HostOk (N.host d) := by
  induction d with
  | zero =>
    refine nestWith_ok N hN fun m w h0 h1 => ⟨⟨Int.le_refl _, h0⟩, ?_, by show 0 < 2 ^ 64; omega⟩
    show (0 : Int) ≤ 199 * (m.gas - 0) ∧ -(199 * (m.gas - 0)) ≤ (0 : Int)
    omega
  | succ d ih => exact nestWith_ok N hN fun m w h0 h1 => nestAnswer_ok N hN ih h0 h1 w

theorem nestClosed_ok (N : Nest σ) (hN : NestOk N) : HostOk N.closed :=
  nestWith_ok N hN fun m w h0 h1 =>
    ⟨(nestHost_ok N hN _).callGas m w h0 h1, (nestHost_ok N hN _).callRefund m w h0 h1, (nestHost_ok N hN _).callOutput m w h0 h1⟩

/-! ### Nested `Execute` -/

/-- A nested `Execute` on a host that keeps the contract completes, with the outcome of the specification. -/
theorem nested_execute (N : Nest σ) (hN : NestOk N) {codeOf : U256 → List Byte} {H : Host σ} (hH : HostOk H) {m : Message} {w : σ}
    {code : List Byte} {m' : Message} {w' : σ} (he : N.enter m w = .inr (code, m', w')) (hash : HashOk codeOf m' code) {vm : Vm}
    (hv : VmOk codeOf N.keccak vm) {reenter : Message → σ → Sha3Cache → Sha3Cache}
    (hre : ∀ m w s, Sha3Ok N.keccak s → Sha3Ok N.keccak (reenter m w s)) (fuel : Nat) (buf : Nat → U256) :
    ∃ res w'' vm', vm.execute ⟨H, N.keccak, reenter⟩ (m'.gas.toNat + 2 + fuel) code m' N.rev buf w' = .ok (some (res, w'', vm')) ∧
      VmOk codeOf N.keccak vm' ∧ (res.toCall, w'') = N.run H code m' w' := by
  obtain ⟨hg, hg0, hg1, _⟩ := hN.entered m w code m' w' he
  have hP := nestFrame_ok N hN hH he
  have hg2 : (N.frame H code m').msg.gas ≤ 2 ^ 54 := by show m'.gas ≤ 2 ^ 54; omega
  have hg3 : 0 ≤ (N.frame H code m').msg.gas := by show 0 ≤ m'.gas; omega
  obtain ⟨res, w'', vm', o', h1, h2, _, s', h3, h4, h5, h6, h7, h8⟩ := executeWith_ok (P := N.frame H code m')
    (E := ⟨H, N.keccak, reenter⟩) hP ⟨rfl, rfl, hre⟩ hv hash hg3 hg2 noObserver (m'.gas.toNat + 2 + fuel)
    (by show m'.gas.toNat + 2 ≤ _; omega) buf w' ()
  refine ⟨res, w'', vm', ?_, h2, ?_⟩
  · unfold Vm.execute
    rw [show vm.executeWith ⟨H, N.keccak, reenter⟩ noObserver (m'.gas.toNat + 2 + fuel) code m' N.rev buf w' () =
      .ok (some (res, w'', vm', o')) from h1]
    rfl
  · have hs : s' = steps (N.frame H code m') (m'.gas.toNat + 1) (initial (N.frame H code m') w') :=
      final_unique h3 ⟨halts_bound hP _ (wf_initial w' hg2) (Nat.le_refl _), _, rfl⟩
    unfold Nest.run EvmcResult.toCall
    rw [h4, h5, h6, h7, h8, hs]

/-- The implementation's hosts are those of the specification. -/
theorem nestedHost_eq (N : Nest σ) (hN : NestOk N) {codeOf : U256 → List Byte} {find : Nat → Message → σ → Found σ}
    (hf : FoundOk N codeOf find) (crash : CallResult × σ) (d : Nat) : nestedHost N find crash d = N.host d := by
  induction d with
  | zero => rfl
  | succ d ih =>
    show N.with _ = N.with _
    congr 1
    funext m w
    unfold Nest.answer
    cases he : N.enter m w with
    | inl r => rfl
    | inr t =>
      obtain ⟨code, m', w'⟩ := t
      dsimp only
      obtain ⟨res, w'', vm', h1, _, h2⟩ := nested_execute N hN (nestHost_ok N hN d) he (hf.hash m w code m' w' he) (hf.vm d m w)
        (hf.reenter d m w) (find d m w).fuel (find d m w).buf
      rw [ih, h1, ← h2]

end Tosca.Proofs

import Verif.Proofs.Nest
import Verif.Props.Effects

/-!
# Nested executions (C47, C48)

The host of the other theorems is arbitrary.  Here it answers nested calls by running evmzero again, to any
depth; only the part of the host that does not run code (`Nest`) is arbitrary.
-/

namespace Tosca

open Tosca.Model Tosca.Spec Tosca.Proofs

variable {σ ω : Type}

/-! ### C47: the whole call tree -/

/-- C47.  The closed system of the specification solves the recursive equation: a nested call is answered by
running the callee on the closed system. -/
theorem C47_closed {N : Nest σ} (hN : NestOk N) (m : Message) (w : σ) : N.closed.call m w = N.answer N.closed m w :=
  closed_fix N hN m w

/-- C47.  The equation has no other solution. -/
theorem C47_closed_unique {N : Nest σ} (hN : NestOk N) {c : Message → σ → CallResult × σ}
    (hc : ∀ m w, c m w = N.answer (N.with c) m w) : N.with c = N.closed := by
  show N.with c = N.with N.closed.call
  congr 1
  funext m w
  exact closed_only N hN hc _ m w (Nat.le_refl _)

/-- C47.  The assumption of the other theorems about the host is met: the closed system keeps the EVMC contract. -/
theorem C47_host_ok {N : Nest σ} (hN : NestOk N) : HostOk N.closed := nestClosed_ok N hN

/-- C47.  However deep calls may nest (`d` levels), whatever the nested runs find in the shared VM (`find`): a host
that runs evmzero answers every call as the specification does. -/
theorem C47_nested_hosts {N : Nest σ} (hN : NestOk N) {codeOf : U256 → List Byte} {find : Nat → Message → σ → Found σ}
    (hf : FoundOk N codeOf find) (crash : CallResult × σ) (d : Nat) : nestedHost N find crash d = N.host d :=
  nestedHost_eq N hN hf crash d

/-- C47.  With enough levels (a message at depth `k` needs `1026 - k`, so 1026 always suffice for a transaction)
calls are answered as in the closed system: the bound on the nesting is never reached. -/
theorem C47_levels {N : Nest σ} (hN : NestOk N) {codeOf : U256 → List Byte} {find : Nat → Message → σ → Found σ}
    (hf : FoundOk N codeOf find) (crash : CallResult × σ) (d : Nat) (m : Message) (w : σ) (hd : 1026 - m.depth ≤ d) (h1 : 1 ≤ d) :
    (nestedHost N find crash d).call m w = N.closed.call m w := by
  rw [nestedHost_eq N hN hf]
  exact host_levels N hN (1025 - m.depth).toNat d _ m w (Nat.le_refl _) (by omega) (Nat.le_refl _)

/-- C47.  No nested run has undefined behaviour or fails to end, at any level. -/
theorem C47_nested_complete {N : Nest σ} (hN : NestOk N) {codeOf : U256 → List Byte} {find : Nat → Message → σ → Found σ}
    (hf : FoundOk N codeOf find) (crash : CallResult × σ) (d : Nat) {m : Message} {w : σ} {code : List Byte} {m' : Message} {w' : σ}
    (he : N.enter m w = .inr (code, m', w')) :
    ∃ res w'' vm', (find d m w).vm.execute ⟨nestedHost N find crash d, N.keccak, (find d m w).reenter⟩
        (m'.gas.toNat + 2 + (find d m w).fuel) code m' N.rev (find d m w).buf w' = .ok (some (res, w'', vm')) ∧
      VmOk codeOf N.keccak vm' ∧ (res.toCall, w'') = N.run (N.host d) code m' w' := by
  rw [nestedHost_eq N hN hf]
  exact nested_execute N hN (nestHost_ok N hN d) he (hf.hash m w code m' w' he) (hf.vm d m w) (hf.reenter d m w) _ _

/-- C47.  `Execute` on a host that runs evmzero for nested calls, as deep as they get: it ends, without undefined
behaviour, with the outcome the specification assigns to the whole call tree. -/
theorem C47_execute {N : Nest σ} (hN : NestOk N) {codeOf : U256 → List Byte} {find : Nat → Message → σ → Found σ}
    (hf : FoundOk N codeOf find) (crash : CallResult × σ) {code : List Byte} {m : Message} (w : σ)
    (hg0 : 0 ≤ m.gas) (hg : m.gas ≤ 2 ^ 54) (hdep : -2 ^ 31 ≤ m.depth ∧ m.depth < 2 ^ 31) (hc : code.length < 2 ^ 32)
    (hi : m.input.length < 2 ^ 64) (hh : HashOk codeOf m code) {vm : Vm} (hv : VmOk codeOf N.keccak vm)
    {reenter : Message → σ → Sha3Cache → Sha3Cache} (hre : ∀ m w s, Sha3Ok N.keccak s → Sha3Ok N.keccak (reenter m w s))
    (d : Nat) (hd : 1025 - m.depth ≤ d) (buf : Nat → U256) (obs : Observer σ ω) (o : ω) (fuel : Nat) (hfu : m.gas.toNat + 2 ≤ fuel) :
    ∃ res w' vm' o', vm.executeWith ⟨nestedHost N find crash d, N.keccak, reenter⟩ obs fuel code m N.rev buf w o =
        .ok (some (res, w', vm', o')) ∧ (res.toCall, w') = N.run N.closed code m w := by
  have hP : ParamsOk (N.frame (N.host d) code m) := ⟨nestHost_ok N hN d, hc, hi, hdep⟩
  obtain ⟨res, w', vm', o', h1, _, _, s', h3, h4, h5, h6, h7, h8⟩ := executeWith_ok (P := N.frame (N.host d) code m)
    (E := ⟨nestedHost N find crash d, N.keccak, reenter⟩) hP ⟨nestedHost_eq N hN hf crash d, rfl, hre⟩ hv hh hg0 hg obs fuel hfu buf w o
  refine ⟨res, w', vm', o', h1, ?_⟩
  have hs : s' = steps (N.frame (N.host d) code m) (m.gas.toNat + 1) (initial (N.frame (N.host d) code m) w) :=
    final_unique h3 ⟨halts_bound hP _ (wf_initial w hg) (Nat.le_refl _), _, rfl⟩
  have hr : N.run (N.host d) code m w = N.run N.closed code m w := by
    rw [host_with N d]
    refine run_congr N code m w (fun hd' m2 w2 h2 => ?_)
    exact host_levels N hN (1025 - m2.depth).toNat d _ m2 w2 (Nat.le_refl _) (by omega) (Nat.le_refl _)
  rw [← hr]
  unfold Nest.run EvmcResult.toCall
  rw [h4, h5, h6, h7, h8, hs]

/-! ### C48: static call trees -/

/-- Messages that must not modify the state. -/
abbrev ReadOnlyCall (m : Message) : Prop := HostAct.ReadOnly (.call m)

/-- What the rest of the host preserves when asked to do only what does not modify the state: reading, entering a
static callee (which runs with the static flag), and leaving it. -/
structure Keeps (N : Nest σ) (I : σ → Prop) : Prop where
  read : ∀ (a : HostAct) w, a.ReadOnly → (∀ m, a ≠ .call m) → I w → I (a.apply N.base w)
  answer : ∀ m w r w', ReadOnlyCall m → I w → N.enter m w = .inl (r, w') → I w'
  enter : ∀ m w code m' w', ReadOnlyCall m → I w → N.enter m w = .inr (code, m', w') → m'.isStatic = true ∧ I w'
  leave : ∀ m w r w', ReadOnlyCall m → I w → I w' → I (N.leave m w r w').2

theorem keeps_apply {N : Nest σ} {I : σ → Prop} (hI : Keeps N I) {c : Message → σ → CallResult × σ}
    (hc : ∀ m w, ReadOnlyCall m → I w → I (c m w).2) (a : HostAct) (w : σ) (ha : a.ReadOnly) (hw : I w) :
    I (a.apply (N.with c) w) := by
  cases a with
  | call m => exact hc m w ha hw
  | accountExists x => exact hI.read (.accountExists x) w ha (by intro _ h; cases h) hw
  | getStorage x k => exact hI.read (.getStorage x k) w ha (by intro _ h; cases h) hw
  | setStorage x k v => exact hI.read (.setStorage x k v) w ha (by intro _ h; cases h) hw
  | getTransient x k => exact hI.read (.getTransient x k) w ha (by intro _ h; cases h) hw
  | setTransient x k v => exact hI.read (.setTransient x k v) w ha (by intro _ h; cases h) hw
  | getBalance x => exact hI.read (.getBalance x) w ha (by intro _ h; cases h) hw
  | getCodeSize x => exact hI.read (.getCodeSize x) w ha (by intro _ h; cases h) hw
  | getCodeHash x => exact hI.read (.getCodeHash x) w ha (by intro _ h; cases h) hw
  | copyCode x o n => exact hI.read (.copyCode x o n) w ha (by intro _ h; cases h) hw
  | selfdestruct x b => exact hI.read (.selfdestruct x b) w ha (by intro _ h; cases h) hw
  | getBlockHash n => exact hI.read (.getBlockHash n) w ha (by intro _ h; cases h) hw
  | emitLog x dt t => exact hI.read (.emitLog x dt t) w ha (by intro _ h; cases h) hw
  | accessAccount x => exact hI.read (.accessAccount x) w ha (by intro _ h; cases h) hw
  | accessStorage x k => exact hI.read (.accessStorage x k) w ha (by intro _ h; cases h) hw

/-- C48.  A static nested call on a host that runs evmzero preserves whatever reading preserves, through all
levels of further nested calls. -/
theorem C48_static_call {N : Nest σ} (hN : NestOk N) {codeOf : U256 → List Byte} {find : Nat → Message → σ → Found σ}
    (hf : FoundOk N codeOf find) (crash : CallResult × σ) {I : σ → Prop} (hI : Keeps N I) (d : Nat) :
    ∀ (m : Message) (w : σ), ReadOnlyCall m → I w → I ((nestedHost N find crash d).call m w).2 := by
  induction d with
  | zero => intro m w _ hw; exact hw
  | succ d ih =>
    intro m w hm hw
    show I (match N.enter m w with
      | .inl r => r
      | .inr (code, m', w') => match (find d m w).vm.execute ⟨nestedHost N find crash d, N.keccak, (find d m w).reenter⟩
          (m'.gas.toNat + 2 + (find d m w).fuel) code m' N.rev (find d m w).buf w' with
        | .ok (some (res, w'', _)) => N.leave m w res.toCall w''
        | _ => crash).2
    cases he : N.enter m w with
    | inl r => exact hI.answer m w r.1 r.2 hm hw he
    | inr t =>
      obtain ⟨code, m', w'⟩ := t
      obtain ⟨hs, hw'⟩ := hI.enter m w code m' w' hm hw he
      obtain ⟨res, w'', vm', h1, _⟩ := C47_nested_complete hN hf crash d he
      dsimp only
      rw [h1]
      refine hI.leave m w _ _ hm hw ?_
      unfold Vm.execute at h1
      cases hx : (find d m w).vm.executeWith ⟨nestedHost N find crash d, N.keccak, (find d m w).reenter⟩ noObserver
          (m'.gas.toNat + 2 + (find d m w).fuel) code m' N.rev (find d m w).buf w' () with
      | error e => rw [hx] at h1; cases h1
      | ok r =>
        rw [hx] at h1
        cases r with
        | none => cases h1
        | some t =>
          obtain ⟨a, b, c, o⟩ := t
          cases h1
          refine C16_invariant I (fun a w ha hw => ?_) hs hx hw'
          cases d with
          | zero => exact keeps_apply hI ih a w ha hw
          | succ d => exact keeps_apply hI ih a w ha hw

/-- C48.  `Execute` in static mode on such a host: nothing in the whole call tree modifies the state. -/
theorem C48_static_tree {N : Nest σ} (hN : NestOk N) {codeOf : U256 → List Byte} {find : Nat → Message → σ → Found σ}
    (hf : FoundOk N codeOf find) (crash : CallResult × σ) {I : σ → Prop} (hI : Keeps N I) (d : Nat)
    {reenter : Message → σ → Sha3Cache → Sha3Cache} {vm vm' : Vm} {code : List Byte} {m : Message} {rev : Revision}
    {buf : Nat → U256} {obs : Observer σ ω} {o o' : ω} {fuel : Nat} {w w' : σ} {res : EvmcResult} (hs : m.isStatic = true)
    (h : vm.executeWith ⟨nestedHost N find crash d, N.keccak, reenter⟩ obs fuel code m rev buf w o = .ok (some (res, w', vm', o')))
    (hw : I w) : I w' := by
  refine C16_invariant I (fun a w ha hw => ?_) hs h hw
  have := C48_static_call hN hf crash hI d
  cases d with
  | zero => exact keeps_apply hI this a w ha hw
  | succ d => exact keeps_apply hI this a w ha hw

/-! ### A concrete system

Account 5 writes 1 to key 1 of its transient storage; account 6 calls account 5 with 110 gas; other accounts have no code.  The state counts
writes; a callee that does not succeed leaves no trace. -/

def demoCode (a : Address) : Option (List Byte) :=
  if a = 5 then some [0x60, 1, 0x60, 1, 0x5d]
  else if a = 6 then some [0x5f, 0x5f, 0x5f, 0x5f, 0x5f, 0x60, 5, 0x60, 110, 0xf1]
  else none

def demoNest : Nest Nat where
  base := demoHost
  keccak := demoKeccak
  rev := CANCUN
  enter m w :=
    match demoCode m.codeAddress with
    | some code =>
      if 0 ≤ m.gas ∧ m.gas ≤ 2 ^ 54 ∧ -2 ^ 31 ≤ m.depth ∧ m.depth < 2 ^ 31 ∧ m.input.length < 2 ^ 64 then .inr (code, { m with codeHash := none }, w)
      else .inl ({ status := .failure }, w)
    | none => .inl ({ status := .success, gasLeft := m.gas }, w)
  leave _ w r w' := (r, if r.status = .success then w' else w)

theorem demoNest_ok : NestOk demoNest where
  copyCode := demoHost_ok.copyCode
  blockNumber := demoHost_ok.blockNumber
  timestamp := demoHost_ok.timestamp
  gasLimit := demoHost_ok.gasLimit
  blobHashes := demoHost_ok.blobHashes
  answered m w r w' h0 h1 h := by
    unfold demoNest at h
    dsimp only at h
    split at h
    · split at h
      · cases h
      · cases h
        exact ⟨⟨Int.le_refl _, h0⟩, by show (0 : Int) ≤ 199 * (m.gas - 0) ∧ -(199 * (m.gas - 0)) ≤ (0 : Int); omega,
          by show 0 < 2 ^ 64; omega⟩
    · cases h
      exact ⟨⟨h0, Int.le_refl _⟩, by show (0 : Int) ≤ 199 * (m.gas - m.gas) ∧ -(199 * (m.gas - m.gas)) ≤ (0 : Int); omega,
        by show 0 < 2 ^ 64; omega⟩
  entered m w code m' w' h := by
    unfold demoNest at h
    dsimp only at h
    split at h
    · rename_i c hc
      split at h
      · rename_i hg
        cases h
        refine ⟨rfl, hg.1, hg.2.1, rfl, hg.2.2.1, hg.2.2.2.1, ?_, hg.2.2.2.2⟩
        unfold demoCode at hc
        split at hc
        · cases hc; decide
        · split at hc
          · cases hc; decide
          · cases hc
      · cases h
    · cases h
  left m w r w' h := h

/-- The nested runs find new VMs. -/
theorem demo_found : ∃ (vm : Vm) (find : Nat → Message → Nat → Found Nat), FoundOk demoNest (fun _ => []) find ∧
    VmOk (fun _ => []) demoKeccak vm := by
  obtain ⟨vm, _, h, _⟩ := Proofs.vm_new (fun _ => []) demoKeccak
  refine ⟨vm, fun _ _ _ => ⟨vm, fun _ _ s => s, fun _ => 7, 3⟩, ⟨fun _ _ _ => h, fun _ _ _ _ _ _ h => h, ?_⟩, h⟩
  intro m w code m' w' h
  unfold demoNest at h
  dsimp only at h
  split at h
  · split at h
    · cases h; intro _ hh; cases hh
    · cases h
  · cases h

/-- Evaluating a run. -/
theorem run_of_steps (N : Nest σ) (H : Host σ) (code : List Byte) (m : Message) (w : σ) (n : Nat) (s' : State σ)
    (hs : steps (N.frame H code m) n (initial (N.frame H code m) w) = s') (hr : s'.status ≠ .running) (hn : n ≤ m.gas.toNat + 1) :
    N.run H code m w = ({ status := statusCode s'.status, gasLeft := s'.gas, gasRefund := s'.refund, output := s'.ret }, s'.host) := by
  obtain ⟨k, hk⟩ : ∃ k, m.gas.toNat + 1 = n + k := ⟨m.gas.toNat + 1 - n, by omega⟩
  unfold Nest.run
  rw [hk, steps_add, hs, steps_halted hr]

/-- A call of account 6 from outside. -/
def demoCall (flags : BitVec 32) : Message := { flags := flags, gas := 100000, recipient := 6, sender := 20, codeAddress := 6 }

set_option maxRecDepth 20000

-- the whole call tree: account 6 runs, calls account 5, which writes once
example : demoNest.run demoNest.closed [0x5f, 0x5f, 0x5f, 0x5f, 0x5f, 0x60, 5, 0x60, 110, 0xf1] (demoCall 0) 0 =
    ({ status := .success, gasLeft := 99778, gasRefund := 0, output := [] }, 1) :=
  run_of_steps _ _ _ _ _ 9 _ rfl (by intro h; cases h) (by decide)

-- the same with the static flag: the write two levels down is refused
example : demoNest.run demoNest.closed [0x5f, 0x5f, 0x5f, 0x5f, 0x5f, 0x60, 5, 0x60, 110, 0xf1] (demoCall 1) 0 =
    ({ status := .success, gasLeft := 99774, gasRefund := 0, output := [] }, 0) :=
  run_of_steps _ _ _ _ _ 9 _ rfl (by intro h; cases h) (by decide)

-- no write is a property that reading preserves
theorem demo_keeps : Keeps demoNest (fun w => w = 0) where
  read a w ha hc hw := by cases a <;> first | exact hw | exact absurd ha not_false | exact absurd rfl (hc _)
  answer m w r w' _ hw h := by
    unfold demoNest at h
    dsimp only at h
    split at h
    · split at h
      · cases h
      · cases h; exact hw
    · cases h; exact hw
  enter m w code m' w' hm hw h := by
    unfold demoNest at h
    dsimp only at h
    split at h
    · split at h
      · cases h; exact ⟨hm.1, hw⟩
      · cases h
    · cases h
  leave m w r w' _ hw hw' := by
    show (if r.status = .success then w' else w) = 0
    split
    · exact hw'
    · exact hw

-- all hypotheses of C47_execute and C48_static_tree are met
example : ∃ (vm vm' : Vm) (find : Nat → Message → Nat → Found Nat) (res : EvmcResult) (w' : Nat),
    vm.executeWith ⟨nestedHost demoNest find ({}, 0) 1025, demoKeccak, fun _ _ s => s⟩ noObserver 100002
      [0x5f, 0x5f, 0x5f, 0x5f, 0x5f, 0x60, 5, 0x60, 110, 0xf1] (demoCall 1) CANCUN (fun _ => 0) 0 () = .ok (some (res, w', vm', ())) ∧
    res.toCall = { status := .success, gasLeft := 99774, gasRefund := 0, output := [] } ∧ w' = 0 := by
  obtain ⟨vm, find, hf, hv⟩ := demo_found
  obtain ⟨res, w', vm', o', h1, h2⟩ := C47_execute demoNest_ok hf ({}, 0)
    (code := [0x5f, 0x5f, 0x5f, 0x5f, 0x5f, 0x60, 5, 0x60, 110, 0xf1]) (m := demoCall 1) 0 (by decide) (by decide) (by decide)
    (by decide) (by decide) (by intro _ hh; cases hh) hv (fun _ _ _ h => h) 1025 (by decide) (fun _ => 0) noObserver () 100002 (by decide)
  refine ⟨vm, vm', find, res, w', h1, ?_, C48_static_tree demoNest_ok hf ({}, 0) demo_keeps 1025 rfl h1 rfl⟩
  rw [run_of_steps _ _ _ _ _ 9 _ rfl (by intro h; cases h) (by decide)] at h2
  exact congrArg Prod.fst h2

end Tosca

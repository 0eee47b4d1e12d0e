import Verif.Props.Exec
import Verif.Proofs.Effects

/-!
# What a frame does to the outside world, for every host (C16, C39, C43, C23)

`recording H` is the host `H` with a record of the calls made to it.  The theorems are about any
host `H`, even one that breaks the EVMC contract: the record a run leaves contains only calls that
the specification permits.
-/

namespace Tosca

open Tosca.Model Tosca.Spec Tosca.Proofs

variable {σ ω : Type}

theorem replay_recording (H : Host σ) (acts : List HostAct) : ∀ (w : σ) (l : List HostAct),
    replay (recording H) acts (w, l) = (replay H acts w, l ++ acts) := by
  induction acts with
  | nil => intro w l; simp [replay]
  | cons a as ih =>
    intro w l
    have h : a.apply (recording H) (w, l) = (a.apply H w, l ++ [a]) := by cases a <;> rfl
    show replay (recording H) as (a.apply (recording H) (w, l)) = _
    rw [h, ih]
    simp [replay]

theorem permitted_recording {H : Host σ} {p : Message} {rev : Revision} {a : HostAct}
    (h : Permitted (recording H) p rev a) : Permitted H p rev a :=
  ⟨h.owned, h.static, h.nested, h.access, h.blocks⟩

/-- Every host call of `Execute` is permitted: own storage, logs and destruction only; nothing that
modifies the state in static mode; nested messages one level deeper, within the depth limit and in
the frame's own name; only recent block hashes. -/
theorem C43_execute_calls {H : Host σ} {E : Env (σ × List HostAct)} (hE : E.host = recording H) {obs : Observer (σ × List HostAct) ω}
    {fuel : Nat} {vm vm' : Vm} {code : List Byte} {msg : Message} {rev : Revision} {buf : Nat → U256} {w w' : σ} {log : List HostAct}
    {o o' : ω} {res : EvmcResult}
    (h : vm.executeWith E obs fuel code msg rev buf (w, []) o = .ok (some (res, (w', log), vm', o'))) :
    ∀ a ∈ log, Permitted H msg rev a := by
  obtain ⟨acts, h1, h2⟩ := executeWith_eff h
  rw [hE, replay_recording] at h1
  injection h1 with _ h1
  rw [List.nil_append] at h1
  subst h1
  intro a ha
  have := h2 a ha
  rw [hE] at this
  exact permitted_recording this

/-- The same for `StepN`, from every state. -/
theorem C43_stepN_calls {H : Host σ} {E : Env (σ × List HostAct)} (hE : E.host = recording H) {fuel : Nat} {vm vm' : Vm}
    {code : List Byte} {msg : Message} {rev : Revision} {status : StepStatus} {pc : Nat} {refund : Int} {stack : List U256}
    {memory ret : List Byte} {n : Int} {buf : Nat → U256} {w w' : σ} {log : List HostAct} {res : StepResult}
    (h : vm.stepN E fuel code msg rev status pc refund stack memory ret n buf (w, []) = .ok (some (res, (w', log), vm'))) :
    ∀ a ∈ log, Permitted H msg rev a := by
  obtain ⟨acts, h1, h2⟩ := stepN_eff h
  rw [hE, replay_recording] at h1
  injection h1 with _ h1
  rw [List.nil_append] at h1
  subst h1
  intro a ha
  have := h2 a ha
  rw [hE] at this
  exact permitted_recording this

/-- C43.  The effect of `Execute` on an arbitrary host is that of a sequence of permitted calls. -/
theorem C43_execute_effect {E : Env σ} {obs : Observer σ ω} {fuel : Nat} {vm vm' : Vm} {code : List Byte} {msg : Message}
    {rev : Revision} {buf : Nat → U256} {w w' : σ} {o o' : ω} {res : EvmcResult}
    (h : vm.executeWith E obs fuel code msg rev buf w o = .ok (some (res, w', vm', o'))) :
    ∃ acts, w' = replay E.host acts w ∧ ∀ a ∈ acts, Permitted E.host msg rev a :=
  executeWith_eff h

/-- C43.  The effect of `StepN` on an arbitrary host is that of a sequence of permitted calls. -/
theorem C43_stepN_effect {E : Env σ} {fuel : Nat} {vm vm' : Vm} {code : List Byte} {msg : Message} {rev : Revision}
    {status : StepStatus} {pc : Nat} {refund : Int} {stack : List U256} {memory ret : List Byte} {n : Int}
    {buf : Nat → U256} {w w' : σ} {res : StepResult}
    (h : vm.stepN E fuel code msg rev status pc refund stack memory ret n buf w = .ok (some (res, w', vm'))) :
    ∃ acts, w' = replay E.host acts w ∧ ∀ a ∈ acts, Permitted E.host msg rev a :=
  stepN_eff h

/-- C16.  In static mode `Execute` makes no modifying host call: no storage or transient storage
write, no log, no self-destruction, no creation, no value transfer, and nested calls are static. -/
theorem C16_execute_static {H : Host σ} {E : Env (σ × List HostAct)} (hE : E.host = recording H) {obs : Observer (σ × List HostAct) ω}
    {fuel : Nat} {vm vm' : Vm} {code : List Byte} {msg : Message} {rev : Revision} {buf : Nat → U256} {w w' : σ} {log : List HostAct}
    {o o' : ω} {res : EvmcResult} (hs : msg.isStatic = true)
    (h : vm.executeWith E obs fuel code msg rev buf (w, []) o = .ok (some (res, (w', log), vm', o'))) :
    ∀ a ∈ log, a.ReadOnly :=
  fun a ha => (C43_execute_calls hE h a ha).static hs

/-- C16.  The same for `StepN`. -/
theorem C16_stepN_static {H : Host σ} {E : Env (σ × List HostAct)} (hE : E.host = recording H) {fuel : Nat} {vm vm' : Vm}
    {code : List Byte} {msg : Message} {rev : Revision} {status : StepStatus} {pc : Nat} {refund : Int} {stack : List U256}
    {memory ret : List Byte} {n : Int} {buf : Nat → U256} {w w' : σ} {log : List HostAct} {res : StepResult}
    (hs : msg.isStatic = true)
    (h : vm.stepN E fuel code msg rev status pc refund stack memory ret n buf (w, []) = .ok (some (res, (w', log), vm'))) :
    ∀ a ∈ log, a.ReadOnly :=
  fun a ha => (C43_stepN_calls hE h a ha).static hs

/-- C16.  Whatever property of the host state read-only calls preserve, a static frame preserves. -/
theorem C16_invariant {E : Env σ} {obs : Observer σ ω} {fuel : Nat} {vm vm' : Vm} {code : List Byte} {msg : Message}
    {rev : Revision} {buf : Nat → U256} {w w' : σ} {o o' : ω} {res : EvmcResult} (I : σ → Prop)
    (hI : ∀ (a : HostAct) w, a.ReadOnly → I w → I (a.apply E.host w)) (hs : msg.isStatic = true)
    (h : vm.executeWith E obs fuel code msg rev buf w o = .ok (some (res, w', vm', o'))) (hw : I w) : I w' := by
  obtain ⟨acts, rfl, h2⟩ := executeWith_eff h
  clear h
  induction acts generalizing w with
  | nil => exact hw
  | cons a as ih =>
    refine ih (hI a w ((h2 a (by simp)).static hs) hw) fun b hb => h2 b (by simp [hb])

/-- C39.  Nested messages are sent only at depth at most 1024, and have the depth plus one. -/
theorem C39_execute_depth {H : Host σ} {E : Env (σ × List HostAct)} (hE : E.host = recording H) {obs : Observer (σ × List HostAct) ω}
    {fuel : Nat} {vm vm' : Vm} {code : List Byte} {msg : Message} {rev : Revision} {buf : Nat → U256} {w w' : σ} {log : List HostAct}
    {o o' : ω} {res : EvmcResult}
    (h : vm.executeWith E obs fuel code msg rev buf (w, []) o = .ok (some (res, (w', log), vm', o'))) (m : Message)
    (hm : .call m ∈ log) : msg.depth ≤ 1024 ∧ m.depth = msg.depth + 1 :=
  ⟨((C43_execute_calls hE h _ hm).nested m rfl).limit, ((C43_execute_calls hE h _ hm).nested m rfl).depth⟩

/-- C23.  The host is asked for hashes of the 256 most recent blocks only. -/
theorem C23_execute_blocks {H : Host σ} {E : Env (σ × List HostAct)} (hE : E.host = recording H) {obs : Observer (σ × List HostAct) ω}
    {fuel : Nat} {vm vm' : Vm} {code : List Byte} {msg : Message} {rev : Revision} {buf : Nat → U256} {w w' : σ} {log : List HostAct}
    {o o' : ω} {res : EvmcResult}
    (h : vm.executeWith E obs fuel code msg rev buf (w, []) o = .ok (some (res, (w', log), vm', o'))) (n : Int)
    (hn : .getBlockHash n ∈ log) :
    0 ≤ n ∧ n < H.txContext.blockNumber ∧ H.txContext.blockNumber - 256 ≤ n :=
  (C43_execute_calls hE h _ hn).blocks n rfl

/-! ### The hypotheses can be met -/

theorem recording_ok {H : Host σ} (h : HostOk H) : HostOk (recording H) where
  callGas m w := h.callGas m w.1
  callRefund m w := h.callRefund m w.1
  callOutput m w := h.callOutput m w.1
  copyCode a off n w := h.copyCode a off n w.1
  blockNumber := h.blockNumber
  timestamp := h.timestamp
  gasLimit := h.gasLimit
  blobHashes := h.blobHashes

/-- The demo frame with a recording host. -/
def recDemo (code : List Byte) (flags : BitVec 32) : Params (Nat × List HostAct) :=
  { code := code, msg := (demo code CANCUN flags).msg, rev := CANCUN, host := recording demoHost, keccak := demoKeccak }

theorem recDemo_setting (code : List Byte) (hc : code.length < 2 ^ 32) (flags : BitVec 32) :
    ∃ vm, Setting (recDemo code flags) (envOf (recDemo code flags)) (fun _ => []) vm := by
  obtain ⟨vm, _, h, _⟩ := Proofs.vm_new (fun _ => []) demoKeccak
  refine ⟨vm, ⟨recording_ok demoHost_ok, hc, ?_, ?_⟩, envOf_ok _, h, ?_, ?_⟩
  · show 3 < 2 ^ 64; omega
  · show -2 ^ 31 ≤ (3 : Int) ∧ (3 : Int) < 2 ^ 31; omega
  · intro h hh; cases hh
  · show (0 : Int) ≤ 100000
    omega

-- PUSH1 7; SLOAD; PUSH1 1; SSTORE, not static: two reads and a write at the frame's own address 10
example : ∃ vm, Executes (recDemo [0x60, 7, 0x54, 0x60, 1, 0x55] 0) (envOf (recDemo [0x60, 7, 0x54, 0x60, 1, 0x55] 0)) vm (0, [])
    { status := .success, gasLeft := 92894, gasRefund := 0, output := [] }
    (1, [.accessStorage 10 7, .getStorage 10 7, .accessStorage 10 1, .setStorage 10 1 7]) := by
  obtain ⟨vm, h⟩ := recDemo_setting [0x60, 7, 0x54, 0x60, 1, 0x55] (by decide) 0
  exact ⟨vm, execute_of_steps h (by decide) (0, []) 5 _ rfl (by intro h; cases h)⟩

-- the same in static mode: the write is refused, the host sees the reads only
example : ∃ vm, Executes (recDemo [0x60, 7, 0x54, 0x60, 1, 0x55] 1) (envOf (recDemo [0x60, 7, 0x54, 0x60, 1, 0x55] 1)) vm (0, [])
    { status := .staticModeViolation, gasLeft := 0, gasRefund := 0, output := [] }
    (0, [.accessStorage 10 7, .getStorage 10 7]) := by
  obtain ⟨vm, h⟩ := recDemo_setting [0x60, 7, 0x54, 0x60, 1, 0x55] (by decide) 1
  exact ⟨vm, execute_of_steps h (by decide) (0, []) 4 _ rfl (by intro h; cases h)⟩

-- STATICCALL(gas 100, account 5, empty input and output) in a static frame
example : ∃ vm, Executes (recDemo [0x5f, 0x5f, 0x5f, 0x5f, 0x60, 5, 0x60, 100, 0xfa] 1)
    (envOf (recDemo [0x5f, 0x5f, 0x5f, 0x5f, 0x60, 5, 0x60, 100, 0xfa] 1)) vm (0, [])
    { status := .success, gasLeft := 99836, gasRefund := 0, output := [] }
    (1, [.accessAccount 5, .call { kind := .call, flags := 1, depth := 4, gas := 100, recipient := 5, sender := 10, codeAddress := 5 }]) := by
  obtain ⟨vm, h⟩ := recDemo_setting [0x5f, 0x5f, 0x5f, 0x5f, 0x60, 5, 0x60, 100, 0xfa] (by decide) 1
  exact ⟨vm, execute_of_steps h (by decide) (0, []) 8 _ rfl (by intro h; cases h)⟩

end Tosca

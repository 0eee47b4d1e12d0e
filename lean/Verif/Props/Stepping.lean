import Verif.Props.Exec

/-!
# Stepping: composition, agreement with Execute, idle calls, observers (C13, C24, C25, C26, C36)
-/

namespace Tosca

open Tosca.Model Tosca.Spec Tosca.Proofs

variable {σ ω : Type} {P : Params σ} {E : Env σ} {codeOf : U256 → List Byte} {vm : Vm} {x : StepIn σ}

/-! ### C25, C36: calls with nothing to do, marshalling -/

/-- C25.  Given a halted status, or a step limit that is not positive, `StepN` hands the state back:
same program counter, refund, stack and memory (padded to a word boundary), same gas unless the status
is failed, same return data if running, returned or reverted; the host is not consulted (its state is
unchanged and the result does not depend on it). -/
theorem C25_idle (hv : VmOk codeOf P.keccak vm) (hh : HashOk codeOf P.msg P.code) (status : StepStatus) (n : Int)
    (hn : status = .running → n ≤ 0) (hs : x.stack.length ≤ 1024) (hm : x.memory.length < 2 ^ 64 - 31)
    (fuel : Nat) (hf : 1 ≤ fuel) (buf : Nat → U256) :
    ∃ res vm', vm.stepN E fuel P.code P.msg P.rev status x.pc x.refund x.stack x.memory x.ret n buf x.world =
        .ok (some (res, x.world, vm')) ∧
      res.pc = x.pc ∧ res.gasRefund = x.refund ∧ res.stack = x.stack ∧ res.memory = pad32 x.memory ∧
      res.revision = P.rev ∧
      (status ≠ .other → res.stepStatus = status) ∧
      (status ≠ .failed → status ≠ .other → res.gasLeft = P.msg.gas) ∧
      (status = .running ∨ status = .returned ∨ status = .reverted →
        res.output = x.ret ∧ res.lastCallReturnData = x.ret) ∧
      (status = .stopped ∨ status = .failed → res.output = [] ∧ res.lastCallReturnData = []) := by
  obtain ⟨vm', h1, _⟩ := stepN_idle E P.rev hv hh status x.pc x.refund x.stack x.memory x.ret n hn hs hm fuel hf
    buf x.world
  refine ⟨_, vm', h1, rfl, rfl, rfl, rfl, rfl, ?_, ?_, ?_, ?_⟩
  · intro h; exact if_neg h
  · intro h h'; exact if_neg (by rintro (h2 | h2) <;> contradiction)
  · rintro (h | h | h) <;> rw [h] <;> exact ⟨rfl, rfl⟩
  · rintro (h | h) <;> rw [h] <;> exact ⟨rfl, rfl⟩

/-- C25.  With no steps to do a running state is reported unchanged. -/
theorem C25_zero_steps (hv : VmOk codeOf P.keccak vm) (hh : HashOk codeOf P.msg P.code) (n : Int) (hn : n ≤ 0)
    (hs : x.stack.length ≤ 1024) (hm : x.memory.length < 2 ^ 64 - 31) (fuel : Nat) (hf : 1 ≤ fuel) (buf : Nat → U256) :
    ∃ vm', vm.stepN E fuel P.code P.msg P.rev .running x.pc x.refund x.stack x.memory x.ret n buf x.world =
      .ok (some (x.same P, x.world, vm')) := by
  obtain ⟨vm', h1, _⟩ := stepN_idle E P.rev hv hh .running x.pc x.refund x.stack x.memory x.ret n (fun _ => hn) hs hm fuel hf
    buf x.world
  exact ⟨vm', h1⟩

/-- C36.  Marshalling is lossless: what `StepN` returns without executing anything, fed back, is
returned unchanged (whatever the code, the host and the stack buffers). -/
theorem C36_round_trip (hv : VmOk codeOf P.keccak vm) (hh : HashOk codeOf P.msg P.code)
    (hs : x.stack.length ≤ 1024) (hm : x.memory.length < 2 ^ 64 - 31) (fuel fuel' : Nat) (hf : 1 ≤ fuel) (hf' : 1 ≤ fuel')
    (buf buf' : Nat → U256) :
    ∃ res vm' vm'', vm.stepN E fuel P.code P.msg P.rev .running x.pc x.refund x.stack x.memory x.ret 0 buf x.world =
        .ok (some (res, x.world, vm')) ∧
      res.stack = x.stack ∧ res.memory = pad32 x.memory ∧
      vm'.stepN E fuel' P.code P.msg P.rev .running res.pc res.gasRefund res.stack res.memory res.lastCallReturnData 0
        buf' x.world = .ok (some (res, x.world, vm'')) := by
  obtain ⟨vm', h1, hv1⟩ := stepN_idle E P.rev hv hh .running x.pc x.refund x.stack x.memory x.ret 0 (fun _ => by omega) hs hm
    fuel hf buf x.world
  have hl : (pad32 x.memory).length = 32 * words x.memory.length := by simp [pad32, slice]
  have hpp : pad32 (pad32 x.memory) = pad32 x.memory := by
    show slice (pad32 x.memory) 0 (32 * words (pad32 x.memory).length) = slice x.memory 0 (32 * words x.memory.length)
    rw [hl, words_pad]
    unfold slice
    apply List.map_congr_left
    intro i hi
    rw [List.mem_range] at hi
    unfold byteAt
    rw [List.getD_eq_getElem?_getD, List.getElem?_eq_getElem (by rw [hl]; omega)]
    simp [pad32, slice, byteAt]
  obtain ⟨vm'', h2, _⟩ := stepN_idle E P.rev hv1 hh .running x.pc x.refund x.stack (pad32 x.memory) x.ret 0 (fun _ => by omega) hs
    (by rw [hl]; unfold words; omega) fuel' hf' buf' x.world
  refine ⟨_, vm', vm'', h1, rfl, rfl, ?_⟩
  have e : (slice (pad32 x.memory) 0 (32 * words (pad32 x.memory).length)) = slice x.memory 0 (32 * words x.memory.length) := hpp
  rw [e] at h2
  exact h2

example : ∃ vm, VmOk (fun _ => []) demoKeccak vm ∧ HashOk (fun _ => []) (demo [0x01]).msg (demo [0x01]).code ∧
    (demoIn [1, 2]).stack.length ≤ 1024 ∧ (demoIn [1, 2]).memory.length < 2 ^ 64 - 31 := by
  obtain ⟨vm, h⟩ := demo_setting [0x01] (by decide) CANCUN 0
  exact ⟨vm, h.vm, h.hash, by decide, by decide⟩

/-! ### C24: composition -/

theorem inputOk_again (h : Setting P E codeOf vm) (hx : InputOk P x) (n : Nat) (hn : n ≤ 2147483646) {r : StepResult} {w' : σ}
    {vm' : Vm} {fuel : Nat} {buf : Nat → U256} (hf : n + 1 ≤ fuel)
    (hr : vm.stepN E fuel P.code P.msg P.rev .running x.pc x.refund x.stack x.memory x.ret n buf x.world =
        .ok (some (r, w', vm'))) (hrun : r.stepStatus = .running) :
    VmOk codeOf P.keccak vm' ∧ 0 ≤ r.gasLeft ∧ InputOk (withGas P r.gasLeft) (StepResult.again r w') ∧
      (StepResult.again r w').frame (withGas P r.gasLeft) = steps P n (x.frame P) := by
  obtain ⟨res, w1, vm1, h1, hv, _, hd, hfr⟩ := stepN_frame h hx n hn fuel hf buf
  rw [hr] at h1
  cases h1
  have ha : ∀ f, (steps P n (x.frame P)).status ≠ .failed f := by
    intro f hff
    have := (hd.failed f hff).1
    rw [this] at hrun; cases hrun
  have hst : (steps P n (x.frame P)).status = .running := by
    have := hd.ok ha
    rw [this] at hrun
    change stepStatus _ = _ at hrun
    cases hs : (steps P n (x.frame P)).status <;> rw [hs] at hrun <;> simp [stepStatus] at hrun
  obtain ⟨hm32, hfrm⟩ := hfr ha
  have hg0 : 0 ≤ r.gasLeft := by
    have := hd.ok ha
    rw [this]; show (0 : Int) ≤ ((steps P n (x.frame P)).gas : Int); omega
  have hwf := wf_steps_alive h.params n (inputOk_wf hx h.gas) ha
  have hframe : (StepResult.again r w').frame (withGas P r.gasLeft) = steps P n (x.frame P) := by
    rw [hfrm, hst]; rfl
  refine ⟨hv, hg0, ?_, hframe⟩
  rw [← hframe] at hwf
  have e : ((r.gasLeft.toNat : Nat) : Int) = r.gasLeft := Int.toNat_of_nonneg hg0
  have hgas : r.gasLeft.toNat + memGas (words (32 * words r.memory.length)) ≤ 2 ^ 54 := hwf.gas
  rw [words_pad] at hgas
  have hhi : r.gasRefund + 199 * (r.gasLeft.toNat : Int) ≤ 2 ^ 63 - 1 := hwf.refundHi
  have hlo : -(2 ^ 63 - 1) ≤ r.gasRefund - 199 * (r.gasLeft.toNat : Int) := hwf.refundLo
  rw [e] at hhi hlo
  constructor
  · have : r.stack.reverse.length ≤ stackLimit := hwf.stack
    rw [List.length_reverse] at this
    exact this
  · show r.gasLeft + (memGas (words r.memory.length) : Int) ≤ 2 ^ 54
    omega
  · exact hhi
  · exact hlo
  · exact hwf.ret
  · exact hwf.pc rfl

theorem setting_again (h : Setting P E codeOf vm) {vm' : Vm} (hv : VmOk codeOf P.keccak vm') {g : Int} (hg : 0 ≤ g) :
    Setting (withGas P g) E codeOf vm' :=
  ⟨paramsOk_msgGas h.params g, ⟨h.env.host, h.env.keccak, h.env.reenter⟩, hv, h.hash, hg⟩

/-- C24.  If `StepN(a)` leaves a running state, then `StepN(b)` from that state (on the VM it leaves
behind, with any stack buffers) reports exactly what `StepN(a+b)` reports. -/
theorem C24_compose_running (h : Setting P E codeOf vm) (hx : InputOk P x) (a b : Nat) (hab : a + b ≤ 2147483646)
    {fuel : Nat} (hf : a + 1 ≤ fuel) {buf : Nat → U256} {r : StepResult} {w' : σ} {vm' : Vm}
    (hr : vm.stepN E fuel P.code P.msg P.rev .running x.pc x.refund x.stack x.memory x.ret a buf x.world =
        .ok (some (r, w', vm'))) (hrun : r.stepStatus = .running) :
    (∀ res w2, Runs P E vm x (a + b) res w2 → res.stepStatus ≠ .failed →
      Runs (withGas P r.gasLeft) E vm' (StepResult.again r w') b res w2) ∧
    (∀ code refund w2, Fails P E vm x (a + b) code refund w2 →
      Fails (withGas P r.gasLeft) E vm' (StepResult.again r w') b code refund w2) := by
  obtain ⟨hv, hg0, hin, hfr⟩ := inputOk_again h hx a (by omega) hf hr hrun
  have hset := setting_again h hv hg0
  have hsteps : steps (withGas P r.gasLeft) b ((StepResult.again r w').frame (withGas P r.gasLeft)) = steps P (a + b) (x.frame P) := by
    rw [hfr, steps_add]
    exact steps_msgGas _ _ _
  by_cases hfail : ∃ f, (steps P (a + b) (x.frame P)).status = .failed f
  · obtain ⟨f, hff⟩ := hfail
    have hF1 := fails_of h hx hab hff
    have hF2 := fails_of (n := b) hset hin (by omega) (by rw [hsteps]; exact hff)
    rw [hsteps] at hF2
    constructor
    · intro res w2 hR hne
      obtain ⟨v1, e1⟩ := hR (a + b + 1) buf (by omega)
      obtain ⟨res2, v2, e2, h2, _⟩ := hF1 (a + b + 1) buf (by omega)
      rw [e1] at e2; cases e2
      exact absurd h2 hne
    · intro code refund w2 hF
      obtain ⟨r1, v1, e1, _, c1, _, d1, _⟩ := hF (a + b + 1) buf (by omega)
      obtain ⟨r2, v2, e2, _, c2, _, d2, _⟩ := hF1 (a + b + 1) buf (by omega)
      rw [e1] at e2; cases e2
      rw [← c1, ← d1, c2, d2]
      exact hF2
  · have ha : ∀ f, (steps P (a + b) (x.frame P)).status ≠ .failed f := fun f hf => hfail ⟨f, hf⟩
    have hR1 := runs_of h hx hab ha
    have hR2 := runs_of (n := b) hset hin (by omega) (by rw [hsteps]; exact ha)
    rw [hsteps] at hR2
    constructor
    · intro res w2 hR hne
      obtain ⟨rfl, rfl⟩ := runs_unique hR hR1
      exact hR2
    · intro code refund w2 hF
      obtain ⟨r1, v1, e1, s1, _⟩ := hF (a + b + 1) buf (by omega)
      obtain ⟨v2, e2⟩ := hR1 (a + b + 1) buf (by omega)
      rw [e1] at e2; cases e2
      change stepStatus _ = _ at s1
      cases hs : (steps P (a + b) (x.frame P)).status with
      | failed f => exact absurd hs (ha f)
      | _ => rw [hs] at s1; cases s1

/-- C24.  If `StepN(a)` leaves a halted state that did not fail, feeding it back reports the same state
again, which is also what `StepN(a+b)` reports. -/
theorem C24_compose_halted (h : Setting P E codeOf vm) (hx : InputOk P x) (a b : Nat) (hab : a + b ≤ 2147483646)
    {r : StepResult} {w' : σ} (hr : Runs P E vm x a r w') (hrun : r.stepStatus ≠ .running) (hok : r.stepStatus ≠ .failed) :
    Runs P E vm x (a + b) r w' := by
  have hst : (steps P a (x.frame P)).status ≠ .running ∧ ∀ f, (steps P a (x.frame P)).status ≠ .failed f := by
    obtain ⟨res, w1, vm1, h1, _, _, hd, _⟩ := stepN_frame h hx a (by omega) (a + 1) (Nat.le_refl _) (fun _ => 0)
    obtain ⟨v2, h2⟩ := hr (a + 1) (fun _ => 0) (Nat.le_refl _)
    rw [h1] at h2; cases h2
    have hnf : ∀ f, (steps P a (x.frame P)).status ≠ .failed f := fun f hf => hok (hd.failed f hf).1
    refine ⟨?_, hnf⟩
    intro hs
    have := hd.ok hnf
    rw [this] at hrun
    apply hrun
    show stepStatus _ = _
    rw [hs]; rfl
  have h1 := runs_of h hx (n := a) (by omega) hst.2
  obtain ⟨rfl, rfl⟩ := runs_unique hr h1
  have hab2 : steps P (a + b) (x.frame P) = steps P a (x.frame P) := by
    rw [steps_add, steps_halted hst.1]
  have h2 := runs_of h hx (n := a + b) hab (by rw [hab2]; exact hst.2)
  rw [hab2] at h2
  exact h2

/-- C24.  A failed state stays failed: `StepN(a+b)` fails like `StepN(a)`. -/
theorem C24_compose_failed (h : Setting P E codeOf vm) (hx : InputOk P x) (a b : Nat) (hab : a + b ≤ 2147483646)
    {code : EvmcStatus} {refund : Int} {w' : σ} (hr : Fails P E vm x a code refund w') :
    Fails P E vm x (a + b) code refund w' := by
  obtain ⟨res, w1, vm1, h1, _, _, hd, _⟩ := stepN_frame h hx a (by omega) (a + 1) (Nat.le_refl _) (fun _ => 0)
  obtain ⟨r2, v2, h2, hs, hc, _, hrf, _⟩ := hr (a + 1) (fun _ => 0) (Nat.le_refl _)
  rw [h1] at h2; cases h2
  have hf : ∃ f, (steps P a (x.frame P)).status = .failed f := by
    by_contra hno
    have hnf : ∀ f, (steps P a (x.frame P)).status ≠ .failed f := fun f hf => hno ⟨f, hf⟩
    have := hd.ok hnf
    rw [this] at hs
    change stepStatus _ = _ at hs
    cases hst : (steps P a (x.frame P)).status with
    | failed f => exact hnf f hst
    | _ => rw [hst] at hs; cases hs
  obtain ⟨f, hff⟩ := hf
  have hd' := hd.failed f hff
  have hab2 : steps P (a + b) (x.frame P) = steps P a (x.frame P) := by
    rw [steps_add, steps_halted (by rw [hff]; simp)]
  have h3 := fails_of h hx (n := a + b) hab (by rw [hab2]; exact hff)
  rw [hab2, ← hd.host, ← hd'.2.1, ← hd'.2.2.2.2.1] at h3
  rw [← hc, ← hrf]
  exact h3

/-- Whatever fuel a returning `StepN` call had, its result describes the specification's run. -/
theorem describes_of_returned (h : Setting P E codeOf vm) (hx : InputOk P x) {n : Nat} (hn : n ≤ 2147483646) {fuel : Nat}
    {buf : Nat → U256} {r : StepResult} {w' : σ} {vm' : Vm}
    (hr : vm.stepN E fuel P.code P.msg P.rev .running x.pc x.refund x.stack x.memory x.ret n buf x.world =
        .ok (some (r, w', vm'))) :
    Describes P.rev x.stack.length r w' (steps P n (x.frame P)) ∧
    vm.stepN E (fuel + (n + 1)) P.code P.msg P.rev .running x.pc x.refund x.stack x.memory x.ret n buf x.world =
        .ok (some (r, w', vm')) := by
  obtain ⟨res, w1, vm1, h1, _, _, hd, _⟩ := stepN_frame h hx n hn (fuel + (n + 1)) (by omega) buf
  rcases stepN_mono (E := E) fuel (n + 1) vm P.code P.msg P.rev .running x.pc x.refund x.stack x.memory x.ret n buf
    x.world with h2 | h2 | ⟨e, h2⟩
  · rw [hr] at h2; cases h2
  · rw [hr] at h2
    rw [h2] at h1
    cases h1
    exact ⟨hd, h2⟩
  · have := h2 fuel; rw [hr] at this; cases this

/-- The state a chunked run ends in is the specification's final state. -/
theorem chunked_final {gas : Int} {r : StepResult} {w' : σ}
    (hc : Chunked P E codeOf gas x r w') (hg : 0 ≤ gas) (hx : InputOk (withGas P gas) x) :
    ∃ s', Final P (x.frame (withGas P gas)) s' ∧ r.status = statusCode s'.status ∧ r.gasLeft = s'.gas ∧
      r.gasRefund = s'.refund ∧ r.output = s'.ret ∧ w' = s'.host := by
  induction hc with
  | @last gas x vm vm' n fuel buf r w' hset hn hstep hrun =>
    obtain ⟨hd, _⟩ := describes_of_returned (P := withGas P gas) hset hx hn hstep
    have hsm : steps (withGas P gas) n (x.frame (withGas P gas)) = steps P n (x.frame (withGas P gas)) := steps_msgGas _ _ _
    rw [hsm] at hd
    by_cases hf : ∃ f, (steps P n (x.frame (withGas P gas))).status = .failed f
    · obtain ⟨f, hf⟩ := hf
      obtain ⟨h1, h2, _, h3, h4, h5, h6, _⟩ := hd.failed f hf
      obtain ⟨h7, h8⟩ := hd.lost f hf
      refine ⟨_, ⟨by rw [hf]; simp, n, rfl⟩, ?_, ?_, h4, ?_, hd.host⟩
      · rw [h2, hf]; rfl
      · rw [h3, h7]; rfl
      · rw [h5, h8]
    · have hnf : ∀ f, (steps P n (x.frame (withGas P gas))).status ≠ .failed f := fun f h => hf ⟨f, h⟩
      have he := hd.ok hnf
      refine ⟨_, ⟨?_, n, rfl⟩, by rw [he]; rfl, by rw [he]; rfl, by rw [he]; rfl, by rw [he]; rfl, hd.host⟩
      intro h
      rw [he] at hrun
      apply hrun
      show stepStatus _ = _
      rw [h]; rfl
  | @more gas x vm vm' n fuel buf r r' w1 w' hset hn hstep hrun hrest ih =>
    obtain ⟨_, hstep'⟩ := describes_of_returned (P := withGas P gas) hset hx hn hstep
    obtain ⟨hv, hg0, hin, hfr⟩ := inputOk_again (P := withGas P gas) hset hx n hn (by omega) hstep' hrun
    obtain ⟨s', ⟨h1, m, h2⟩, h3⟩ := ih hg0 hin
    refine ⟨s', ⟨h1, n + m, ?_⟩, h3⟩
    have hfr' : (StepResult.again r w1).frame (withGas P r.gasLeft) = steps P n (x.frame (withGas P gas)) :=
      hfr.trans (steps_msgGas _ _ _)
    rw [hfr'] at h2
    rw [steps_add, h2]

/-- C24.  Stepping a program from its start to completion, with any sequence of step limits, gives the
status code, gas, refund, output and host state of `Execute`. -/
theorem C24_chunks_agree_with_execute (h : Setting P E codeOf vm) (hg : P.msg.gas ≤ 2 ^ 54) (w : σ) {r : StepResult} {w' : σ}
    (hc : Chunked P E codeOf P.msg.gas { world := w } r w') :
    Executes P E vm w { status := r.status, gasLeft := r.gasLeft, gasRefund := r.gasRefund, output := r.output } w' := by
  have hx : InputOk (withGas P P.msg.gas) ({ world := w } : StepIn σ) := by
    have := h.gas
    constructor
    · show 0 ≤ 1024; omega
    · show P.msg.gas + ((memGas (words 0) : Nat) : Int) ≤ 2 ^ 54
      simp only [words, memGas]; omega
    · show 0 + 199 * P.msg.gas ≤ 2 ^ 63 - 1; omega
    · show -(2 ^ 63 - 1) ≤ 0 - 199 * P.msg.gas; omega
    · show 0 < 2 ^ 64; omega
    · show 0 ≤ P.code.length + 32; omega
  obtain ⟨s', hf, h1, h2, h3, h4, h5⟩ := chunked_final hc h.gas hx
  have hini : ({ world := w } : StepIn σ).frame (withGas P P.msg.gas) = initial P w := by
    have hm : Mem.ofBytes [] = Mem.empty := by
      unfold Mem.ofBytes Mem.empty
      congr 1
    unfold StepIn.frame frame initial
    show State.mk _ _ _ _ _ (Mem.ofBytes []) _ _ = State.mk _ _ _ _ _ Mem.empty _ _
    rw [hm]
    rfl
  rw [hini] at hf
  obtain ⟨s2, hf2, hx2⟩ := C07_execute_conforms h hg w
  have e := final_unique hf hf2
  subst e
  rw [h1, h2, h3, h4, h5]
  exact hx2

-- such chunked runs exist: from any point `StepN` with enough steps reaches a halted state
example : ∃ r w', Chunked (demo [0x60, 1, 0x60, 2, 0x01]) (envOf (demo [0x60, 1, 0x60, 2, 0x01])) (fun _ => []) 100000
    { world := 0 } r w' ∧ r.status = .success ∧ r.gasLeft = 99991 := by
  obtain ⟨vm, h⟩ := demo_setting [0x60, 1, 0x60, 2, 0x01] (by decide) CANCUN 0
  have hx : InputOk (demo [0x60, 1, 0x60, 2, 0x01]) ({ world := 0 } : StepIn Nat) :=
    ⟨by decide, by decide, by decide, by decide, by decide, by decide⟩
  -- two steps, then the rest
  have hR := runs_of (n := 2) h hx (by omega) (by intro f hf; cases hf)
  obtain ⟨vm', e1⟩ := hR 3 (fun _ => 0) (Nat.le_refl _)
  obtain ⟨hv, hg0, hin, hfr⟩ := inputOk_again h hx 2 (by omega) (Nat.le_refl 3) e1 rfl
  have hset := setting_again h hv hg0
  have hR2 := runs_of (n := 2) hset hin (by omega) (by
    rw [hfr]; intro f hf; cases hf)
  obtain ⟨vm'', e2⟩ := hR2 3 (fun _ => 0) (Nat.le_refl _)
  refine ⟨_, _, .more (vm := vm) (n := 2) (fuel := 3) (buf := fun _ => 0) h (by omega) e1 rfl
    (.last (vm := vm') (n := 2) (fuel := 3) (buf := fun _ => 0) hset (by omega) e2 ?_), ?_, ?_⟩
  · rw [hfr]; intro hf; cases hf
  · rw [hfr]; rfl
  · rw [hfr]; rfl

/-! ### C26: observers -/

/-- C26.  Whatever observer is attached, `Execute` returns the same result, host state and VM as
without an observer (or hits the same undefined behaviour), for every host. -/
theorem C26_observers (obs : Observer σ ω) (fuel : Nat) (vm : Vm) (code : List Byte) (msg : Message)
    (rev : Revision) (buf : Nat → U256) (w : σ) (o : ω) :
    (Option.map fun (r, w', vm', _) => (r, w', vm')) <$> vm.executeWith E obs fuel code msg rev buf w o =
      vm.execute E fuel code msg rev buf w :=
  executeWith_obs obs fuel vm code msg rev buf w o

end Tosca

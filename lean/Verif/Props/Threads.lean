import Verif.Proofs.Threads
import Verif.Props.Sharing

/-!
# C49: concurrent `Execute` calls on one VM

Any number of threads, each making any sequence of calls (the next call may depend on the results so
far), under any schedule of their atomic actions on the shared analysis cache, SHA3 cache and stack
blocks.
-/

namespace Tosca

open Tosca.Model Tosca.Model.Threads Tosca.Spec Tosca.Proofs.Threads

variable {σ : Type} {k : List Byte → U256} {codeOf : U256 → List Byte} {ts ts' : Nat → Thread σ} {sh sh' : Shared}
  {sched : List (Nat × (Nat → U256))}

theorem alone_iff {vm0 : Vm} {job : Job σ} (hv0 : VmOk codeOf k vm0) (hj : JobOk codeOf k job) {n : Nat} {out : M (EvmcResult × σ)}
    (h : alone vm0 job n = some <$> out) : Alone codeOf k job out := by
  refine ⟨n, fun fuel hf vm hv buf => ?_⟩
  obtain ⟨d, rfl⟩ := Nat.exists_eq_add_of_le hf
  rw [outcome_of_execute, Proofs.Twin.execute_twin (E := job.env) (vm := vm0) ⟨rfl, hj.env, hj.env⟩ hv0 hv hj.hash _ _ (fun _ => 0)]
  rw [← h]
  refine (alone_mono hv0 hj n d).resolve_left ?_
  rw [h]
  cases out with
  | error e => exact nofun
  | ok r => exact nofun

theorem inv_start {vm0 : Vm} (hv : VmOk codeOf k sh.vm) (hs : NotStarted ts)
    (hp : ∀ i done job, (ts i).prog done = some job → JobOk codeOf k job) : Inv codeOf k vm0 ts sh :=
  ⟨hv, hp, fun i => ⟨0, phase_same (hs i).1⟩, fun i pre r post hd => by
    rw [(hs i).2] at hd
    exact absurd hd (by simp)⟩

/-- C49.  Every result that a thread has got is the result of that call made alone, on any other VM. -/
theorem C49_results (hv : VmOk codeOf k sh.vm) (hs : NotStarted ts)
    (hp : ∀ i done job, (ts i).prog done = some job → JobOk codeOf k job)
    (hr : runAll ts sh sched = .ok (ts', sh')) (i : Nat) (before later : List (EvmcResult × σ)) (r : EvmcResult × σ)
    (hd : (ts' i).done = later ++ r :: before) :
    ∃ job, (ts i).prog before = some job ∧ Alone codeOf k job (.ok r) := by
  have h := runAll_inv hv sched (inv_start (vm0 := sh.vm) hv hs hp)
  rw [hr] at h
  obtain ⟨job, n, h1, h2⟩ := h.1.done i before r later hd
  rw [(h.2.2 i).1] at h1
  exact ⟨job, h1, alone_iff hv (hp i _ _ h1) h2⟩

/-- C49.  Undefined behaviour cannot come from concurrency: some call made alone has it. -/
theorem C49_undefined {e : UB} (hv : VmOk codeOf k sh.vm) (hs : NotStarted ts)
    (hp : ∀ i done job, (ts i).prog done = some job → JobOk codeOf k job) (hr : runAll ts sh sched = .error e) :
    ∃ i before job, (ts i).prog before = some job ∧ Alone codeOf k job (.error e) := by
  have h := runAll_inv hv sched (inv_start (vm0 := sh.vm) hv hs hp)
  rw [hr] at h
  obtain ⟨i, before, job, n, h1, h2⟩ := h
  exact ⟨i, before, job, h1, alone_iff hv (hp i _ _ h1) h2⟩

/-- C49.  The shared caches and options stay as a VM needs them, whatever the schedule. -/
theorem C49_vm (hv : VmOk codeOf k sh.vm) (hs : NotStarted ts)
    (hp : ∀ i done job, (ts i).prog done = some job → JobOk codeOf k job) (hr : runAll ts sh sched = .ok (ts', sh')) :
    VmOk codeOf k sh'.vm ∧ sh'.vm.options = sh.vm.options := by
  have h := runAll_inv hv sched (inv_start (vm0 := sh.vm) hv hs hp)
  rw [hr] at h
  exact ⟨h.1.vm, h.2.1⟩

theorem JobFor.ok {P : Params σ} {job : Job σ} (h : JobFor codeOf P job) : JobOk codeOf P.keccak job :=
  ⟨⟨h.env.keccak, h.env.reenter⟩, by rw [h.message, h.code]; exact h.hash⟩

/-- The job alone, as the specification has it. -/
theorem alone_spec {vm0 : Vm} {P : Params σ} {job : Job σ} (h : JobFor codeOf P job) (hv0 : VmOk codeOf P.keccak vm0) :
    ∃ s', Final P (initial P job.world) s' ∧ alone vm0 job (P.msg.gas.toNat + 2) =
      .ok (some ({ status := statusCode s'.status, gasLeft := s'.gas, gasRefund := s'.refund, output := s'.ret }, s'.host)) := by
  obtain ⟨s', hf, hx⟩ := C07_execute_conforms ⟨h.params, h.env, hv0, h.hash, h.gas.1⟩ h.gas.2 job.world
  obtain ⟨vm', o', hx⟩ := hx Unit noObserver (P.msg.gas.toNat + 2) (fun _ => 0) () (Nat.le_refl _)
  refine ⟨s', hf, ?_⟩
  unfold alone
  rw [← outcome_of_execute noObserver vm0 (fun _ => 0) job.world (), h.code, h.message, h.revision, hx]
  rfl

/-- C49.  Calls that run proper frames: no schedule leads to undefined behaviour, and every result is the
one the specification gives for that frame. -/
theorem C49_conforms (hv : VmOk codeOf k sh.vm) (hs : NotStarted ts)
    (hp : ∀ i done job, (ts i).prog done = some job → ∃ P, JobFor codeOf P job ∧ P.keccak = k)
    (sched : List (Nat × (Nat → U256))) :
    ∃ ts' sh', runAll ts sh sched = .ok (ts', sh') ∧
      ∀ i before later r, (ts' i).done = later ++ r :: before →
        ∃ job P s', (ts i).prog before = some job ∧ JobFor codeOf P job ∧ Final P (initial P job.world) s' ∧
          r = ({ status := statusCode s'.status, gasLeft := s'.gas, gasRefund := s'.refund, output := s'.ret }, s'.host) := by
  have hok : ∀ i done job, (ts i).prog done = some job → JobOk codeOf k job := by
    intro i done job h
    obtain ⟨P, h1, rfl⟩ := hp i done job h
    exact h1.ok
  have h := runAll_inv hv sched (inv_start (vm0 := sh.vm) hv hs hok)
  cases hr : runAll ts sh sched with
  | error e =>
    rw [hr] at h
    obtain ⟨i, pre, job, n, h1, h2⟩ := h
    obtain ⟨P, h3, rfl⟩ := hp i pre job h1
    obtain ⟨s', _, h4⟩ := alone_spec h3 hv
    have := alone_unique hv h3.ok (n := n) (by rw [h2]; exact nofun) (by rw [h4]; exact nofun)
    rw [h2, h4] at this
    cases this
  | ok q =>
    obtain ⟨ts', sh'⟩ := q
    rw [hr] at h
    refine ⟨ts', sh', rfl, fun i before later r hd => ?_⟩
    obtain ⟨job, n, h1, h2⟩ := h.1.done i before r later hd
    rw [(h.2.2 i).1] at h1
    obtain ⟨P, h3, rfl⟩ := hp i before job h1
    obtain ⟨s', h4, h5⟩ := alone_spec h3 hv
    have := alone_unique hv h3.ok (n := n) (by rw [h2]; exact nofun) (by rw [h5]; exact nofun)
    rw [h2, h5] at this
    cases this
    exact ⟨job, P, s', h1, h3, h4, rfl⟩

/-- C49.  A thread is never blocked or starved by the others: at any time, a thread between two calls whose
next call has `g` gas has completed that call once it was scheduled `2 g + 7` more times. -/
theorem C49_completes (hv : VmOk codeOf k sh.vm) (hs : NotStarted ts)
    (hp : ∀ i done job, (ts i).prog done = some job → ∃ P, JobFor codeOf P job ∧ P.keccak = k)
    {ts1 ts2 : Nat → Thread σ} {sh1 sh2 : Shared} {sched1 sched2 : List (Nat × (Nat → U256))}
    (h1 : runAll ts sh sched1 = .ok (ts1, sh1)) (h2 : runAll ts1 sh1 sched2 = .ok (ts2, sh2)) {i : Nat} {job : Job σ}
    (hidle : (ts1 i).phase = .idle) (hjob : (ts i).prog (ts1 i).done = some job)
    (hc : 2 * job.message.gas.toNat + 7 ≤ (sched2.map (·.1)).count i) :
    ∃ r later, Alone codeOf k job (.ok r) ∧ (ts2 i).done = later ++ r :: (ts1 i).done := by
  have hok : ∀ i done job, (ts i).prog done = some job → JobOk codeOf k job := by
    intro i done job h
    obtain ⟨P, h1, rfl⟩ := hp i done job h
    exact h1.ok
  have h := runAll_inv hv sched1 (inv_start (vm0 := sh.vm) hv hs hok)
  rw [h1] at h
  obtain ⟨hinv, _, hprog⟩ := h
  obtain ⟨P, h3, rfl⟩ := hp i _ job hjob
  obtain ⟨s', h4, h5⟩ := alone_spec h3 hv
  obtain ⟨later, h6⟩ := progress hv h3.ok h5 sched2 hinv (by rw [(hprog i).1]; exact hjob) (phase_same hidle) h2
    (by rw [h3.message] at hc; omega)
  exact ⟨_, later, alone_iff hv h3.ok h5, h6⟩

/-! ### Example -/

/-- A call that hashes a word of memory, under a code hash. -/
def hashJob : Job Nat :=
  { env := envOf hashDemo, code := hashDemo.code, message := hashDemo.msg, revision := CANCUN, world := 0 }

theorem hashJob_for : JobFor (fun _ => hashDemo.code) hashDemo hashJob :=
  ⟨⟨demoHost_ok, by decide, by decide, by decide⟩, envOf_ok _, hashDemo_hash, rfl, rfl, rfl, by decide⟩

/-- Every thread makes this call three times. -/
def hashThreads : Nat → Thread Nat := fun _ => { prog := fun done => if done.length < 3 then some hashJob else none }

-- Two of the threads race for the same entries of both caches on a new VM: under every schedule that lets each of them
-- act 200007 times, both have completed a call with the result of the call made alone, a success with 32 bytes.
example (sched : List (Nat × (Nat → U256))) (h0 : 200007 ≤ (sched.map (·.1)).count 0)
    (h1 : 200007 ≤ (sched.map (·.1)).count 1) :
    ∃ vm ts' sh', Vm.new = .ok vm ∧ runAll hashThreads ⟨vm, []⟩ sched = .ok (ts', sh') ∧
      ∀ i < 2, ∃ r later, Alone (fun _ => hashDemo.code) demoKeccak hashJob (.ok r) ∧ (ts' i).done = later ++ [r] ∧
        r.1.status = .success ∧ r.1.output.length = 32 := by
  obtain ⟨vm, hnew, hv, _⟩ := Proofs.vm_new (fun _ => hashDemo.code) demoKeccak
  have hp : ∀ i done job, (hashThreads i).prog done = some job →
      ∃ P, JobFor (fun _ => hashDemo.code) P job ∧ P.keccak = demoKeccak := by
    intro i done job h
    unfold hashThreads at h
    dsimp only at h
    split at h
    · cases h; exact ⟨hashDemo, hashJob_for, rfl⟩
    · cases h
  have hs : NotStarted hashThreads := fun _ => ⟨rfl, rfl⟩
  obtain ⟨ts', sh', hr, _⟩ := C49_conforms (sh := ⟨vm, []⟩) hv hs hp sched
  refine ⟨vm, ts', sh', hnew, hr, fun i hi => ?_⟩
  have hc : 2 * hashJob.message.gas.toNat + 7 ≤ (sched.map (·.1)).count i := by
    rcases (show i = 0 ∨ i = 1 by omega) with rfl | rfl
    · exact h0
    · exact h1
  obtain ⟨r, later, ha, hd⟩ := C49_completes (sh := ⟨vm, []⟩) (sched1 := []) hv hs hp rfl hr (job := hashJob) rfl rfl hc
  refine ⟨r, later, ha, hd, ?_⟩
  obtain ⟨n, hn⟩ := ha
  obtain ⟨vm', res, h2, h3, h4⟩ := hashDemo_runs (.new hnew) (fun _ => 0)
  have h5 := hn (100002 + n) (by omega) vm hv (fun _ => 0)
  have h6 := Proofs.executeWith_mono (E := envOf hashDemo) noObserver 100002 n vm hashDemo.code hashDemo.msg CANCUN (fun _ => 0) 0 ()
  rw [h2] at h6
  have h7 := h6.resolve_left nofun
  rw [show vm.executeWith hashJob.env noObserver (100002 + n) hashJob.code hashJob.message hashJob.revision (fun _ => 0)
    hashJob.world () = .ok (some (res, 0, vm', ())) from h7] at h5
  cases h5
  exact ⟨h3, h4⟩

-- There are such schedules: strict alternation.
example : ∃ sched : List (Nat × (Nat → U256)), 200007 ≤ (sched.map (·.1)).count 0 ∧ 200007 ≤ (sched.map (·.1)).count 1 := by
  have h : ∀ n : Nat, ∃ sched : List (Nat × (Nat → U256)), n ≤ (sched.map (·.1)).count 0 ∧ n ≤ (sched.map (·.1)).count 1 := by
    intro n
    induction n with
    | zero => exact ⟨[], by simp, by simp⟩
    | succ n ih =>
      obtain ⟨s, h0, h1⟩ := ih
      exact ⟨(0, fun _ => 3) :: (1, fun i => BitVec.ofNat 256 i) :: s, by simp; omega, by simp; omega⟩
  exact h 200007

end Tosca

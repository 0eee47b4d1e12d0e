import Verif.Spec.Threads
import Verif.Proofs.Twin
import Verif.Proofs.Fuel

/-!
# Concurrent executions follow the isolated ones
-/

namespace Tosca.Proofs.Threads

open Tosca.Model Tosca.Model.Threads Tosca.Proofs.Twin Tosca.Proofs.Lru

variable {σ : Type} {E : Env σ} {k : List Byte → U256} {codeOf : U256 → List Byte}

/-! ### Single calls on the caches -/

theorem get_reached {K V : Type} [DecidableEq K] {cap : Nat} {f : K → V} (h2 : 2 ≤ cap) {c : Lru.Cache K V}
    (h : Lru.Reached cap f c) (key : K) :
    ∃ r c', Lru.get c key = .ok (r, c') ∧ Lru.Reached cap f c' ∧ ∀ v, r = some v → v = f key := by
  obtain ⟨l, hr, hl⟩ := reached_ok h2 h
  obtain ⟨c1, h1, hr1, _⟩ := get_R c l hr key
  exact ⟨_, c1, h1, .get key h h1, fun v hv => (get_correct f l hl key).2 v hv⟩

theorem insert_reached {K V : Type} [DecidableEq K] {cap : Nat} {f : K → V} (h2 : 2 ≤ cap) {c : Lru.Cache K V}
    (h : Lru.Reached cap f c) (key : K) :
    ∃ c', Lru.insertOrAssign c key (f key) = .ok (f key, c') ∧ Lru.Reached cap f c' := by
  obtain ⟨l, hr, hl⟩ := reached_ok h2 h
  obtain ⟨c1, h1, hr1, _⟩ := insertOrAssign_R c l hr key (f key)
  exact ⟨c1, h1, .insert key h h1⟩

theorem sha3Get_ok {s : Sha3Cache} (h : Sha3Ok k s) (key : List Byte) :
    ∃ r s', sha3Get s key = .ok (r, s') ∧ Sha3Ok k s' ∧ ∀ v, r = some v → v = k key := by
  unfold sha3Get
  split
  · obtain ⟨r, c, h1, h2, h3⟩ := get_reached (by omega) h.1 key
    exact ⟨r, { s with cache32 := c }, by simp [h1, bind, Except.bind, pure, Except.pure], ⟨h2, h.2⟩, h3⟩
  · obtain ⟨r, c, h1, h2, h3⟩ := get_reached (by omega) h.2 key
    exact ⟨r, { s with cache64 := c }, by simp [h1, bind, Except.bind, pure, Except.pure], ⟨h.1, h2⟩, h3⟩

theorem sha3Insert_ok {s : Sha3Cache} (h : Sha3Ok k s) (key : List Byte) :
    ∃ s', sha3Insert s key (k key) = .ok (k key, s') ∧ Sha3Ok k s' := by
  unfold sha3Insert
  split
  · obtain ⟨c, h1, h2⟩ := insert_reached (by omega) h.1 key
    exact ⟨{ s with cache32 := c }, by simp [h1, bind, Except.bind, pure, Except.pure], h2, h.2⟩
  · obtain ⟨c, h1, h2⟩ := insert_reached (by omega) h.2 key
    exact ⟨{ s with cache64 := c }, by simp [h1, bind, Except.bind, pure, Except.pure], h.1, h2⟩

/-! ### The split SHA3 instruction -/

theorem rd_ctx {p : Int} {c d : Ctx σ} {x : U256} (h : OpM.rd p c = .ok (x, d)) : d = c := by
  unfold OpM.rd at h
  split at h
  · cases h; rfl
  · cases h

theorem memCost_ctx {x y : U256} {c d : Ctx σ} {r : MemCost} (h : memCost x y c = .ok (r, d)) : d = c := by
  unfold memCost at h
  split at h
  · cases h; rfl
  · cases h

theorem readSpan_ctx {s : Span} {c d : Ctx σ} {r : List Byte} (h : OpM.readSpan s c = .ok (r, d)) : d = c := by
  unfold OpM.readSpan at h
  split at h
  · cases h; rfl
  · cases h

theorem sha3_key {c d : Ctx σ} {top gas : Int} {key : List Byte} (hs : c.sha3 = none)
    (h : sha3Key top gas c = .ok (some key, d)) (E E' : Env σ) (he : E.keccak key = E'.keccak key) :
    Ops.sha3 E top gas c = Ops.sha3 E' top gas c := by
  unfold sha3Key at h
  unfold Ops.sha3
  simp only [bind, OpM.bind] at h ⊢
  cases h1 : OpM.rd (top + 0) c with
  | error e => rw [h1] at h
  | ok r1 =>
    obtain ⟨x, c1⟩ := r1
    have hc1 : c1.sha3 = none := by
      rw [rd_ctx h1]; exact hs
    rw [h1] at h
    dsimp only at h ⊢
    cases h2 : OpM.rd (top + 1) c1 with
    | error e => rw [h2] at h
    | ok r2 =>
      obtain ⟨y, c2⟩ := r2
      have hc2 : c2.sha3 = none := by
        rw [rd_ctx h2]; exact hc1
      rw [h2] at h
      dsimp only at h ⊢
      cases h3 : memCost x y c2 with
      | error e => rw [h3] at h
      | ok r3 =>
        obtain ⟨mc, c3⟩ := r3
        have hc3 : c3.sha3 = none := by
          rw [memCost_ctx h3]; exact hc2
        rw [h3] at h
        dsimp only at h ⊢
        cases h4 : Ops.checkedCost 6 (minWords mc.size) mc.cost with
        | none => rfl
        | some dg =>
          rw [h4] at h
          dsimp only at h ⊢
          by_cases h5 : gas < dg
          · rw [if_pos h5, if_pos h5]
          · rw [if_neg h5] at h ⊢
            rw [if_neg h5]
            simp only [OpM.bind, OpM.getSpan] at h ⊢
            generalize hsp : (c3.memory.getSpan mc.offset mc.size).1 = sp at *
            generalize hm : ({ c3 with memory := (c3.memory.getSpan mc.offset mc.size).2 } : Ctx σ) = c4 at *
            have hc4 : c4.sha3 = none := by rw [← hm]; exact hc3
            cases h6 : OpM.readSpan sp c4 with
            | error e => rw [h6] at h
            | ok r6 =>
              obtain ⟨bytes, c5⟩ := r6
              have hc5 : c5.sha3 = none := by
                rw [readSpan_ctx h6]; exact hc4
              rw [h6] at h
              cases h
              simp only [OpM.get, hc5, he]

theorem at_bind {α β : Type} {m : OpM σ α} {f f' : α → OpM σ β} {c : Ctx σ}
    (h : ∀ a d, m c = .ok (a, d) → f a d = f' a d) : (m >>= f) c = (m >>= f') c := by
  show OpM.bind m f c = OpM.bind m f' c
  unfold OpM.bind
  cases hm : m c with
  | error e => rfl
  | ok r => exact h r.1 r.2 hm

theorem at_bind' {α β : Type} {m m' : OpM σ α} {f : α → OpM σ β} {c : Ctx σ}
    (h : m c = m' c) : (m >>= f) c = (m' >>= f) c := by
  show OpM.bind m f c = OpM.bind m' f c
  unfold OpM.bind
  rw [h]

theorem at_ite {α : Type} (p : Prop) [Decidable p] {m m' n n' : OpM σ α} {c : Ctx σ} (h1 : p → m c = m' c)
    (h2 : ¬ p → n c = n' c) : (if p then m else n) c = (if p then m' else n') c := by
  by_cases h : p
  · rw [if_pos h, if_pos h]; exact h1 h
  · rw [if_neg h, if_neg h]; exact h2 h

theorem run_congr {E E' : Env σ} {stepping : Bool} {op : OpCode} {pc : Nat} {gas top size : Int} {c : Ctx σ}
    (h : ∀ g, chk64 (gas - op.info.staticGas) = .ok g → invoke E op top g pc c = invoke E' op top g pc c) :
    run E stepping op pc gas top size c = run E' stepping op pc gas top size c := by
  unfold run
  dsimp only
  refine at_bind fun a d hd => ?_
  cases hd
  refine at_ite _ (fun _ => rfl) fun _ => at_ite _ (fun _ => rfl) fun _ => at_ite _ (fun _ => rfl) fun _ =>
    at_ite _ (fun _ => rfl) fun _ => at_ite _ (fun _ => rfl) fun _ => at_bind fun g d hg => at_ite _ (fun _ => rfl) fun _ =>
    at_bind' ?_
  cases hc : chk64 (gas - op.info.staticGas) with
  | error e => rw [hc] at hg; cases hg
  | ok g => rw [hc] at hg; cases hg; exact h _ hc

theorem run_key {c : Ctx σ} {l : Loc} {key : List Byte} (hs : c.sha3 = none) (h : nextHash l c = some key)
    (E E' : Env σ) (he : E.keccak key = E'.keccak key) :
    execOne E noObserver false l c () = execOne E' noObserver false l c () := by
  unfold nextHash at h
  split at h
  · cases h
  · rename_i b hb
    split at h
    · rename_i hc
      split at h
      · rename_i r d hk
        subst h
        have h1 := sha3_key hs hk E E' he
        have h2 : run E false .SHA3 (l.pc.getD 0) l.gas l.top l.size c = run E' false .SHA3 (l.pc.getD 0) l.gas l.top l.size c := by
          refine run_congr fun g hg => ?_
          have : g = l.gas - OpCode.SHA3.info.staticGas := by
            unfold chk64 at hg
            split at hg
            · cases hg; rfl
            · nomatch hg
          rw [this]
          exact h1
        unfold execOne
        simp only [hb, bind, Except.bind, hc.1, h2]
      · cases h
    · cases h

/-! ### One thread and its isolated run -/

/-- The outcome of the job when it is the only user of a VM. -/
def alone (vm : Vm) (job : Job σ) (fuel : Nat) : M (Option (EvmcResult × σ)) :=
  seen (vm.execute job.env fuel job.code job.message job.revision (fun _ => 0) job.world)

def outOf (r : M (Option (Loc × Ctx σ × Unit))) : M (Option (EvmcResult × σ)) :=
  match r with
  | .error e => .error e
  | .ok none => .ok none
  | .ok (some (l, c, _)) => .ok (some (result l c))

/-- The thread is where the isolated run is after `n` instructions. -/
structure Follows (k : List Byte → U256) (vm : Vm) (job : Job σ) (n : Nat) (l : Loc) (c : Ctx σ) : Prop where
  nocache : c.sha3 = none
  iso : ∃ b c0, Pair k b l c0 c ∧ ∀ fuel, alone vm job (n + fuel) = outOf (loop job.env noObserver false (-1) fuel 0 l c0 ())

variable {vm vm0 : Vm} {job : Job σ} {l : Loc} {c : Ctx σ} {n : Nat}

theorem follows_start (hv : VmOk codeOf k vm0) (hj : JobOk codeOf k job) (buf : Nat → U256) (vm : Vm) :
    let c := initialCtx { vm.args (computeContractInfo job.code) job.message job.revision with sha3 := none } buf job.world
    Follows k vm0 job 0 (startLocals c) c := by
  intro c
  obtain ⟨vm1, hl, hv1, _, _⟩ := lookupCode_ok hv hj.hash
  refine ⟨rfl, 1024, initialCtx (vm1.args (computeContractInfo job.code) job.message job.revision) (fun _ => 0) job.world, ?_, ?_⟩
  · exact ⟨⟨⟨buf, none, rfl⟩, fun i hn hi => absurd hi (by omega), args_sha3 hv1, nofun⟩, Int.le_refl _,
      fun _ => ⟨Int.le_refl _, Int.le_refl _⟩, rfl⟩
  · intro fuel
    unfold alone Vm.execute Vm.executeWith interpret seen
    simp only [bind, Except.bind, pure, Except.pure, hl, Nat.zero_add]
    rw [runInterpreter_eq]
    rw [show startLocals c = startLoc false (initialCtx (vm1.args (computeContractInfo job.code) job.message job.revision) (fun _ => 0) job.world) from rfl]
    simp only [noObserver]
    generalize loop job.env _ false (-1) fuel 0 _ _ () = r
    unfold outOf
    match r with
    | .error e => rfl
    | .ok none => rfl
    | .ok (some (l, c, u)) => rfl

theorem follows_finish (h : Follows k vm0 job n l c) (hs : l.state ≠ .running) :
    alone vm0 job (n + 1) = .ok (some (result l c)) := by
  obtain ⟨b, c0, hp, hf⟩ := h.iso
  rw [hf 1, loop_succ]
  simp only [Bool.false_eq_true, if_false, false_and, if_neg hs]
  obtain ⟨buf, s, hsw⟩ := hp.tw.sw
  rw [hsw]
  rfl

/-- Replacing the cache of one of two related contexts. -/
theorem pair_swap {b : Int} {c0 : Ctx σ} (h : Pair k b l c0 c) {s : Option Sha3Cache} (hs : OptOk k s) :
    Pair k b l c0 { c with sha3 := s } := by
  obtain ⟨⟨buf, s0, hsw⟩, ha, ho, ho'⟩ := h.tw
  exact ⟨⟨⟨buf, s, by rw [hsw]; rfl⟩, ha, ho, hs⟩, h.entry, h.now, h.size⟩

/-- One instruction with the caches as other threads left them. -/
theorem follows_step {E' : Env σ} (h : Follows k vm0 job n l c) (hT : Twins k job.env E') {s : Option Sha3Cache}
    (hs : OptOk k s) (hr : l.state = .running) :
    match execOne E' noObserver false l { c with sha3 := s } () with
    | .error e => alone vm0 job (n + 1) = .error e
    | .ok (l1, c1, _) => Follows k vm0 job (n + 1) l1 { c1 with sha3 := none } ∧ OptOk k c1.sha3 := by
  obtain ⟨b, c0, hp, hf⟩ := h.iso
  have h1 := execOne_pair hT false (pair_swap hp hs) hr
  have hf1 := fun fuel => hf (fuel + 1)
  simp only [loop_succ, Bool.false_eq_true, if_false, false_and, if_pos hr] at hf1
  cases hx : execOne job.env noObserver false l c0 () with
  | error e =>
    rw [hx] at h1
    simp only at h1
    rw [h1]
    simp only [hx] at hf1
    exact hf1 0
  | ok r =>
    obtain ⟨l1, c01, u⟩ := r
    rw [hx] at h1
    simp only at h1
    obtain ⟨b1, c1, h1, hp1⟩ := h1
    rw [h1]
    simp only [hx] at hf1
    refine ⟨⟨rfl, b1, c01, pair_swap hp1 nofun, fun fuel => ?_⟩, hp1.tw.ok'⟩
    rw [show n + 1 + fuel = n + (fuel + 1) by omega]
    exact hf1 fuel

theorem follows_whole (h : Follows k vm0 job n l c) (hj : JobOk codeOf k job) (hv : VmOk codeOf k vm)
    (hr : l.state = .running) :
    match wholeStep job l c vm with
    | .error e => alone vm0 job (n + 1) = .error e
    | .ok (l1, c1, vm1) => Follows k vm0 job (n + 1) l1 c1 ∧ VmOk codeOf k vm1 ∧ vm1.options = vm.options := by
  have h1 := follows_step h ⟨rfl, hj.env, hj.env⟩ (args_sha3 hv) hr
  unfold wholeStep
  simp only [bind, Except.bind, pure, Except.pure]
  cases hx : execOne job.env noObserver false l { c with sha3 := if vm.options.sha3Cache = true then some vm.sha3Cache else none } () with
  | error e => rw [hx] at h1; exact h1
  | ok r =>
    obtain ⟨l1, c1, u⟩ := r
    rw [hx] at h1
    refine ⟨h1.1, putSha3_ok hv h1.2, ?_⟩
    unfold Vm.putSha3
    split <;> rfl

theorem follows_hash (h : Follows k vm0 job n l c) (hj : JobOk codeOf k job) (hr : l.state = .running)
    {key : List Byte} (hk : nextHash l c = some key) :
    match finishHash job l c (k key) with
    | .error e => alone vm0 job (n + 1) = .error e
    | .ok (l1, c1) => Follows k vm0 job (n + 1) l1 c1 := by
  have h1 := follows_step h ⟨rfl, hj.env, hj.env⟩ (s := none) nofun hr
  unfold finishHash
  simp only [bind, Except.bind, pure, Except.pure]
  have hc : ({ c with sha3 := none } : Ctx σ) = c := by rw [← h.nocache]
  rw [hc] at h1 ⊢
  rw [run_key h.nocache hk { job.env with keccak := fun _ => k key } job.env (by rw [hj.env.keccak])]
  cases hx : execOne job.env noObserver false l c () with
  | error e => rw [hx] at h1; exact h1
  | ok r => obtain ⟨l1, c1, u⟩ := r; rw [hx] at h1; exact h1.1

/-! ### Threads -/

/-- A thread is inside its current job, after at most `a` actions. -/
def PhaseOk (codeOf : U256 → List Byte) (k : List Byte → U256) (vm0 : Vm) (t : Thread σ) (a : Nat) : Prop :=
  match t.phase with
  | .idle => a = 0
  | .analysing job h info => t.prog t.done = some job ∧ JobOk codeOf k job ∧ codeOf h = job.code ∧
      info = computeContractInfo job.code ∧ a ≤ 1
  | .starting job info => t.prog t.done = some job ∧ JobOk codeOf k job ∧ info = computeContractInfo job.code ∧ a ≤ 2
  | .running job l c => t.prog t.done = some job ∧ JobOk codeOf k job ∧ ∃ n, Follows k vm0 job n l c ∧ a ≤ 3 + 2 * n
  | .hashing job l c key => t.prog t.done = some job ∧ JobOk codeOf k job ∧ ∃ n, Follows k vm0 job n l c ∧ a ≤ 4 + 2 * n ∧
      l.state = .running ∧ nextHash l c = some key

/-- What an action can lead to. -/
def Moves (codeOf : U256 → List Byte) (k : List Byte → U256) (vm0 : Vm) (t t' : Thread σ) (a : Nat) : Prop :=
  (t'.done = t.done ∧ (PhaseOk codeOf k vm0 t' (a + 1) ∨ (t.prog t.done = none ∧ t' = t))) ∨
  (t'.phase = .idle ∧ ∃ r job n, t'.done = r :: t.done ∧ t.prog t.done = some job ∧ alone vm0 job n = .ok (some r))

/-- The outcome of an action. -/
def Post (codeOf : U256 → List Byte) (k : List Byte → U256) (vm0 : Vm) (t : Thread σ) (a : Nat) (sh : Shared)
    (r : M (Thread σ × Shared)) : Prop :=
  match r with
  | .error e => ∃ job n, t.prog t.done = some job ∧ alone vm0 job n = .error e
  | .ok (t', sh') => VmOk codeOf k sh'.vm ∧ sh'.vm.options = sh.vm.options ∧ t'.prog = t.prog ∧ Moves codeOf k vm0 t t' a

theorem act_ok {t : Thread σ} {a : Nat} {sh : Shared} (hv0 : VmOk codeOf k vm0) (hv : VmOk codeOf k sh.vm)
    (hp : ∀ done job, t.prog done = some job → JobOk codeOf k job) (ht : PhaseOk codeOf k vm0 t a) (fresh : Nat → U256) :
    Post codeOf k vm0 t a sh (t.act fresh sh) := by
  unfold Thread.act
  unfold PhaseOk at ht
  cases hph : t.phase with
  | idle =>
    rw [hph] at ht
    dsimp only at ht ⊢
    cases hpr : t.prog t.done with
    | none => exact ⟨hv, rfl, rfl, .inl ⟨rfl, .inr ⟨hpr, rfl⟩⟩⟩
    | some job =>
      have hj := hp _ _ hpr
      dsimp only
      have hstart : Moves codeOf k vm0 t { t with phase := .starting job (computeContractInfo job.code) } a :=
        .inl ⟨rfl, .inl ⟨hpr, hj, rfl, by omega⟩⟩
      cases hc : job.message.codeHash with
      | none => exact ⟨hv, rfl, rfl, hstart⟩
      | some h =>
        dsimp only
        by_cases hcond : sh.vm.options.analysisCache = true ∧ h ≠ 0
        · rw [if_pos hcond]
          obtain ⟨r, cc, h1, h2, h3⟩ := get_reached (by omega) hv.analysis h
          have hcode := hj.hash h hc hcond.2
          simp only [bind, Except.bind, pure, Except.pure, h1]
          cases r with
          | some info =>
            have := h3 info rfl
            rw [hcode] at this
            subst this
            exact ⟨⟨h2, hv.sha3⟩, rfl, rfl, hstart⟩
          | none => exact ⟨⟨h2, hv.sha3⟩, rfl, rfl, .inl ⟨rfl, .inl ⟨hpr, hj, hcode, rfl, by omega⟩⟩⟩
        · rw [if_neg hcond]
          exact ⟨hv, rfl, rfl, hstart⟩
  | analysing job h info =>
    rw [hph] at ht
    obtain ⟨hpr, hj, hcode, rfl, ha⟩ := ht
    dsimp only
    obtain ⟨cc, h1, h2⟩ := insert_reached (by omega) hv.analysis h
    rw [hcode] at h1
    simp only [bind, Except.bind, pure, Except.pure, h1]
    exact ⟨⟨h2, hv.sha3⟩, rfl, rfl, .inl ⟨rfl, .inl ⟨hpr, hj, rfl, by omega⟩⟩⟩
  | starting job info =>
    rw [hph] at ht
    obtain ⟨hpr, hj, rfl, ha⟩ := ht
    dsimp only
    exact ⟨hv, rfl, rfl, .inl ⟨rfl, .inl ⟨hpr, hj, 0, follows_start hv0 hj _ sh.vm, by omega⟩⟩⟩
  | running job l c =>
    rw [hph] at ht
    obtain ⟨hpr, hj, n, hf, ha⟩ := ht
    dsimp only
    by_cases hr : l.state = .running
    · rw [if_pos hr]
      have hw := follows_whole hf hj hv hr
      have hwhole : Post codeOf k vm0 t a sh (do
            let (l, c, vm) ← wholeStep job l c sh.vm
            return ({ t with phase := .running job l c }, { sh with vm := vm })) := by
        simp only [bind, Except.bind, pure, Except.pure]
        cases hx : wholeStep job l c sh.vm with
        | error e => rw [hx] at hw; exact ⟨job, _, hpr, hw⟩
        | ok r =>
          obtain ⟨l1, c1, vm1⟩ := r
          rw [hx] at hw
          exact ⟨hw.2.1, hw.2.2, rfl, .inl ⟨rfl, .inl ⟨hpr, hj, n + 1, hw.1, by omega⟩⟩⟩
      cases hkey : (if sh.vm.options.sha3Cache = true then nextHash l c else none) with
      | none => exact hwhole
      | some key =>
        have hk : nextHash l c = some key := by
          split at hkey
          · exact hkey
          · cases hkey
        dsimp only
        split
        · obtain ⟨r, s', h1, h2, h3⟩ := sha3Get_ok hv.sha3 key
          simp only [bind, Except.bind, pure, Except.pure, h1]
          cases r with
          | none => exact ⟨⟨hv.analysis, h2⟩, rfl, rfl, .inl ⟨rfl, .inl ⟨hpr, hj, n, hf, by omega, hr, hk⟩⟩⟩
          | some v =>
            cases h3 v rfl
            have hh := follows_hash hf hj hr hk
            dsimp only
            cases hx : finishHash job l c (k key) with
            | error e => rw [hx] at hh; exact ⟨job, _, hpr, hh⟩
            | ok r =>
              obtain ⟨l1, c1⟩ := r
              rw [hx] at hh
              exact ⟨⟨hv.analysis, h2⟩, rfl, rfl, .inl ⟨rfl, .inl ⟨hpr, hj, n + 1, hh, by omega⟩⟩⟩
        · exact hwhole
    · rw [if_neg hr]
      exact ⟨hv, rfl, rfl, .inr ⟨rfl, _, job, _, rfl, hpr, follows_finish hf hr⟩⟩
  | hashing job l c key =>
    rw [hph] at ht
    obtain ⟨hpr, hj, n, hf, ha, hr, hk⟩ := ht
    dsimp only
    obtain ⟨s', h1, h2⟩ := sha3Insert_ok hv.sha3 key
    rw [hj.env.keccak]
    simp only [bind, Except.bind, pure, Except.pure, h1]
    have hh := follows_hash hf hj hr hk
    cases hx : finishHash job l c (k key) with
    | error e => rw [hx] at hh; exact ⟨job, _, hpr, hh⟩
    | ok r =>
      obtain ⟨l1, c1⟩ := r
      rw [hx] at hh
      exact ⟨⟨hv.analysis, h2⟩, rfl, rfl, .inl ⟨rfl, .inl ⟨hpr, hj, n + 1, hh, by omega⟩⟩⟩

/-! ### All threads -/

theorem alone_mono (hv : VmOk codeOf k vm0) (hj : JobOk codeOf k job) (n m : Nat) :
    alone vm0 job n = .ok none ∨ alone vm0 job (n + m) = alone vm0 job n := by
  obtain ⟨b, c0, _, hf⟩ := (follows_start hv hj (fun _ => 0) vm0).iso
  have h1 := hf n
  have h2 := hf (n + m)
  rw [Nat.zero_add] at h1 h2
  rw [h1, h2]
  rcases loop_mono (E := job.env) noObserver false (-1) m n 0 _ c0 () with h | h
  · rw [h]; exact .inl rfl
  · rw [h]; exact .inr rfl

theorem alone_unique (hv : VmOk codeOf k vm0) (hj : JobOk codeOf k job) {n m : Nat} (hn : alone vm0 job n ≠ .ok none)
    (hm : alone vm0 job m ≠ .ok none) : alone vm0 job n = alone vm0 job m := by
  rcases Nat.le_total n m with h | h
  · obtain ⟨d, rfl⟩ := Nat.exists_eq_add_of_le h
    exact ((alone_mono hv hj n d).resolve_left hn).symm
  · obtain ⟨d, rfl⟩ := Nat.exists_eq_add_of_le h
    exact (alone_mono hv hj m d).resolve_left hm

/-- What holds at all times. -/
structure Inv (codeOf : U256 → List Byte) (k : List Byte → U256) (vm0 : Vm) (ts : Nat → Thread σ) (sh : Shared) : Prop where
  vm : VmOk codeOf k sh.vm
  prog : ∀ i done job, (ts i).prog done = some job → JobOk codeOf k job
  phase : ∀ i, ∃ a, PhaseOk codeOf k vm0 (ts i) a
  done : ∀ i pre r post, (ts i).done = post ++ r :: pre → ∃ job n, (ts i).prog pre = some job ∧ alone vm0 job n = .ok (some r)

theorem phase_same {t' : Thread σ} (h : t'.phase = .idle) : PhaseOk codeOf k vm0 t' 0 := by
  unfold PhaseOk; rw [h]

theorem inv_act {ts : Nat → Thread σ} {sh sh' : Shared} (h : Inv codeOf k vm0 ts sh) (hv0 : VmOk codeOf k vm0) {i : Nat}
    {t : Thread σ} {fresh : Nat → U256} (ha : (ts i).act fresh sh = .ok (t, sh')) :
    Inv codeOf k vm0 (fun j => if j = i then t else ts j) sh' ∧ sh'.vm.options = sh.vm.options ∧ t.prog = (ts i).prog ∧
      ∃ new, t.done = new ++ (ts i).done := by
  obtain ⟨a, hph⟩ := h.phase i
  have hp := act_ok hv0 h.vm (h.prog i) hph fresh
  rw [ha] at hp
  obtain ⟨hv, hopt, hprog, hm⟩ := hp
  refine ⟨⟨hv, ?_, ?_, ?_⟩, hopt, hprog, ?_⟩
  · intro j done job hj
    split at hj
    · rw [hprog] at hj; exact h.prog i done job hj
    · exact h.prog j done job hj
  · intro j
    
    split
    · rcases hm with ⟨_, hm | ⟨_, rfl⟩⟩ | ⟨hid, _⟩
      · exact ⟨_, hm⟩
      · exact ⟨a, hph⟩
      · exact ⟨0, phase_same hid⟩
    · exact h.phase j
  · intro j pre r post hd
    split at hd
    · rename_i hij
      subst hij
      rw [if_pos rfl, hprog]
      rcases hm with ⟨hd', _⟩ | ⟨_, r', job, n, hd', hpr, hal⟩
      · rw [hd'] at hd; exact h.done j pre r post hd
      · rw [hd'] at hd
        cases post with
        | nil => cases hd; exact ⟨job, n, hpr, hal⟩
        | cons x post => exact h.done j pre r post (List.cons.inj hd).2
    · rename_i hij
      rw [if_neg hij]
      exact h.done j pre r post hd
  · rcases hm with ⟨hd', _⟩ | ⟨_, r', job, n, hd', _⟩
    · exact ⟨[], hd'⟩
    · exact ⟨[r'], hd'⟩

theorem runAll_cons (ts : Nat → Thread σ) (sh : Shared) (i : Nat) (fresh : Nat → U256) (sched : List (Nat × (Nat → U256))) :
    runAll ts sh ((i, fresh) :: sched) = match (ts i).act fresh sh with
      | .error e => .error e
      | .ok (t, sh) => runAll (fun j => if j = i then t else ts j) sh sched := by
  simp only [runAll, bind, Except.bind]
  cases (ts i).act fresh sh with
  | error e => rfl
  | ok r => rfl

theorem runAll_inv (hv0 : VmOk codeOf k vm0) (sched : List (Nat × (Nat → U256))) : ∀ {ts : Nat → Thread σ} {sh : Shared},
    Inv codeOf k vm0 ts sh →
    match runAll ts sh sched with
    | .error e => ∃ i pre job n, (ts i).prog pre = some job ∧ alone vm0 job n = .error e
    | .ok (ts', sh') => Inv codeOf k vm0 ts' sh' ∧ sh'.vm.options = sh.vm.options ∧
        ∀ i, (ts' i).prog = (ts i).prog ∧ ∃ new, (ts' i).done = new ++ (ts i).done := by
  induction sched with
  | nil => intro ts sh h; exact ⟨h, rfl, fun i => ⟨rfl, [], rfl⟩⟩
  | cons x sched ih =>
    obtain ⟨i, fresh⟩ := x
    intro ts sh h
    rw [runAll_cons]
    cases ha : (ts i).act fresh sh with
    | error e =>
      obtain ⟨a, hph⟩ := h.phase i
      have hp := act_ok hv0 h.vm (h.prog i) hph fresh
      rw [ha] at hp
      obtain ⟨job, n, h1, h2⟩ := hp
      exact ⟨i, _, job, n, h1, h2⟩
    | ok r =>
      obtain ⟨t, sh1⟩ := r
      obtain ⟨hi, hopt, hprog, new, hnew⟩ := inv_act h hv0 ha
      have h2 := ih hi
      dsimp only
      have hpr : ∀ j, (if j = i then t else ts j).prog = (ts j).prog := by
        intro j; split
        · rename_i e; rw [e]; exact hprog
        · rfl
      cases hr : runAll (fun j => if j = i then t else ts j) sh1 sched with
      | error e =>
        rw [hr] at h2
        obtain ⟨j, pre, job, n, h3, h4⟩ := h2
        exact ⟨j, pre, job, n, by rw [← hpr j]; exact h3, h4⟩
      | ok r =>
        obtain ⟨ts', sh'⟩ := r
        rw [hr] at h2
        obtain ⟨h3, h4, h5⟩ := h2
        refine ⟨h3, h4.trans hopt, fun j => ?_⟩
        obtain ⟨h6, new', h7⟩ := h5 j
        refine ⟨h6.trans (hpr j), ?_⟩
        split at h7
        · rename_i e
          rw [hnew, ← List.append_assoc] at h7
          rw [e] at h7 ⊢
          exact ⟨_, h7⟩
        · exact ⟨new', h7⟩

/-- A job that would end by itself within `N` instructions has seen fewer than `2 N + 3` actions. -/
theorem age_bound {t : Thread σ} {a N : Nat} {r : EvmcResult × σ} (hv0 : VmOk codeOf k vm0) (h : PhaseOk codeOf k vm0 t a)
    (hpr : t.prog t.done = some job) (hj : JobOk codeOf k job) (hN : alone vm0 job N = .ok (some r)) : a < 2 * N + 3 := by
  have key : ∀ {n l c}, Follows k vm0 job n l c → n < N := by
    intro n l c hf
    obtain ⟨b, c0, _, hal⟩ := hf.iso
    have h0 : alone vm0 job n = .ok none := hal 0
    by_cases hn : n < N
    · exact hn
    · obtain ⟨d, rfl⟩ := Nat.exists_eq_add_of_le (Nat.le_of_not_lt hn)
      rcases alone_mono hv0 hj N d with h1 | h1
      · rw [h1] at hN; cases hN
      · rw [h1, hN] at h0; cases h0
  unfold PhaseOk at h
  cases hph : t.phase with
  | idle => rw [hph] at h; dsimp only at h; omega
  | analysing job' x y => rw [hph] at h; obtain ⟨_, _, _, _, h⟩ := h; omega
  | starting job' x => rw [hph] at h; obtain ⟨_, _, _, h⟩ := h; omega
  | running job' l c =>
    rw [hph] at h
    obtain ⟨h1, _, n, h2, h3⟩ := h
    rw [hpr] at h1; cases h1
    have := key h2
    omega
  | hashing job' l c ky =>
    rw [hph] at h
    obtain ⟨h1, _, n, h2, h3, _⟩ := h
    rw [hpr] at h1; cases h1
    have := key h2
    omega

/-- A thread that acts often enough completes its job. -/
theorem progress (hv0 : VmOk codeOf k vm0) {i N : Nat} {r : EvmcResult × σ} (hj : JobOk codeOf k job)
    (hN : alone vm0 job N = .ok (some r)) (sched : List (Nat × (Nat → U256))) :
    ∀ {ts ts' : Nat → Thread σ} {sh sh' : Shared} {a : Nat}, Inv codeOf k vm0 ts sh → (ts i).prog (ts i).done = some job →
    PhaseOk codeOf k vm0 (ts i) a → runAll ts sh sched = .ok (ts', sh') →
    2 * N + 3 ≤ (sched.map (·.1)).count i + a → ∃ post, (ts' i).done = post ++ r :: (ts i).done := by
  induction sched with
  | nil =>
    intro ts ts' sh sh' a h hpr hph _ hc
    have := age_bound hv0 hph hpr hj hN
    simp at hc
    omega
  | cons x sched ih =>
    obtain ⟨j, fresh⟩ := x
    intro ts ts' sh sh' a h hpr hph hrun hc
    rw [runAll_cons] at hrun
    cases ha : (ts j).act fresh sh with
    | error e => rw [ha] at hrun; cases hrun
    | ok q =>
      obtain ⟨t, sh1⟩ := q
      rw [ha] at hrun
      dsimp only at hrun
      obtain ⟨hi, _, hprog, _⟩ := inv_act h hv0 ha
      by_cases hij : j = i
      · subst hij
        have hp := act_ok hv0 h.vm (h.prog j) hph fresh
        rw [ha] at hp
        obtain ⟨_, _, _, hm⟩ := hp
        rcases hm with ⟨hd, hm | ⟨hn, _⟩⟩ | ⟨hid, r', job', n, hd, hpr', hal⟩
        · have := ih (a := a + 1) hi (by rw [if_pos rfl, hprog, hd]; exact hpr)
            (by rw [if_pos rfl]; exact hm) hrun
            (by simp only [List.map_cons, List.count_cons_self] at hc; omega)
          rw [if_pos rfl, hd] at this
          exact this
        · rw [hpr] at hn; cases hn
        · rw [hpr] at hpr'; cases hpr'
          have : alone vm0 job n = alone vm0 job N :=
            alone_unique hv0 hj (by rw [hal]; simp) (by rw [hN]; simp)
          rw [hal, hN] at this
          cases this
          have h2 := runAll_inv hv0 sched hi
          rw [hrun] at h2
          obtain ⟨_, new, h3⟩ := h2.2.2 j
          rw [if_pos rfl, hd] at h3
          exact ⟨new, h3⟩
      · have := ih (a := a) hi (by rw [if_neg (Ne.symm hij)]; exact hpr)
          (by rw [if_neg (Ne.symm hij)]; exact hph) hrun
          (by simp only [List.map_cons] at hc; rw [List.count_cons_of_ne (by exact hij)] at hc; omega)
        rw [if_neg (Ne.symm hij)] at this
        exact this

end Tosca.Proofs.Threads

import Verif.Props.GoEval

/-!
# Running contracts through the Go interface (C51, C52)
-/

namespace Tosca

open Tosca.Model Tosca.Spec Tosca.Proofs Tosca.Go Tosca.Model.Go Tosca.Spec.Go

variable {ω : Type}

/-! ### C51: the Go interpreter -/

/-- C51.  `Run` of the Go evmzero interpreter is the specified interpreter: whatever the world state, the
client's `Call` and the VM found by the run, result and final state of the client are those of the EVM specification
run on the client's interface. -/
theorem C51_run (B : Binding) (keccak : List Byte → U256) (db : Db ω) {call : CallFn ω} (hc : CallFnOk call)
    {p : Parameters} (hp : RunOk p) {f : Found ω} (hf : FoundFor keccak p f) (w : ω) :
    evmzeroRun B keccak f db call p w = Spec.Go.run ⟨B.status, B.tooLong⟩ keccak db call p w :=
  evmzeroRun_eq B keccak db hc hp hf w

/-- When the specified interpreter returns an error: unknown revision, or a failure that Go does not count as one
of the contract. -/
theorem specRun_error {R : Reports} {keccak : List Byte → U256} {db : Db ω} {call : CallFn ω} (hc : CallFnOk call)
    {p : Parameters} (hp : RunOk p) {w w' : ω} {e : Err} (h : Spec.Go.run R keccak db call p w = (.error e, w')) :
    (e = .unsupportedRevision ∧ ¬ (0 ≤ p.block.revision ∧ p.block.revision ≤ 5)) ∨
    (p.depth > 1024 ∧ (e = .unexpectedStatus .callDepthExceeded ∨ e = .unexpectedStatus .failure)) ∨
    (e = .unexpectedStatus .failure ∧ 4 ≤ p.block.revision) := by
  unfold Spec.Go.run at h
  cases hr : revisionOf p.block.revision with
  | none =>
    rw [hr] at h
    cases h
    refine Or.inl ⟨rfl, fun h => ?_⟩
    unfold revisionOf at hr
    rw [if_pos h] at hr
    cases hr
  | some rev =>
    rw [hr] at h
    dsimp only at h
    have hP := goFrame_ok R keccak db hc hp rev
    have hhalt := halts_bound hP _ (wf_initial w (show (Spec.Go.frame R keccak db call p rev).msg.gas ≤ 2 ^ 54 from hp.gas.2)) (Nat.le_refl _)
    have hex := fun f => @excused_steps ω (Spec.Go.frame R keccak db call p rev) (p.gas.toNat + 1)
      (initial (Spec.Go.frame R keccak db call p rev) w) rfl f
    rw [show (initial (Spec.Go.frame R keccak db call p rev) w).gas = p.gas.toNat from rfl] at hhalt
    generalize steps (Spec.Go.frame R keccak db call p rev) (p.gas.toNat + 1) (initial (Spec.Go.frame R keccak db call p rev) w) = s at *
    have h0 : Spec.Go.outcome s = .error e := (Prod.mk.inj h).1
    unfold Spec.Go.outcome at h0
    cases hs : s.status with
    | running => exact absurd hs hhalt
    | stopped => rw [hs] at h0; cases h0
    | returned => rw [hs] at h0; cases h0
    | reverted => rw [hs] at h0; cases h0
    | failed f =>
      rw [hs] at h0
      dsimp only at h0
      split at h0
      · cases h0
      · rename_i hcf
        injection h0 with h0
        have hx := hex f hs
        right
        cases f <;> first | exact absurd rfl hcf | skip
        · exact Or.inl ⟨hx, Or.inl h0.symm⟩
        · exact Or.inl ⟨hx, Or.inr h0.symm⟩
        · refine Or.inr ⟨h0.symm, ?_⟩
          unfold revisionOf at hr
          split at hr
          · injection hr with hr
            subst hr
            have : 11 ≤ 7 + p.block.revision.toNat := hx
            omega
          · cases hr

/-- C51.  `Run` always returns: there is no undefined behaviour and no endless loop in the C++ part.  It returns an
error only for an unknown revision, a frame deeper than 1024 levels, or a CREATE with too long init code (from
Shanghai on); every other failure of the contract is an unsuccessful result. -/
theorem C51_errors (B : Binding) (keccak : List Byte → U256) (db : Db ω) {call : CallFn ω} (hc : CallFnOk call)
    {p : Parameters} (hp : RunOk p) {f : Found ω} (hf : FoundFor keccak p f) {w w' : ω} {e : Err}
    (h : evmzeroRun B keccak f db call p w = (.error e, w')) :
    (e = .unsupportedRevision ∧ ¬ (0 ≤ p.block.revision ∧ p.block.revision ≤ 5)) ∨
    (p.depth > 1024 ∧ (e = .unexpectedStatus .callDepthExceeded ∨ e = .unexpectedStatus .failure)) ∨
    (e = .unexpectedStatus .failure ∧ 4 ≤ p.block.revision) := by
  rw [evmzeroRun_eq B keccak db hc hp hf] at h
  exact specRun_error hc hp h

/-- C51.  The result respects the gas given to the run. -/
theorem C51_gas (B : Binding) (keccak : List Byte → U256) (db : Db ω) {call : CallFn ω} (hc : CallFnOk call)
    {p : Parameters} (hp : RunOk p) {f : Found ω} (hf : FoundFor keccak p f) {w w' : ω} {r : RunResult}
    (h : evmzeroRun B keccak f db call p w = (.ok r, w')) :
    0 ≤ r.gasLeft ∧ r.gasLeft ≤ p.gas ∧ r.gasRefund ≤ 199 * (p.gas - r.gasLeft) ∧ -(199 * (p.gas - r.gasLeft)) ≤ r.gasRefund := by
  rw [evmzeroRun_eq B keccak db hc hp hf] at h
  have := specRun_respects (reports B) keccak db call p w r w' hc hp h
  exact ⟨this.1.1, this.1.2, this.2.1.1, this.2.1.2⟩

/-! ### C52: the whole stack -/

/-- C52.  The recursion of calls through the interpreter: a call at some depth runs its code on a context whose
`Call` is that of the next depth. -/
theorem C52_recursion (F : Floria ω) (depth : Nat) (static : Bool) :
    F.call depth static = F.callBody depth static (F.call (depth + 1)) := call_eq F depth static

/-- C52.  Calls of floria on evmzero are answered as on the specified interpreter, through all levels. -/
theorem C52_call {F : Floria ω} (hF : FloriaOk F) (B : Binding) {find : Parameters → ω → Found ω}
    (hI : F.interpreter = evmzero B F.keccak find) (hf : ∀ p w, FoundFor F.keccak p (find p w)) (depth : Nat) (static : Bool)
    (kind : Kind) {p : CallParameters} (h0 : 0 ≤ p.gas) (h1 : p.gas ≤ 2 ^ 54) (hi : p.input.length ≤ 2 ^ 30) (w : ω) :
    F.call depth static kind p w =
      ({ F with interpreter := Spec.Go.run ⟨B.status, B.tooLong⟩ F.keccak } : Floria ω).call depth static kind p w := by
  have h := evmzero_call hF B hf depth static kind p w h0 h1 hi
  have e : Floria.on F (evmzero B F.keccak find) = F := by unfold Floria.on; rw [← hI]
  rw [e] at h
  exact h

/-- C52.  The gas a call returns is between zero and the gas it was given; so every nested run meets the
assumptions of C51. -/
theorem C52_call_gas {F : Floria ω} (hF : FloriaOk F) (B : Binding) {find : Parameters → ω → Found ω}
    (hI : F.interpreter = evmzero B F.keccak find) (hf : ∀ p w, FoundFor F.keccak p (find p w)) (depth : Nat) (static : Bool) :
    CallFnOk (F.call depth static) := by
  have h := evmzero_call hF B hf depth static
  have e : Floria.on F (evmzero B F.keccak find) = F := by unfold Floria.on; rw [← hI]
  rw [e] at h
  exact h.ok (floria_call_ok (F := Floria.on F (Spec.Go.run (reports B) F.keccak)) ⟨hF.chain, hF.code, hF.precompile⟩
    (specRun_respects (reports B) F.keccak F.db) depth static)

/-- C52.  A transaction processed by floria on evmzero has the receipt and the effect it has on the specified
interpreter. -/
theorem C52_transaction {P : Processor ω} {db : Db ω} {block : BlockParameters} {t : Transaction} {B : Binding}
    {find : Parameters → ω → Found ω} (h : TxSetting P db block t B find) (w : ω) :
    P.run db block t w = ({ P with interpreter := Spec.Go.run ⟨B.status, B.tooLong⟩ P.keccak } : Processor ω).run db block t w := by
  have := processor_congr (P := P) (I := evmzero B P.keccak find) (I' := Spec.Go.run (reports B) P.keccak) h.tx
    (evmzero_call h.floria B h.found 0 false) w
  rw [← h.interpreter] at this
  exact this

theorem callBody_error {F : Floria ω} (hF : FloriaOk F) {R : Reports} {keccak : List Byte → U256} (hI : F.interpreter = Spec.Go.run R keccak)
    {depth : Nat} {static : Bool} {next : Bool → CallFn ω} (hn : ∀ s, CallFnOk (next s)) {kind : Kind} {p : CallParameters} {w w' : ω} {e : Err}
    (h0 : 0 ≤ p.gas) (h1 : p.gas ≤ 2 ^ 54) (hi : p.input.length ≤ 2 ^ 30) (h : F.callBody depth static next kind p w = (.error e, w')) :
    (e = .unsupportedRevision ∧ ¬ (0 ≤ F.block.revision ∧ F.block.revision ≤ 5)) ∨
    (e = .unexpectedStatus .failure ∧ 4 ≤ F.block.revision) := by
  unfold Floria.callBody at h
  split at h
  · cases h
  · rename_i hd
    split at h
    · cases h
    · rename_i code hash rcp created w1 hp
      dsimp only at h
      split at h
      · cases h
      · split at h
        · cases h
        · split at h
          · cases h
          · split at h
            · cases h
            · rw [hI] at h
              generalize hr : Spec.Go.run R keccak F.db _ _ _ = x at h
              obtain ⟨x1, x2⟩ := x
              cases x1 with
              | error e' =>
                cases h
                have hd2 : depth ≤ 1024 := Nat.not_lt.mp hd
                have := specRun_error (hn _)
                  ⟨hF.chain, ⟨h0, h1⟩, by show -2 ^ 31 ≤ (depth : Int) ∧ (depth : Int) < 2 ^ 31; omega, prepare_code hF hi hp, by show p.input.length < 2 ^ 64; omega⟩ hr
                rcases this with h | ⟨h, _⟩ | h
                · exact Or.inl h
                · have : (depth : Int) > 1024 := h
                  omega
                · exact Or.inr h
              | ok r =>
                exfalso
                unfold Floria.finish at h
                dsimp only at h
                split at h
                · split at h
                  · cases h
                  · split at h
                    · cases h
                    · split at h <;> cases h
                · cases h

/-- C52.  Processing a transaction always ends; it returns an error only for an unknown revision, or if the
transaction's own frame executes a CREATE with too long init code (from Shanghai on). -/
theorem C52_errors {P : Processor ω} {db : Db ω} {block : BlockParameters} {t : Transaction} {B : Binding}
    {find : Parameters → ω → Found ω} (h : TxSetting P db block t B find) {w w' : ω} {receipt : Receipt} {e : Err}
    (hr : P.run db block t w = (receipt, some e, w')) :
    (e = .unsupportedRevision ∧ ¬ (0 ≤ block.revision ∧ block.revision ≤ 5)) ∨
    (e = .unexpectedStatus .failure ∧ 4 ≤ block.revision) := by
  rw [C52_transaction h] at hr
  rcases run_cases hr with ⟨h1, _⟩ | ⟨w1, _, _, hb, ⟨_, he⟩ | ⟨_, _, he⟩ | ⟨_, hc⟩⟩
  · cases h1
  · cases he
  · cases he
  · have hbill := setupGasBilling_eq h.tx
    have hl := h.tx.gasLimit
    have henough := hc.enough
    obtain ⟨res, w3, hcall, hres⟩ := hc.result
    have hgas : i64 (t.gasLimit - setupGasBilling t) = t.gasLimit - setupGasBilling t := i64_id (by omega) (by omega)
    rcases hres with ⟨e', rfl, he⟩ | ⟨r, rfl, ⟨_, _, he⟩ | ⟨_, he⟩⟩
    · cases he
      rw [call_eq] at hcall
      have hF : FloriaOk (({ P with interpreter := Spec.Go.run ⟨B.status, B.tooLong⟩ P.keccak } : Processor ω).context db block t) :=
        ⟨h.floria.chain, h.floria.code, h.floria.precompile⟩
      refine callBody_error hF rfl (fun s => floria_call_ok hF (specRun_respects _ P.keccak db) 1 s) ?_ ?_ ?_ hcall
      · show 0 ≤ i64 _; rw [hgas]; omega
      · show i64 _ ≤ _; rw [hgas]; omega
      · exact h.tx.input
    · cases he
    · cases he

/-! ### Examples -/

/-- A run: SSTORE of 7 at key 3 in a world without storage. -/
def demoRunParams : Parameters :=
  { block := demoBlock 5, tx := { origin := 1 }, gas := 50000, recipient := 9, sender := 1, codeHash := some 17, code := [0x60, 7, 0x60, 3, 0x55, 0] }

/-- The hypotheses of C51 are met by the run of a contract on a new VM, with a context that answers every call without result. -/
example (vm : Vm) (hvm : Vm.new = .ok vm) :
    CallFnOk (ω := DemoWorld) (fun _ _ w => (.ok {}, w)) ∧ RunOk demoRunParams ∧ FoundFor demoKeccak demoRunParams (demoFound vm demoRunParams {}) := by
  refine ⟨?_, ?_, demoGo_found hvm _ _⟩
  · intro kind p w r w' h0 _ _ h
    cases h
    exact callOk_zero h0
  · refine ⟨demo_chain 5 { sender := 1 }, ?_, ?_, ?_, ?_⟩
    · show (0 : Int) ≤ 50000 ∧ (50000 : Int) ≤ 2 ^ 54; omega
    · show -2 ^ 31 ≤ (0 : Int) ∧ (0 : Int) < 2 ^ 31; omega
    · show 6 < 2 ^ 32; omega
    · show 0 < 2 ^ 64; omega

/-- What that run does: it stores the value and returns the gas left. -/
example (vm : Vm) (hvm : Vm.new = .ok vm) :
    (evmzeroRun demoBinding demoKeccak (demoFound vm demoRunParams {}) demoDb (fun _ _ w => (.ok {}, w)) demoRunParams {}).1 =
      .ok { success := true, gasLeft := 50000 - 3 - 3 - 22100 } ∧
    (evmzeroRun demoBinding demoKeccak (demoFound vm demoRunParams {}) demoDb (fun _ _ w => (.ok {}, w)) demoRunParams {}).2.storage 9 3 = 7 := by
  rw [evmzeroRun_eq]
  · rw [← evalRun_eq]
    decide +kernel
  · intro kind p w r w' h0 _ _ h
    cases h
    exact callOk_zero h0
  · refine ⟨demo_chain 5 { sender := 1 }, ?_, ?_, ?_, ?_⟩
    · show (0 : Int) ≤ 50000 ∧ (50000 : Int) ≤ 2 ^ 54; omega
    · show -2 ^ 31 ≤ (0 : Int) ∧ (0 : Int) < 2 ^ 31; omega
    · show 6 < 2 ^ 32; omega
    · show 0 < 2 ^ 64; omega
  · exact demoGo_found hvm _ _

/-- The hypotheses of C52 are met by a transfer. -/
example (vm : Vm) (hvm : Vm.new = .ok vm) :
    TxSetting (demoProcessor vm) demoDb (demoBlock 5) { sender := 1, recipient := some 9, value := 5, gasLimit := 100000 } demoBinding (demoFound vm) := by
  refine demo_txSetting hvm 5 ⟨?_, ?_, ?_, ?_⟩
  · show (0 : Int) ≤ 100000 ∧ (100000 : Int) ≤ 2 ^ 54; omega
  · show 0 ≤ 2 ^ 30; omega
  · show 0 < 2 ^ 40; omega
  · show 0 < 2 ^ 40; omega

end Tosca

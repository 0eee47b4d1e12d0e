import Verif.Proofs.NativeWorks
import Verif.Proofs.LfvmStack
import Verif.Proofs.Transaction

/-!
# Supported transactions and calls behave like those on an interpreter that works
-/

namespace Tosca.Proofs

open Tosca.Spec Tosca.Spec.Go Tosca.Model Tosca.Go Tosca.Model.Go

variable {ω : Type} {P : Processor ω} {db : Db ω} {block : BlockParameters} {t : Transaction}

theorem supported_tx (h : Supported P db block t) : TxOk t := by
  cases h with
  | evmzero h => exact h.tx
  | lfvm h => exact h.tx

theorem supported_sound (h : Supported P db block t) : ∃ I, Sound { P with interpreter := I } db block t ∧
    (∀ w, P.run db block t w = ({ P with interpreter := I } : Processor ω).run db block t w) ∧
    (Runnable block t → ∀ w, (P.context db block t).call 0 false (txCall t).1 (txCall t).2 w =
      (({ P with interpreter := I } : Processor ω).context db block t).call 0 false (txCall t).1 (txCall t).2 w) := by
  cases h with
  | @evmzero B find h =>
    refine ⟨P.interpreter, ⟨⟨reports B, ?_⟩, ?_, h.tx⟩, fun _ => rfl, fun _ _ => rfl⟩
    · show Works (reports B) db P.interpreter
      rw [h.interpreter]
      exact evmzero_works B h.found db
    · have hS : FloriaOk (Floria.on (P.context db block t) (Spec.Go.run (reports B) P.keccak)) := ⟨h.floria.chain, h.floria.code, h.floria.precompile⟩
      have hag := evmzero_call h.floria B h.found 0 false
      have hF : Floria.on (P.context db block t) (Proofs.evmzero B P.keccak find) = P.context db block t := by
        unfold Floria.on
        rw [← h.interpreter]
        rfl
      rw [hF] at hag
      exact hag.ok (floria_call_ok hS (specRun_respects (reports B) P.keccak db) 0 false)
  | @lfvm fuel find h =>
    have hcall := Lfvm.lfvm_call h.floria h.code h.access h.lengths h.revision h.found h.fuel 0 false
    refine ⟨nativeRun P.keccak, ⟨⟨failures, nativeRun_works P.keccak db⟩, ?_, h.tx⟩, fun w => ?_, fun hg w => ?_⟩
    · exact floria_call_ok (F := Floria.on (P.context db block t) (nativeRun P.keccak)) ⟨h.floria.chain, h.floria.code, h.floria.precompile⟩
        (nativeRun_respects P.keccak db) 0 false
    · have := Lfvm.processor_small (P := P) (I := Proofs.lfvm fuel find) (I' := nativeRun P.keccak) h.tx h.gas h.revision hcall w
      rw [← h.interpreter] at this
      exact this
    · have hF : Floria.on (P.context db block t) (Proofs.lfvm fuel find) = P.context db block t := by
        unfold Floria.on
        rw [← h.interpreter]
        rfl
      rw [hF] at hcall
      have h1 := hg.gas
      have h2 := h.gas
      refine hcall _ _ _ ⟨⟨?_, ?_⟩, fun _ hk => ?_⟩ h.tx.input
      · show 0 ≤ t.gasLimit - (intrinsicGas t : Int); omega
      · show t.gasLimit - (intrinsicGas t : Int) ≤ _; omega
      · refine hg.initCode h.revision ?_
        unfold txCall at hk
        cases hr : t.recipient with
        | none => rfl
        | some r => rw [hr] at hk; rcases hk with hk | hk <;> cases hk

theorem callSupported_works {F : Floria ω} {kind : Kind} {p : CallParameters} (h : CallSupported F kind p) (depth : Nat) (static : Bool) :
    ∃ I R, Works R F.db I ∧ ∀ w, F.call depth static kind p w = ({ F with interpreter := I } : Floria ω).call depth static kind p w := by
  cases h with
  | @evmzero B find h1 h2 =>
    refine ⟨F.interpreter, reports B, ?_, fun _ => rfl⟩
    rw [h1]
    exact evmzero_works B h2 F.db
  | @lfvm fuel find h =>
    refine ⟨nativeRun F.keccak, failures, nativeRun_works F.keccak F.db, fun w => ?_⟩
    have := Lfvm.lfvm_call h.floria h.code h.access h.lengths h.revision h.found h.fuel depth static kind p w ⟨h.gas, fun _ => h.initCode⟩ h.input
    have e : Floria.on F (Proofs.lfvm fuel find) = F := by unfold Floria.on; rw [← h.interpreter]
    rw [e] at this
    exact this

end Tosca.Proofs

import Verif.Proofs.Floria
import Verif.Spec.Transaction

/-!
# Floria on evmzero
-/

namespace Tosca.Proofs

open Tosca.Spec Tosca.Model Tosca.Go Tosca.Model.Go

variable {ω : Type}

theorem specRun_respects (R : Spec.Go.Reports) (keccak : List Byte → U256) (db : Db ω) : Respects db (Spec.Go.run R keccak) := by
  intro call p w r w' hc hp h
  unfold Spec.Go.run at h
  cases hr : Spec.Go.revisionOf p.block.revision with
  | none => rw [hr] at h; cases h
  | some rev =>
    rw [hr] at h
    dsimp only at h
    have hP := goFrame_ok R keccak db hc hp rev
    have hg2 : (Spec.Go.frame R keccak db call p rev).msg.gas ≤ 2 ^ 54 := hp.gas.2
    have hb := (steps_bound hP (p.gas.toNat + 1) (wf_initial w hg2) rfl).1
    have h1 := hb.hi
    have h2 := hb.lo
    have h3 := hb.gas
    have e1 : (((initial (Spec.Go.frame R keccak db call p rev) w).gas : Nat) : Int) = p.gas := Int.toNat_of_nonneg hp.gas.1
    have e2 : (initial (Spec.Go.frame R keccak db call p rev) w).refund = 0 := rfl
    rw [e1, e2] at h1 h2
    have hret := wf_steps_alive hP (p.gas.toNat + 1) (wf_initial w hg2)
    generalize steps (Spec.Go.frame R keccak db call p rev) (p.gas.toNat + 1) (initial (Spec.Go.frame R keccak db call p rev) w) = s at *
    have h0 : Spec.Go.outcome s = .ok r := (Prod.mk.inj h).1
    have hg := hp.gas
    unfold Spec.Go.outcome at h0
    cases hs : s.status with
    | running => rw [hs] at h0; cases h0
    | failed f =>
      rw [hs] at h0
      dsimp only at h0
      split at h0
      · cases h0
        refine ⟨⟨Int.le_refl _, hg.1⟩, ?_, by show 0 < 2 ^ 64; omega⟩
        show (0 : Int) ≤ 199 * (p.gas - 0) ∧ -(199 * (p.gas - 0)) ≤ (0 : Int)
        omega
      · cases h0
    | _ =>
      have hw := hret fun f hf => by rw [hf] at hs; cases hs
      rw [hs] at h0
      cases h0
      refine ⟨⟨?_, ?_⟩, ⟨?_, ?_⟩, hw.ret⟩
      · show (0 : Int) ≤ (s.gas : Int); omega
      · show (s.gas : Int) ≤ p.gas; omega
      · show s.refund ≤ 199 * (p.gas - (s.gas : Int)); omega
      · show -(199 * (p.gas - (s.gas : Int))) ≤ s.refund; omega

/-- Call functions that agree on calls in range. -/
def AgreeCall (c c' : CallFn ω) : Prop :=
  ∀ kind p w, 0 ≤ p.gas → p.gas ≤ 2 ^ 54 → p.input.length ≤ 2 ^ 30 → c kind p w = c' kind p w

theorem AgreeCall.ok {c c' : CallFn ω} (h : AgreeCall c c') (hc : Spec.Go.CallFnOk c') : Spec.Go.CallFnOk c := by
  intro kind p w r w' h0 h1 hi hr
  rw [h kind p w h0 h1 hi] at hr
  exact hc kind p w r w' h0 h1 hi hr

theorem specRun_congr (R : Spec.Go.Reports) (keccak : List Byte → U256) (db : Db ω) {c c' : CallFn ω} (h : AgreeCall c c')
    (hc : Spec.Go.CallFnOk c') {p : Parameters} (hp : Spec.Go.RunOk p) (w : ω) :
    Spec.Go.run R keccak db c p w = Spec.Go.run R keccak db c' p w := by
  unfold Spec.Go.run
  cases hr : Spec.Go.revisionOf p.block.revision with
  | none => rfl
  | some rev =>
    dsimp only
    have hP := goFrame_ok R keccak db hc hp rev
    have hg2 : (Spec.Go.frame R keccak db c' p rev).msg.gas ≤ 2 ^ 54 := hp.gas.2
    have hag : AgreeGas (Spec.Go.frame R keccak db c' p rev).host.call (Spec.Go.host R db c p).call := by
      intro m w h0 h1
      show (Spec.Go.host R db c' p).call m w = _
      show (if m.input.length ≤ 2 ^ 30 then _ else _) = (if m.input.length ≤ 2 ^ 30 then _ else _)
      by_cases hl : m.input.length ≤ 2 ^ 30
      · rw [if_pos hl, if_pos hl, h (Spec.Go.kindOf m) (Spec.Go.paramsOf m) w h0 h1 hl]
      · rw [if_neg hl, if_neg hl]
    have key := steps_agree hP hag (p.gas.toNat + 1) (wf_initial w hg2)
    have e : recall (Spec.Go.frame R keccak db c' p rev) (Spec.Go.host R db c p).call = Spec.Go.frame R keccak db c p rev := rfl
    rw [e] at key
    show (Spec.Go.outcome (steps _ _ (initial (Spec.Go.frame R keccak db c' p rev) w)),
      (steps _ _ (initial (Spec.Go.frame R keccak db c' p rev) w)).host) = _
    rw [key]

/-- The processor with another interpreter. -/
def Floria.on (F : Floria ω) (I : Interpreter ω) : Floria ω := { F with interpreter := I }

/-- Floria on two interpreters that agree as far as floria uses them. -/
theorem callBody_congr {F : Floria ω} (hF : FloriaOk F) {I I' : Interpreter ω} {depth : Nat} (hd : depth ≤ 1024) (static : Bool)
    {next next' : Bool → CallFn ω}
    (hI : ∀ s p w, Spec.Go.RunOk p → I F.db (next s) p w = I' F.db (next' s) p w) :
    AgreeCall ((Floria.on F I).callBody depth static next) ((Floria.on F I').callBody depth static next') := by
  intro kind p w h0 h1 hi
  unfold Floria.callBody
  have e : (Floria.on F I).prepare kind p w = F.prepare kind p w := rfl
  have e' : (Floria.on F I').prepare kind p w = F.prepare kind p w := rfl
  rw [e, e']
  cases hp : F.prepare kind p w with
  | none => rfl
  | some t =>
    obtain ⟨code, hash, rcp, created, w1⟩ := t
    have hcode := prepare_code hF hi hp
    dsimp only [Floria.on]
    have hfin : ∀ st x, Floria.finish { F with interpreter := I } kind created st x = Floria.finish { F with interpreter := I' } kind created st x :=
      fun _ _ => rfl
    generalize hT : (if kind ≠ .staticCall ∧ kind ≠ .delegateCall then transferValue F.db p.value p.sender rcp w1 else some w1) = T
    cases T with
    | none => rfl
    | some w2 =>
      dsimp only
      cases hs : handleStateContract F.keccak F.db p.sender p.recipient p.input p.gas w2 with
      | mk out w3 =>
        cases out with
        | some o => rfl
        | none =>
          dsimp only
          cases hq : handlePrecompiled F.precompiles F.block.revision p.input rcp p.gas with
          | some o => rfl
          | none =>
            dsimp only
            rw [hfin, hI _ _ _ ⟨hF.chain, ⟨h0, h1⟩, by constructor <;> (show _; dsimp only; omega), hcode, by dsimp only; omega⟩]
            rfl

/-- Calls on evmzero are calls on the specification's interpreter. -/
theorem evmzero_call {F : Floria ω} (hF : FloriaOk F) (B : Binding) {keccak : List Byte → U256} {find : Parameters → ω → Found ω}
    (hf : ∀ p w, FoundFor keccak p (find p w)) (depth : Nat) (static : Bool) :
    AgreeCall ((Floria.on F (evmzero B keccak find)).call depth static)
      ((Floria.on F (Spec.Go.run (reports B) keccak)).call depth static) := by
  have hS : FloriaOk (Floria.on F (Spec.Go.run (reports B) keccak)) := ⟨hF.chain, hF.code, hF.precompile⟩
  refine call_induct (Floria.on F (evmzero B keccak find))
    (fun depth static c => AgreeCall c ((Floria.on F (Spec.Go.run (reports B) keccak)).call depth static)) ?_ ?_ depth static
  · intro depth static hd kind p w _ _ _
    rw [call_eq]
    unfold Floria.callBody
    rw [if_pos (by unfold maxRecursiveDepth; omega)]
  · intro depth static hd ih
    rw [call_eq]
    refine callBody_congr hF hd static fun s p w hp => ?_
    have hok := floria_call_ok hS (specRun_respects (reports B) keccak F.db) (depth + 1) s
    show evmzeroRun B keccak (find p w) F.db _ p w = _
    rw [evmzeroRun_eq B keccak F.db ((ih s).ok hok) hp (hf p w) w]
    exact specRun_congr (reports B) keccak F.db (ih s) hok hp w

/-! ### Intrinsic gas -/

theorem countP_split (l : List Byte) : l.countP (fun b => b == 0) + l.countP (fun b => b != 0) = l.length := by
  induction l with
  | nil => rfl
  | cons a l ih =>
    rw [List.countP_cons, List.countP_cons, List.length_cons]
    by_cases h : a = 0
    · subst h; simp at ih ⊢; omega
    · have h1 : (a == 0) = false := beq_eq_false_iff_ne.mpr h
      have h2 : (a != 0) = true := bne_iff_ne.mpr h
      rw [h1, h2]; simp at ih ⊢; omega

theorem foldl_keys (l : List AccessTuple) : ∀ g : Int, 0 ≤ g → g + 1900 * ((l.map fun x => x.keys.length).sum : Nat) < 2 ^ 62 →
    l.foldl (fun gas tuple => i64 (gas + i64 (i64 tuple.keys.length * 1900))) g = g + 1900 * ((l.map fun x => x.keys.length).sum : Nat) := by
  induction l with
  | nil => intro g _ _; simp
  | cons a l ih =>
    intro g h0 h1
    simp only [List.map_cons, List.sum_cons, Int.natCast_add, List.foldl_cons] at h1 ⊢
    rw [i64_id (x := (a.keys.length : Int)) (by omega) (by omega), i64_id (x := (a.keys.length : Int) * 1900) (by omega) (by omega),
      i64_id (x := g + (a.keys.length : Int) * 1900) (by omega) (by omega)]
    rw [ih _ (by omega) (by omega)]
    omega

theorem setupGasBilling_eq {t : Transaction} (ht : Spec.Go.TxOk t) : setupGasBilling t = (Spec.Go.intrinsicGas t : Nat) := by
  have hi := ht.input
  have hs := countP_split t.input
  have h1 : (if t.input.length > 0 then
      i64 (i64 ((if t.recipient = none then 53000 else 21000) + i64 (i64 (i64 t.input.length - i64 (t.input.countP fun b => b != 0)) * 4)) +
        i64 (i64 (t.input.countP fun b => b != 0) * 16))
      else (if t.recipient = none then 53000 else 21000)) =
      (if t.recipient = none then 53000 else 21000 : Int) + 4 * (t.input.countP (fun b => b == 0) : Nat) + 16 * (t.input.countP (fun b => b != 0) : Nat) := by
    have hb : (if t.recipient = none then 53000 else 21000 : Int) = 53000 ∨ (if t.recipient = none then 53000 else 21000 : Int) = 21000 := by
      split
      · exact Or.inl rfl
      · exact Or.inr rfl
    generalize (if t.recipient = none then 53000 else 21000 : Int) = b at *
    by_cases hl : t.input.length > 0
    · rw [if_pos hl, i64_id (x := (t.input.length : Int)) (by omega) (by omega), i64_id (x := ((t.input.countP fun b => b != 0 : Nat) : Int)) (by omega) (by omega)]
      rw [i64_id (x := (t.input.length : Int) - ((t.input.countP fun b => b != 0 : Nat) : Int)) (by omega) (by omega)]
      rw [i64_id (x := _ * 4) (by omega) (by omega), i64_id (x := _ * 16) (by omega) (by omega)]
      rw [i64_id (x := b + _) (by omega) (by omega), i64_id (by omega) (by omega)]
      omega
    · rw [if_neg hl]; omega
  have ha := ht.accessList
  have hk := ht.keys
  unfold setupGasBilling Spec.Go.intrinsicGas
  dsimp only
  rw [h1]
  have hb : (if t.recipient = none then 53000 else 21000 : Int) = ((if t.recipient.isNone then 53000 else 21000 : Nat) : Int) := by
    cases t.recipient <;> rfl
  have hb2 : (if t.recipient.isNone then 53000 else 21000 : Nat) ≤ 53000 := by split <;> omega
  rw [hb]
  generalize (if t.recipient.isNone then 53000 else 21000 : Nat) = b at *
  cases hl : t.accessList with
  | none => simp only [Option.getD_none, List.length_nil, List.map_nil, List.sum_nil]; omega
  | some l =>
    rw [hl] at ha hk
    simp only [Option.getD_some] at ha hk ⊢
    rw [i64_id (x := (l.length : Int)) (by omega) (by omega), i64_id (x := (l.length : Int) * 2400) (by omega) (by omega),
      i64_id (x := _ + (l.length : Int) * 2400) (by omega) (by omega)]
    rw [foldl_keys l _ (by omega) (by omega)]
    omega

/-- Processing a transaction on two interpreters that agree as far as floria uses them. -/
theorem processor_congr {P : Processor ω} {I I' : Interpreter ω} {db : Db ω} {block : BlockParameters} {t : Transaction}
    (ht : Spec.Go.TxOk t)
    (h : AgreeCall ((Floria.on (P.context db block t) I).call 0 false) ((Floria.on (P.context db block t) I').call 0 false)) (w : ω) :
    Processor.run { P with interpreter := I } db block t w = Processor.run { P with interpreter := I' } db block t w := by
  have e1 : Processor.context { P with interpreter := I } db block t = Floria.on (P.context db block t) I := rfl
  have e2 : Processor.context { P with interpreter := I' } db block t = Floria.on (P.context db block t) I' := rfl
  have hb := setupGasBilling_eq ht
  have hg := ht.gasLimit
  unfold Processor.run
  rw [e1, e2]
  dsimp only
  by_cases hlt : t.gasLimit < setupGasBilling t
  · simp only [if_pos hlt]
  · have hgas : i64 (t.gasLimit - setupGasBilling t) = t.gasLimit - setupGasBilling t := i64_id (by omega) (by omega)
    have key : ∀ kind w, ((Floria.on (P.context db block t) I).call 0 false) kind (callParameters t (i64 (t.gasLimit - setupGasBilling t))) w =
        ((Floria.on (P.context db block t) I').call 0 false) kind (callParameters t (i64 (t.gasLimit - setupGasBilling t))) w := by
      intro kind w
      rw [hgas]
      exact h kind _ w (by show 0 ≤ t.gasLimit - _; omega) (by show t.gasLimit - _ ≤ _; omega) ht.input
    simp only [key]
    rfl

end Tosca.Proofs

import Verif.Proofs.LfvmSent
import Verif.Proofs.Transaction

/-!
# Floria on the long-form EVM
-/

namespace Tosca.Proofs.Lfvm

open Tosca.Spec Tosca.Spec.Go Tosca.Go Tosca.Model.Go Tosca.Model

variable {ω : Type}

/-- Call functions that agree on the calls that frames with at most 2^40 gas make. -/
def SmallAgree (rev : Revision) (c c' : CallFn ω) : Prop :=
  ∀ kind p w, InRange rev kind p → p.input.length ≤ 2 ^ 30 → c kind p w = c' kind p w

theorem SmallAgree.ok {rev : Revision} {c c' : CallFn ω} (h : SmallAgree rev c c') (hc : CallFnOk c') : CallFnOk (inRange rev c) := by
  intro kind p w r w' h0 h1 hi hr
  unfold inRange at hr
  split at hr
  · rename_i hx
    rw [h kind p w hx hi] at hr
    exact hc kind p w r w' h0 h1 hi hr
  · cases hr

theorem smallAgree_inRange {rev : Revision} (c : CallFn ω) : SmallAgree rev (inRange rev c) c := by
  intro kind p w h _
  unfold inRange
  rw [if_pos h]

theorem SmallAgree.trans {rev : Revision} {c c' c'' : CallFn ω} (h : SmallAgree rev c c') (h' : SmallAgree rev c' c'') : SmallAgree rev c c'' :=
  fun kind p w hr hi => (h kind p w hr hi).trans (h' kind p w hr hi)

theorem kindOf_create {m : Message} (h : kindOf m = .create ∨ kindOf m = .create2) : m.kind = .create ∨ m.kind = .create2 := by
  unfold kindOf at h
  cases hk : m.kind <;> cases hd : decide (m.flags = 0) <;> rw [hk, hd] at h <;> simp at h ⊢

theorem steps_congr (keccak : List Byte → U256) (db : Db ω) {c c' : CallFn ω} {p : Parameters} (h : SmallAgree (revOf p) c c')
    (hc : CallFnOk c') (hp : RunOk p) (hg : p.gas ≤ 2 ^ 40) (w : ω) {rev : Revision} (hr : revisionOf p.block.revision = some rev) (n : Nat) :
    stepsEip (nativeFrame keccak db c p rev) n (initial (nativeFrame keccak db c p rev) w) =
      stepsEip (nativeFrame keccak db c' p rev) n (initial (nativeFrame keccak db c' p rev) w) := by
  have hrv : revOf p = rev := by
    unfold revisionOf at hr
    split at hr
    · injection hr
    · cases hr
  have hP := nativeFrame_ok keccak db hc hp rev
  have hg2 : (nativeFrame keccak db c' p rev).msg.gas ≤ 2 ^ 54 := hp.gas.2
  have hag : AgreeSmall (nativeFrame keccak db c' p rev).rev (nativeFrame keccak db c' p rev).host.call (Spec.Go.host failures db c p).call := by
    intro m w h0 h1 h2
    show (if m.input.length ≤ 2 ^ 30 then _ else _) = (if m.input.length ≤ 2 ^ 30 then _ else _)
    by_cases hl : m.input.length ≤ 2 ^ 30
    · rw [if_pos hl, if_pos hl, h (kindOf m) (paramsOf m) w ⟨⟨h0, h1⟩, fun hs hk => h2 (by rw [hrv] at hs; exact hs) (kindOf_create hk)⟩ hl]
    · rw [if_neg hl, if_neg hl]
  exact stepsEip_agree (P := nativeFrame keccak db c' p rev) hP hag n (wf_initial w hg2) (by show p.gas.toNat ≤ 2 ^ 40; omega)

theorem nativeRun_congr (keccak : List Byte → U256) (db : Db ω) {c c' : CallFn ω} {p : Parameters} (h : SmallAgree (revOf p) c c')
    (hc : CallFnOk c') (hp : RunOk p) (hg : p.gas ≤ 2 ^ 40) (w : ω) : nativeRun keccak db c p w = nativeRun keccak db c' p w := by
  unfold nativeRun
  cases hr : revisionOf p.block.revision with
  | none => rfl
  | some rev =>
    dsimp only
    rw [steps_congr keccak db h hc hp hg w hr]

theorem safeRun_congr (keccak : List Byte → U256) (db : Db ω) {c c' : CallFn ω} {p : Parameters} (h : SmallAgree (revOf p) c c')
    (hc : CallFnOk c') (hp : RunOk p) (hg : p.gas ≤ 2 ^ 40) {w : ω} (hs : SafeRun keccak db c' p w) : SafeRun keccak db c p w := by
  intro rev hr k d r h1 h2
  rw [steps_congr keccak db h hc hp hg w hr] at h1 h2
  exact hs rev hr k d r h1 h2

/-- A run against the reference interpreter with another call function: the two have to agree as far as the frame can use them. -/
theorem lfvmRun_on (ws : Bool) (keccak : List Byte → U256) {db : Db ω} {c c' : CallFn ω} (ha : AccessOk db) (hl : Lengths db) {p : Parameters}
    (h : SmallAgree (revOf p) c c') (hc : CallFnOk c')
    (hp : RunOk p) (hin : p.input.length < 2 ^ 63) (hcode : p.code.length ≤ 2 ^ 16) (hgas : p.gas ≤ 2 ^ 40)
    (hrev : 0 ≤ p.block.revision) {f : Model.Lfvm.Found} (hh : f.hash = keccak)
    (hf : ∀ C, f.cached = some C → Model.Lfvm.convert p.code ws = some C) {fuel : Parameters → Nat} (hfuel : 2 * p.gas.toNat + 2 ≤ fuel p) (w : ω)
    (hsafe : ws = true → SafeRun keccak db c' p w) :
    (Model.Lfvm.lfvmRun ws f fuel db c p w).1 = (nativeRun keccak db c' p w).1 ∧
    ((Model.Lfvm.lfvmRun ws f fuel db c p w).2 = (nativeRun keccak db c' p w).2 ∨ (nativeRun keccak db c' p w).1 = .ok {}) := by
  have := lfvmRun_range ws keccak ha hl (h.ok hc) hp hin hcode hgas hrev hh hf hfuel w
    fun hx => safeRun_congr keccak db ((smallAgree_inRange c).trans h) hc hp hgas (hsafe hx)
  rwa [nativeRun_congr keccak db ((smallAgree_inRange c).trans h) hc hp hgas w] at this

/-- A run against the reference interpreter. -/
theorem lfvmRun_eq (ws : Bool) (keccak : List Byte → U256) {db : Db ω} {call : CallFn ω} (hc : CallFnOk call) (ha : AccessOk db) (hl : Lengths db)
    {p : Parameters} (hp : RunOk p) (hin : p.input.length < 2 ^ 63) (hcode : p.code.length ≤ 2 ^ 16) (hgas : p.gas ≤ 2 ^ 40)
    (hrev : 0 ≤ p.block.revision) {f : Model.Lfvm.Found} (hh : f.hash = keccak)
    (hf : ∀ C, f.cached = some C → Model.Lfvm.convert p.code ws = some C) {fuel : Parameters → Nat} (hfuel : 2 * p.gas.toNat + 2 ≤ fuel p) (w : ω)
    (hsafe : ws = true → SafeRun keccak db call p w) :
    (Model.Lfvm.lfvmRun ws f fuel db call p w).1 = (nativeRun keccak db call p w).1 ∧
    ((Model.Lfvm.lfvmRun ws f fuel db call p w).2 = (nativeRun keccak db call p w).2 ∨ (nativeRun keccak db call p w).1 = .ok {}) :=
  lfvmRun_on ws keccak ha hl (fun _ _ _ _ _ => rfl) hc hp hin hcode hgas hrev hh hf hfuel w hsafe

/-- Equal, or both unsuccessful without anything else. -/
def SameRun (x y : Except Err RunResult × ω) : Prop := x.1 = y.1 ∧ (x.2 = y.2 ∨ y.1 = .ok {})

theorem finish_same {F F' : Floria ω} (hdb : F'.db = F.db) (hb : F'.block = F.block) {kind : Kind} {created : Address} {w : ω}
    {x y : Except Err RunResult × ω} (h : SameRun x y) : F.finish kind created w x = F'.finish kind created w y := by
  obtain ⟨x1, x2⟩ := x
  obtain ⟨y1, y2⟩ := y
  obtain ⟨h1, h2⟩ := h
  dsimp only at h1 h2
  subst h1
  unfold Floria.finish
  rw [hdb, hb]
  rcases h2 with h2 | h2
  · rw [h2]
  · rw [h2]; rfl

/-- Floria on two interpreters that agree on the runs of calls in range. -/
theorem callBody_small {F : Floria ω} (hF : FloriaOk F) (hcode : ∀ a w, (F.db.code a w).length ≤ 2 ^ 16) {I I' : Interpreter ω} {depth : Nat}
    (hd : depth ≤ 1024) (hrev : 4 ≤ F.block.revision) (static : Bool) {next next' : Bool → CallFn ω}
    (hI : ∀ s p w, RunOk p → p.gas ≤ 2 ^ 40 → p.input.length < 2 ^ 63 → p.code.length ≤ 2 ^ 16 → p.block = F.block →
      SameRun (I F.db (next s) p w) (I' F.db (next' s) p w)) :
    SmallAgree (ISTANBUL + F.block.revision.toNat) ((Floria.on F I).callBody depth static next) ((Floria.on F I').callBody depth static next') := by
  intro kind p w hx hi
  obtain ⟨⟨h0, h1⟩, hc⟩ := hx
  have hc := hc (show (11 : Nat) ≤ 7 + F.block.revision.toNat by omega)
  unfold Floria.callBody
  have e : (Floria.on F I).prepare kind p w = F.prepare kind p w := rfl
  have e' : (Floria.on F I').prepare kind p w = F.prepare kind p w := rfl
  rw [e, e']
  cases hp : F.prepare kind p w with
  | none => rfl
  | some t =>
    obtain ⟨code, hash, rcp, created, w1⟩ := t
    have hlen : code.length ≤ 2 ^ 16 := by
      by_cases hk : isCreate kind
      · have hc' := hc hk
        rw [prepare_create hk] at hp
        split at hp
        · cases hp
        · cases hp
          split
          · omega
          · exact hcode _ _
      · rw [prepare_call hk] at hp
        cases hp
        split <;> exact hcode _ _
    dsimp only [Floria.on]
    generalize hT : (if kind ≠ .staticCall ∧ kind ≠ .delegateCall then transferValue F.db p.value p.sender rcp w1 else some w1) = T
    cases T with
    | none => rfl
    | some w2 =>
      dsimp only
      cases hs : handleStateContract F.keccak F.db p.sender p.recipient p.input p.gas w2 with
      | mk out w3 =>
        cases out with
        | some o => rfl
        | none =>
          dsimp only
          cases hq : handlePrecompiled F.precompiles F.block.revision p.input rcp p.gas with
          | some o => rfl
          | none =>
            dsimp only
            have hdd : ¬ depth > maxRecursiveDepth := by unfold maxRecursiveDepth; omega
            rw [if_neg hdd, if_neg hdd]
            by_cases hx : kind = .call ∧ F.db.accountExists rcp w3 = false
            · exact (if_pos hx).trans (if_pos hx).symm
            · refine (if_neg hx).trans (Eq.trans ?_ (if_neg hx).symm)
              exact finish_same rfl rfl (hI _ _ _ ⟨hF.chain, ⟨h0, by dsimp only; omega⟩, by constructor <;> (show _; dsimp only; omega),
                by dsimp only; omega, by dsimp only; omega⟩ h1 (by dsimp only; omega) hlen rfl)

/-- Calls on the long-form EVM are calls on the reference interpreter. -/
theorem lfvm_call {F : Floria ω} (hF : FloriaOk F) (hcode : ∀ a w, (F.db.code a w).length ≤ 2 ^ 16) (ha : AccessOk F.db) (hl : Lengths F.db)
    (hrev : 4 ≤ F.block.revision) {keccak : List Byte → U256} {find : Parameters → ω → Model.Lfvm.Found} {fuel : Parameters → Nat}
    (hf : ∀ p w, LfvmFound keccak p (find p w)) (hfuel : ∀ p, 2 * p.gas.toNat + 2 ≤ fuel p) (depth : Nat) (static : Bool) :
    SmallAgree (ISTANBUL + F.block.revision.toNat) ((Floria.on F (lfvm fuel find)).call depth static)
      ((Floria.on F (nativeRun keccak)).call depth static) := by
  have hS : FloriaOk (Floria.on F (nativeRun keccak)) := ⟨hF.chain, hF.code, hF.precompile⟩
  refine call_induct (Floria.on F (lfvm fuel find))
    (fun depth static c => SmallAgree (ISTANBUL + F.block.revision.toNat) c ((Floria.on F (nativeRun keccak)).call depth static)) ?_ ?_ depth static
  · intro depth static hd kind p w _ _
    rw [call_eq]
    unfold Floria.callBody
    rw [if_pos (by unfold maxRecursiveDepth; omega)]
  · intro depth static hd ih
    rw [call_eq]
    refine callBody_small hF hcode hd hrev static fun s p w hp hg hi hc hb => ?_
    have hok := floria_call_ok hS (nativeRun_respects keccak F.db) (depth + 1) s
    exact lfvmRun_on false keccak ha hl (by unfold revOf; rw [hb]; exact ih s) hok hp hi hc hg (by rw [hb]; omega) (hf p w).hash (hf p w).cached (hfuel p) w (fun h => by cases h)

/-- Processing a transaction on two interpreters that agree as far as floria uses them. -/
theorem processor_small {P : Processor ω} {I I' : Interpreter ω} {db : Db ω} {block : BlockParameters} {t : Transaction}
    (ht : TxOk t) (hg : t.gasLimit ≤ 2 ^ 40) (hrev : 4 ≤ block.revision)
    (h : SmallAgree (ISTANBUL + block.revision.toNat) ((Floria.on (P.context db block t) I).call 0 false)
      ((Floria.on (P.context db block t) I').call 0 false)) (w : ω) :
    Processor.run { P with interpreter := I } db block t w = Processor.run { P with interpreter := I' } db block t w := by
  have e1 : Processor.context { P with interpreter := I } db block t = Floria.on (P.context db block t) I := rfl
  have e2 : Processor.context { P with interpreter := I' } db block t = Floria.on (P.context db block t) I' := rfl
  have hb := setupGasBilling_eq ht
  unfold Processor.run
  rw [e1, e2]
  dsimp only
  by_cases hlt : t.gasLimit < setupGasBilling t
  · simp only [if_pos hlt]
  · by_cases hbig : block.revision ≥ 4 ∧ t.recipient = none ∧ t.input.length > maxInitCodeSize
    · simp only [if_pos hbig]
    · have hgas : i64 (t.gasLimit - setupGasBilling t) = t.gasLimit - setupGasBilling t := i64_id (by omega) (by omega)
      have key : ∀ w, ((Floria.on (P.context db block t) I).call 0 false) (txKind t) (callParameters t (i64 (t.gasLimit - setupGasBilling t))) w =
          ((Floria.on (P.context db block t) I').call 0 false) (txKind t) (callParameters t (i64 (t.gasLimit - setupGasBilling t))) w := by
        intro w
        rw [hgas]
        refine h _ _ w ⟨⟨?_, ?_⟩, fun _ hk => ?_⟩ ht.input
        · show 0 ≤ t.gasLimit - _; omega
        · show t.gasLimit - _ ≤ _; omega
        · show t.input.length ≤ 49152
          unfold txKind at hk
          cases hr : t.recipient with
          | none => exact Nat.not_lt.1 fun hx => hbig ⟨hrev, hr, hx⟩
          | some a => rw [hr] at hk; rcases hk with h | h <;> cases h
      simp only [key]
      rfl

end Tosca.Proofs.Lfvm

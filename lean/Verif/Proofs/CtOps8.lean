import Verif.Proofs.CtOps7

/-!
# Rules of SELFDESTRUCT, CREATE and calls
-/

namespace Tosca.Proofs.Ct

open Tosca.Spec Tosca.Spec.Go Tosca.Go Tosca.Model.Go Tosca.Model.Ct Tosca.Proofs.Lfvm
open Tosca.Model.Lfvm (isUint64 uint64 ofU64 bytes20 bytes32 ofBytes20 setBytes)

variable {c d : S} {t : State World} {keccak : List Byte → U256} {x : Model.Ct.Fixed} {rev : Revision}

/-! ## SELFDESTRUCT -/

theorem ask_eq {α : Type} (s : State World) (f : World → α × World) (k : α → State World → State World) :
    s.ask f k = k (f s.host).1 { s with host := (f s.host).2 } := rfl

/-- The surcharge for the first access to the beneficiary. -/
def coldCost (x : Model.Ct.Fixed) (w : World) (a : Address) : Nat := if x.revision ≥ 1 ∧ w.warmAccounts a = false then 2600 else 0

theorem selfdestruct_run {a : U256} {r : List U256} (hr : revisionOf x.revision = some rev) (hst : d.stack = a :: r) :
    Spec.selfdestruct (testFrame keccak x c rev) (frameState d) =
      (frameState { d with stack := r, world := touched x d.world (bytes20 a) }).charge
        ((if (d.world.account x.account).balance.toNat ≠ 0 ∧ d.world.isEmpty (bytes20 a) = true then 25000 else 0) + coldCost x d.world (bytes20 a)) fun s =>
        { s with host := s.host.recordSelfDestruct x.account (bytes20 a), status := .stopped, ret := []
                 refund := if s.host.hasSelfDestructed = false ∧ rev < LONDON then s.refund + 24000 else s.refund } := by
  have ex : ∀ w : World, decide (¬ Absent (ctDb x) (bytes20 a) w) = !w.isEmpty (bytes20 a) := by
    intro w
    have := absent_iff (x := x) w (bytes20 a)
    by_cases h : w.isEmpty (bytes20 a) = true
    · rw [h]; simp [this.2 h]
    · rw [decide_eq_true (show ¬ Absent (ctDb x) (bytes20 a) w from fun hc => h (this.1 hc))]; simp [h]
  have fin : ∀ (n : Nat) (w : World), (frameState ({ d with stack := r, world := w } : S)).charge n (fun s => s.ask ((testFrame keccak x c rev).host.selfdestruct x.account (bytes20 a)) fun first s =>
      { s with status := .stopped, ret := [], refund := if first = true ∧ (testFrame keccak x c rev).rev < LONDON then s.refund + 24000 else s.refund }) =
      (frameState ({ d with stack := r, world := w } : S)).charge n fun s =>
        { s with host := s.host.recordSelfDestruct x.account (bytes20 a), status := .stopped, ret := []
                 refund := if s.host.hasSelfDestructed = false ∧ rev < LONDON then s.refund + 24000 else s.refund } := by
    intro n w
    unfold State.charge
    split
    · rfl
    · dsimp only
      rw [ask_eq]
      have e1 : (testFrame keccak x c rev).host.selfdestruct x.account (bytes20 a) w = (!w.hasSelfDestructed, w.recordSelfDestruct x.account (bytes20 a)) := rfl
      have e2 : (frameState ({ d with stack := r, world := w } : S)).host = w := rfl
      have e3 : (testFrame keccak x c rev).rev = rev := rfl
      simp only [e1, e2, e3, Bool.not_eq_true']
  have acc : ∀ n : Nat, (if (testFrame keccak x c rev).rev ≥ BERLIN then
        (frameState ({ d with stack := r } : S)).ask ((testFrame keccak x c rev).host.accessAccount (bytes20 a)) fun st s =>
          s.charge (n + (if st = .cold then 2600 else 0)) fun s => s.ask ((testFrame keccak x c rev).host.selfdestruct x.account (bytes20 a)) fun first s =>
      { s with status := .stopped, ret := [], refund := if first = true ∧ (testFrame keccak x c rev).rev < LONDON then s.refund + 24000 else s.refund }
      else (frameState ({ d with stack := r } : S)).charge n fun s => s.ask ((testFrame keccak x c rev).host.selfdestruct x.account (bytes20 a)) fun first s =>
      { s with status := .stopped, ret := [], refund := if first = true ∧ (testFrame keccak x c rev).rev < LONDON then s.refund + 24000 else s.refund }) =
      (frameState { d with stack := r, world := touched x d.world (bytes20 a) }).charge (n + coldCost x d.world (bytes20 a)) fun s =>
        { s with host := s.host.recordSelfDestruct x.account (bytes20 a), status := .stopped, ret := []
                 refund := if s.host.hasSelfDestructed = false ∧ rev < LONDON then s.refund + 24000 else s.refund } := by
    intro n
    unfold touched coldCost
    by_cases hb : x.revision ≥ 1
    · rw [if_pos (show (testFrame keccak x c rev).rev ≥ BERLIN from (berlin_iff hr).2 hb), if_pos hb, ← fin]
      rw [ask_eq]
      have e1 : (testFrame keccak x c rev).host.accessAccount (bytes20 a) d.world = (if d.world.warmAccounts (bytes20 a) = true then AccessStatus.warm else .cold, d.world.markWarm (bytes20 a)) := rfl
      have e2 : (frameState ({ d with stack := r } : S)).host = d.world := rfl
      rw [e2, e1]
      dsimp only
      cases hw : d.world.warmAccounts (bytes20 a)
      · rw [if_pos (show x.revision ≥ 1 ∧ false = false from ⟨hb, rfl⟩)]
        rfl
      · rw [if_neg (show ¬ (x.revision ≥ 1 ∧ true = false) by simp)]
        rfl
    · rw [if_neg (show ¬ (testFrame keccak x c rev).rev ≥ BERLIN from fun h => hb ((berlin_iff hr).1 h)), if_neg hb, ← fin, if_neg (fun h => hb h.1)]
      rfl
  unfold Spec.selfdestruct
  rw [pop1_eq hst]
  dsimp only
  rw [← l_bytes20]
  rw [ask_eq]
  have e1 : (testFrame keccak x c rev).host.getBalance (testFrame keccak x c rev).msg.recipient (frameState ({ d with stack := r } : S)).host = ((d.world.account x.account).balance, d.world) := rfl
  rw [e1]
  dsimp only
  by_cases hbal : (d.world.account x.account).balance.toNat ≠ 0
  · rw [if_pos hbal]
    refine Eq.trans (acc _) ?_
    congr 2
    show (if decide (¬ Absent (ctDb x) (bytes20 a) d.world) = true then 0 else 25000) = _
    rw [ex]
    cases d.world.isEmpty (bytes20 a)
    · rw [if_pos (by rfl), if_neg (by simp)]
    · rw [if_neg (by simp), if_pos ⟨hbal, rfl⟩]
  · rw [if_neg hbal, if_neg (show ¬ ((d.world.account x.account).balance.toNat ≠ 0 ∧ d.world.isEmpty (bytes20 a) = true) from fun h => hbal h.1)]
    exact acc 0

theorem sounds_selfdestruct : Sounds keccak Model.Ct.selfdestruct := by
  unfold Model.Ct.selfdestruct
  refine sounds_append ?_ ?_
  · refine sounds_flatMap fun rv _ => sounds_flatMap fun b1 _ => sounds_flatMap fun b2 _ => sounds_flatMap fun b3 _ => sounds_flatMap fun b4 _ => ?_
    refine sounds_simple (I := .selfdestruct) rfl rfl rfl rfl rfl (by decide) (by decide) (by show (0xff : Nat) ≠ 0; decide) ?_ ?_
    · intro x c rev hat hk
      have hro := check_readOnly.1 (hk (.readOnly false) (by simp))
      exact ⟨Nat.not_lt_zero _, by rw [hro]; rintro ⟨_, h⟩; cases h⟩
    · intro x c rev hat hk hst hok hb
      obtain ⟨a, r, hst⟩ := stack1 hst
      show Does (selfDestructEffect x (next c (Instr.baseGas .selfdestruct))) (Spec.selfdestruct (testFrame keccak x c rev) (frameState (next c (Instr.baseGas .selfdestruct))))
      have hst' : (next c (Instr.baseGas .selfdestruct)).stack = a :: r := hst
      have hl := london_iff hat.rev
      have h0 := hat.scope.revision.1
      rw [selfdestruct_run hat.rev hst']
      generalize next c (Instr.baseGas .selfdestruct) = c1 at *
      unfold selfDestructEffect
      simp only [pop_eq hst', Option.bind_eq_bind, Option.bind_some]
      have hbal : ((c1.world.account x.account).balance ≠ 0) ↔ ((c1.world.account x.account).balance.toNat ≠ 0) := by
        rw [ne_eq, ne_eq, ← BitVec.toNat_inj]; rfl
      have hcold : (decide (x.revision > 0) && !c1.world.warmAccounts (bytes20 a)) = decide (x.revision ≥ 1 ∧ c1.world.warmAccounts (bytes20 a) = false) := by
        cases c1.world.warmAccounts (bytes20 a) <;> simp
        omega
      rw [hcold]
      have hW : (if decide (x.revision ≥ 1 ∧ c1.world.warmAccounts (bytes20 a) = false) = true then { c1 with stack := r, world := c1.world.markWarm (bytes20 a) } else { c1 with stack := r }) =
          ({ c1 with stack := r, world := touched x c1.world (bytes20 a) } : S) := by
        unfold touched
        by_cases h1 : x.revision ≥ 1
        · rw [if_pos h1]
          cases hw : c1.world.warmAccounts (bytes20 a)
          · rw [if_pos (by simp [h1])]
          · rw [if_neg (by simp), markWarm_warm hw]
        · rw [if_neg h1, if_neg (by simp [h1])]
      have hE : ((if decide (x.revision ≥ 1 ∧ c1.world.warmAccounts (bytes20 a) = false) = true then { c1 with stack := r, world := c1.world.markWarm (bytes20 a) } else { c1 with stack := r }) : S).world.isEmpty (bytes20 a) = c1.world.isEmpty (bytes20 a) := by
        split <;> rfl
      rw [hE, hW]
      have hok1 : Ok { c1 with stack := r, world := touched x c1.world (bytes20 a) } := ⟨hok.status, hok.result, hok.memory, hok.gas, hok.refund⟩
      refine does_pay hok1 ?_ ?_
      · unfold coldCost
        by_cases h1 : x.revision ≥ 1 ∧ c1.world.warmAccounts (bytes20 a) = false
        · rw [if_pos (decide_eq_true h1), if_pos h1]
          by_cases h2 : (c1.world.account x.account).balance.toNat ≠ 0 ∧ c1.world.isEmpty (bytes20 a) = true
          · rw [if_pos h2, if_pos ⟨hbal.2 h2.1, h2.2⟩]; rfl
          · rw [if_neg h2, if_neg (fun h => h2 ⟨hbal.1 h.1, h.2⟩)]; rfl
        · rw [if_neg (by simpa using h1), if_neg h1]
          by_cases h2 : (c1.world.account x.account).balance.toNat ≠ 0 ∧ c1.world.isEmpty (bytes20 a) = true
          · rw [if_pos h2, if_pos ⟨hbal.2 h2.1, h2.2⟩]; rfl
          · rw [if_neg h2, if_neg (fun h => h2 ⟨hbal.1 h.1, h.2⟩)]; rfl
      · intro hg hok2
        refine ⟨_, rfl, ?_⟩
        unfold Agree
        dsimp only
        refine ⟨rfl, ?_, ?_, rfl, hok.result⟩
        · show _ = (((_ : Int).toNat : Nat) : Int)
          exact (Int.toNat_of_nonneg hok2.gas).symm
        · show i64 (c1.refund + if x.revision < 2 ∧ (touched x c1.world (bytes20 a)).hasSelfDestructed = false then 24000 else 0) =
            i64 (if (touched x c1.world (bytes20 a)).hasSelfDestructed = false ∧ rev < LONDON then c1.refund + 24000 else c1.refund)
          by_cases h : x.revision < 2 ∧ (touched x c1.world (bytes20 a)).hasSelfDestructed = false
          · rw [if_pos h, if_pos ⟨h.2, hl.2 h.1⟩]
          · rw [if_neg h, if_neg (fun h' => h ⟨hl.1 h'.2, h'.1⟩), Int.add_zero]
  · refine sounds_rulesFor (I := .selfdestruct) rfl (Nat.le_refl _) (by show 0 > 1 → _; omega) ?_ ?_
    · intro x c rev hat hk _
      exact exec_refused (.inr (.inl ⟨rfl, by rw [frame_static]; exact check_readOnly.1 (hk (.readOnly true) (by simp))⟩))
    · intro x c rev hat hk _ _ _
      exact does_fail (exec_refused (.inr (.inl ⟨rfl, by rw [frame_static]; exact check_readOnly.1 (hk (.readOnly true) (by simp))⟩))) rfl rfl

end Tosca.Proofs.Ct

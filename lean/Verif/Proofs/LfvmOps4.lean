import Verif.Proofs.LfvmOps3
import Verif.Proofs.Ops4

/-!
# The long-form EVM: logs, ends, nested calls
-/

namespace Tosca.Proofs.Lfvm

open Tosca.Spec Tosca.Spec.Go Tosca.Go Tosca.Model.Go Tosca.Model.Lfvm

variable {ω : Type} {E : Env ω} {rev : Revision} {p : Int} {q k : Nat} {l : St ω} {s : State ω}

/-! ## Logs -/

theorem popTopics_ok (n : Nat) : ∀ {l : St ω} {s : State ω}, Rel 0 p q l s → n ≤ s.stack.length →
    ∃ l', (popTopics n : M ω _) l = .ok (s.stack.take n) l' ∧ Rel 0 p q l' { s with stack := s.stack.drop n } := by
  induction n with
  | zero => intro l s h _; exact ⟨l, rfl, h⟩
  | succ n ih =>
    intro l s h hn
    obtain ⟨a, r, ha, hr⟩ := stack_cons hn
    have hlim := h.limit
    have ⟨e1, e2⟩ := cons_data (by rw [ha]) (h.stack.trans ha)
    have hlen : s.stack.length = r.length + 1 := by rw [ha]; rfl
    have hp : (pop : M ω U256) l = .ok a { l with sp := l.sp + -1 } := by
      unfold pop
      rw [bind_ok (show (moveSp (-1) : M ω Unit) l = .ok () { l with sp := l.sp + -1 } from rfl)]
      show (slot (l.sp + -1) : M ω U256) _ = _
      rw [slot_ok (j := r.length) (by rw [h.sp]; omega) (by omega)]
      show Res.ok (l.data r.length) _ = _
      rw [e1]
    have h1 : Rel 0 p q { l with sp := l.sp + -1 } { s with stack := r } :=
      ⟨h.status, h.pc, h.pc', h.gas, h.refund, by show l.sp + -1 = _; rw [h.sp]; simp; omega, e2, by show r.length + 0 ≤ 1024; omega,
        h.size, h.mem, h.aligned, h.cost, h.ret, h.retLen, h.world, h.bound⟩
    obtain ⟨l', e', h'⟩ := ih h1 hr
    refine ⟨l', ?_, ?_⟩
    · unfold popTopics
      rw [bind_ok hp, bind_ok e', ha]
      rfl
    · rw [ha]
      exact h'

theorem sim_log {n : Nat} (hst : E.params.static = false) (h : Rel 0 p q l s) (hs : n + 2 ≤ s.stack.length) :
    Sim (Post p q) (opLog E n l) (log (frameOf E rev) n s) := by
  obtain ⟨a, r, ha, hr⟩ := stack_cons hs
  obtain ⟨b, r', hb, hr'⟩ := stack_cons hr
  unfold opLog log
  rw [if_neg (by rw [hst]; decide)]
  refine sim_pop h ha fun l1 h1 => sim_pop h1 (show r = b :: r' from hb) fun l2 h2 => ?_
  obtain ⟨l3, e3, h3⟩ := popTopics_ok n h2 hr'
  rw [bind_ok e3]
  dsimp only at h3 ⊢
  refine sim_like (alive_post p q) (touch_last _ _ _ _) ?_
  refine sim_getSlice h3 fun l4 g hn hc h4 => ?_
  have hsm := not_small hn
  have hp : s64 (8 * uint64 b) = ((8 * b.toNat : Nat) : Int) := by
    have e : (8 * uint64 b).toNat = 8 * b.toNat := by
      rw [BitVec.toNat_mul, uint64_toNat]
      show 8 * _ % _ = _
      omega
    rw [s64_small _ (by omega), e]
  dsimp only
  refine sim_useGas hp h4 fun l5 h5 => ?_
  refine sim_readView h5 hc ?_
  have hw : l5.world = s.host := h5.world
  show Match p q { l5 with world := E.db.emitLog ⟨E.params.recipient, r'.take n, _⟩ l5.world } _
  rw [hw]
  exact (rel_world h5).match

/-! ## Ends -/

/-- What is left of a context when an instruction ends the run. -/
def Ended (status : Spec.Status) (out : St ω → List Byte) (l : St ω) (t : State ω) : Prop :=
  t.status = status ∧ out l = t.ret ∧ l.gas = t.gas ∧ l.refund = i64 t.refund ∧ l.world = t.host

theorem sim_halt {status : Spec.Status} (h : Rel 0 p q l s) (hs : 2 ≤ s.stack.length) :
    Sim (fun _ => Ended status St.returnData) ((opEndWithResult : M ω Unit) l) (halt status s) := by
  obtain ⟨a, r, ha, hr⟩ := stack_cons hs
  obtain ⟨b, r', hb, hr'⟩ := stack_cons hr
  unfold opEndWithResult halt
  refine sim_pop h ha fun l1 h1 => sim_pop h1 (show r = b :: r' from hb) fun l2 h2 => ?_
  refine sim_getSlice h2 fun l4 g hn hc h4 => ?_
  refine sim_readView h4 hc ?_
  exact ⟨rfl, rfl, h4.gas, h4.refund, h4.world⟩

/-- The end of SELFDESTRUCT. -/
def sdFinish (P : Params ω) (ben : Address) (cost : Nat) (s : State ω) : State ω :=
  s.charge cost fun s => s.ask (P.host.selfdestruct P.msg.recipient ben) fun first s =>
    { s with status := .stopped, ret := [], refund := if first ∧ P.rev < LONDON then s.refund + 24000 else s.refund }

def sdAccess (P : Params ω) (ben : Address) (cost : Nat) (s : State ω) : State ω :=
  if P.rev ≥ BERLIN then s.ask (P.host.accessAccount ben) fun st s => sdFinish P ben (cost + (if st = .cold then 2600 else 0)) s
  else sdFinish P ben cost s

def sdBody (P : Params ω) (ben : Address) (s : State ω) : State ω :=
  s.ask (P.host.getBalance P.msg.recipient) fun bal s =>
    if bal.toNat ≠ 0 then s.ask (P.host.accountExists ben) fun ex s => sdAccess P ben (if ex then 0 else 25000) s
    else sdAccess P ben 0 s

theorem selfdestruct_eq (P : Params ω) (s : State ω) : selfdestruct P s = s.pop1 fun a s => sdBody P (Word.toAddress a) s := rfl

theorem sdBody_eq {ben : Address} :
    sdBody (frameOf E rev) ben s = sdFinish (frameOf E rev) ben
      ((if BERLIN ≤ rev then (if (E.db.accessAccount ben s.host).1 = .cold then 2600 else 0) else 0) +
        (if E.db.balance E.params.recipient s.host ≠ 0 ∧ Absent E.db ben s.host then 25000 else 0))
      { s with host := if BERLIN ≤ rev then (E.db.accessAccount ben s.host).2 else s.host } := by
  have hacc : ∀ n, sdAccess (frameOf E rev) ben n s = sdFinish (frameOf E rev) ben
      ((if BERLIN ≤ rev then (if (E.db.accessAccount ben s.host).1 = .cold then 2600 else 0) else 0) + n)
      { s with host := if BERLIN ≤ rev then (E.db.accessAccount ben s.host).2 else s.host } := by
    intro n
    unfold sdAccess
    by_cases hb : BERLIN ≤ rev
    · rw [if_pos (show (frameOf E rev).rev ≥ BERLIN from hb), if_pos hb, if_pos hb, Nat.add_comm]
      rfl
    · rw [if_neg (show ¬ (frameOf E rev).rev ≥ BERLIN from hb), if_neg hb, if_neg hb, Nat.zero_add]
  have e : sdBody (frameOf E rev) ben s = if (E.db.balance E.params.recipient s.host).toNat ≠ 0 then
      sdAccess (frameOf E rev) ben (if decide (¬ Absent E.db ben s.host) = true then 0 else 25000) s
      else sdAccess (frameOf E rev) ben 0 s := rfl
  rw [e]
  by_cases hz : E.db.balance E.params.recipient s.host = 0
  · rw [if_neg (show ¬ (E.db.balance E.params.recipient s.host).toNat ≠ 0 from by rw [hz]; decide), hacc,
      if_neg (show ¬ (E.db.balance E.params.recipient s.host ≠ 0 ∧ Absent E.db ben s.host) from by rw [hz]; simp)]
  · rw [if_pos (fun hc => hz ((zero_iff _).2 hc)), hacc]
    by_cases ha : Absent E.db ben s.host
    · rw [if_pos (show E.db.balance E.params.recipient s.host ≠ 0 ∧ Absent E.db ben s.host from ⟨hz, ha⟩), if_neg (show ¬ decide (¬ Absent E.db ben s.host) = true from by simpa using ha)]
    · rw [if_neg (show ¬ (E.db.balance E.params.recipient s.host ≠ 0 ∧ Absent E.db ben s.host) from fun hc => ha hc.2), if_pos (show decide (¬ Absent E.db ben s.host) = true from by simpa using ha)]

theorem sim_selfdestruct (hE : Setup E rev) (hst : E.params.static = false) (h : Rel 0 p q l s) (hs : 1 ≤ s.stack.length) :
    Sim (fun _ => Ended .stopped fun _ => []) (opSelfdestruct E l) (selfdestruct (frameOf E rev) s) := by
  obtain ⟨a, r, ha, hr⟩ := stack_cons hs
  unfold opSelfdestruct
  rw [selfdestruct_eq]
  rw [if_neg (by rw [hst]; decide)]
  refine sim_pop h ha fun l1 h1 => ?_
  rw [l_bytes20]
  generalize Word.toAddress a = ben
  -- the cost, and the world after the access
  let w' : ω := if BERLIN ≤ rev then (E.db.accessAccount ben s.host).2 else s.host
  let c : Nat := if BERLIN ≤ rev then (if (E.db.accessAccount ben s.host).1 = .cold then 2600 else 0) else 0
  let new : Nat := if E.db.balance E.params.recipient s.host ≠ 0 ∧ Absent E.db ben s.host then 25000 else 0
  have hbal : E.db.balance E.params.recipient w' = E.db.balance E.params.recipient s.host := by
    show E.db.balance E.params.recipient (if BERLIN ≤ rev then _ else _) = _
    split
    · exact hE.access.balance _ _ _
    · rfl
  have habs : Absent E.db ben w' ↔ Absent E.db ben s.host := by
    show Absent E.db ben (if BERLIN ≤ rev then _ else _) ↔ _
    split
    · unfold Absent
      rw [hE.access.balance, hE.access.nonce, hE.access.codeSize]
    · rfl
  have hcost : ∃ l2, (beneficiaryCost E ben : M ω Int) l1 = .ok (c : Int) l2 ∧ Rel 0 p q l2 { s with stack := r, host := w' } := by
    show ∃ l2, beneficiaryCost E ben l1 = .ok ((if BERLIN ≤ rev then (if (E.db.accessAccount ben s.host).1 = .cold then 2600 else 0) else 0 : Nat) : Int) l2 ∧
      Rel 0 p q l2 { s with stack := r, host := if BERLIN ≤ rev then (E.db.accessAccount ben s.host).2 else s.host }
    unfold beneficiaryCost
    by_cases hb : BERLIN ≤ rev
    · rw [if_pos ((berlin hE).2 hb), if_pos hb, if_pos hb]
      have hw : l1.world = s.host := h1.world
      have e : askDb (E.db.accessAccount ben) l1 = .ok (E.db.accessAccount ben s.host).1 { l1 with world := (E.db.accessAccount ben s.host).2 } := by
        unfold askDb; rw [hw]
      rw [bind_ok e]
      refine ⟨_, ?_, rel_world h1⟩
      show Res.ok _ _ = _
      congr 1
      cases (E.db.accessAccount ben s.host).1 <;> rfl
    · rw [if_neg (fun hc => hb ((berlin hE).1 hc)), if_neg hb, if_neg hb]
      exact ⟨l1, rfl, h1⟩
  obtain ⟨l2, e2, h2⟩ := hcost
  rw [bind_ok e2]
  rw [show sdBody (frameOf E rev) ben { s with stack := r } = sdFinish (frameOf E rev) ben (c + new) { s with stack := r, host := w' } from sdBody_eq]
  unfold sdFinish
  refine sim_readDb h2 ?_
  refine sim_readDb h2 ?_
  dsimp only
  refine sim_useGas ?_ h2 fun l3 h3 => ?_
  · rw [isEmpty_iff, hbal]
    unfold selfDestructNewAccountCost
    show (c : Int) + (if decide (Absent E.db ben w') = true ∧ E.db.balance E.params.recipient s.host ≠ 0 then 25000 else 0) =
      ((c + (if E.db.balance E.params.recipient s.host ≠ 0 ∧ Absent E.db ben s.host then 25000 else 0) : Nat) : Int)
    by_cases hx : E.db.balance E.params.recipient s.host ≠ 0 ∧ Absent E.db ben s.host
    · rw [if_pos hx, if_pos ⟨decide_eq_true (habs.2 hx.2), hx.1⟩]; omega
    · rw [if_neg hx, if_neg (fun hy => hx ⟨hy.2, habs.1 (of_decide_eq_true hy.1)⟩)]; omega
  · refine sim_askDb h3 fun l4 h4 => ?_
    have hlr : E.params.block.revision < R10_London ↔ rev < LONDON := by
      have : E.params.block.revision ≥ R10_London ↔ LONDON ≤ rev := rev_ge hE 2 9 rfl
      have h7 : (LONDON ≤ rev) ↔ ¬ rev < LONDON := Nat.not_lt.symm
      rw [h7] at this
      constructor
      · intro hx
        by_cases hy : rev < LONDON
        · exact hy
        · have := this.2 hy; omega
      · intro hx
        by_cases hy : E.params.block.revision ≥ R10_London
        · exact absurd hx (this.1 hy)
        · omega
    obtain ⟨l5, e5, h5⟩ := rel_refund (selfDestructRefund (E.db.selfDestruct E.params.recipient ben w').1 E.params.block.revision) h4
    dsimp only at e5 ⊢
    rw [e5]
    refine ⟨rfl, rfl, h5.gas, ?_, h5.world⟩
    rw [h5.refund]
    dsimp only
    congr 1
    unfold selfDestructRefund
    rw [show (frameOf E rev).rev = rev from rfl]
    by_cases hx : (E.db.selfDestruct E.params.recipient ben w').1 = true ∧ rev < LONDON
    · rw [if_pos hx, if_pos ⟨hx.1, hlr.2 hx.2⟩]
    · rw [if_neg hx, if_neg (fun hy => hx ⟨hy.1, hlr.1 hy.2⟩)]; omega

end Tosca.Proofs.Lfvm

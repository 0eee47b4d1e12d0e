import Verif.Spec.GoNative
import Verif.Spec.Effects

/-!
# The effects of the reference interpreter on the client's state
-/

namespace Tosca.Proofs

open Tosca.Spec Tosca.Spec.State

variable {σ : Type}

/-- The world of the state `s` results from `w` by calls the frame may make. -/
def Did (P : Params σ) (w : σ) (s : State σ) : Prop :=
  ∃ acts, s.host = replay P.host acts w ∧ ∀ a ∈ acts, Permitted P.host P.msg P.rev a

namespace Did

variable {P : Params σ} {w : σ} {s t : State σ}

theorem init (h : s.host = w) : Did P w s := ⟨[], h, fun _ h => by cases h⟩

theorem same (h : Did P w s) (e : t.host = s.host) : Did P w t := by
  obtain ⟨l, h1, h2⟩ := h
  exact ⟨l, e.trans h1, h2⟩

theorem act (h : Did P w s) (a : HostAct) (e : t.host = a.apply P.host s.host) (ha : Permitted P.host P.msg P.rev a) : Did P w t := by
  obtain ⟨l, h1, h2⟩ := h
  refine ⟨l ++ [a], ?_, ?_⟩
  · rw [e, h1]; unfold replay; rw [List.foldl_append]; rfl
  · intro b hb
    rcases List.mem_append.mp hb with hb | hb
    · exact h2 b hb
    · rw [List.mem_singleton.mp hb]; exact ha

theorem fail (h : Did P w s) (f : Failure) : Did P w (s.fail f) := h.same rfl
theorem push (h : Did P w s) (v : U256) : Did P w (s.push v) := h.same rfl

theorem pop1 {k : U256 → State σ → State σ} (h : Did P w s) (hk : ∀ a t, Did P w t → Did P w (k a t)) : Did P w (s.pop1 k) := by
  unfold State.pop1
  split
  · exact hk _ _ (h.same rfl)
  · exact h.fail _

theorem pop2 {k : U256 → U256 → State σ → State σ} (h : Did P w s) (hk : ∀ a b t, Did P w t → Did P w (k a b t)) : Did P w (s.pop2 k) :=
  h.pop1 fun _ _ h => h.pop1 fun _ _ h => hk _ _ _ h
theorem pop3 {k : U256 → U256 → U256 → State σ → State σ} (h : Did P w s) (hk : ∀ a b c t, Did P w t → Did P w (k a b c t)) : Did P w (s.pop3 k) :=
  h.pop2 fun _ _ _ h => h.pop1 fun _ _ h => hk _ _ _ _ h
theorem pop4 {k : U256 → U256 → U256 → U256 → State σ → State σ} (h : Did P w s) (hk : ∀ a b c d t, Did P w t → Did P w (k a b c d t)) :
    Did P w (s.pop4 k) :=
  h.pop3 fun _ _ _ _ h => h.pop1 fun _ _ h => hk _ _ _ _ _ h

theorem charge {n : Nat} {k : State σ → State σ} (h : Did P w s) (hk : ∀ t, Did P w t → Did P w (k t)) : Did P w (s.charge n k) := by
  unfold State.charge
  split
  · exact h.fail _
  · exact hk _ (h.same rfl)

theorem touch {off n : U256} {e : Nat} {k : State σ → State σ} (h : Did P w s) (hk : ∀ t, Did P w t → Did P w (k t)) : Did P w (s.touch off n e k) :=
  h.charge fun _ h => hk _ (h.same rfl)
theorem touch2 {off n off' n' : U256} {e : Nat} {k : State σ → State σ} (h : Did P w s) (hk : ∀ t, Did P w t → Did P w (k t)) :
    Did P w (s.touch2 off n off' n' e k) :=
  h.charge fun _ h => hk _ (h.same rfl)

theorem ask {α : Type} {f : σ → α × σ} {k : α → State σ → State σ} (h : Did P w s) (a : HostAct) (e : ∀ v, (f v).2 = a.apply P.host v)
    (ha : Permitted P.host P.msg P.rev a) (hk : ∀ v t, Did P w t → Did P w (k v t)) : Did P w (s.ask f k) :=
  hk _ _ (h.act a (e _) ha)

end Did

/-- Calls that are always permitted. -/
theorem permitted_plain {P : Params σ} {a : HostAct} (h1 : a.OwnedBy P.msg.recipient) (h2 : P.msg.isStatic = true → a.ReadOnly)
    (h3 : ∀ m, a ≠ .call m) (h4 : (∃ b, a = .accessAccount b) ∨ (∃ b k, a = .accessStorage b k) → BERLIN ≤ P.rev)
    (h5 : ∀ n, a ≠ .getBlockHash n) : Permitted P.host P.msg P.rev a :=
  ⟨h1, h2, fun m e => absurd e (h3 m), h4, fun n e => absurd e (h5 n)⟩

macro "plainly" : tactic => `(tactic| (
  refine permitted_plain ?_ ?_ (by intro _ h; cases h) ?_ (by intro _ h; cases h)
  · first | exact rfl | exact trivial
  · first | (intro _; exact trivial) | (intro h; simp_all)
  · first | (intro _; assumption) | (rintro (⟨_, h⟩ | ⟨_, _, h⟩) <;> cases h)))

variable {P : Params σ} {w : σ} {s : State σ}

theorem did_accountAccess {a : Address} {k : Nat → State σ → State σ} (h : Did P w s) (hk : ∀ c t, Did P w t → Did P w (k c t)) :
    Did P w (accountAccess P a s k) := by
  unfold accountAccess
  split
  · rename_i hr
    exact h.ask (.accessAccount a) (fun _ => rfl) (by plainly) fun _ _ h => hk _ _ h
  · exact hk _ _ h

theorem did_accountOp {f : Address → σ → U256 × σ} {g : Address → HostAct} (h : Did P w s) (e : ∀ a v, (f a v).2 = (g a).apply P.host v)
    (hg : ∀ a, Permitted P.host P.msg P.rev (g a)) : Did P w (accountOp P f s) :=
  h.pop1 fun a _ h => did_accountAccess h fun _ _ h => h.charge fun _ h => h.ask (g (Word.toAddress a)) (e _) (hg _) fun _ _ h => h.push _

theorem did_sstore (hst : P.msg.isStatic = false) (h : Did P w s) : Did P w (Spec.Go.sstoreEip P s) := by
  refine h.pop2 fun key value s h => ?_
  dsimp only
  split
  · exact h.fail _
  · have go : ∀ (n : Nat) (s : State σ), Did P w s → Did P w (s.ask (P.host.setStorage P.msg.recipient key value) fun status s =>
        s.charge (sstoreGas P.rev status + n) fun s => { s with refund := s.refund + sstoreRefund P.rev true status }) := by
      intro n s h
      exact h.ask (.setStorage P.msg.recipient key value) (fun _ => rfl) (by plainly) fun _ _ h => h.charge fun _ h => h.same rfl
    split
    · rename_i hr
      exact h.ask (.accessStorage P.msg.recipient key) (fun _ => rfl) (by plainly) fun _ _ h => go _ _ h
    · exact go _ _ h

theorem did_sload (h : Did P w s) : Did P w (sload P s) := by
  refine h.pop1 fun key s h => ?_
  have go : ∀ (n : Nat) (s : State σ), Did P w s → Did P w (s.charge n fun s => s.ask (P.host.getStorage P.msg.recipient key) fun v s => s.push v) := by
    intro n s h
    exact h.charge fun _ h => h.ask (.getStorage P.msg.recipient key) (fun _ => rfl) (by plainly) fun _ _ h => h.push _
  dsimp only
  split
  · rename_i hr
    exact h.ask (.accessStorage P.msg.recipient key) (fun _ => rfl) (by plainly) fun _ _ h => go _ _ h
  · exact go _ _ h

theorem did_extcodecopy (h : Did P w s) : Did P w (extcodecopy P s) := by
  refine h.pop4 fun a dst off n s h => ?_
  split
  · exact h.fail _
  · refine did_accountAccess h fun _ _ h => h.touch fun t h => ?_
    split
    · exact h
    · split
      · exact h.ask (.copyCode (Word.toAddress a) off.toNat n.toNat) (fun _ => rfl) (by plainly) fun _ _ h => h.same rfl
      · exact h.same rfl

theorem did_blockhash (h : Did P w s) : Did P w (blockhash P s) := by
  refine h.pop1 fun n s h => ?_
  dsimp only
  split
  · rename_i hn
    refine h.ask (.getBlockHash n.toNat) (fun _ => rfl) ⟨trivial, fun _ => trivial, fun _ e => (by cases e), ?_, ?_⟩ fun _ _ h => h.push _
    · rintro (⟨_, h⟩ | ⟨_, _, h⟩) <;> cases h
    · intro m e
      cases e
      refine ⟨by omega, hn.1, by omega⟩
  · exact h.push _

theorem did_log {n : Nat} (hst : P.msg.isStatic = false) (h : Did P w s) : Did P w (Spec.log P n s) := by
  refine h.pop2 fun off len s h => ?_
  dsimp only
  refine Did.touch (h.same rfl) fun t h => ?_
  exact h.act (.emitLog P.msg.recipient (t.mem.read off.toNat len.toNat) (s.stack.take n)) rfl (by plainly)

theorem did_selfdestruct (hst : P.msg.isStatic = false) (h : Did P w s) : Did P w (selfdestruct P s) := by
  refine h.pop1 fun a s h => ?_
  dsimp only
  have fin : ∀ (c : Nat) (s : State σ), Did P w s → Did P w (s.charge c fun s =>
        s.ask (P.host.selfdestruct P.msg.recipient (Word.toAddress a)) fun first s =>
          { s with status := .stopped, ret := []
                   refund := if first ∧ P.rev < LONDON then s.refund + 24000 else s.refund }) := by
    intro c s h
    exact h.charge fun _ h => h.ask (.selfdestruct P.msg.recipient (Word.toAddress a)) (fun _ => rfl) (by plainly) fun _ _ h => h.same rfl
  have acc : ∀ (c : Nat) (s : State σ), Did P w s → Did P w (if P.rev ≥ BERLIN then
        s.ask (P.host.accessAccount (Word.toAddress a)) fun st s =>
          s.charge (c + (if st = .cold then 2600 else 0)) fun s =>
            s.ask (P.host.selfdestruct P.msg.recipient (Word.toAddress a)) fun first s =>
              { s with status := .stopped, ret := []
                       refund := if first ∧ P.rev < LONDON then s.refund + 24000 else s.refund }
      else s.charge c fun s =>
        s.ask (P.host.selfdestruct P.msg.recipient (Word.toAddress a)) fun first s =>
          { s with status := .stopped, ret := []
                   refund := if first ∧ P.rev < LONDON then s.refund + 24000 else s.refund }) := by
    intro c s h
    split
    · rename_i hr
      exact h.ask (.accessAccount (Word.toAddress a)) (fun _ => rfl) (by plainly) fun _ _ h => fin _ _ h
    · exact fin _ _ h
  refine h.ask (.getBalance P.msg.recipient) (fun _ => rfl) (by plainly) fun b t h => ?_
  split
  · exact h.ask (.accountExists (Word.toAddress a)) (fun _ => rfl) (by plainly) fun ex t h => acc _ _ h
  · exact acc _ _ h

theorem did_checkBalance {v : U256} {k : Bool → State σ → State σ} (h : Did P w s) (hk : ∀ c t, Did P w t → Did P w (k c t)) :
    Did P w (checkBalance P v s k) := by
  unfold checkBalance
  split
  · exact hk _ _ h
  · exact h.ask (.getBalance P.msg.recipient) (fun _ => rfl) (by plainly) fun _ _ h => hk _ _ h

theorem permitted_call {m : Message} (hn : Nested P.msg m) : Permitted P.host P.msg P.rev (.call m) where
  owned := trivial
  static := hn.static
  nested m' e := by cases e; exact hn
  access := by rintro (⟨_, h⟩ | ⟨_, _, h⟩) <;> cases h
  blocks _ e := by cases e

theorem did_create {is2 : Bool} (hst : P.msg.isStatic = false) (h : Did P w s) : Did P w (create P is2 s) := by
  unfold create
  split
  · exact h.fail _
  · rename_i hd
    have key : ∀ salt value off n (s : State σ), Did P w s → Did P w (createWith P salt value off n s) := by
      intro salt value off n s h
      refine h.touch fun s h => ?_
      dsimp only
      split
      · exact h.fail _
      · refine h.charge fun s h => did_checkBalance (h.same rfl) fun ok s h => ?_
        split
        · exact h.push _
        · refine h.ask (.call _) (fun _ => rfl) (permitted_call ?_) fun _ _ h => h.same rfl
          unfold createMessage
          cases salt <;> refine ⟨by omega, rfl, fun _ => rfl, (by intro h; cases h), (by rintro (h | h) <;> cases h), (by intro h; cases h),
            (by rw [hst]; intro h; cases h)⟩
    refine h.pop3 fun value off n s h => ?_
    split
    · exact h.pop1 fun _ _ h => key _ _ _ _ _ h
    · exact key _ _ _ _ _ h

theorem did_callWith {v : CallVariant} {g : U256} {to : Address} {value io il oo ol : U256} (hd : P.msg.depth ≤ 1024)
    (hv : v = .staticcall → value = 0) (h : Did P w s) :
    Did P w (callWith P v g to value io il oo ol s) := by
  refine h.touch2 fun s h => ?_
  dsimp only
  split
  · exact h.fail _
  · rename_i hns
    have hrest : ∀ (c1 c2 : Nat) (s : State σ), Did P w s → Did P w (s.charge (c1 + (if value.toNat ≠ 0 then 9000 else 0) + c2) fun s =>
        let fwd := min g.toNat (allBut64th s.gas)
        let stipend := if value.toNat ≠ 0 then 2300 else 0
        let s := { s with ret := [] }
        checkBalance P value s fun ok s =>
          if ok = false then { s with gas := s.gas + stipend }.push 0
          else
            let msg := callMessage P v to value (s.mem.read io.toNat il.toNat) (fwd + stipend)
            s.ask (P.host.call msg) fun r s =>
              { s with
                gas := s.gas - fwd + r.gasLeft.toNat
                refund := s.refund + r.gasRefund
                ret := r.output
                mem := s.mem.write oo.toNat (r.output.take ol.toNat)
                stack := (if r.status = .success then 1 else 0) :: s.stack }) := by
      intro c1 c2 s h
      refine h.charge fun s h => ?_
      dsimp only
      refine did_checkBalance (h.same rfl) fun ok s h => ?_
      split
      · exact h.same rfl
      · refine h.ask (.call _) (fun _ => rfl) (permitted_call ?_) fun _ _ h => h.same rfl
        unfold callMessage
        cases v with
        | call =>
          refine ⟨hd, rfl, fun _ => rfl, (by intro h; cases h), (by rintro (h | h) <;> cases h), fun _ => rfl, fun hs =>
            ⟨hs, (by intro h; cases h), (by intro h; cases h), fun _ => ?_⟩⟩
          by_cases hz : value.toNat = 0
          · exact BitVec.eq_of_toNat_eq hz
          · exact absurd ⟨rfl, hz, hs⟩ hns
        | callcode =>
          exact ⟨hd, rfl, fun _ => rfl, (by intro h; cases h), fun _ => rfl, (by intro h; cases h), fun hs =>
            ⟨hs, (by intro h; cases h), (by intro h; cases h), (by intro h; cases h)⟩⟩
        | delegatecall =>
          exact ⟨hd, rfl, (by intro h; exact absurd rfl h), fun _ => ⟨rfl, rfl⟩, fun _ => rfl, (by intro h; cases h), fun hs =>
            ⟨hs, (by intro h; cases h), (by intro h; cases h), (by intro h; cases h)⟩⟩
        | staticcall =>
          exact ⟨hd, rfl, fun _ => rfl, (by intro h; cases h), (by rintro (h | h) <;> cases h), fun _ => rfl, fun hs =>
            ⟨(by show BitVec.getLsbD 1 0 = true; decide), (by intro h; cases h), (by intro h; cases h), fun _ => hv rfl⟩⟩
    refine did_accountAccess h fun c1 s h => ?_
    unfold newAccountGas
    split
    · exact h.ask (.accountExists to) (fun _ => rfl) (by plainly) fun ex s h => hrest _ _ _ h
    · exact hrest _ _ _ h

theorem did_call {v : CallVariant} (h : Did P w s) : Did P w (Spec.call P v s) := by
  unfold Spec.call
  split
  · exact h.fail _
  · rename_i hd
    have hd : P.msg.depth ≤ 1024 := by omega
    cases v with
    | call => exact h.pop3 fun _ _ _ _ h => h.pop4 fun _ _ _ _ _ h => did_callWith hd (by intro h; cases h) h
    | callcode => exact h.pop3 fun _ _ _ _ h => h.pop4 fun _ _ _ _ _ h => did_callWith hd (by intro h; cases h) h
    | delegatecall => exact h.pop2 fun _ _ _ h => h.pop4 fun _ _ _ _ _ h => did_callWith hd (by intro h; cases h) h
    | staticcall => exact h.pop2 fun _ _ _ h => h.pop4 fun _ _ _ _ _ h => did_callWith hd (fun _ => rfl) h

theorem did_jumpTo {d : U256} (h : Did P w s) : Did P w (jumpTo P d s) := by
  unfold jumpTo
  split
  · exact h.same rfl
  · exact h.fail _

theorem did_exec {at_ : Nat} {i : Instr} (hst : i.writes = true → P.msg.isStatic = false) (hi : i ≠ .sstore) (h : Did P w s) :
    Did P w (exec P at_ i s) := by
  cases i with
  | sstore => exact absurd rfl hi
  | balance => exact did_accountOp (g := .getBalance) h (fun _ _ => rfl) (fun _ => by plainly)
  | extcodesize => exact did_accountOp (g := .getCodeSize) h (fun _ _ => rfl) (fun _ => by plainly)
  | extcodehash => exact did_accountOp (g := .getCodeHash) h (fun _ _ => rfl) (fun _ => by plainly)
  | sload => exact did_sload h
  | extcodecopy => exact did_extcodecopy h
  | blockhash => exact did_blockhash h
  | log n => exact did_log (hst rfl) h
  | selfdestruct => exact did_selfdestruct (hst rfl) h
  | create => exact did_create (hst rfl) h
  | create2 => exact did_create (hst rfl) h
  | call => exact did_call h
  | callcode => exact did_call h
  | delegatecall => exact did_call h
  | staticcall => exact did_call h
  | selfbalance => exact h.ask (.getBalance P.msg.recipient) (fun _ => rfl) (by plainly) fun _ _ h => h.push _
  | tload => exact h.pop1 fun key _ h => h.ask (.getTransient P.msg.recipient key) (fun _ => rfl) (by plainly) fun _ _ h => h.push _
  | tstore => 
    have hst := hst rfl
    exact h.pop2 fun key v _ h => h.act (.setTransient P.msg.recipient key v) rfl (by plainly)
  | jump => exact h.pop1 fun _ _ h => did_jumpTo h
  | jumpi => 
    refine h.pop2 fun _ _ s h => ?_
    split
    · exact did_jumpTo h
    · exact h
  | invalid => exact h.fail _
  | returndatacopy =>
    refine h.pop3 fun _ _ _ _ h => h.touch fun _ h => ?_
    split
    · exact h.fail _
    · exact h.same rfl
  | exp => exact h.pop2 fun _ _ _ h => h.charge fun _ h => h.push _
  | sha3 => exact h.pop2 fun _ _ _ h => h.touch fun _ h => h.push _
  | mload => exact h.pop1 fun _ _ h => h.touch fun _ h => h.push _
  | mstore => exact h.pop2 fun _ _ _ h => h.touch fun _ h => h.same rfl
  | mstore8 => exact h.pop2 fun _ _ _ h => h.touch fun _ h => h.same rfl
  | mcopy => exact h.pop3 fun _ _ _ _ h => h.touch2 fun _ h => h.same rfl
  | calldatacopy => exact h.pop3 fun _ _ _ _ h => h.touch fun _ h => h.same rfl
  | codecopy => exact h.pop3 fun _ _ _ _ h => h.touch fun _ h => h.same rfl
  | ret => exact h.pop2 fun _ _ _ h => h.touch fun _ h => h.same rfl
  | revert => exact h.pop2 fun _ _ _ h => h.touch fun _ h => h.same rfl
  | pop => exact h.pop1 fun _ _ h => h
  | jumpdest => exact h
  | _ =>
    first
    | exact h.same rfl
    | exact h.pop1 fun _ _ h => h.push _
    | exact h.pop2 fun _ _ _ h => h.push _
    | exact h.pop3 fun _ _ _ _ h => h.push _

theorem did_stepEip (h : Did P w s) : Did P w (Spec.Go.stepEip P s) := by
  unfold Spec.Go.stepEip
  split
  · split
    · exact h.fail _
    · rename_i i _
      unfold Spec.Go.execInstrEip
      split
      · exact h.fail _
      · split
        · exact h.fail _
        · rename_i hws
          split
          · exact h.fail _
          · split
            · exact h.fail _
            · refine h.charge fun t h => ?_
              have hst : i.writes = true → P.msg.isStatic = false := by
                intro hw
                cases hs : P.msg.isStatic with
                | false => rfl
                | true => exact absurd ⟨hw, hs⟩ hws
              unfold Spec.Go.execEip
              split
              · rename_i hi
                subst hi
                exact did_sstore (hst rfl) (h.same rfl)
              · rename_i hi
                exact did_exec hst hi (h.same rfl)
  · exact h

theorem did_stepsEip (n : Nat) : ∀ {s : State σ}, Did P w s → Did P w (Spec.Go.stepsEip P n s) := by
  induction n with
  | zero => intro s h; exact h
  | succ n ih => intro s h; exact ih (did_stepEip h)

end Tosca.Proofs

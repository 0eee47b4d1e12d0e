import Verif.Proofs.Read

/-!
# Which failures an instruction can end in
-/

namespace Tosca.Proofs

open Tosca.Model Tosca.Spec

variable {σ : Type} {P : Params σ}

/-- Failures of the body of an instruction, once the common checks have passed. -/
def bodyFailure : Instr → Failure → Prop
  | _, .outOfGas => True
  | .invalid, .invalidInstruction => True
  | .jump, .badJumpDestination | .jumpi, .badJumpDestination => True
  | .returndatacopy, .invalidMemoryAccess => True
  | .call, .callDepthExceeded | .callcode, .callDepthExceeded | .delegatecall, .callDepthExceeded
  | .staticcall, .callDepthExceeded => True
  | .call, .staticViolation => True
  | .create, .createDepthExceeded | .create2, .createDepthExceeded => True
  | .create, .initCodeTooLarge | .create2, .initCodeTooLarge => True
  | _, _ => False

/-- If the frame fails, then for a reason in `A`, with refund counter `r` and no gas or return data. -/
def Ends (A : Failure → Prop) (r : Int) (s : State σ) : Prop := ∀ f, s.status = .failed f → A f ∧ s.refund = r ∧ s.gas = 0 ∧ s.ret = []

/-- Running with refund counter `r`. -/
def Live (r : Int) (s : State σ) : Prop := s.status = .running ∧ s.refund = r

variable {A : Failure → Prop} {r : Int}

theorem ends_alive {s : State σ} (h : ∀ f, s.status ≠ .failed f) : Ends A r s := fun f hf => absurd hf (h f)
theorem ends_run {s : State σ} (h : s.status = .running) : Ends A r s := fun f hf => by rw [h] at hf; cases hf
theorem ends_fail {s : State σ} {w : Failure} (hs : Live r s) (h : A w) : Ends A r (s.fail w) := fun f hf => by
  cases hf; exact ⟨h, hs.2, rfl, rfl⟩
theorem ends_charge {s : State σ} (hr : Live r s) (ho : A .outOfGas) (n : Nat) {k : State σ → State σ}
    (hk : ∀ s, Live r s → Ends A r (k s)) : Ends A r (s.charge n k) := by
  unfold State.charge
  split
  · exact ends_fail hr ho
  · exact hk _ hr
theorem ends_ask {α : Type} {s : State σ} (hr : Live r s) (f : σ → α × σ) {k : α → State σ → State σ}
    (hk : ∀ a s, Live r s → Ends A r (k a s)) : Ends A r (s.ask f k) := hk _ _ hr
theorem ends_touch {s : State σ} (hr : Live r s) (ho : A .outOfGas) (a b : U256) (n : Nat) {k : State σ → State σ}
    (hk : ∀ s, Live r s → Ends A r (k s)) : Ends A r (s.touch a b n k) :=
  ends_charge hr ho _ fun _ h => hk _ h
theorem ends_touch2 {s : State σ} (hr : Live r s) (ho : A .outOfGas) (a b c d : U256) (n : Nat) {k : State σ → State σ}
    (hk : ∀ s, Live r s → Ends A r (k s)) : Ends A r (s.touch2 a b c d n k) :=
  ends_charge hr ho _ fun _ h => hk _ h
theorem ends_pop1 {s : State σ} (hr : Live r s) {n : Nat} (hp : n + 1 ≤ s.stack.length) {k : U256 → State σ → State σ}
    (hk : ∀ a s, Live r s → n ≤ s.stack.length → Ends A r (k a s)) : Ends A r (s.pop1 k) := by
  unfold State.pop1
  split
  · rename_i a l e
    refine hk _ _ hr ?_
    rw [e] at hp
    simpa using hp
  · rename_i h
    exfalso
    cases hs : s.stack with
    | nil => rw [hs] at hp; simp at hp
    | cons a r => exact h a r hs
theorem ends_pop2 {s : State σ} (hr : Live r s) {n : Nat} (hp : n + 2 ≤ s.stack.length) {k : U256 → U256 → State σ → State σ}
    (hk : ∀ a b s, Live r s → n ≤ s.stack.length → Ends A r (k a b s)) : Ends A r (s.pop2 k) :=
  ends_pop1 hr (n := n + 1) hp fun a _ h1 h2 => ends_pop1 h1 h2 fun b _ h3 h4 => hk a b _ h3 h4
theorem ends_pop3 {s : State σ} (hr : Live r s) {n : Nat} (hp : n + 3 ≤ s.stack.length) {k : U256 → U256 → U256 → State σ → State σ}
    (hk : ∀ a b c s, Live r s → n ≤ s.stack.length → Ends A r (k a b c s)) : Ends A r (s.pop3 k) :=
  ends_pop2 hr (n := n + 1) hp fun a b _ h1 h2 => ends_pop1 h1 h2 fun c _ h3 h4 => hk a b c _ h3 h4
theorem ends_pop4 {s : State σ} (hr : Live r s) {n : Nat} (hp : n + 4 ≤ s.stack.length)
    {k : U256 → U256 → U256 → U256 → State σ → State σ}
    (hk : ∀ a b c d s, Live r s → n ≤ s.stack.length → Ends A r (k a b c d s)) : Ends A r (s.pop4 k) :=
  ends_pop3 hr (n := n + 1) hp fun a b c _ h1 h2 => ends_pop1 h1 h2 fun d _ h3 h4 => hk a b c d _ h3 h4
theorem ends_ite (q : Prop) [Decidable q] {a b : State σ} (ha : q → Ends A r a) (hb : ¬ q → Ends A r b) : Ends A r (if q then a else b) := by
  split
  · exact ha (by assumption)
  · exact hb (by assumption)
theorem ends_access {s : State σ} (hr : Live r s) (a : Address) {k : Nat → State σ → State σ}
    (hk : ∀ n s, Live r s → Ends A r (k n s)) : Ends A r (accountAccess P a s k) := by
  unfold accountAccess
  exact ends_ite _ (fun _ => ends_ask hr _ fun _ _ h => hk _ _ h) fun _ => hk _ _ hr

theorem ends_bin {s : State σ} (hr : Live r s) (hp : 2 ≤ s.stack.length) (f : U256 → U256 → U256) :
    Ends A r (s.pop2 fun a b s => s.push (f a b)) := ends_pop2 hr (n := 0) hp fun _ _ _ h _ => ends_run h.1
theorem ends_un {s : State σ} (hr : Live r s) (hp : 1 ≤ s.stack.length) (f : U256 → U256) :
    Ends A r (s.pop1 fun a s => s.push (f a)) := ends_pop1 hr (n := 0) hp fun _ _ h _ => ends_run h.1
theorem ends_account {s : State σ} (hr : Live r s) (ho : A .outOfGas) (hp : 1 ≤ s.stack.length) (f : Address → σ → U256 × σ) :
    Ends A r (accountOp P f s) :=
  ends_pop1 hr (n := 0) hp fun _ _ h _ => ends_access h _ fun _ _ h => ends_charge h ho _ fun _ h => ends_ask h _ fun _ _ h => ends_run h.1
theorem ends_copy {s : State σ} (hr : Live r s) (ho : A .outOfGas) (hp : 3 ≤ s.stack.length) (src : List Byte) :
    Ends A r (copyOp src s) :=
  ends_pop3 hr (n := 0) hp fun _ _ _ _ h _ => ends_touch h ho _ _ _ fun _ h => ends_run h.1

theorem ends_sstore {s : State σ} (hr : Live r s) (ho : A .outOfGas) (hp : 2 ≤ s.stack.length) : Ends A r (sstore P s) := by
  refine ends_pop2 hr (n := 0) hp fun k v s h _ => ends_ite _ (fun _ => ends_fail h ho) fun _ => ?_
  have go : ∀ (warm : Bool) (s : State σ), Live r s →
      Ends A r (s.ask (P.host.setStorage P.msg.recipient k v) fun status s =>
          s.charge (sstoreGas P.rev status + (if P.rev ≥ BERLIN ∧ warm = false then 2100 else 0)) fun s =>
            { s with refund := s.refund + sstoreRefund P.rev warm status }) :=
    fun warm s h => ends_ask h _ fun _ _ h => ends_charge h ho _ fun _ h => ends_run h.1
  exact ends_ite _ (fun _ => ends_ask h _ fun _ _ h => go _ _ h) fun _ => go _ _ h

theorem ends_sload {s : State σ} (hr : Live r s) (ho : A .outOfGas) (hp : 1 ≤ s.stack.length) : Ends A r (sload P s) := by
  refine ends_pop1 hr (n := 0) hp fun k s h _ => ?_
  have go : ∀ (cost : Nat) (s : State σ), Live r s →
      Ends A r (s.charge cost fun s => s.ask (P.host.getStorage P.msg.recipient k) fun v s => s.push v) :=
    fun _ s h => ends_charge h ho _ fun _ h => ends_ask h _ fun _ _ h => ends_run h.1
  exact ends_ite _ (fun _ => ends_ask h _ fun _ _ h => go _ _ h) fun _ => go _ _ h

theorem ends_extcodecopy {s : State σ} (hr : Live r s) (ho : A .outOfGas) (hp : 4 ≤ s.stack.length) :
    Ends A r (extcodecopy P s) := by
  refine ends_pop4 hr (n := 0) hp fun a d o n s h _ => ends_ite _ (fun _ => ends_fail h ho) fun _ => ?_
  refine ends_access h _ fun _ s h => ends_touch h ho _ _ _ fun s h => ends_ite _ (fun _ => ends_run h.1) fun _ => ?_
  exact ends_ite _ (fun _ => ends_ask h _ fun _ _ h => ends_run h.1) fun _ => ends_run h.1

theorem ends_log (n : Nat) {s : State σ} (hr : Live r s) (ho : A .outOfGas) (hp : 2 ≤ s.stack.length) : Ends A r (log P n s) :=
  ends_pop2 hr (n := 0) hp fun _ _ s h _ => ends_touch (s := { s with stack := s.stack.drop n }) h ho _ _ _ fun _ h => ends_run h.1

theorem ends_halt (st : Status) (hst : ∀ f, st ≠ .failed f) {s : State σ} (hr : Live r s) (ho : A .outOfGas)
    (hp : 2 ≤ s.stack.length) : Ends A r (halt st s) :=
  ends_pop2 hr (n := 0) hp fun _ _ _ h _ => ends_touch h ho _ _ _ fun _ _ => ends_alive hst

theorem ends_selfdestruct {s : State σ} (hr : Live r s) (ho : A .outOfGas) (hp : 1 ≤ s.stack.length) :
    Ends A r (selfdestruct P s) := by
  refine ends_pop1 hr (n := 0) hp fun a s h _ => ?_
  have finish : ∀ (cost : Nat) (s : State σ), Live r s →
      Ends A r (s.charge cost fun s =>
        s.ask (P.host.selfdestruct P.msg.recipient (Word.toAddress a)) fun first s =>
          { s with status := .stopped, ret := []
                   refund := if first ∧ P.rev < LONDON then s.refund + 24000 else s.refund }) :=
    fun _ s h => ends_charge h ho _ fun _ h => ends_ask h _ fun _ _ _ => ends_alive nofun
  have access : ∀ (cost : Nat) (s : State σ), Live r s →
      Ends A r (if P.rev ≥ BERLIN then
        s.ask (P.host.accessAccount (Word.toAddress a)) fun st s => s.charge (cost + (if st = .cold then 2600 else 0)) fun s =>
        s.ask (P.host.selfdestruct P.msg.recipient (Word.toAddress a)) fun first s =>
          { s with status := .stopped, ret := []
                   refund := if first ∧ P.rev < LONDON then s.refund + 24000 else s.refund }
        else s.charge cost fun s =>
        s.ask (P.host.selfdestruct P.msg.recipient (Word.toAddress a)) fun first s =>
          { s with status := .stopped, ret := []
                   refund := if first ∧ P.rev < LONDON then s.refund + 24000 else s.refund }) :=
    fun _ s h => ends_ite _ (fun _ => ends_ask h _ fun _ _ h => finish _ _ h) fun _ => finish _ _ h
  exact ends_ask h _ fun _ _ h => ends_ite _ (fun _ => ends_ask h _ fun _ _ h => access _ _ h) fun _ => access _ _ h

theorem ends_checkBalance {s : State σ} (hr : Live r s) (v : U256) {k : Bool → State σ → State σ}
    (hk : ∀ b s, Live r s → Ends A r (k b s)) : Ends A r (checkBalance P v s k) :=
  ends_ite _ (fun _ => hk _ _ hr) fun _ => ends_ask hr _ fun _ _ h => hk _ _ h

theorem ends_createWith (salt : Option U256) (v o n : U256) {s : State σ} (hr : Live r s) (ho : A .outOfGas)
    (hi : P.rev ≥ SHANGHAI → A .initCodeTooLarge) : Ends A r (createWith P salt v o n s) := by
  refine ends_touch hr ho _ _ _ fun s h => ends_ite _ (fun hh => ends_fail h (hi hh.1)) fun _ => ends_charge h ho _ fun s h => ?_
  refine ends_checkBalance (s := { s with ret := [] }) h _ fun b s h => ends_ite _ (fun _ => ends_run h.1) fun _ => ?_
  exact ends_ask h _ fun _ _ h => ends_run h.1

theorem ends_create (is2 : Bool) {s : State σ} (hr : Live r s) (ho : A .outOfGas)
    (hi : P.rev ≥ SHANGHAI → A .initCodeTooLarge) (hd : P.msg.depth > 1024 → A .createDepthExceeded) (hp : (if is2 then 4 else 3) ≤ s.stack.length) :
    Ends A r (create P is2 s) := by
  unfold create
  refine ends_ite _ (fun hh => ends_fail hr (hd hh)) fun _ => ?_
  cases is2 with
  | false => exact ends_pop3 hr (n := 0) hp fun _ _ _ _ h _ => ends_createWith _ _ _ _ h ho hi
  | true =>
    exact ends_pop3 hr (n := 1) hp fun _ _ _ _ h h2 => ends_pop1 (n := 0) h h2 fun _ _ h _ => ends_createWith _ _ _ _ h ho hi

theorem ends_callWith (v : CallVariant) (g : U256) (a : Address) (val io il oo ol : U256) {s : State σ} (hr : Live r s)
    (ho : A .outOfGas) (hs : v = .call → A .staticViolation) : Ends A r (callWith P v g a val io il oo ol s) := by
  refine ends_touch2 hr ho _ _ _ _ _ fun s h => ends_ite _ (fun hh => ends_fail h (hs hh.1)) fun _ => ?_
  refine ends_access h _ fun _ s h => ?_
  unfold newAccountGas
  refine ends_ite _ (fun _ => ends_ask h _ fun _ s h => ?_) fun _ => ?_
  all_goals
    refine ends_charge h ho _ fun s h => ?_
    refine ends_checkBalance (s := { s with ret := [] }) h _ fun b s h => ends_ite _ (fun _ => ends_run h.1) fun _ => ?_
    exact ends_ask h _ fun _ _ h => ends_run h.1

theorem ends_call (v : CallVariant) {s : State σ} (hr : Live r s) (ho : A .outOfGas) (hd : P.msg.depth > 1024 → A .callDepthExceeded)
    (hs : v = .call → A .staticViolation) (hp : (match v with | .call | .callcode => 7 | _ => 6) ≤ s.stack.length) :
    Ends A r (call P v s) := by
  unfold call
  refine ends_ite _ (fun hh => ends_fail hr (hd hh)) fun _ => ?_
  cases v
  · exact ends_pop3 hr (n := 4) hp fun _ _ _ _ h h2 => ends_pop4 (n := 0) h h2 fun _ _ _ _ _ h _ => ends_callWith _ _ _ _ _ _ _ _ h ho hs
  · exact ends_pop3 hr (n := 4) hp fun _ _ _ _ h h2 => ends_pop4 (n := 0) h h2 fun _ _ _ _ _ h _ => ends_callWith _ _ _ _ _ _ _ _ h ho hs
  · exact ends_pop2 hr (n := 4) hp fun _ _ _ h h2 => ends_pop4 (n := 0) h h2 fun _ _ _ _ _ h _ => ends_callWith _ _ _ _ _ _ _ _ h ho hs
  · exact ends_pop2 hr (n := 4) hp fun _ _ _ h h2 => ends_pop4 (n := 0) h h2 fun _ _ _ _ _ h _ => ends_callWith _ _ _ _ _ _ _ _ h ho hs

theorem ends_jumpTo (d : U256) {s : State σ} (hr : Live r s) (hb : A .badJumpDestination) : Ends A r (jumpTo P d s) :=
  by unfold jumpTo; split; exacts [ends_run hr.1, ends_fail hr hb]

/-- The body of an instruction fails only for the reasons of that instruction. -/
theorem ends_exec (at_ : Nat) (i : Instr) {s : State σ} (hr0 : s.status = .running) (hp : i.pops ≤ s.stack.length) :
    Ends (bodyFailure i) s.refund (exec P at_ i s) := by
  have hr : Live s.refund s := ⟨hr0, rfl⟩
  have ho : bodyFailure i .outOfGas := by cases i <;> trivial
  cases i with
  | stop => exact ends_alive nofun
  | invalid => exact ends_fail hr trivial
  | addmod => exact ends_pop3 hr (n := 0) hp fun _ _ _ _ h _ => ends_run h.1
  | mulmod => exact ends_pop3 hr (n := 0) hp fun _ _ _ _ h _ => ends_run h.1
  | exp => exact ends_pop2 hr (n := 0) hp fun _ _ _ h _ => ends_charge h ho _ fun _ h => ends_run h.1
  | sha3 => exact ends_pop2 hr (n := 0) hp fun _ _ _ h _ => ends_touch h ho _ _ _ fun _ h => ends_run h.1
  | balance => exact ends_account hr ho hp _
  | calldatacopy => exact ends_copy hr ho hp _
  | codecopy => exact ends_copy hr ho hp _
  | extcodesize => exact ends_account hr ho hp _
  | extcodecopy => exact ends_extcodecopy hr ho hp
  | returndatacopy =>
    exact ends_pop3 hr (n := 0) hp fun _ _ _ _ h _ => ends_touch h ho _ _ _ fun _ h =>
      ends_ite _ (fun _ => ends_fail h trivial) fun _ => ends_run h.1
  | extcodehash => exact ends_account hr ho hp _
  | blockhash =>
    exact ends_pop1 hr (n := 0) hp fun _ _ h _ => ends_ite _ (fun _ => ends_ask h _ fun _ _ h => ends_run h.1) fun _ => ends_run h.1
  | selfbalance => exact ends_ask hr _ fun _ _ h => ends_run h.1
  | pop => exact ends_pop1 hr (n := 0) hp fun _ _ h _ => ends_run h.1
  | mload => exact ends_pop1 hr (n := 0) hp fun _ _ h _ => ends_touch h ho _ _ _ fun _ h => ends_run h.1
  | mstore => exact ends_pop2 hr (n := 0) hp fun _ _ _ h _ => ends_touch h ho _ _ _ fun _ h => ends_run h.1
  | mstore8 => exact ends_pop2 hr (n := 0) hp fun _ _ _ h _ => ends_touch h ho _ _ _ fun _ h => ends_run h.1
  | sload => exact ends_sload hr ho hp
  | sstore => exact ends_sstore hr ho hp
  | jump => exact ends_pop1 hr (n := 0) hp fun _ _ h _ => ends_jumpTo _ h trivial
  | jumpi =>
    exact ends_pop2 hr (n := 0) hp fun _ _ _ h _ => ends_ite _ (fun _ => ends_jumpTo _ h trivial) fun _ => ends_run h.1
  | tload => exact ends_pop1 hr (n := 0) hp fun _ _ h _ => ends_ask h _ fun _ _ h => ends_run h.1
  | tstore => exact ends_pop2 hr (n := 0) hp fun _ _ _ h _ => ends_run h.1
  | mcopy => exact ends_pop3 hr (n := 0) hp fun _ _ _ _ h _ => ends_touch2 h ho _ _ _ _ _ fun _ h => ends_run h.1
  | log n => exact ends_log n hr ho (by have : n + 2 ≤ s.stack.length := hp; omega)
  | create => exact ends_create false hr ho (fun _ => trivial) (fun _ => trivial) hp
  | create2 => exact ends_create true hr ho (fun _ => trivial) (fun _ => trivial) hp
  | call => exact ends_call .call hr ho (fun _ => trivial) (fun _ => trivial) hp
  | callcode => exact ends_call .callcode hr ho (fun _ => trivial) nofun hp
  | delegatecall => exact ends_call .delegatecall hr ho (fun _ => trivial) nofun hp
  | staticcall => exact ends_call .staticcall hr ho (fun _ => trivial) nofun hp
  | ret => exact ends_halt .returned nofun hr ho hp
  | revert => exact ends_halt .reverted nofun hr ho hp
  | selfdestruct => exact ends_selfdestruct hr ho hp
  | _ => first
    | exact ends_bin hr hp _
    | exact ends_un hr hp _
    | exact ends_run hr.1

/-- What the failures for too deep calls and too long init code presuppose. -/
def excused (P : Params σ) : Failure → Prop
  | .callDepthExceeded | .createDepthExceeded => P.msg.depth > 1024
  | .initCodeTooLarge => P.rev ≥ SHANGHAI
  | _ => True

theorem excused_exec (at_ : Nat) (i : Instr) {s : State σ} (hr0 : s.status = .running) (hp : i.pops ≤ s.stack.length) :
    Ends (excused P) s.refund (exec P at_ i s) := by
  have hr : Live s.refund s := ⟨hr0, rfl⟩
  have general : (∀ f, bodyFailure i f → excused P f) → Ends (excused P) s.refund (exec P at_ i s) :=
    fun h f hf => ⟨h f (ends_exec at_ i hr0 hp f hf).1, (ends_exec at_ i hr0 hp f hf).2⟩
  cases i with
  | create => exact ends_create false hr trivial (fun h => h) (fun h => h) hp
  | create2 => exact ends_create true hr trivial (fun h => h) (fun h => h) hp
  | call => exact ends_call .call hr trivial (fun h => h) (fun _ => trivial) hp
  | callcode => exact ends_call .callcode hr trivial (fun h => h) nofun hp
  | delegatecall => exact ends_call .delegatecall hr trivial (fun h => h) nofun hp
  | staticcall => exact ends_call .staticcall hr trivial (fun h => h) nofun hp
  | _ => exact general fun f => by cases f <;> first | exact fun _ => trivial | exact fun h => h.elim

/-- A failing frame fails for an excused reason. -/
theorem excused_step {s : State σ} (hr : s.status = .running) {f : Failure} (hf : (step P s).status = .failed f) : excused P f := by
  unfold step at hf
  rw [if_pos hr] at hf
  split at hf
  · cases hf; trivial
  · rename_i i _
    unfold execInstr at hf
    split at hf
    · cases hf; trivial
    · split at hf
      · cases hf; trivial
      · split at hf
        · cases hf; trivial
        · rename_i hp
          split at hf
          · cases hf; trivial
          · unfold State.charge at hf
            split at hf
            · cases hf; trivial
            · exact (excused_exec _ i (s := { s with gas := s.gas - i.baseGas, pc := s.pc + i.length }) hr (by show i.pops ≤ s.stack.length; omega) f hf).1

theorem excused_steps : ∀ (n : Nat) (s : State σ), s.status = .running → ∀ {f : Failure}, (steps P n s).status = .failed f → excused P f := by
  intro n
  induction n with
  | zero => intro s hr f hf; rw [show steps P 0 s = s from rfl, hr] at hf; cases hf
  | succ n ih =>
    intro s hr f hf
    change (steps P n (step P s)).status = .failed f at hf
    by_cases hs : (step P s).status = .running
    · exact ih _ hs hf
    · have : ∀ m (t : State σ), t.status ≠ .running → steps P m t = t := by
        intro m
        induction m with
        | zero => intro t _; rfl
        | succ m ih' =>
          intro t ht
          show steps P m (step P t) = t
          have : step P t = t := by unfold step; rw [if_neg ht]
          rw [this, ih' t ht]
      rw [this n _ hs] at hf
      exact excused_step hr hf

end Tosca.Proofs

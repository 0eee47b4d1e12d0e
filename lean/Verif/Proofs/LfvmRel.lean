import Verif.Model.LfvmRun
import Verif.Spec.Evm
import Verif.Spec.Go
import Verif.Proofs.Floria
import Verif.Proofs.Adv

/-!
# The long-form EVM: contexts and EVM states in lockstep
-/

namespace Tosca.Proofs.Lfvm

open Tosca.Spec Tosca.Go Tosca.Model.Go Tosca.Model.Lfvm

variable {ω α β : Type}

/-- The stack of a context, top first. -/
def words' (d : Nat → U256) : Nat → List U256
  | 0 => []
  | n + 1 => d n :: words' d n

theorem words'_length (d : Nat → U256) (n : Nat) : (words' d n).length = n := by
  induction n with
  | zero => rfl
  | succ n ih => simp [words', ih]

theorem words'_congr {d d' : Nat → U256} {n : Nat} (h : ∀ i, i < n → d i = d' i) : words' d n = words' d' n := by
  induction n with
  | zero => rfl
  | succ n ih =>
    unfold words'
    rw [h n (by omega), ih fun i hi => h i (by omega)]

/-- Word `i` from the top. -/
theorem words'_getElem? (d : Nat → U256) (n i : Nat) (h : i < n) : (words' d n)[i]? = some (d (n - 1 - i)) := by
  induction n generalizing i with
  | zero => omega
  | succ n ih =>
    cases i with
    | zero => simp [words']
    | succ i =>
      show (words' d n)[i]? = _
      rw [ih i (by omega)]
      congr 2
      omega

theorem words'_getD (d : Nat → U256) (n i : Nat) (h : i < n) : (words' d n).getD i 0 = d (n - 1 - i) := by
  rw [List.getD_eq_getElem?_getD, words'_getElem? d n i h]; rfl

/-- A context and an EVM state that correspond, when `k` more words lie on the context's stack. -/
structure Rel (k : Nat) (p : Int) (q : Nat) (l : St ω) (s : State ω) : Prop where
  status : s.status = .running
  pc : l.pc = p
  pc' : s.pc = q
  gas : l.gas = s.gas
  refund : l.refund = i64 s.refund
  sp : l.sp = s.stack.length + k
  stack : words' l.data s.stack.length = s.stack
  limit : s.stack.length + k ≤ 1024
  size : l.store.length = s.mem.size
  mem : ∀ i, byteAt l.store i = s.mem.get i
  aligned : s.mem.size % 32 = 0
  cost : l.memCost = memGas (words s.mem.size)
  ret : l.returnData = s.ret
  retLen : s.ret.length < 2 ^ 64
  world : l.world = s.host
  bound : s.gas + memGas (words s.mem.size) ≤ 2 ^ 40

/-- Correspondence between instructions; the bounds follow from the state before. -/
structure Match (p : Int) (q : Nat) (l : St ω) (s : State ω) : Prop where
  status : s.status = .running
  pc : l.pc = p
  pc' : s.pc = q
  gas : l.gas = s.gas
  refund : l.refund = i64 s.refund
  sp : l.sp = s.stack.length
  stack : words' l.data s.stack.length = s.stack
  limit : s.stack.length ≤ 1024
  size : l.store.length = s.mem.size
  mem : ∀ i, byteAt l.store i = s.mem.get i
  aligned : s.mem.size % 32 = 0
  cost : l.memCost = memGas (words s.mem.size)
  ret : l.returnData = s.ret
  world : l.world = s.host

theorem Rel.match {p : Int} {q : Nat} {l : St ω} {s : State ω} (h : Rel 0 p q l s) : Match p q l s :=
  ⟨h.status, h.pc, h.pc', h.gas, h.refund, by rw [h.sp]; omega, h.stack, h.limit, h.size, h.mem, h.aligned, h.cost, h.ret, h.world⟩

theorem Match.rel {p : Int} {q : Nat} {l : St ω} {s : State ω} (h : Match p q l s)
    (hb : s.gas + memGas (words s.mem.size) ≤ 2 ^ 40) (hr : s.ret.length < 2 ^ 64) : Rel 0 p q l s :=
  ⟨h.status, h.pc, h.pc', h.gas, h.refund, by rw [h.sp]; omega, h.stack, h.limit, h.size, h.mem, h.aligned, h.cost, h.ret, hr, h.world, hb⟩

/-- The frame failed. -/
def Failed (t : State ω) : Prop := ∃ f, t.status = .failed f

theorem failed_fail (s : State ω) (f : Failure) : Failed (s.fail f) := ⟨f, rfl⟩

/-- A piece of code ends like the specification: results are related by `Q`, errors are failures, no panics. -/
def Sim (Q : α → St ω → State ω → Prop) : Res ω α → State ω → Prop
  | .ok a l, t => Q a l t
  | .err _, t => Failed t
  | .panic, _ => False

/-- Equal, or both failed. -/
def Like (t t' : State ω) : Prop := t = t' ∨ (Failed t ∧ Failed t')

theorem Like.refl (t : State ω) : Like t t := .inl rfl
theorem Like.symm {t t' : State ω} (h : Like t t') : Like t' t := by
  rcases h with h | ⟨h, h'⟩
  · exact .inl h.symm
  · exact .inr ⟨h', h⟩
theorem Like.trans {a b c : State ω} (h : Like a b) (h' : Like b c) : Like a c := by
  rcases h with rfl | ⟨h1, h2⟩
  · exact h'
  · rcases h' with rfl | ⟨_, h4⟩
    · exact .inr ⟨h1, h2⟩
    · exact .inr ⟨h1, h4⟩
theorem Like.failed {t t' : State ω} (h : Like t t') (hf : Failed t') : Failed t := by
  rcases h with rfl | ⟨h, _⟩
  · exact hf
  · exact h

/-- `Q` holds of no failed frame. -/
def Alive (Q : α → St ω → State ω → Prop) : Prop := ∀ a l t, Q a l t → ¬ Failed t

theorem sim_like {Q : α → St ω → State ω → Prop} (hQ : Alive Q) {r : Res ω α} {t t' : State ω} (h : Like t t') (hs : Sim Q r t') :
    Sim Q r t := by
  rcases h with rfl | ⟨h, h'⟩
  · exact hs
  · cases r with
    | ok a l => exact absurd h' (hQ a l t' hs)
    | err _ => exact h
    | panic => exact hs

theorem alive_match (p : Int) (q : Nat) : Alive (fun (_ : Unit) (l : St ω) t => Match p q l t) := by
  rintro _ l t h ⟨f, hf⟩
  rw [h.status] at hf
  cases hf

section
variable {Q : β → St ω → State ω → Prop} {m : M ω α} {f : α → M ω β} {l l' : St ω} {t : State ω}

theorem bind_ok {a : α} (h : m l = .ok a l') : (m >>= f) l = f a l' := by
  show (match m l with | .ok a s => f a s | .err s => .err s | .panic => .panic) = _
  rw [h]

theorem bind_err (h : m l = .err l') : (m >>= f) l = .err l' := by
  show (match m l with | .ok a s => f a s | .err s => .err s | .panic => .panic) = _
  rw [h]

theorem bind_panic (h : m l = .panic) : (m >>= f) l = .panic := by
  show (match m l with | .ok a s => f a s | .err s => .err s | .panic => .panic) = _
  rw [h]

theorem sim_bind {Q' : α → St ω → State ω → Prop} (h : Sim Q' (m l) t) (hf : ∀ a l', Q' a l' t → Sim Q (f a l') t) :
    Sim Q ((m >>= f) l) t := by
  cases hm : m l with
  | ok a l' => rw [bind_ok hm]; rw [hm] at h; exact hf a l' h
  | err l' => rw [bind_err hm]; rw [hm] at h; exact h
  | panic => rw [hm] at h; exact h.elim

theorem sim_ok {a : α} (h : m l = .ok a l') (H : Sim Q (f a l') t) : Sim Q ((m >>= f) l) t := by rw [bind_ok h]; exact H

theorem sim_err {t : State ω} (h : Failed t) : Sim Q ((error : M ω β) l) t := h

theorem sim_mono {Q' : β → St ω → State ω → Prop} {r : Res ω β} (h : Sim Q' r t) (hq : ∀ a l', Q' a l' t → Q a l' t) : Sim Q r t := by
  cases r with
  | ok a l => exact hq _ _ h
  | err _ => exact h
  | panic => exact h

theorem sim_getSt {f : St ω → M ω β} (H : Sim Q (f l l) t) : Sim Q (((getSt : M ω (St ω)) >>= f) l) t := H

end

/-! ## Stack -/

section
variable {Q : β → St ω → State ω → Prop} {k : Nat} {p : Int} {q : Nat} {l : St ω} {s : State ω}

theorem slot_ok {i : Int} {j : Nat} (h : i = j) (hj : j < 1024) : (slot i : M ω U256) l = .ok (l.data j) l := by
  subst h
  unfold slot maxStackSize
  rw [if_pos (by omega)]
  rfl

theorem setSlot_ok {i : Int} {j : Nat} {v : U256} (h : i = j) (hj : j < 1024) :
    (setSlot i v : M ω Unit) l = .ok () { l with data := fun x => if x = j then v else l.data x } := by
  subst h
  unfold setSlot maxStackSize
  rw [if_pos (by omega)]
  rfl

theorem cons_data {d : Nat → U256} {a : U256} {r : List U256} {n : Nat} (hn : n = (a :: r).length) (h : words' d n = a :: r) :
    d r.length = a ∧ words' d r.length = r := by
  subst hn
  have h' : d r.length :: words' d r.length = a :: r := h
  injection h' with h1 h2
  exact ⟨h1, h2⟩

theorem sim_pop {f : U256 → M ω β} {k' : U256 → State ω → State ω} {a : U256} {r : List U256} (h : Rel 0 p q l s) (hs : s.stack = a :: r)
    (H : ∀ l', Rel 0 p q l' { s with stack := r } → Sim Q (f a l') (k' a { s with stack := r })) :
    Sim Q ((pop >>= f) l) (s.pop1 k') := by
  have hlen : s.stack.length = r.length + 1 := by rw [hs]; rfl
  have hlim := h.limit
  have ⟨e1, e2⟩ := cons_data (by rw [hs]) (h.stack.trans hs)
  have hp : (pop : M ω U256) l = .ok a { l with sp := l.sp + -1 } := by
    unfold pop
    rw [bind_ok (show (moveSp (-1) : M ω Unit) l = .ok () { l with sp := l.sp + -1 } from rfl)]
    show (slot (l.sp + -1) : M ω U256) _ = _
    rw [slot_ok (j := r.length) (by rw [h.sp]; omega) (by omega)]
    show Res.ok (l.data r.length) _ = _
    rw [e1]
  rw [bind_ok hp]
  unfold State.pop1
  rw [hs]
  exact H _ ⟨h.status, h.pc, h.pc', h.gas, h.refund, by show l.sp + -1 = _; rw [h.sp]; simp; omega, e2, by show r.length + 0 ≤ 1024; omega,
    h.size, h.mem, h.aligned, h.cost, h.ret, h.retLen, h.world, h.bound⟩

theorem peek_ok {a : U256} {r : List U256} (h : Rel 0 p q l s) (hs : s.stack = a :: r) : (peek : M ω U256) l = .ok a l := by
  have hlen : s.stack.length = r.length + 1 := by rw [hs]; rfl
  have hlim := h.limit
  have ⟨e1, e2⟩ := cons_data (by rw [hs]) (h.stack.trans hs)
  show (slot (l.sp - 1) : M ω U256) l = _
  rw [slot_ok (j := r.length) (by rw [h.sp]; omega) (by omega), e1]

theorem rel_peek {a : U256} {r : List U256} (h : Rel 0 p q l s) (hs : s.stack = a :: r) : Rel 1 p q l { s with stack := r } := by
  have hlen : s.stack.length = r.length + 1 := by rw [hs]; rfl
  have hlim := h.limit
  have ⟨e1, e2⟩ := cons_data (by rw [hs]) (h.stack.trans hs)
  exact ⟨h.status, h.pc, h.pc', h.gas, h.refund, by show l.sp = r.length + 1; rw [h.sp]; omega, e2, by show r.length + 1 ≤ 1024; omega,
    h.size, h.mem, h.aligned, h.cost, h.ret, h.retLen, h.world, h.bound⟩

theorem sim_peek {f : U256 → M ω β} {k' : U256 → State ω → State ω} {a : U256} {r : List U256} (h : Rel 0 p q l s) (hs : s.stack = a :: r)
    (H : Rel 1 p q l { s with stack := r } → Sim Q (f a l) (k' a { s with stack := r })) :
    Sim Q ((peek >>= f) l) (s.pop1 k') := by
  rw [bind_ok (peek_ok h hs)]
  unfold State.pop1
  rw [hs]
  exact H (rel_peek h hs)

/-- Writing the word above the stack. -/
theorem rel_write {sp : Int} {v : U256} (h : Rel k p q l s) (hsp : sp = s.stack.length + 1) (hlim : s.stack.length + 1 ≤ 1024) :
    Rel 0 p q { l with sp := sp, data := fun x => if x = s.stack.length then v else l.data x } (s.push v) := by
  refine ⟨h.status, h.pc, h.pc', h.gas, h.refund, ?_, ?_, ?_, h.size, h.mem, h.aligned, h.cost, h.ret, h.retLen, h.world, h.bound⟩
  · show sp = ((v :: s.stack).length : Nat) + ((0 : Nat) : Int)
    rw [hsp]; simp
  · show words' _ (s.stack.length + 1) = v :: s.stack
    unfold words'
    dsimp only
    rw [if_pos rfl, words'_congr (d' := l.data) fun i hi => if_neg (by omega), h.stack]
  · show (v :: s.stack).length + 0 ≤ 1024
    simpa using hlim

theorem setTop_ok {v : U256} (h : Rel 1 p q l s) :
    ∃ l', (setTop v : M ω Unit) l = .ok () l' ∧ Rel 0 p q l' (s.push v) := by
  have hlim := h.limit
  have e : (setTop v : M ω Unit) l = .ok () { l with data := fun x => if x = s.stack.length then v else l.data x } := by
    show (setSlot (l.sp - 1) v : M ω Unit) l = _
    rw [setSlot_ok (j := s.stack.length) (by rw [h.sp]; omega) (by omega)]
  exact ⟨_, e, rel_write (sp := l.sp) h (by rw [h.sp]; omega) (by omega)⟩

theorem sim_setTop {Q : Unit → St ω → State ω → Prop} {v : U256} (h : Rel 1 p q l s)
    (H : ∀ l', Rel 0 p q l' (s.push v) → Q () l' (s.push v)) : Sim Q ((setTop v : M ω Unit) l) (s.push v) := by
  obtain ⟨l', e, h'⟩ := setTop_ok (v := v) h
  rw [e]
  exact H l' h'

theorem pushV_ok {v : U256} (h : Rel 0 p q l s) (hlim : s.stack.length + 1 ≤ 1024) :
    ∃ l', (pushV v : M ω Unit) l = .ok () l' ∧ Rel 0 p q l' (s.push v) := by
  have e : (pushV v : M ω Unit) l = .ok () { l with sp := l.sp + 1, data := fun x => if x = s.stack.length then v else l.data x } := by
    show (setSlot (l.sp + 1 - 1) v : M ω Unit) { l with sp := l.sp + 1 } = _
    rw [setSlot_ok (j := s.stack.length) (by rw [h.sp]; omega) (by omega)]
  exact ⟨_, e, rel_write (sp := l.sp + 1) h (by rw [h.sp]; omega) hlim⟩

theorem sim_pushV' {v : U256} {f : Unit → M ω β} {t : State ω} (h : Rel 0 p q l s) (hlim : s.stack.length + 1 ≤ 1024)
    (H : ∀ l', Rel 0 p q l' (s.push v) → Sim Q (f () l') t) : Sim Q ((pushV v >>= f) l) t := by
  obtain ⟨l', e, h'⟩ := pushV_ok (v := v) h hlim
  rw [bind_ok e]
  exact H l' h'

theorem sim_pushV {Q : Unit → St ω → State ω → Prop} {v : U256} (h : Rel 0 p q l s) (hlim : s.stack.length + 1 ≤ 1024)
    (H : ∀ l', Rel 0 p q l' (s.push v) → Q () l' (s.push v)) : Sim Q ((pushV v : M ω Unit) l) (s.push v) := by
  obtain ⟨l', e, h'⟩ := pushV_ok (v := v) h hlim
  rw [e]
  exact H l' h'

/-! ## Gas -/

theorem useGas_ok {amount : Int} {n : Nat} (hn : amount = n) (h : Rel k p q l s) (hg : n ≤ s.gas) :
    ∃ l', (useGas amount : M ω Unit) l = .ok () l' ∧ Rel k p q l' { s with gas := s.gas - n } := by
  have hb := h.bound
  subst hn
  refine ⟨{ l with gas := i64 (l.gas - n) }, ?_, ?_⟩
  · unfold useGas
    rw [if_neg (by rw [h.gas]; omega)]
  · refine ⟨h.status, h.pc, h.pc', ?_, h.refund, h.sp, h.stack, h.limit, h.size, h.mem, h.aligned, h.cost, h.ret, h.retLen, h.world, ?_⟩
    · show i64 (l.gas - n) = ((s.gas - n : Nat) : Int)
      rw [h.gas, i64_id (by omega) (by omega)]
      omega
    · show s.gas - n + memGas (words s.mem.size) ≤ 2 ^ 40
      omega

theorem useGas_err {amount : Int} {n : Nat} (hn : amount = n ∨ 2 ^ 40 < n ∧ (amount < 0 ∨ 2 ^ 40 < amount)) (h : Rel k p q l s)
    (hg : s.gas < n) : ∃ l', (useGas amount : M ω Unit) l = .err l' := by
  have hb := h.bound
  refine ⟨l, ?_⟩
  unfold useGas
  rw [if_pos]
  rw [h.gas]
  omega

theorem sim_useGas {amount : Int} {n : Nat} {f : Unit → M ω β} {k' : State ω → State ω} (hn : amount = n) (h : Rel k p q l s)
    (H : ∀ l', Rel k p q l' { s with gas := s.gas - n } → Sim Q (f () l') (k' { s with gas := s.gas - n })) :
    Sim Q ((useGas amount >>= f) l) (s.charge n k') := by
  unfold State.charge
  by_cases hg : s.gas < n
  · obtain ⟨l', e⟩ := useGas_err (.inl hn) h hg
    rw [bind_err e, if_pos hg]
    exact failed_fail _ _
  · obtain ⟨l', e, h'⟩ := useGas_ok hn h (by omega)
    rw [bind_ok e, if_neg hg]
    exact H l' h'

/-- Charging an amount that may be too large for the machine, and then unaffordable. -/
theorem sim_useGas_big {amount : Int} {n : Nat} {f : Unit → M ω β} {k' : State ω → State ω}
    (hn : amount = n ∨ 2 ^ 40 < n ∧ (amount < 0 ∨ 2 ^ 40 < amount)) (h : Rel k p q l s)
    (H : amount = n → ∀ l', Rel k p q l' { s with gas := s.gas - n } → Sim Q (f () l') (k' { s with gas := s.gas - n })) :
    Sim Q ((useGas amount >>= f) l) (s.charge n k') := by
  unfold State.charge
  have hb := h.bound
  by_cases hg : s.gas < n
  · obtain ⟨l', e⟩ := useGas_err hn h hg
    rw [bind_err e, if_pos hg]
    exact failed_fail _ _
  · have hn' : amount = n := by omega
    obtain ⟨l', e, h'⟩ := useGas_ok hn' h (by omega)
    rw [bind_ok e, if_neg hg]
    exact H hn' l' h'

/-! ## The client -/

theorem sim_askDb {g : ω → α × ω} {f : α → M ω β} {k' : α → State ω → State ω} (h : Rel k p q l s)
    (H : ∀ l', Rel k p q l' { s with host := (g s.host).2 } → Sim Q (f (g s.host).1 l') (k' (g s.host).1 { s with host := (g s.host).2 })) :
    Sim Q ((askDb g >>= f) l) (s.ask g k') := by
  have e : askDb g l = .ok (g s.host).1 { l with world := (g s.host).2 } := by unfold askDb; rw [h.world]
  rw [bind_ok e]
  exact H _ ⟨h.status, h.pc, h.pc', h.gas, h.refund, h.sp, h.stack, h.limit, h.size, h.mem, h.aligned, h.cost, h.ret, h.retLen, rfl, h.bound⟩

theorem sim_readDb {g : ω → α} {f : α → M ω β} {t : State ω} (h : Rel k p q l s) (H : Sim Q (f (g s.host) l) t) :
    Sim Q ((readDb g >>= f) l) t := by
  have e : readDb g l = .ok (g s.host) l := by unfold readDb; rw [h.world]
  rw [bind_ok e]
  exact H

end

end Tosca.Proofs.Lfvm

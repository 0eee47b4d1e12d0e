import Verif.Proofs.LfvmLoop
import Verif.Spec.GoSuper

/-!
# The long-form EVM: super-instructions

One super-instruction does what the instructions it stands for do one after the other.
-/

namespace Tosca.Proofs.Lfvm

open Tosca.Spec Tosca.Spec.Go Tosca.Go Tosca.Model.Go Tosca.Model.Lfvm

variable {ws : Bool} {ω : Type} {E : Env ω} {rev : Revision} {p : Int} {q k : Nat} {l : St ω} {s : State ω}

/-! ## Several instructions of the reference -/

/-- The instructions from `q` to `q'`. -/
def Reads (code : List Byte) : Nat → List Instr → Nat → Prop
  | q, [], q' => q = q'
  | q, i :: r, q' => decode (byteAt code q).toNat = some i ∧ Reads code (q + i.length) r q'

def lenOk (b : Nat) : Bool := match decode b with
  | some i => decide (opLen b = i.length)
  | none => true

theorem lenOk_all : ∀ b : _root_.Fin 256, lenOk b.val = true := by decide +kernel

theorem opLen_eq {b : Nat} {i : Instr} (hb : b < 256) (h : decode b = some i) : opLen b = i.length := by
  have := lenOk_all ⟨b, hb⟩
  unfold lenOk at this
  dsimp only at this
  rw [h] at this
  simpa using this

theorem spelt_reads {code : List Byte} {q' : Nat} : ∀ {ops : List Nat} {is : List Instr} {q : Nat}, Spelt code q ops q' → ops.map decode = is.map some →
    Reads code q is q'
  | [], [], _, h, _ => h
  | [], _ :: _, _, _, he => by cases he
  | _ :: _, [], _, _, he => by cases he
  | o :: r, i :: is, q, h, he => by
    obtain ⟨h1, h2, h3⟩ := h
    rw [List.map_cons, List.map_cons] at he
    injection he with e1 e2
    have hlt : o < 256 := by rw [← h2]; exact (byteAt code q).isLt
    rw [opLen_eq hlt e1] at h3
    exact ⟨by rw [h2]; exact e1, spelt_reads h3 e2⟩

/-- Instructions that only change the stack. -/
def stackOnly : Instr → Bool
  | .pop | .dup _ | .swap _ | .iszero | .and | .shl | .add | .sub | .lt => true
  | .push n => decide (1 ≤ n)
  | _ => false

/-- Their effect on the stack. -/
def eff (code : List Byte) (q : Nat) (i : Instr) (st : List U256) : List U256 :=
  match i, st with
  | .pop, _ :: r => r
  | .push n, r => Word.ofBytes (slice code (q + 1) n) :: r
  | .dup n, r => r.getD (n - 1) 0 :: r
  | .swap n, r => (r.set 0 (r.getD n 0)).set n (r.getD 0 0)
  | .iszero, a :: r => Word.iszero a :: r
  | .and, a :: b :: r => Word.and a b :: r
  | .shl, a :: b :: r => Word.shl a b :: r
  | .add, a :: b :: r => Word.add a b :: r
  | .sub, a :: b :: r => Word.sub a b :: r
  | .lt, a :: b :: r => Word.lt a b :: r
  | _, r => r

theorem exec_eff {P : Params ω} {i : Instr} (at_ : Nat) (hi : stackOnly i = true) (hs : i.pops ≤ s.stack.length) :
    execEip P at_ i s = { s with stack := eff P.code at_ i s.stack } := by
  have two : 2 ≤ s.stack.length → ∃ a b r, s.stack = a :: b :: r := fun h => by
    obtain ⟨a, r, ha, hr⟩ := stack_cons h
    obtain ⟨b, r', hb, _⟩ := stack_cons hr
    exact ⟨a, b, r', by rw [ha, hb]⟩
  unfold execEip
  cases i with
  | pop => obtain ⟨a, r, ha, _⟩ := stack_cons hs; simp [exec, State.pop1, ha, eff]
  | dup n => simp [exec, eff, State.push]
  | swap n => simp [exec, eff]
  | iszero => obtain ⟨a, r, ha, _⟩ := stack_cons hs; simp [exec, State.pop1, State.push, ha, eff]
  | and => obtain ⟨a, b, r, h⟩ := two hs; simp [exec, State.pop2, State.pop1, State.push, h, eff]
  | shl => obtain ⟨a, b, r, h⟩ := two hs; simp [exec, State.pop2, State.pop1, State.push, h, eff]
  | add => obtain ⟨a, b, r, h⟩ := two hs; simp [exec, State.pop2, State.pop1, State.push, h, eff]
  | sub => obtain ⟨a, b, r, h⟩ := two hs; simp [exec, State.pop2, State.pop1, State.push, h, eff]
  | lt => obtain ⟨a, b, r, h⟩ := two hs; simp [exec, State.pop2, State.pop1, State.push, h, eff]
  | push n => simp [exec, eff, State.push]
  | _ => cases hi

theorem eff_length {code : List Byte} {at_ : Nat} {i : Instr} {st : List U256} (hi : stackOnly i = true) (hs : i.pops ≤ st.length) :
    (eff code at_ i st).length = st.length + i.pushes - i.pops := by
  cases i with
  | pop => match st, hs with | _ :: r, _ => simp [eff, Instr.pops, Instr.pushes]
  | dup n => simp [eff, Instr.pops, Instr.pushes]; omega
  | swap n => simp [eff, Instr.pops, Instr.pushes]
  | iszero => match st, hs with | _ :: r, _ => simp [eff, Instr.pops, Instr.pushes]
  | and => match st, hs with | _ :: _ :: r, _ => simp [eff, Instr.pops, Instr.pushes]
  | shl => match st, hs with | _ :: _ :: r, _ => simp [eff, Instr.pops, Instr.pushes]
  | add => match st, hs with | _ :: _ :: r, _ => simp [eff, Instr.pops, Instr.pushes]
  | sub => match st, hs with | _ :: _ :: r, _ => simp [eff, Instr.pops, Instr.pushes]
  | lt => match st, hs with | _ :: _ :: r, _ => simp [eff, Instr.pops, Instr.pushes]
  | push n => simp [eff, Instr.pops, Instr.pushes]
  | _ => cases hi

/-- The effect of several such instructions. -/
def effs (code : List Byte) : Nat → List Instr → List U256 → List U256
  | _, [], st => st
  | q, i :: r, st => effs code (q + i.length) r (eff code q i st)

/-- A stack of `n` words and `g` gas are enough for these instructions. -/
def Fits : List Instr → Nat → Nat → Prop
  | [], _, _ => True
  | i :: r, n, g => i.pops ≤ n ∧ n + i.pushes ≤ 1024 + i.pops ∧ i.baseGas ≤ g ∧ Fits r (n + i.pushes - i.pops) (g - i.baseGas)

/-- What they cost. -/
def total : List Instr → Nat
  | [] => 0
  | i :: r => i.baseGas + total r

theorem total_append (a b : List Instr) : total (a ++ b) = total a + total b := by
  induction a with
  | nil => simp [total]
  | cons i r ih => simp only [List.cons_append, total, ih]; omega

theorem stepEip_easy {P : Params ω} {i : Instr} (hr : s.status = .running) (hd : decode (byteAt P.code s.pc).toNat = some i) (hs : i.since = 0)
    (hw : i.writes = false) :
    (¬ (i.pops ≤ s.stack.length ∧ s.stack.length + i.pushes ≤ 1024 + i.pops ∧ i.baseGas ≤ s.gas) → Failed (stepEip P s)) ∧
    (i.pops ≤ s.stack.length ∧ s.stack.length + i.pushes ≤ 1024 + i.pops ∧ i.baseGas ≤ s.gas →
      stepEip P s = execEip P s.pc i { s with gas := s.gas - i.baseGas, pc := s.pc + i.length }) := by
  unfold stepEip
  rw [if_pos hr, hd]
  dsimp only
  unfold execInstrEip
  rw [if_neg (by rw [hs]; exact Nat.not_lt_zero _), if_neg (by rw [hw]; simp)]
  unfold stackLimit
  constructor
  · intro h
    by_cases h1 : s.stack.length < i.pops
    · rw [if_pos h1]; exact failed_fail _ _
    rw [if_neg h1]
    by_cases h2 : s.stack.length + i.pushes > 1024 + i.pops
    · rw [if_pos h2]; exact failed_fail _ _
    rw [if_neg h2]
    exact failed_of_charge (by omega)
  · rintro ⟨h1, h2, h3⟩
    rw [if_neg (by omega), if_neg (by omega)]
    unfold State.charge
    rw [if_neg (by omega)]

theorem stackOnly_easy {i : Instr} (h : stackOnly i = true) : i.since = 0 ∧ i.writes = false := by
  cases i with
  | push n =>
    have : 1 ≤ n := by simpa [stackOnly] using h
    refine ⟨?_, rfl⟩
    unfold Instr.since
    simp
    omega
  | _ => first | exact ⟨rfl, rfl⟩ | cases h

/-- Instructions that only change the stack, and one more. -/
theorem steps_script {P : Params ω} {last : Instr} (hl : last.since = 0) (hlw : last.writes = false) :
    ∀ (pre : List Instr) (s : State ω) (q' : Nat), (∀ i ∈ pre, stackOnly i = true) → s.status = .running → Reads P.code s.pc (pre ++ [last]) q' →
    (¬ Fits (pre ++ [last]) s.stack.length s.gas → Failed (stepsEip P (pre.length + 1) s)) ∧
    (Fits (pre ++ [last]) s.stack.length s.gas → stepsEip P (pre.length + 1) s =
      execEip P (q' - last.length) last { s with stack := effs P.code s.pc pre s.stack, gas := s.gas - total (pre ++ [last]), pc := q' } ∧
      last.pops ≤ (effs P.code s.pc pre s.stack).length) := by
  intro pre
  induction pre with
  | nil =>
    intro s q' _ hr hq
    obtain ⟨hd, hq⟩ := hq
    have hq : s.pc + last.length = q' := hq
    obtain ⟨h1, h2⟩ := stepEip_easy hr hd hl hlw
    refine ⟨fun h => h1 fun hx => h ⟨hx.1, hx.2.1, hx.2.2, trivial⟩, fun ⟨a, b, c, _⟩ => ⟨?_, a⟩⟩
    show stepEip P s = _
    rw [h2 ⟨a, b, c⟩, ← hq, Nat.add_sub_cancel]
    rfl
  | cons i r ih =>
    intro s q' hp hr hq
    obtain ⟨hd, hq⟩ := hq
    have hi := hp i List.mem_cons_self
    obtain ⟨e1, e2⟩ := stackOnly_easy hi
    obtain ⟨h1, h2⟩ := stepEip_easy hr hd e1 e2
    by_cases hx : i.pops ≤ s.stack.length ∧ s.stack.length + i.pushes ≤ 1024 + i.pops ∧ i.baseGas ≤ s.gas
    · have e := h2 hx
      rw [exec_eff (s := { s with gas := s.gas - i.baseGas, pc := s.pc + i.length }) s.pc hi hx.1] at e
      have hlen := eff_length (code := P.code) (at_ := s.pc) hi hx.1
      obtain ⟨g1, g2⟩ := ih (stepEip P s) q' (fun i h => hp i (List.mem_cons_of_mem _ h)) (by rw [e]; exact hr) (by rw [e]; exact hq)
      rw [e] at g1 g2
      dsimp only at g1 g2
      rw [hlen] at g1 g2
      constructor
      · intro h
        show Failed (stepsEip P (r.length + 1) (stepEip P s))
        rw [e]
        exact g1 fun hf => h ⟨hx.1, hx.2.1, hx.2.2, hf⟩
      · intro h
        obtain ⟨g3, g4⟩ := g2 h.2.2.2
        refine ⟨?_, g4⟩
        show stepsEip P (r.length + 1) (stepEip P s) = _
        rw [e, g3]
        congr 1
        show ({ s with stack := _, gas := s.gas - i.baseGas - total (r ++ [last]), pc := q' } : State ω) = { s with stack := _, gas := s.gas - (i.baseGas + total (r ++ [last])), pc := q' }
        rw [Nat.sub_sub]
        rfl
    · have hf := h1 hx
      refine ⟨fun _ => ?_, fun h => absurd ⟨h.1, h.2.1, h.2.2.1⟩ hx⟩
      show Failed (stepsEip P (r.length + 1) (stepEip P s))
      obtain ⟨f, hf⟩ := hf
      rw [stepsEip_halted (by rw [hf]; simp)]
      exact ⟨f, hf⟩

/-! ## One super-instruction -/

/-- The checks in front of a super-instruction let pass what the instructions need. -/
structure Table (E : Env ω) (op : Nat) (is : List Instr) : Prop where
  gas : gasPrice E.params.block.revision op = (total is : Nat)
  fits : ∀ n g : Nat, n ≤ 1024 → (Fits is n g ↔ ¬ (n : Int) < -(computeStackUsage op).lo ∧ ¬ (n : Int) > 1024 - (computeStackUsage op).hi ∧ total is ≤ g)

theorem sim_super {Q : Model.Lfvm.Status → St ω → State ω → Prop} {C : Code} {code : List Byte} {j : Nat} {op q' : Nat} {a : BitVec 16} {pre : List Instr} {last : Instr}
    (hc : E.params.code = code) (hC : E.code = C) (h : Rel 0 p q l s) (hp : p = j) (hi : C[j]? = some ⟨op, a⟩) (hT : Table E op (pre ++ [last]))
    (hpre : ∀ i ∈ pre, stackOnly i = true) (hl : last.since = 0) (hlw : last.writes = false) (hr : Reads code q (pre ++ [last]) q')
    (H : ∀ l', Rel 0 p q l' { s with gas := s.gas - total (pre ++ [last]) } → Fits (pre ++ [last]) s.stack.length s.gas →
      last.pops ≤ (effs code q pre s.stack).length →
      Sim Q (execOp E op l') (execEip (frameOf E rev) (q' - last.length) last
        { s with stack := effs code q pre s.stack, gas := s.gas - total (pre ++ [last]), pc := q' })) :
    Sim (Moved Q) (stepOnce E l) (stepsEip (frameOf E rev) (pre.length + 1) s) := by
  refine sim_stepAt (h.pc.trans hp) (by rw [hC]; exact hi) ?_
  dsimp only
  have hfc : (frameOf E rev).code = code := hc
  have hq := h.pc'
  obtain ⟨h1, h2⟩ := steps_script (P := frameOf E rev) hl hlw pre s q' hpre h.status (by rw [hfc, hq]; exact hr)
  have hf := hT.fits s.stack.length s.gas h.limit
  unfold checkStackLimits maxStackSize
  have hsp : l.sp = s.stack.length := by rw [h.sp]; omega
  rw [hsp, hT.gas]
  by_cases c1 : (s.stack.length : Int) < -(computeStackUsage op).lo
  · rw [if_pos c1]
    exact h1 fun hx => (hf.1 hx).1 c1
  rw [if_neg c1]
  by_cases c2 : (s.stack.length : Int) > 1024 - (computeStackUsage op).hi
  · rw [if_pos c2]
    exact h1 fun hx => (hf.1 hx).2.1 c2
  rw [if_neg c2, pure_bind']
  by_cases c3 : total (pre ++ [last]) ≤ s.gas
  · obtain ⟨l', e, h'⟩ := useGas_ok (amount := ((total (pre ++ [last]) : Nat) : Int)) rfl h c3
    rw [bind_ok e]
    have hfit := hf.2 ⟨c1, c2, c3⟩
    obtain ⟨h3, h4⟩ := h2 hfit
    rw [h3]
    rw [hfc, hq] at h4 ⊢
    exact H l' h' hfit h4
  · obtain ⟨l', e⟩ := useGas_err (amount := ((total (pre ++ [last]) : Nat) : Int)) (.inl rfl) h (by omega)
    rw [bind_err e]
    exact h1 fun hx => c3 (hf.1 hx).2.2

/-! ## The stack of the long-form EVM -/

theorem shrink_ok {a : U256} {r : List U256} (h : Rel 0 p q l s) (hs : s.stack = a :: r) : Rel 0 p q { l with sp := l.sp + -1 } { s with stack := r } := by
  have hlen : s.stack.length = r.length + 1 := by rw [hs]; rfl
  have hlim := h.limit
  have ⟨_, e2⟩ := cons_data (by rw [hs]) (h.stack.trans hs)
  exact ⟨h.status, h.pc, h.pc', h.gas, h.refund, by show l.sp + -1 = _; rw [h.sp]; simp; omega, e2,
    by show r.length + 0 ≤ 1024; omega, h.size, h.mem, h.aligned, h.cost, h.ret, h.retLen, h.world, h.bound⟩

theorem popW_ok {a : U256} {r : List U256} (h : Rel 0 p q l s) (hs : s.stack = a :: r) :
    ∃ l', (pop : M ω U256) l = .ok a l' ∧ Rel 0 p q l' { s with stack := r } := by
  have hlen : s.stack.length = r.length + 1 := by rw [hs]; rfl
  have hlim := h.limit
  have ⟨e1, _⟩ := cons_data (by rw [hs]) (h.stack.trans hs)
  refine ⟨{ l with sp := l.sp + -1 }, ?_, shrink_ok h hs⟩
  unfold pop
  rw [bind_ok (show (moveSp (-1) : M ω Unit) l = .ok () { l with sp := l.sp + -1 } from rfl)]
  show (slot (l.sp + -1) : M ω U256) _ = _
  rw [slot_ok (j := r.length) (by rw [h.sp]; omega) (by omega)]
  show Res.ok (l.data r.length) _ = _
  rw [e1]

theorem peekN_ok {n : Nat} {v : U256} (h : Rel 0 p q l s) (hv : s.stack[n]? = some v) : (peekN (n : Int) : M ω U256) l = .ok v l := by
  obtain ⟨hn, hv⟩ := List.getElem?_eq_some_iff.1 hv
  have hlim := h.limit
  show (slot (l.sp - n - 1) : M ω U256) l = _
  rw [slot_ok (j := s.stack.length - 1 - n) (by rw [h.sp]; omega) (by omega)]
  have := words'_getElem? l.data s.stack.length n hn
  rw [h.stack, List.getElem?_eq_getElem hn, hv] at this
  injection this with this
  rw [← this]

theorem words'_set (d : Nat → U256) (n i : Nat) (v : U256) (h : i < n) :
    words' (fun x => if x = n - 1 - i then v else d x) n = (words' d n).set i v := by
  apply List.ext_getElem?
  intro k
  by_cases hk : k < n
  · rw [words'_getElem? _ _ _ hk, List.getElem?_set, words'_length]
    by_cases hik : i = k
    · subst hik
      rw [if_pos rfl, if_pos h, if_pos rfl]
    · rw [if_neg hik, words'_getElem? _ _ _ hk, if_neg (by omega)]
  · rw [List.getElem?_eq_none (by rw [words'_length]; omega), List.getElem?_eq_none (by rw [List.length_set, words'_length]; omega)]

theorem setN_ok {n : Nat} {v : U256} (h : Rel 0 p q l s) (hn : n < s.stack.length) :
    ∃ l', (setN (n : Int) v : M ω Unit) l = .ok () l' ∧ Rel 0 p q l' { s with stack := s.stack.set n v } := by
  have hlim := h.limit
  refine ⟨{ l with data := fun x => if x = s.stack.length - 1 - n then v else l.data x }, ?_, ⟨h.status, h.pc, h.pc', h.gas, h.refund, ?_, ?_, ?_,
    h.size, h.mem, h.aligned, h.cost, h.ret, h.retLen, h.world, h.bound⟩⟩
  · show (setSlot (l.sp - n - 1) v : M ω Unit) l = _
    exact setSlot_ok (by rw [h.sp]; omega) (by omega)
  · show l.sp = ((s.stack.set n v).length : Nat) + ((0 : Nat) : Int)
    rw [List.length_set]; exact h.sp
  · show words' _ (s.stack.set n v).length = s.stack.set n v
    rw [List.length_set, words'_set _ _ _ _ hn, h.stack]
  · show (s.stack.set n v).length + 0 ≤ 1024
    rw [List.length_set]; exact hlim

theorem setTop_ok' {v a : U256} {r : List U256} (h : Rel 0 p q l s) (hs : s.stack = a :: r) :
    ∃ l', (setTop v : M ω Unit) l = .ok () l' ∧ Rel 0 p q l' { s with stack := v :: r } := by
  obtain ⟨l', e, h'⟩ := setN_ok (n := 0) (v := v) h (by rw [hs]; simp)
  refine ⟨l', ?_, ?_⟩
  · rw [← e]
    show (setSlot (l.sp - 1) v : M ω Unit) l = setSlot (l.sp - ((0 : Nat) : Int) - 1) v l
    simp
  · rw [hs] at h'
    exact h'

theorem grow_ok (h : Rel 0 p q l s) (hl : s.stack.length + 1 ≤ 1024) :
    ∃ v l', (moveSp 1 : M ω Unit) l = .ok () l' ∧ Rel 0 p q l' { s with stack := v :: s.stack } := by
  refine ⟨l.data s.stack.length, { l with sp := l.sp + 1 }, rfl, ⟨h.status, h.pc, h.pc', h.gas, h.refund, ?_, ?_, ?_,
    h.size, h.mem, h.aligned, h.cost, h.ret, h.retLen, h.world, h.bound⟩⟩
  · show l.sp + 1 = ((l.data s.stack.length :: s.stack).length : Nat) + ((0 : Nat) : Int)
    rw [h.sp]; simp
  · show l.data s.stack.length :: words' l.data s.stack.length = _
    rw [h.stack]
  · exact hl

theorem grow2_ok (h : Rel 0 p q l s) (hl : s.stack.length + 2 ≤ 1024) :
    ∃ v w l', (moveSp 2 : M ω Unit) l = .ok () l' ∧ Rel 0 p q l' { s with stack := v :: w :: s.stack } := by
  obtain ⟨w, l1, e1, h1⟩ := grow_ok h (by omega)
  obtain ⟨v, l2, e2, h2⟩ := grow_ok h1 (by show (w :: s.stack).length + 1 ≤ 1024; simp; omega)
  refine ⟨v, w, l2, ?_, h2⟩
  rw [← e2]
  injection e1 with _ e1
  subst e1
  show Res.ok () { l with sp := l.sp + 2 } = Res.ok () { l with sp := l.sp + 1 + 1 }
  rw [Int.add_assoc]
  rfl

/-- The end of a super-instruction that only changes the stack. -/
theorem rel_done {st : List U256} {g q' : Nat} {last : Instr} {code : List Byte} {at_ : Nat} {pre : List U256} (hc : E.params.code = code)
    (h : Rel 0 p q l { s with gas := g, stack := st }) (hl : stackOnly last = true) (hp : last.pops ≤ pre.length)
    (he : eff code at_ last pre = st) :
    Match p q' l (execEip (frameOf E rev) at_ last { s with stack := pre, gas := g, pc := q' }) := by
  rw [exec_eff (s := { s with stack := pre, gas := g, pc := q' }) at_ hl hp]
  have hfc : (frameOf E rev).code = code := hc
  rw [hfc]
  show Match p q' l { s with gas := g, pc := q', stack := eff code at_ last pre }
  rw [he]
  exact (rel_pc q' h).match

end Tosca.Proofs.Lfvm

import Verif.Model.Interp
import Verif.Spec.Setting
import Verif.Spec.Assume
import Verif.Proofs.Word
import Verif.Proofs.Mem
import Verif.Proofs.Jump
import Verif.Proofs.Push
import Verif.Proofs.Sha3

/-!
# Reasoning about instruction bodies, and the relation between model and specification states
-/

namespace Tosca.Proofs

open Tosca.Model Tosca.Spec

variable {σ α β : Type}

/-- The body runs without UB and its result satisfies `Q`. -/
def Ok (m : OpM σ α) (c : Ctx σ) (Q : α → Ctx σ → Prop) : Prop := ∃ a c', m c = .ok (a, c') ∧ Q a c'

theorem ok_pure (a : α) (c : Ctx σ) (Q : α → Ctx σ → Prop) : Ok (pure a) c Q ↔ Q a c := by
  constructor
  · rintro ⟨a', c', h, hq⟩
    have h : Except.ok (a, c) = Except.ok (a', c') := h
    simp only [Except.ok.injEq, Prod.mk.injEq] at h
    obtain ⟨rfl, rfl⟩ := h; exact hq
  · intro h; exact ⟨a, c, rfl, h⟩

theorem ok_bind (m : OpM σ α) (f : α → OpM σ β) (c : Ctx σ) (Q : β → Ctx σ → Prop) :
    Ok (m >>= f) c Q ↔ Ok m c fun a c' => Ok (f a) c' Q := by
  constructor
  · rintro ⟨b, c', h, hq⟩
    have h : (match m c with | .ok (a, c') => f a c' | .error e => .error e) = Except.ok (b, c') := h
    cases hm : m c with
    | error e => rw [hm] at h; simp at h
    | ok r =>
      obtain ⟨a, c1⟩ := r
      rw [hm] at h
      exact ⟨a, c1, hm, b, c', h, hq⟩
  · rintro ⟨a, c1, hm, b, c', h, hq⟩
    refine ⟨b, c', ?_, hq⟩
    show (match m c with | .ok (a, c') => f a c' | .error e => .error e) = Except.ok (b, c')
    rw [hm]; exact h

theorem ok_mono {m : OpM σ α} {c : Ctx σ} {Q Q' : α → Ctx σ → Prop} (h : Ok m c Q)
    (hq : ∀ a c', Q a c' → Q' a c') : Ok m c Q' := by
  obtain ⟨a, c', h1, h2⟩ := h; exact ⟨a, c', h1, hq _ _ h2⟩

theorem ok_of_eq {m : OpM σ α} {c : Ctx σ} {Q : α → Ctx σ → Prop} {a : α} {c' : Ctx σ}
    (h : m c = .ok (a, c')) : Ok m c Q ↔ Q a c' := by
  constructor
  · rintro ⟨a', c'', h', hq⟩
    rw [h] at h'
    simp only [Except.ok.injEq, Prod.mk.injEq] at h'
    obtain ⟨rfl, rfl⟩ := h'; exact hq
  · intro hq; exact ⟨a, c', h, hq⟩

theorem ok_get (c : Ctx σ) (Q) : Ok OpM.get c Q ↔ Q c c := ok_of_eq rfl
theorem ok_modify (f : Ctx σ → Ctx σ) (c : Ctx σ) (Q) : Ok (OpM.modify f) c Q ↔ Q () (f c) :=
  ok_of_eq rfl
theorem ok_host (f : σ → α × σ) (c : Ctx σ) (Q) :
    Ok (OpM.host f) c Q ↔ Q (f c.world).1 { c with world := (f c.world).2 } := ok_of_eq rfl
theorem ok_lift (a : α) (c : Ctx σ) (Q) : Ok (OpM.lift (.ok a)) c Q ↔ Q a c := ok_of_eq rfl
theorem ok_lift_eq {m : M α} {a : α} (h : m = .ok a) (c : Ctx σ) (Q) :
    Ok (OpM.lift m) c Q ↔ Q a c := by subst h; exact ok_lift a c Q
theorem ok_chk64 (x : Int) (h : int64Min ≤ x ∧ x ≤ int64Max) (c : Ctx σ) (Q) :
    Ok (OpM.lift (chk64 x)) c Q ↔ Q x c := ok_lift_eq (by simp [chk64, h]) c Q
theorem ok_chk32 (x : Int) (h : -2147483648 ≤ x ∧ x ≤ 2147483647) (c : Ctx σ) (Q) :
    Ok (OpM.lift (chk32 x)) c Q ↔ Q x c := ok_lift_eq (by simp [chk32, h]) c Q

/-- The stack slots with `v` stored in slot `n`. -/
def setBuf (buf : Nat → U256) (n : Nat) (v : U256) : Nat → U256 := fun i => if i = n then v else buf i

theorem ok_rd (n : Nat) (p : Int) (hp : p = n) (hn : n < 1024) (c : Ctx σ) (Q) :
    Ok (OpM.rd p) c Q ↔ Q (c.stack.buf n) c := by
  apply ok_of_eq
  unfold OpM.rd
  rw [if_pos (by omega)]
  subst hp; rfl

theorem ok_wr (n : Nat) (p : Int) (hp : p = n) (hn : n < 1024) (v : U256) (c : Ctx σ) (Q) :
    Ok (OpM.wr p v) c Q ↔
      Q () { c with stack := { c.stack with buf := setBuf c.stack.buf n v } } := by
  apply ok_of_eq
  unfold OpM.wr
  rw [if_pos (by omega)]
  subst hp; rfl

theorem ok_rd0 (t : Nat) (h : t < 1024) (c : Ctx σ) (Q) :
    Ok (OpM.rd ((t : Int) + 0)) c Q ↔ Q (c.stack.buf t) c := ok_rd t _ (by omega) h c Q
theorem ok_rd1 (t : Nat) (h : t + 1 < 1024) (c : Ctx σ) (Q) :
    Ok (OpM.rd ((t : Int) + 1)) c Q ↔ Q (c.stack.buf (t + 1)) c := ok_rd _ _ (by omega) h c Q
theorem ok_rd2 (t : Nat) (h : t + 2 < 1024) (c : Ctx σ) (Q) :
    Ok (OpM.rd ((t : Int) + 2)) c Q ↔ Q (c.stack.buf (t + 2)) c := ok_rd _ _ (by omega) h c Q
theorem ok_rd3 (t : Nat) (h : t + 3 < 1024) (c : Ctx σ) (Q) :
    Ok (OpM.rd ((t : Int) + 3)) c Q ↔ Q (c.stack.buf (t + 3)) c := ok_rd _ _ (by omega) h c Q
theorem ok_rd4 (t : Nat) (h : t + 4 < 1024) (c : Ctx σ) (Q) :
    Ok (OpM.rd ((t : Int) + 4)) c Q ↔ Q (c.stack.buf (t + 4)) c := ok_rd _ _ (by omega) h c Q
theorem ok_rd5 (t : Nat) (h : t + 5 < 1024) (c : Ctx σ) (Q) :
    Ok (OpM.rd ((t : Int) + 5)) c Q ↔ Q (c.stack.buf (t + 5)) c := ok_rd _ _ (by omega) h c Q
theorem ok_rd6 (t : Nat) (h : t + 6 < 1024) (c : Ctx σ) (Q) :
    Ok (OpM.rd ((t : Int) + 6)) c Q ↔ Q (c.stack.buf (t + 6)) c := ok_rd _ _ (by omega) h c Q

theorem ok_wr0 (t : Nat) (h : t < 1024) (v : U256) (c : Ctx σ) (Q) :
    Ok (OpM.wr ((t : Int) + 0) v) c Q ↔
      Q () { c with stack := { c.stack with buf := setBuf c.stack.buf t v } } :=
  ok_wr t _ (by omega) h v c Q
theorem ok_wr1 (t : Nat) (h : t + 1 < 1024) (v : U256) (c : Ctx σ) (Q) :
    Ok (OpM.wr ((t : Int) + 1) v) c Q ↔
      Q () { c with stack := { c.stack with buf := setBuf c.stack.buf (t + 1) v } } :=
  ok_wr _ _ (by omega) h v c Q
theorem ok_wr2 (t : Nat) (h : t + 2 < 1024) (v : U256) (c : Ctx σ) (Q) :
    Ok (OpM.wr ((t : Int) + 2) v) c Q ↔
      Q () { c with stack := { c.stack with buf := setBuf c.stack.buf (t + 2) v } } :=
  ok_wr _ _ (by omega) h v c Q
theorem ok_wrm1 (t : Nat) (h : 1 ≤ t) (h' : t ≤ 1024) (v : U256) (c : Ctx σ) (Q) :
    Ok (OpM.wr ((t : Int) + -1) v) c Q ↔
      Q () { c with stack := { c.stack with buf := setBuf c.stack.buf (t - 1) v } } :=
  ok_wr _ _ (by omega) (by omega) v c Q

theorem ok_mem_eq {f : Memory → M Memory} {c : Ctx σ} {m : Memory} (h : f c.memory = .ok m) (Q) :
    Ok (OpM.mem f) c Q ↔ Q () { c with memory := m } := by
  apply ok_of_eq; unfold OpM.mem; rw [h]

theorem ok_memRead_eq {f : Memory → M (List Byte × Memory)} {c : Ctx σ} {l : List Byte} {m : Memory}
    (h : f c.memory = .ok (l, m)) (Q) :
    Ok (OpM.memRead f) c Q ↔ Q l { c with memory := m } := by
  apply ok_of_eq; unfold OpM.memRead; rw [h]

theorem ok_getSpan (off len : Nat) (c : Ctx σ) (Q) :
    Ok (OpM.getSpan off len) c Q ↔
      Q ⟨(c.memory.grow off len).gen, off, len⟩ { c with memory := c.memory.grow off len } :=
  ok_of_eq rfl

theorem ok_readSpan {s : Span} {c : Ctx σ} {l : List Byte} (h : c.memory.readSpan s = .ok l) (Q) :
    Ok (OpM.readSpan s) c Q ↔ Q l c := by
  apply ok_of_eq; unfold OpM.readSpan; rw [h]

theorem ok_memCost_eq {off n : U256} {c : Ctx σ} {mc : MemCost}
    (h : memoryExpansionCost c.memory.size off n = .ok mc) (Q) :
    Ok (memCost off n) c Q ↔ Q mc c := by
  apply ok_of_eq; unfold memCost; rw [h]

/-! ### The stack -/

/-- The stack with top slot `t`, as a list (top first). -/
def absStack (buf : Nat → U256) (t : Nat) : List U256 := (List.range (1024 - t)).map fun i => buf (t + i)

theorem absStack_length (buf : Nat → U256) (t : Nat) : (absStack buf t).length = 1024 - t := by
  simp [absStack]

theorem absStack_cons (buf : Nat → U256) (t : Nat) (h : t < 1024) :
    absStack buf t = buf t :: absStack buf (t + 1) := by
  unfold absStack
  rw [show 1024 - t = (1024 - (t + 1)) + 1 by omega, List.range_succ_eq_map]
  simp only [List.map_cons, List.map_map, Nat.add_zero, List.cons.injEq, true_and]
  apply List.map_congr_left
  intro x _
  simp only [Function.comp]
  congr 1; omega

theorem absStack_c2 (buf : Nat → U256) (t : Nat) (h : t + 2 ≤ 1024) :
    absStack buf t = buf t :: buf (t + 1) :: absStack buf (t + 2) := by
  rw [absStack_cons _ t (by omega), absStack_cons _ (t + 1) (by omega)]

theorem absStack_c3 (buf : Nat → U256) (t : Nat) (h : t + 3 ≤ 1024) :
    absStack buf t = buf t :: buf (t + 1) :: buf (t + 2) :: absStack buf (t + 3) := by
  rw [absStack_c2 _ t (by omega), absStack_cons _ (t + 2) (by omega)]

theorem absStack_c4 (buf : Nat → U256) (t : Nat) (h : t + 4 ≤ 1024) :
    absStack buf t = buf t :: buf (t + 1) :: buf (t + 2) :: buf (t + 3) :: absStack buf (t + 4) := by
  rw [absStack_c3 _ t (by omega), absStack_cons _ (t + 3) (by omega)]

theorem absStack_c6 (buf : Nat → U256) (t : Nat) (h : t + 6 ≤ 1024) :
    absStack buf t = buf t :: buf (t + 1) :: buf (t + 2) :: buf (t + 3) :: buf (t + 4) ::
      buf (t + 5) :: absStack buf (t + 6) := by
  rw [absStack_c4 _ t (by omega), absStack_c2 _ (t + 4) (by omega)]

theorem absStack_c7 (buf : Nat → U256) (t : Nat) (h : t + 7 ≤ 1024) :
    absStack buf t = buf t :: buf (t + 1) :: buf (t + 2) :: buf (t + 3) :: buf (t + 4) ::
      buf (t + 5) :: buf (t + 6) :: absStack buf (t + 7) := by
  rw [absStack_c6 _ t (by omega), absStack_cons _ (t + 6) (by omega)]

theorem absStack_congr {buf buf' : Nat → U256} {t : Nat} (h : ∀ i, t ≤ i → i < 1024 → buf i = buf' i) :
    absStack buf t = absStack buf' t := by
  unfold absStack
  apply List.map_congr_left
  intro x hx
  have := List.mem_range.1 hx
  exact h _ (by omega) (by omega)

theorem absStack_setBuf (buf : Nat → U256) (t n : Nat) (v : U256) (h : n < t) :
    absStack (setBuf buf n v) t = absStack buf t := by
  apply absStack_congr
  intro i hi _
  unfold setBuf; rw [if_neg (by omega)]

theorem absStack_push (buf : Nat → U256) (t : Nat) (v : U256) (h : t < 1024) :
    absStack (setBuf buf t v) t = v :: absStack buf (t + 1) := by
  rw [absStack_cons _ _ h, absStack_setBuf _ _ _ _ (by omega)]
  simp [setBuf]

theorem absStack_getElem? (buf : Nat → U256) (t i : Nat) (h : t + i < 1024) :
    (absStack buf t)[i]? = some (buf (t + i)) := by
  unfold absStack
  rw [List.getElem?_map, List.getElem?_range (by omega)]
  rfl

theorem absStack_getD (buf : Nat → U256) (t i : Nat) (h : t + i < 1024) :
    (absStack buf t).getD i 0 = buf (t + i) := by
  rw [List.getD_eq_getElem?_getD, absStack_getElem? _ _ _ h]; rfl

theorem absStack_drop (buf : Nat → U256) (t n : Nat) : (absStack buf t).drop n = absStack buf (t + n) := by
  apply List.ext_getElem?
  intro i
  rw [List.getElem?_drop]
  by_cases h : t + n + i < 1024
  · rw [absStack_getElem? _ _ _ h, absStack_getElem? _ _ _ (by omega)]
    congr 2; omega
  · rw [List.getElem?_eq_none (by rw [absStack_length]; omega),
      List.getElem?_eq_none (by rw [absStack_length]; omega)]

/-! ### Correspondence of states -/

/-- `RunState` of a specification status. -/
def runStateOf : Status → RunState
  | .running => .running
  | .stopped => .done
  | .returned => .ret
  | .reverted => .revert
  | .failed .invalidInstruction => .invalid
  | .failed .undefinedInstruction => .errorOpcode
  | .failed .outOfGas => .errorGas
  | .failed .stackUnderflow => .errorStackUnderflow
  | .failed .stackOverflow => .errorStackOverflow
  | .failed .badJumpDestination => .errorJump
  | .failed .invalidMemoryAccess => .errorReturnDataCopyOutOfBounds
  | .failed .callDepthExceeded => .errorCall
  | .failed .createDepthExceeded => .errorCreate
  | .failed .staticViolation => .errorStaticCall
  | .failed .initCodeTooLarge => .errorInitCodeSizeExceeded

/-- What stays fixed in the context of a frame. -/
structure Fixed (P : Params σ) (c : Ctx σ) : Prop where
  code : c.code = padCode P.code
  jumps : c.jumpTargets = calculateValidJumpTargets P.code
  msg : c.message = P.msg
  rev : c.revision = P.rev
  static : c.isStatic = P.msg.isStatic
  sha3 : ∀ s, c.sha3 = some s → Sha3Ok P.keccak s

/-- The context changes only where instructions may change it. -/
structure Frame (P : Params σ) (c c' : Ctx σ) : Prop where
  fixed : Fixed P c'
  top : c'.stack.top = c.stack.top
  pc : c'.pc = c.pc

/-- The specification state of a running frame. -/
def absState (c : Ctx σ) (t g pc : Nat) : State σ :=
  { status := .running, pc := pc, gas := g, refund := c.gasRefunds
    stack := absStack c.stack.buf t, mem := absMem c.memory, ret := c.returnData, host := c.world }

/-- A model outcome agrees with a specification state. -/
structure Rel (r : RunState) (pc : Option Nat) (gas top : Int) (c : Ctx σ) (s : State σ) : Prop where
  state : r = runStateOf s.status
  refund : c.gasRefunds = s.refund
  world : c.world = s.host
  failed : ∀ w, s.status = .failed w → s.gas = 0 ∧ s.ret = []
  stopped : s.status = .stopped → s.ret = []
  alive : (∀ w, s.status ≠ .failed w) → pc = some s.pc ∧ gas = s.gas ∧ s.mem = absMem c.memory ∧
    ∃ t : Nat, top = t ∧ t ≤ 1024 ∧ s.stack = absStack c.stack.buf t
  ret : (∀ w, s.status ≠ .failed w) → s.status ≠ .stopped → c.returnData = s.ret

/-- The state and gas `run` makes of a body's result (interpreter.cc:1990-2003). -/
def outcome (res : OpResult) (gas : Int) : RunState × Int :=
  if res.dynGas > 0 then
    if res.dynGas > gas then (.errorGas, 0) else (res.state, gas - res.dynGas)
  else (res.state, gas)

/-- What is to be shown about a body. -/
def Post (P : Params σ) (c : Ctx σ) (pc' : Nat) (g : Nat) (top' : Int) (s' : State σ)
    (res : OpResult) (c' : Ctx σ) : Prop :=
  Frame P c c' ∧ Rel (outcome res g).1 (some pc') (outcome res g).2 top' c' s'

theorem rel_fail {pc : Option Nat} {gas top : Int} {c : Ctx σ} {s : State σ} {why : Failure} {r : RunState}
    (hr : r = runStateOf (.failed why)) (h1 : c.gasRefunds = s.refund) (h2 : c.world = s.host) :
    Rel r pc gas top c (s.fail why) := by
  constructor
  · exact hr
  · exact h1
  · exact h2
  · intro w _; exact ⟨rfl, rfl⟩
  · intro h; simp [State.fail] at h
  · intro h; exact absurd rfl (h why)
  · intro h; exact absurd rfl (h why)

theorem rel_running {pc : Option Nat} {gas top : Int} {c : Ctx σ} {s : State σ} (t : Nat) (hs : s.status = .running)
    (h1 : c.gasRefunds = s.refund) (h2 : c.world = s.host) (h3 : pc = some s.pc) (h4 : gas = s.gas)
    (h5 : s.mem = absMem c.memory) (h6 : top = t) (h7 : t ≤ 1024)
    (h8 : s.stack = absStack c.stack.buf t) (h9 : c.returnData = s.ret) :
    Rel .running pc gas top c s := by
  constructor
  · rw [hs]; rfl
  · exact h1
  · exact h2
  · intro w h; rw [hs] at h; simp at h
  · intro h; rw [hs] at h; simp at h
  · intro _; exact ⟨h3, h4, h5, t, h6, h7, h8⟩
  · intro _ _; exact h9

theorem outcome_zero (st : RunState) (g : Int) : outcome { state := st } g = (st, g) := by
  simp [outcome]

theorem outcome_tooMuch (res : OpResult) (g : Nat) (h : (g : Int) < res.dynGas) :
    outcome res g = (.errorGas, 0) := by
  unfold outcome; rw [if_pos (by omega), if_pos (by omega)]

theorem outcome_enough (res : OpResult) (g : Nat) (h : res.dynGas ≤ g) (h0 : 0 ≤ res.dynGas) :
    outcome res g = (res.state, g - res.dynGas) := by
  unfold outcome
  split
  · rw [if_neg (by omega)]
  · simp; omega

/-- Bodies that keep the context's fixed part. -/
theorem Fixed.frame {P : Params σ} {c : Ctx σ} (h : Fixed P c) : Frame P c c := ⟨h, rfl, rfl⟩

end Tosca.Proofs

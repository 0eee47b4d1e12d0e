import Verif.Spec.GoStep
import Verif.Proofs.LfvmCtStack
import Verif.Proofs.LfvmCtMap
import Verif.Proofs.LfvmStack

/-!
# The long-form EVM: stepping
-/

namespace Tosca.Proofs.Lfvm

open Tosca.Spec Tosca.Spec.Go Tosca.Go Tosca.Model.Go Tosca.Model.Lfvm

variable {ω : Type} {E : Env ω} {rev : Revision} {code : List Byte} {C : Code}

/-- A position that only leads elsewhere. -/
def Leads (C : Code) (p : Nat) : Prop := ∃ a, C[p]? = some ⟨Op.JUMP_TO, a⟩

/-- One round of the loop. -/
theorem step_ct {p q : Nat} {l : St ω} {s : State ω} (hE : Setup E rev) (hc : E.params.code = code) (hC : E.code = C)
    (T : Targets false code C 0 0) (hcode : code.length ≤ 2 ^ 16) (h : Rel 0 p q l s) (L : Laid false code C p q) :
    (Leads C p ∧ Laid false code C q q ∧ ¬ Leads C q ∧ ∃ l', stepOnce E l = .ok .running l' ∧ Rel 0 q q l' s) ∨
      (¬ Leads C p ∧ Sim (Next false code C) (stepOnce E l) (stepEip (frameOf E rev) s)) := by
  have b256 : ∀ j, (byteAt code j).toNat ≠ Op.JUMP_TO := fun j h => by
    have := (byteAt code j).isLt
    rw [h] at this
    exact absurd this (by decide)
  have direct : ∀ {p q : Nat}, Laid false code C p q → ¬ p < q → ¬ Leads C p := by
    rintro p q L hlt ⟨a, ha⟩
    cases L with
    | done _ h => have := (List.getElem?_eq_some_iff.1 ha).1; omega
    | jumpTo h => exact hlt h
    | push _ _ _ _ h =>
      rw [ha] at h
      injection h with h
      injection h with h _
      exact absurd h (by show ¬ (256 : Nat) = _; omega)
    | pc _ _ h => rw [ha] at h; cases h
    | plain _ _ _ h =>
      rw [ha] at h
      injection h with h
      injection h with h _
      exact b256 _ h.symm
    | super h => cases h
  cases L with
  | done h1 h2 =>
    refine .inr ⟨fun ⟨a, ha⟩ => ?_, step_end hc hC h h1 (Nat.le_of_eq h2)⟩
    have := (List.getElem?_eq_some_iff.1 ha).1
    omega
  | jumpTo h1 h2 h3 h4 h5 => exact .inl ⟨⟨_, h4⟩, h5, direct h5 (Nat.lt_irrefl _), _, step_jumpTo hC h h4 (by omega), rel_lpc _ h⟩
  | push h0 h1 h2 h3 h4 h5 h6 h7 =>
    refine .inr ⟨fun ⟨a, ha⟩ => ?_, step_push hE hc hC h h1 h2 h3 h4 h5 h6 h7⟩
    rw [ha] at h4
    injection h4 with h4
    injection h4 with h4 _
    exact absurd h4 (by show ¬ (256 : Nat) = _; omega)
  | pc h1 h2 h3 h4 =>
    refine .inr ⟨fun ⟨a, ha⟩ => ?_, step_pc hE hc hC (by omega) h h2 h3 h4⟩
    rw [ha] at h3
    cases h3
  | plain h1 h2 h3 h4 h5 =>
    refine .inr ⟨fun ⟨a, ha⟩ => ?_, step_plain hE hc hC T hcode h h2 h3 h4 h5⟩
    rw [ha] at h4
    injection h4 with h4
    injection h4 with h4 _
    exact b256 _ h4.symm
  | super h => cases h

/-- How stepping leaves the context. -/
def Stepped (code : List Byte) (C : Code) (st : Model.Lfvm.Status) (l : St ω) (t : State ω) : Prop :=
  (st = .running ∧ ∃ p q : Nat, Match p q l t ∧ Laid false code C p q) ∨ (st = .failed ∧ Failed t) ∨ (st ≠ .running ∧ Done 0 0 st l t)

theorem stepLoop_over (E : Env ω) {st : Model.Lfvm.Status} (h : st ≠ .running) (n : Nat) (l : St ω) : stepLoop E n st l = some (st, l) := by
  cases n with
  | zero => rfl
  | succ n => unfold stepLoop; rw [if_neg h]

theorem stepLoop_ok (hE : Setup E rev) (hcall : CallFnOk (inRange rev E.call)) (hc : E.params.code = code) (hC : E.code = C) (T : Targets false code C 0 0) (hcode : code.length ≤ 2 ^ 16)
    (hops : ∀ i ∈ C, Op.decompose i.opcode = []) (n : Nat) : ∀ (l : St ω) (s : State ω) (p q : Nat), Wf (frameOf E rev) s →
      s.gas + memGas (Spec.words s.mem.size) ≤ 2 ^ 40 → Match p q l s → Laid false code C p q →
      ∃ st l' m, stepLoop E n .running l = some (st, l') ∧ SpOk l' ∧ m ≤ n ∧ n ≤ 2 * m + 1 ∧ (¬ Leads C p → n ≤ 2 * m) ∧
        Stepped code C st l' (stepsEip (frameOf E rev) m s) := by
  have hP : ParamsOk (frameOf E rev) := nativeFrame_ok E.hash E.db hcall hE.run rev
  have spOk : ∀ {l : St ω} {s : State ω} {p : Int} {q : Nat}, Match p q l s → SpOk l := fun hm => by
    have h1 := hm.sp
    have h2 := hm.limit
    exact ⟨by omega, by omega⟩
  induction n with
  | zero =>
    intro l s p q hw hb hm L
    exact ⟨.running, l, 0, rfl, spOk hm, Nat.le_refl _, by omega, fun _ => Nat.le_refl _, .inl ⟨rfl, p, q, hm, L⟩⟩
  | succ n ih =>
    intro l s p q hw hb hm L
    have h := hm.rel hb hw.ret
    have keep := keeps_stepOnce E (by rw [hC]; exact hops) l (spOk hm)
    unfold stepLoop
    rw [if_pos rfl]
    unfold executeOne
    rcases step_ct hE hc hC T hcode h L with ⟨hlead, L', hno, l', e, h'⟩ | ⟨hno, hs⟩
    · rw [e]
      obtain ⟨st, l2, m, e2, k1, k2, k3, k4, k5⟩ := ih l' s q q hw hb h'.match L'
      exact ⟨st, l2, m, e2, k1, by omega, by have := k4 hno; omega, fun hx => absurd hlead hx, k5⟩
    · -- the reference has ended
      have halted : (stepEip (frameOf E rev) s).status ≠ .running → stepsEip (frameOf E rev) (n + 1) s = stepEip (frameOf E rev) s :=
        fun hx => stepsEip_halted hx n
      cases e : stepOnce E l with
      | panic => rw [e] at hs; exact hs.elim
      | err l' =>
        rw [e] at hs keep
        obtain ⟨f, hf⟩ := hs
        refine ⟨.failed, l', n + 1, ?_, keep, Nat.le_refl _, by omega, fun _ => by omega, ?_⟩
        · exact stepLoop_over E (by intro h; cases h) n l'
        · rw [halted (by rw [hf]; simp)]
          exact .inr (.inl ⟨rfl, f, hf⟩)
      | ok st l' =>
        rw [e] at hs keep
        rcases hs with ⟨rfl, p', q', hm', L'⟩ | ⟨hst, hd⟩
        · have hnf : ∀ f, (stepEip (frameOf E rev) s).status ≠ .failed f := fun f hf => by
            have := hm'.status
            rw [hf] at this
            cases this
          obtain ⟨hpd, hwf⟩ := (stepsEip_bound hP 1 hw hm.status).2 hnf
          obtain ⟨st, l2, m, e2, k1, k2, k3, _, k5⟩ := ih l' _ p' q' hwf (Nat.le_trans hpd.pot hb) hm' L'
          exact ⟨st, l2, m + 1, e2, k1, by omega, by omega, fun _ => by omega, k5⟩
        · refine ⟨st, l', n + 1, stepLoop_over E hst n l', keep, Nat.le_refl _, by omega, fun _ => by omega, .inr (.inr ⟨hst, ?_⟩)⟩
          have hx : (stepEip (frameOf E rev) s).status ≠ .running := by
            cases st with
            | running => exact absurd rfl hst
            | failed => exact hd.elim
            | stopped => rw [hd.1]; simp
            | selfDestructed => rw [hd.1]; simp
            | returned => rw [hd.1]; simp
            | reverted => rw [hd.1]; simp
          rw [halted hx]
          exact hd

/-! ## The conversions -/

theorem pushAll_ok : ∀ (vs : List U256) (data : Nat → U256) (sp : Nat) (done : List U256), sp = done.length → words' data sp = done → done.length + vs.length ≤ 1024 →
    ∃ data', pushAll vs data sp = some (data', sp + vs.length) ∧ words' data' (sp + vs.length) = vs.reverse ++ done
  | [], data, sp, done, hsp, h, _ => ⟨data, rfl, h⟩
  | v :: r, data, sp, done, hsp, h, hl => by
    have hl : done.length + (r.length + 1) ≤ 1024 := hl
    unfold pushAll
    rw [if_pos (by omega)]
    obtain ⟨d', e, hd⟩ := pushAll_ok r (fun j => if j = sp then v else data j) (sp + 1) (v :: done) (by rw [hsp]; rfl) (by
      show (if sp = sp then v else data sp) :: words' _ sp = v :: done
      rw [if_pos rfl, ← h]
      congr 1
      exact words'_congr fun i hi => if_neg (by omega)) (by show done.length + 1 + r.length ≤ 1024; omega)
    refine ⟨d', ?_, ?_⟩
    · rw [e]
      show some (d', sp + 1 + r.length) = some (d', sp + (r.length + 1))
      rw [show sp + 1 + r.length = sp + (r.length + 1) by omega]
    · show words' d' (sp + (r.length + 1)) = (v :: r).reverse ++ done
      rw [show sp + (r.length + 1) = sp + 1 + r.length by omega, hd, List.reverse_cons, List.append_assoc]
      rfl

theorem range_words' (data : Nat → U256) (n : Nat) : ((List.range n).map data).reverse = words' data n := by
  induction n with
  | zero => rfl
  | succ n ih =>
    rw [List.range_succ, List.map_append, List.reverse_append, ih]
    rfl

theorem ctStack_ok {l : St ω} (h : SpOk l) : ctStack l.data l.sp = some (words' l.data l.sp.toNat) := by
  unfold ctStack
  rw [if_pos (show 0 ≤ l.sp ∧ l.sp ≤ 1024 from h), range_words']

/-- The frame a running test state stands for, seen from the interpreter: behind the end of the code, program counters do not matter. -/
structure Stands (code : List Byte) (c : CtState ω) (t : State ω) : Prop where
  status : t.status = .running
  gas : c.gas = t.gas
  refund : c.refund = t.refund
  stack : c.stack = t.stack
  size : t.mem.size = 32 * Spec.words c.memory.length
  mem : ∀ i, byteAt c.memory i = t.mem.get i
  ret : c.lastCallReturnData = t.ret
  world : c.world = t.host
  pc : c.pc.toNat = t.pc ∨ (code.length ≤ c.pc.toNat ∧ code.length ≤ t.pc)

theorem stands_frame (code : List Byte) {c : CtState ω} (hg : 0 ≤ c.gas) : Stands code c (frameState c) :=
  ⟨rfl, (Int.toNat_of_nonneg hg).symm, rfl, rfl, rfl, fun _ => rfl, rfl, rfl, .inl rfl⟩

/-- The context stepping starts with. -/
theorem start_match {c : CtState ω} {t : State ω} {data : Nat → U256} {p : Nat} (h : Stands code c t) (hs : c.stack.length ≤ 1024)
    (hd : words' data c.stack.length = c.stack) (hr : -2 ^ 63 ≤ c.refund ∧ c.refund < 2 ^ 63) :
    Match (p : Int) t.pc
      ({ pc := (p : Int), gas := c.gas, refund := c.refund, data := data, sp := (c.stack.length : Nat)
         store := c.memory ++ List.replicate (wordsOf c.memory.length * 32 - c.memory.length) 0
         memCost := (wordsOf c.memory.length * wordsOf c.memory.length / 512 + 3 * wordsOf c.memory.length : Nat)
         returnData := c.lastCallReturnData, world := c.world } : St ω) t := by
  have hw : wordsOf c.memory.length = Spec.words c.memory.length := rfl
  have hsz : Spec.words (32 * Spec.words c.memory.length) = Spec.words c.memory.length := by unfold Spec.words; omega
  refine ⟨h.status, rfl, rfl, h.gas, ?_, ?_, ?_, ?_, ?_, fun i => ?_, ?_, ?_, h.ret, h.world⟩
  · show c.refund = i64 t.refund
    rw [← h.refund]
    exact (i64_id hr.1 hr.2).symm
  · show ((c.stack.length : Nat) : Int) = (t.stack.length : Nat)
    rw [h.stack]
  · show words' data t.stack.length = t.stack
    rw [← h.stack]; exact hd
  · rw [← h.stack]; exact hs
  · show (c.memory ++ List.replicate (wordsOf c.memory.length * 32 - c.memory.length) (0 : Byte)).length = t.mem.size
    rw [List.length_append, List.length_replicate, hw, h.size]
    unfold Spec.words
    omega
  · show byteAt (c.memory ++ List.replicate (wordsOf c.memory.length * 32 - c.memory.length) (0 : Byte)) i = t.mem.get i
    rw [← h.mem i]
    unfold byteAt
    rw [List.getD_eq_getElem?_getD, List.getD_eq_getElem?_getD]
    by_cases hi : i < c.memory.length
    · rw [List.getElem?_append_left hi]
    · rw [List.getElem?_append_right (by omega), List.getElem?_eq_none (l := c.memory) (by omega), List.getElem?_replicate]
      split <;> rfl
  · rw [h.size]; omega
  · show ((_ : Nat) : Int) = ((memGas (Spec.words t.mem.size) : Nat) : Int)
    rw [h.size, hsz, hw]
    unfold memGas
    congr 1
    omega

theorem mem_read {store : List Byte} {t : State ω} (hs : store.length = t.mem.size) (hm : ∀ i, byteAt store i = t.mem.get i) :
    store = t.mem.read 0 t.mem.size := by
  unfold Mem.read
  apply List.ext_getElem
  · simp [hs]
  · intro i h1 h2
    rw [List.getElem_map, List.getElem_range, Nat.zero_add, ← hm i]
    unfold byteAt
    rw [List.getD_eq_getElem?_getD, List.getElem?_eq_getElem h1]
    rfl

/-- The steps of the reference do not depend on answers to calls out of range. -/
theorem steps_range (keccak : List Byte → U256) (db : Db ω) {call : CallFn ω} {p : Parameters} {rev : Revision} (hc : CallFnOk call) (hp : RunOk p)
    (hr : revisionOf p.block.revision = some rev) {s : State ω} (hw : Wf (nativeFrame keccak db call p rev) s) (hg : s.gas ≤ 2 ^ 40) (n : Nat) :
    stepsEip (nativeFrame keccak db (inRange rev call) p rev) n s = stepsEip (nativeFrame keccak db call p rev) n s := by
  have hrv : revOf p = rev := by
    unfold revisionOf at hr
    split at hr
    · injection hr
    · cases hr
  have hP := nativeFrame_ok keccak db hc hp rev
  have hsm : SmallAgree rev (inRange rev call) call := smallAgree_inRange call
  have hag : AgreeSmall (nativeFrame keccak db call p rev).rev (nativeFrame keccak db call p rev).host.call
      (Spec.Go.host failures db (inRange rev call) p).call := by
    intro m w h0 h1 h2
    show (if m.input.length ≤ 2 ^ 30 then _ else _) = (if m.input.length ≤ 2 ^ 30 then _ else _)
    by_cases hl : m.input.length ≤ 2 ^ 30
    · rw [if_pos hl, if_pos hl, hsm (kindOf m) (paramsOf m) w ⟨⟨h0, h1⟩, fun hs hk => h2 hs (kindOf_create hk)⟩ hl]
    · rw [if_neg hl, if_neg hl]
  exact stepsEip_agree (P := nativeFrame keccak db call p rev) hP hag n hw hg

/-- The state `StepN` returns shows the frame. -/
theorem shows_ok {p : Parameters} {c : CtState ω} {C : Code} {m : PcMap} (hmap : MapOk p.code C m) (hcode : p.code.length ≤ 49152)
    {st : Model.Lfvm.Status} {l : St ω} {t : State ω} (hsp : SpOk l) (hr : -2 ^ 63 ≤ t.refund ∧ t.refund < 2 ^ 63) (h : Stepped p.code C st l t) :
    ∃ c', ((if st = .running then (if 0 ≤ l.pc then m.lfvmToEvm[l.pc.toNat]? else none) else some c.pc).bind fun pc =>
      (ctStack l.data l.sp).map fun stack =>
      (({ status := ctStatus st, pc := pc, gas := l.gas, refund := l.refund, stack := stack, memory := l.store
          lastCallReturnData := l.returnData
          returnData := if st = .returned ∨ st = .reverted then l.returnData else c.returnData
          world := l.world } : CtState ω), (none : Option Err))) = some (c', none) ∧ Shows p.code c c' t ∧
      (t.status = .running → Stands p.code c' t ∧ c'.pc.toNat ≤ p.code.length) := by
  have h64 : i64 t.refund = t.refund := i64_id hr.1 hr.2
  rw [ctStack_ok hsp]
  rcases h with ⟨rfl, a, q, hm, L⟩ | ⟨rfl, f, hf⟩ | ⟨hst, hd⟩
  · rw [if_pos rfl, if_pos (by rw [hm.pc]; exact Int.natCast_nonneg _), hm.pc, Int.toNat_natCast, hmap.back a q L]
    have hpc : (BitVec.ofNat 16 (min q p.code.length)).toNat = min q p.code.length := by
      rw [BitVec.toNat_ofNat, Nat.mod_eq_of_lt (by omega)]
    have hst : words' l.data l.sp.toNat = t.stack := by rw [hm.sp, Int.toNat_natCast, hm.stack]
    have hpos : (BitVec.ofNat 16 (min q p.code.length)).toNat = t.pc ∨ p.code.length ≤ (BitVec.ofNat 16 (min q p.code.length)).toNat ∧ p.code.length ≤ t.pc := by
      rw [hpc, hm.pc']
      omega
    refine ⟨_, rfl, ?_, fun _ => ⟨⟨hm.status, hm.gas, hm.refund.trans h64, hst, ?_, hm.mem, hm.ret, hm.world, hpos⟩, ?_⟩⟩
    · unfold Shows
      rw [hm.status]
      exact ⟨rfl, hm.gas, hm.refund.trans h64, hm.world, hst, mem_read hm.size hm.mem, hm.ret, rfl, hpos⟩
    · show t.mem.size = 32 * Spec.words l.store.length
      rw [hm.size]
      have := hm.aligned
      unfold Spec.words
      omega
    · show (BitVec.ofNat 16 (min q p.code.length)).toNat ≤ _
      rw [hpc]; omega
  · rw [if_neg (by intro h; cases h)]
    refine ⟨_, rfl, ?_, fun h => (by rw [hf] at h; cases h)⟩
    unfold Shows
    rw [hf]
    rfl
  · rw [if_neg hst]
    refine ⟨_, rfl, ?_, fun h => ?_⟩
    on_goal 2 =>
      exfalso
      cases st with
      | running => exact hst rfl
      | failed => exact hd
      | stopped => have := hd.1; rw [h] at this; cases this
      | selfDestructed => have := hd.1; rw [h] at this; cases this
      | returned => have := hd.1; rw [h] at this; cases this
      | reverted => have := hd.1; rw [h] at this; cases this
    unfold Shows
    cases st with
    | running => exact absurd rfl hst
    | failed => exact hd.elim
    | stopped =>
      obtain ⟨h1, h2, h3, h4, h5⟩ := hd
      rw [h1]
      exact ⟨rfl, h3, h4.trans h64, h5, rfl⟩
    | selfDestructed =>
      obtain ⟨h1, h2, h3, h4, h5⟩ := hd
      rw [h1]
      exact ⟨rfl, h3, h4.trans h64, h5, rfl⟩
    | returned =>
      obtain ⟨h1, h2, h3, h4, h5⟩ := hd
      rw [h1]
      exact ⟨rfl, h3, h4.trans h64, h5, h2⟩
    | reverted =>
      obtain ⟨h1, h2, h3, h4, h5⟩ := hd
      rw [h1]
      exact ⟨rfl, h3, h4.trans h64, h5, h2⟩

/-- The frame a test state stands for is one the reference handles. -/
theorem frame_wf {keccak : List Byte → U256} {db : Db ω} {call call' : CallFn ω} {p : Parameters} {f : CtFound} {c : CtState ω} (rev : Revision)
    (h : StepSetting keccak db call p f c) : Wf (nativeFrame keccak db call' p rev) (frameState c) := by
  have hsz : Spec.words (32 * Spec.words c.memory.length) = Spec.words c.memory.length := by unfold Spec.words; omega
  have hg := h.gas
  have hr := h.refund
  have hn : ((c.gas.toNat : Nat) : Int) = c.gas := Int.toNat_of_nonneg hg.1
  refine ⟨h.stack, ?_, ?_, ?_, ?_, ?_, fun _ => ?_⟩
  · show 32 * Spec.words c.memory.length % 32 = 0
    omega
  · show c.gas.toNat + memGas (Spec.words (32 * Spec.words c.memory.length)) ≤ 2 ^ 54
    rw [hsz]
    exact Nat.le_trans hg.2 (by decide)
  · show c.refund + 199 * (c.gas.toNat : Int) ≤ _
    rw [hn]; exact hr.1
  · show _ ≤ c.refund - 199 * (c.gas.toNat : Int)
    rw [hn]; exact hr.2
  · exact h.returned
  · show c.pc.toNat ≤ p.code.length + 32
    have := h.pc
    omega

theorem stepN_ok {keccak : List Byte → U256} {db : Db ω} {call : CallFn ω} {p : Parameters} {f : CtFound} {c : CtState ω} {rev : Revision}
    (h : StepSetting keccak db call p f c) (hrev : revisionOf p.block.revision = some rev) (n : Nat) {t : State ω} (hs : Stands p.code c t)
    (hw : Wf (nativeFrame keccak db call p rev) t) :
    ∃ m c', m ≤ n ∧ n ≤ 2 * m ∧ stepN f db call p c n = some (c', none) ∧
      Shows p.code c c' (stepsEip (nativeFrame keccak db call p rev) m t) ∧
      ((stepsEip (nativeFrame keccak db call p rev) m t).status = .running →
        Stands p.code c' (stepsEip (nativeFrame keccak db call p rev) m t) ∧ c'.pc.toNat ≤ p.code.length) := by
  obtain ⟨C, map, hC, hM, L, T, hmap⟩ := genPcMap_ok h.code
  have hcc : convertCached p.code false f.cached = some C := by
    unfold convertCached
    cases hcf : f.cached with
    | none => exact hC
    | some C' => dsimp only; rw [← h.found.cached C' hcf, hC]
  have hcm : getPcMap p.code f.map = some map := by
    unfold getPcMap
    cases hcf : f.map with
    | none => exact hM
    | some m' => dsimp only; rw [← h.found.map m' hcf, hM]
  obtain ⟨a, ha, La, hlt, hno⟩ := hmap.there c.pc.toNat h.pc
  have La : Laid false p.code C a t.pc := by
    rcases hs.pc with e | ⟨e1, e2⟩
    · rw [← e]; exact La
    · refine .done e2 ?_
      cases La with
      | done _ h => exact h
      | super h => cases h
      | _ => omega
  obtain ⟨data, hpush, hdata⟩ := pushAll_ok c.stack.reverse f.data 0 [] rfl rfl (by
    have := h.stack
    rw [List.length_reverse]
    show 0 + c.stack.length ≤ 1024
    omega)
  rw [List.length_reverse, List.reverse_reverse, List.append_nil, Nat.zero_add] at hdata
  rw [List.length_reverse, Nat.zero_add] at hpush
  have hg := h.gas
  have hr := h.refund
  have hE : Setup ({ db := db, call := call, params := p, code := C, hash := keccak } : Env ω) rev :=
    ⟨gasKept (inRange_ok h.call), hrev, h.run, h.access, h.lengths, h.input⟩
  have hw' : Wf (frameOf ({ db := db, call := call, params := p, code := C, hash := keccak } : Env ω) rev) t :=
    ⟨hw.stack, hw.memAligned, hw.gas, hw.refundHi, hw.refundLo, hw.ret, hw.pc⟩
  have hm := start_match (data := data) (p := a) hs h.stack hdata ⟨by omega, by omega⟩
  have hsz : Spec.words (32 * Spec.words c.memory.length) = Spec.words c.memory.length := by unfold Spec.words; omega
  have hgt : t.gas = c.gas.toNat := by have := hs.gas; omega
  obtain ⟨st, l', m, e, hsp, k1, _, k3, hstep⟩ := stepLoop_ok hE (inRange_ok h.call) rfl rfl T (by have := h.code; show p.code.length ≤ _; omega) hmap.opcodes n _ _ a t.pc hw' (by
    rw [hs.size, hsz, hgt]; exact hg.2) hm La
  have hagree := steps_range keccak db h.call h.run hrev hw (show t.gas ≤ 2 ^ 40 by omega) m
  have hstep : Stepped p.code C st l' (stepsEip (nativeFrame keccak db call p rev) m t) := by rw [← hagree]; exact hstep
  have hP := nativeFrame_ok keccak db h.call h.run rev
  have hb := (stepsEip_bound hP m hw hs.status).1
  have b1 := hb.hi
  have b2 := hb.lo
  rw [← hs.refund, ← hs.gas] at b1 b2
  obtain ⟨c', e', hsh⟩ := shows_ok (c := c) hmap h.code hsp (by constructor <;> omega) hstep
  refine ⟨m, c', k1, k3 (fun ⟨x, hx⟩ => hno x hx), ?_, hsh⟩
  unfold stepN
  rw [if_neg (by have := h.revision.2; omega), if_neg (by rw [h.status]; simp), hcc, hcm, h.found.hash]
  dsimp only [Option.bind_some]
  rw [ha, hpush]
  dsimp only [Option.bind_some]
  rw [BitVec.toNat_ofNat, Nat.mod_eq_of_lt hlt, show ((wordsOf c.memory.length : Nat) : Int) * (wordsOf c.memory.length : Nat) / 512 + 3 * (wordsOf c.memory.length : Nat) =
    ((wordsOf c.memory.length * wordsOf c.memory.length / 512 + 3 * wordsOf c.memory.length : Nat) : Int) by
      rw [Int.natCast_add, Int.natCast_ediv, Int.natCast_mul, Int.natCast_mul]; rfl, e]
  exact e'

/-- Stepping can go on. -/
theorem setting_next {keccak : List Byte → U256} {db : Db ω} {call : CallFn ω} {p : Parameters} {f : CtFound} {c c' : CtState ω} {t t' : State ω} {rev : Revision}
    (h : StepSetting keccak db call p f c) (hs : Stands p.code c t) (hw : Wf (nativeFrame keccak db call p rev) t)
    (ht : t' = stepEip (nativeFrame keccak db call p rev) t) (hb : p.code.length ≤ t.pc ∨ Boundary p.code t.pc) (hr : t'.status = .running) (hs' : Stands p.code c' t')
    (hpc : c'.pc.toNat ≤ p.code.length) (hst : c'.status = .running) :
    StepSetting keccak db call p f c' ∧ Wf (nativeFrame keccak db call p rev) t' ∧ Boundary p.code t'.pc := by
  have hP := nativeFrame_ok keccak db h.call h.run rev
  have hsz : ∀ n, Spec.words (32 * Spec.words n) = Spec.words n := by intro n; unfold Spec.words; omega
  have hnf : ∀ f, t'.status ≠ .failed f := fun f hf => by rw [hf] at hr; cases hr
  have hu : Used t t' ∧ Paid t t' ∧ Wf (nativeFrame keccak db call p rev) t' := by
    have := stepsEip_bound hP 1 hw hs.status
    rw [show stepsEip (nativeFrame keccak db call p rev) 1 t = t' from ht.symm] at this
    exact ⟨this.1, this.2 hnf⟩
  obtain ⟨hu, hp, hw'⟩ := hu
  have hbd : Boundary p.code t'.pc := by
    rcases hb with hb | hb
    · exfalso
      rw [ht] at hr
      rcases stepEip_cases t hs.status hw with ⟨f, hf⟩ | ⟨i, hd, _, _, _, he⟩
      · rw [hf] at hr; cases hr
      · have hz : byteAt (nativeFrame keccak db call p rev).code t.pc = 0 := byteAt_end hb
        rw [hz] at hd
        have hi : i = .stop := by
          have : decode (0 : Byte).toNat = some .stop := by decide
          rw [this] at hd; simpa using hd.symm
        subst hi
        rw [he] at hr
        simp [execEip, exec] at hr
    · rw [ht]
      exact stepEip_boundary hP hw hs.status hb (by rw [← ht]; exact hr)
  have hgas := h.gas
  have hre := h.refund
  have b1 := hu.hi
  have b2 := hu.lo
  have b3 := hp.pot
  have hg : t.gas = c.gas.toNat := by have := hs.gas; omega
  have hg' : t'.gas = c'.gas.toNat := by have := hs'.gas; omega
  rw [hs.size, hs'.size, hsz, hsz, hg, hg'] at b3
  rw [← hs.refund, ← hs.gas, ← hs'.refund, ← hs'.gas] at b1 b2
  refine ⟨⟨h.call, h.access, h.lengths, h.run, h.input, h.code, h.revision, hst, ?_, ⟨?_, Nat.le_trans b3 hgas.2⟩, ⟨by omega, by omega⟩, ?_, ?_, h.found⟩, hw', hbd⟩
  · rcases hs'.pc with e | ⟨e1, e2⟩
    · by_cases hlt : c'.pc.toNat < p.code.length
      · exact .inr ⟨by rw [e]; exact hbd, hlt⟩
      · exact .inl (by omega)
    · exact .inl (by omega)
  · have := hs'.gas; omega
  · rw [hs'.stack]; exact hw'.stack
  · rw [hs'.ret]; exact hw'.ret

theorem setting_found {keccak : List Byte → U256} {db : Db ω} {call : CallFn ω} {p : Parameters} {f f' : CtFound} {c : CtState ω}
    (h : StepSetting keccak db call p f c) (hf : StepFound keccak p f') : StepSetting keccak db call p f' c :=
  ⟨h.call, h.access, h.lengths, h.run, h.input, h.code, h.revision, h.status, h.pc, h.gas, h.refund, h.stack, h.returned, hf⟩

/-- An ended state stays. -/
theorem walk_over {keccak : List Byte → U256} (db : Db ω) (call : CallFn ω) {p : Parameters} (hr : p.block.revision ≤ 5) {c : CtState ω} (hc : c.status ≠ .running) :
    ∀ fs : List CtFound, (∀ f ∈ fs, StepFound keccak p f) → walk db call p fs c = some c
  | [], _ => rfl
  | f :: r, h => by
    unfold walk stepN
    rw [if_neg (by omega), if_pos hc]
    exact walk_over db call hr hc r fun f hf => h f (List.mem_cons_of_mem _ hf)

theorem shows_status {code : List Byte} {b c : CtState ω} {t : State ω} (h : Shows code b c t) : c.status = .running ↔ t.status = .running := by
  unfold Shows at h
  cases ht : t.status with
  | failed f => rw [ht] at h; dsimp only at h; rw [h]; simp
  | running => rw [ht] at h; rw [h.1]; simp
  | stopped => rw [ht] at h; rw [h.1]; simp
  | returned => rw [ht] at h; rw [h.1]; simp
  | reverted => rw [ht] at h; rw [h.1]; simp

theorem shows_before {code : List Byte} {b b' c : CtState ω} {t : State ω} (hb : b'.returnData = b.returnData) (h : Shows code b' c t) : Shows code b c t := by
  unfold Shows at h ⊢
  cases ht : t.status with
  | failed f => rw [ht] at h; exact h
  | running => rw [ht] at h; rw [← hb]; exact h
  | stopped => rw [ht] at h; rw [← hb]; exact h
  | returned => rw [ht] at h; exact h
  | reverted => rw [ht] at h; exact h

theorem walk_ok {keccak : List Byte → U256} {db : Db ω} {call : CallFn ω} {p : Parameters} {rev : Revision} (hrev : revisionOf p.block.revision = some rev) :
    ∀ (fs : List CtFound), (∀ f ∈ fs, StepFound keccak p f) → ∀ {f : CtFound} {c : CtState ω} {t : State ω}, StepSetting keccak db call p f c → Stands p.code c t →
      Wf (nativeFrame keccak db call p rev) t → p.code.length ≤ t.pc ∨ Boundary p.code t.pc →
      c.memory.length = t.mem.size ∨ fs ≠ [] → ∃ c', walk db call p fs c = some c' ∧ Shows p.code c c' (stepsEip (nativeFrame keccak db call p rev) fs.length t)
  | [], _, f, c, t, h, hs, hw, _, ha => by
    refine ⟨c, rfl, ?_⟩
    show Shows p.code c c t
    unfold Shows
    rw [hs.status]
    exact ⟨h.status, hs.gas, hs.refund, hs.world, hs.stack, mem_read (ha.resolve_right fun h => h rfl) hs.mem, hs.ret, rfl, hs.pc⟩
  | f' :: r, hf, f, c, t, h, hs, hw, hb, _ => by
    have h := setting_found h (hf f' List.mem_cons_self)
    have hf := fun f hr => hf f (List.mem_cons_of_mem f' hr)
    obtain ⟨m, c', h1, h2, e, hsh, hrun⟩ := stepN_ok h hrev 1 hs hw
    have hm : m = 1 := by omega
    subst hm
    unfold walk
    rw [e]
    dsimp only
    show ∃ c'', _ ∧ Shows p.code c c'' (stepsEip _ r.length (stepsEip _ 1 t))
    have hone : stepsEip (nativeFrame keccak db call p rev) 1 t = stepEip (nativeFrame keccak db call p rev) t := rfl
    by_cases hr : (stepsEip (nativeFrame keccak db call p rev) 1 t).status = .running
    · obtain ⟨hs', hpc⟩ := hrun hr
      obtain ⟨h', hw', hb'⟩ := setting_next h hs hw hone hb hr hs' hpc ((shows_status hsh).2 hr)
      obtain ⟨c'', e', hsh'⟩ := walk_ok hrev r hf h' hs' hw' (.inr hb') (.inl (by
        unfold Shows at hsh
        rw [hr] at hsh
        rw [hsh.2.2.2.2.2.1]
        unfold Mem.read
        simp))
      refine ⟨c'', e', shows_before ?_ hsh'⟩
      unfold Shows at hsh
      rw [hr] at hsh
      exact hsh.2.2.2.2.2.2.2.1
    · refine ⟨c', walk_over db call h.revision.2 (fun hc => hr ((shows_status hsh).1 hc)) r hf, ?_⟩
      cases hl : r.length with
      | zero => exact hsh
      | succ n =>
        rw [stepsEip_halted hr (n + 1)]
        exact hsh

end Tosca.Proofs.Lfvm

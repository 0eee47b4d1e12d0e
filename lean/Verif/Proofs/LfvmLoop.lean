import Verif.Proofs.LfvmPush

/-!
# The long-form EVM: one step for one instruction, at any place of the code
-/

namespace Tosca.Proofs.Lfvm

open Tosca.Spec Tosca.Spec.Go Tosca.Go Tosca.Model.Go Tosca.Model.Lfvm

variable {ws : Bool} {ω : Type} {E : Env ω} {rev : Revision} {p : Int} {q k : Nat} {l : St ω} {s : State ω}

/-- What holds after a step. -/
def Next (ws : Bool) (code : List Byte) (C : Code) (st : Model.Lfvm.Status) (l : St ω) (t : State ω) : Prop :=
  (st = .running ∧ ∃ p q : Nat, Match p q l t ∧ Laid ws code C p q) ∨ (st ≠ .running ∧ Done 0 0 st l t)

theorem done_ended {p' : Int} {q' : Nat} {st : Model.Lfvm.Status} {l : St ω} {t : State ω} (hst : st ≠ .running) (h : Done p q st l t) (x : Int) :
    Done p' q' st { l with pc := x } t := by
  cases st with
  | running => exact absurd rfl hst
  | failed => exact h
  | _ => exact h

theorem next_of {code : List Byte} {C : Code} {p' : Nat} {st : Model.Lfvm.Status} {t : State ω} (hp : (p' : Int) = p + 1) (L : Laid ws code C p' q)
    (h : Moved (Done p q) st l t) : Next ws code C st l t := by
  obtain ⟨l0, h0, rfl⟩ := h
  by_cases hst : st = .running
  · subst hst
    refine .inl ⟨rfl, p', q, ?_, L⟩
    have h0' : Match p q l0 t := h0
    have := match_lpc (p + 1) h0'
    rw [hp, h0'.pc]
    exact this
  · exact .inr ⟨hst, done_ended hst h0 _⟩

theorem farJump_iff (v : U256) : farJump v = true ↔ 2147483647 < v.toNat := by
  unfold farJump
  rw [Bool.or_eq_true, Bool.not_eq_true', decide_eq_true_iff, isUint64_false, uint64_toNat]
  omega

theorem near {d : Nat} (h : d ≤ 2147483647) : Int.bmod (d : Int) (2 ^ 32) = d :=
  Int.bmod_eq_of_le (by omega) (by omega)

/-- A context about to go to `d`. -/
def Landed (ws : Bool) (code : List Byte) (C : Code) (l : St ω) (t : State ω) : Prop := ∃ d : Nat, Match ((d : Int) - 1) d l t ∧ Laid ws code C d d

theorem sim_goto {code : List Byte} {C : Code} {dest : U256} {k : Nat} (hc : E.params.code = code) (hC : E.code = C) (T : Targets ws code C 0 0)
    (hcode : code.length ≤ 2 ^ 16) (h : Rel 0 p k l s) :
    Sim (fun _ => Landed ws code C) ((if farJump dest = true then error else setPc ((uint64 dest).toNat - 1) >>= fun _ => checkJumpDest E : M ω Unit) l)
      (jumpTo (frameOf E rev) dest s) := by
  have hfc : (frameOf E rev).code = code := hc
  unfold jumpTo
  rw [hfc]
  by_cases hf : farJump dest = true
  · rw [if_pos hf]
    have := (farJump_iff dest).1 hf
    rw [if_neg (fun ht => by obtain ⟨h1, _⟩ := ht; omega)]
    exact failed_fail _ _
  · rw [if_neg hf]
    have hd : ¬ 2147483647 < dest.toNat := fun hx => hf ((farJump_iff dest).2 hx)
    have hu : (uint64 dest).toNat = dest.toNat := by rw [uint64_toNat, Nat.mod_eq_of_lt (by omega)]
    rw [hu]
    rw [bind_ok (show (setPc ((dest.toNat : Int) - 1) : M ω Unit) l = .ok () { l with pc := (dest.toNat : Int) - 1 } from rfl)]
    unfold checkJumpDest
    rw [bind_ok (show (getSt : M ω _) { l with pc := (dest.toNat : Int) - 1 } = .ok _ _ from rfl)]
    dsimp only
    rw [show (dest.toNat : Int) - 1 + 1 = dest.toNat from by omega, near (by omega), hC]
    by_cases ht : JumpTarget code dest.toNat
    · obtain ⟨hl, a, ha⟩ := T.complete dest.toNat (Nat.zero_le _) ht
      have hlt : dest.toNat < C.length := (List.getElem?_eq_some_iff.1 ha).1
      rw [if_neg (by omega), if_pos (by omega), if_pos ht]
      rw [show ((dest.toNat : Int)).toNat = dest.toNat from rfl, List.getD_eq_getElem?_getD, ha]
      rw [if_pos (show (Option.getD (some (⟨Op.JUMPDEST, a⟩ : Instruction)) {}).opcode = Op.JUMPDEST from rfl)]
      exact ⟨dest.toNat, (rel_pc dest.toNat (rel_lpc ((dest.toNat : Int) - 1) h)).match, hl⟩
    · rw [if_neg ht]
      by_cases hlt : dest.toNat < C.length
      · rw [if_neg (by omega), if_pos (by omega), if_neg]
        · exact failed_fail _ _
        · rw [show ((dest.toNat : Int)).toNat = dest.toNat from rfl, List.getD_eq_getElem?_getD, List.getElem?_eq_getElem hlt]
          intro hx
          have hx : (C[dest.toNat]).opcode = Op.JUMPDEST := hx
          exact ht (T.sound dest.toNat (C[dest.toNat]).arg (Nat.zero_le _) (by rw [List.getElem?_eq_getElem hlt, ← hx]))
      · rw [if_pos (by omega)]
        exact failed_fail _ _

/-- The end of the code. -/
theorem step_end {code : List Byte} {C : Code} {p : Nat} (hc : E.params.code = code) (hC : E.code = C) (h : Rel 0 p q l s)
    (hq : code.length ≤ q) (hp : C.length ≤ p) : Sim (Next ws code C) (stepOnce E l) (stepEip (frameOf E rev) s) := by
  have e : stepOnce E l = .ok .stopped l := by
    unfold stepOnce
    rw [bind_ok (show (getSt : M ω _) l = .ok l l from rfl), if_pos (by rw [h.pc, hC]; omega)]
    rfl
  rw [e]
  have hb : byteAt (frameOf E rev).code s.pc = 0 := by
    show byteAt E.params.code s.pc = 0
    unfold byteAt
    rw [hc, h.pc', List.getD_eq_getElem?_getD, List.getElem?_eq_none hq]; rfl
  have e2 : stepEip (frameOf E rev) s = { s with pc := s.pc + 1, status := .stopped, ret := [] } := by
    unfold stepEip
    rw [if_pos h.status, hb]
    show execInstrEip (frameOf E rev) .stop s = _
    have hlim := h.limit
    unfold execInstrEip
    rw [if_neg (show ¬ (frameOf E rev).rev < Instr.since .stop from Nat.not_lt_zero _),
      if_neg (show ¬ (Instr.writes .stop = true ∧ (frameOf E rev).msg.isStatic = true) from fun hx => by cases hx.1),
      if_neg (show ¬ s.stack.length < Instr.pops .stop from Nat.not_lt_zero _),
      if_neg (by show ¬ s.stack.length + 0 > 1024 + 0; omega)]
    rw [charge_rich _ _ _ (show ¬ s.gas < Instr.baseGas .stop from Nat.not_lt_zero _)]
    rfl
  rw [e2]
  exact .inr ⟨(by intro hx; cases hx), rfl, rfl, h.gas, h.refund, h.world⟩

/-- JUMP_TO: the reference does not move. -/
theorem step_jumpTo {C : Code} {p : Nat} {a : Nat} (hC : E.code = C) (h : Rel 0 p q l s) (hi : C[p]? = some ⟨Op.JUMP_TO, BitVec.ofNat 16 a⟩)
    (ha : a < 2 ^ 16) : stepOnce E l = .ok .running { l with pc := a } := by
  have hi' : E.code[p]? = some ⟨Op.JUMP_TO, BitVec.ofNat 16 a⟩ := by rw [hC]; exact hi
  have hj : p < E.code.length := (List.getElem?_eq_some_iff.1 hi').1
  have hlim := h.limit
  have hb := h.bound
  unfold stepOnce
  rw [bind_ok (show (getSt : M ω _) l = .ok l l from rfl), if_neg (by rw [h.pc]; omega), bind_ok (instrAt_ok h.pc hi'),
      bind_ok (show (getSt : M ω _) l = .ok l l from rfl)]
  have e1 : (checkStackLimits l.sp Op.JUMP_TO : M ω Unit) l = .ok () l := by
    unfold checkStackLimits
    have u : computeStackUsage Op.JUMP_TO = ⟨0, 0, 0⟩ := by decide
    rw [u, h.sp]
    unfold maxStackSize
    rw [if_neg (by show ¬ ((s.stack.length : Int) + (0 : Nat) < -0); omega), if_neg (by show ¬ ((s.stack.length : Int) + (0 : Nat) > 1024 - 0); omega)]
    rfl
  rw [bind_ok e1]
  have e2 : (useGas (gasPrice E.params.block.revision Op.JUMP_TO) : M ω Unit) l = .ok () l := by
    have u : gasPrice E.params.block.revision Op.JUMP_TO = 0 := by
      unfold gasPrice
      split <;> decide
    rw [u]
    have hl : i64 (l.gas - 0) = l.gas := by
      rw [Int.sub_zero, h.gas]
      exact i64_id (by omega) (by omega)
    unfold useGas
    rw [if_neg (by rw [h.gas]; omega), hl]
  rw [bind_ok e2]
  have e3 : execOp E Op.JUMP_TO l = .ok .running { l with pc := (a : Int) - 1 } := by
    show runs (opJumpTo E) l = _
    unfold runs opJumpTo
    rw [assoc, bind_ok (argAt_ok h.pc hi'), BitVec.toNat_ofNat, Nat.mod_eq_of_lt ha]
    rfl
  rw [bind_ok e3]
  show Res.ok Model.Lfvm.Status.running { l with pc := (a : Int) - 1 + 1 } = _
  rw [show (a : Int) - 1 + 1 = a from by omega]

theorem ofNat_toNat8 (b : Byte) : b = BitVec.ofNat 8 b.toNat := (BitVec.ofNat_toNat 8 b).symm ▸ (by simp)

theorem step_push {code : List Byte} {C : Code} {p n : Nat} {a : BitVec 16} (hE : Setup E rev) (hc : E.params.code = code) (hC : E.code = C)
    (h : Rel 0 p q l s) (h1 : 1 ≤ n) (h2 : n ≤ 32) (hb : (byteAt code q).toNat = 0x5f + n) (hi : C[p]? = some ⟨0x5f + n, a⟩)
    (hlen : p + (n / 2 + n % 2) ≤ C.length) (hk : ∀ k, k < n → packedByte (C.drop p) k = byteAt code (q + 1 + k))
    (L : Laid ws code C (p + (n / 2 + n % 2)) (q + n + 1)) : Sim (Next ws code C) (stepOnce E l) (stepEip (frameOf E rev) s) := by
  have hd : decode (0x5f + n) = some (.push n) := by
    unfold decode
    rw [if_pos (by omega)]
    congr 2
    omega
  have hq : s.pc = q := h.pc'
  have hC' : E.code[p]? = some ⟨0x5f + n, a⟩ := by rw [hC]; exact hi
  refine sim_mono (sim_step (Q := Done ((p : Int) + ((n / 2 + n % 2 : Nat) - 1 : Int)) (q + n + 1)) (i := .push n) hE h rfl hC' ?_ (by show 0x5f + n < 256; omega) hd
    (.inr (by show Instr.since (.push n) = 0; unfold Instr.since; simp; omega)) ?_) ?_
  · rw [hc, hq]
    show _ = BitVec.ofNat 8 (0x5f + n)
    rw [← hb]
    simp
  · intro l' h' hp hpu _ _
    have hx : useGas ((pre rev (.push n) : Nat) : Int) l' = .ok () l' := by
      have hb := h'.bound
      have hg := h'.gas
      dsimp only at hb hg
      show useGas (0 : Int) l' = _
      unfold useGas
      rw [if_neg (by rw [hg]; omega), Int.sub_zero, hg, i64_id (by omega) (by omega), ← hg]
    rw [bind_ok hx]
    have hlen' : Instr.length (.push n) = n + 1 := rfl
    rw [hlen', hq] at h' ⊢
    have e : execEip (frameOf E rev) q (.push n) { s with gas := s.gas - (Instr.push n).baseGas, pc := q + (n + 1) } =
        State.push { s with gas := s.gas - (Instr.push n).baseGas, pc := q + (n + 1) } (Word.ofBytes (slice code (q + 1) n)) := by
      rw [← hc]; rfl
    rw [e]
    exact sim_pushN (j := p) (code := code) (off := q + 1) h' (by have : s.stack.length + 1 ≤ 1024 + 0 := hpu; exact this) rfl h1 h2 hC'
      (by rw [hC]; exact hlen) (by rw [hC]; exact hk)
  · intro st l' hm
    exact next_of (p' := p + (n / 2 + n % 2)) (by omega) L hm

theorem step_pc {code : List Byte} {C : Code} {p : Nat} (hE : Setup E rev) (hc : E.params.code = code) (hC : E.code = C) (hcode : q < 2 ^ 16)
    (h : Rel 0 p q l s) (hb : (byteAt code q).toNat = Op.PC) (hi : C[p]? = some ⟨Op.PC, BitVec.ofNat 16 q⟩)
    (L : Laid ws code C (p + 1) (q + 1)) : Sim (Next ws code C) (stepOnce E l) (stepEip (frameOf E rev) s) := by
  have hq : s.pc = q := h.pc'
  have hC' : E.code[p]? = some ⟨Op.PC, BitVec.ofNat 16 q⟩ := by rw [hC]; exact hi
  refine sim_mono (sim_step (Q := Done (p : Int) (q + 1)) (i := .pc) hE h rfl hC' ?_ (by show 0x58 < 256; omega) rfl (.inr rfl) ?_) ?_
  · rw [hc, hq]
    show _ = BitVec.ofNat 8 Op.PC
    rw [← hb]
    simp
  · intro l' h' hp hpu _ _
    have hlen' : Instr.length .pc = 1 := rfl
    rw [hlen', hq] at h' ⊢
    refine sim_free h' fun l1 h1 => ?_
    refine sim_runs (m := opPc E) ?_
    unfold opPc
    rw [bind_ok (argAt_ok h1.pc hC')]
    refine sim_push ?_ h1 hpu
    refine l_ofU64 ?_
    rw [BitVec.toNat_setWidth, BitVec.toNat_ofNat]
    omega
  · intro st l' hm
    exact next_of (p' := p + 1) (by omega) L hm

/-- A jump that was taken or not. -/
def Jumped (ws : Bool) (code : List Byte) (C : Code) (p : Int) (q : Nat) (st : Model.Lfvm.Status) (l : St ω) (t : State ω) : Prop :=
  st = .running ∧ (Match p q l t ∨ Landed ws code C l t)

theorem next_jumped {code : List Byte} {C : Code} {p' : Nat} {st : Model.Lfvm.Status} {t : State ω} (hp : (p' : Int) = p + 1) (L : Laid ws code C p' q)
    (h : Moved (Jumped ws code C p q) st l t) : Next ws code C st l t := by
  obtain ⟨l0, ⟨hst, h0⟩, rfl⟩ := h
  subst hst
  refine .inl ⟨rfl, ?_⟩
  rcases h0 with h0 | ⟨d, h0, Ld⟩
  · refine ⟨p', q, ?_, L⟩
    rw [hp, h0.pc]
    exact match_lpc (p + 1) h0
  · refine ⟨d, d, ?_, Ld⟩
    rw [h0.pc, show (d : Int) - 1 + 1 = d from by omega]
    exact match_lpc d h0

theorem step_jump {code : List Byte} {C : Code} {p : Nat} {a : BitVec 16} (hE : Setup E rev) (hc : E.params.code = code) (hC : E.code = C)
    (T : Targets ws code C 0 0) (hcode : code.length ≤ 2 ^ 16) (h : Rel 0 p q l s) (hb : (byteAt code q).toNat = Op.JUMP)
    (hi : C[p]? = some ⟨Op.JUMP, a⟩) (L : Laid ws code C (p + 1) (q + 1)) : Sim (Next ws code C) (stepOnce E l) (stepEip (frameOf E rev) s) := by
  have hq : s.pc = q := h.pc'
  have hC' : E.code[p]? = some ⟨Op.JUMP, a⟩ := by rw [hC]; exact hi
  refine sim_mono (sim_step (Q := Jumped ws code C (p : Int) (q + 1)) (i := .jump) hE h rfl hC' ?_ (by show 0x56 < 256; omega) rfl (.inr rfl) ?_) ?_
  · rw [hc, hq]
    show _ = BitVec.ofNat 8 Op.JUMP
    rw [← hb]
    simp
  · intro l' h' hp hpu _ _
    refine sim_useGas0 rfl h' fun l1 h1 => ?_
    obtain ⟨x, r, hx, hr⟩ := stack_cons hp
    refine sim_bind (Q' := fun _ => Landed ws code C) ?_ fun _ l2 h2 => ⟨rfl, .inr h2⟩
    show Sim _ (opJump E l1) (State.pop1 _ _)
    unfold opJump
    exact sim_pop (r := r) h1 hx fun l2 h2 => sim_goto hc hC T hcode h2
  · intro st l' hm
    exact next_jumped (p' := p + 1) (by omega) L hm

theorem step_jumpi {code : List Byte} {C : Code} {p : Nat} {a : BitVec 16} (hE : Setup E rev) (hc : E.params.code = code) (hC : E.code = C)
    (T : Targets ws code C 0 0) (hcode : code.length ≤ 2 ^ 16) (h : Rel 0 p q l s) (hb : (byteAt code q).toNat = Op.JUMPI)
    (hi : C[p]? = some ⟨Op.JUMPI, a⟩) (L : Laid ws code C (p + 1) (q + 1)) : Sim (Next ws code C) (stepOnce E l) (stepEip (frameOf E rev) s) := by
  have hq : s.pc = q := h.pc'
  have hC' : E.code[p]? = some ⟨Op.JUMPI, a⟩ := by rw [hC]; exact hi
  refine sim_mono (sim_step (Q := Jumped ws code C (p : Int) (q + 1)) (i := .jumpi) hE h rfl hC' ?_ (by show 0x57 < 256; omega) rfl (.inr rfl) ?_) ?_
  · rw [hc, hq]
    show _ = BitVec.ofNat 8 Op.JUMPI
    rw [← hb]
    simp
  · intro l' h' hp hpu _ _
    have hlen' : Instr.length .jumpi = 1 := rfl
    rw [hlen', hq] at h' ⊢
    refine sim_useGas0 rfl h' fun l1 h1 => ?_
    obtain ⟨x, r, hx, hr⟩ := stack_cons hp
    obtain ⟨y, r', hy, hr'⟩ := stack_cons hr
    refine sim_bind (Q' := fun _ l t => Match p (q + 1) l t ∨ Landed ws code C l t) ?_ fun _ l2 h2 => ⟨rfl, h2⟩
    show Sim _ (opJumpi E l1) (State.pop2 _ _)
    unfold opJumpi State.pop2
    refine sim_pop (r := r) h1 hx fun l2 h2 => ?_
    refine sim_pop (r := r') h2 (show r = y :: r' from hy) fun l3 h3 => ?_
    dsimp only
    by_cases hz : y = 0
    · rw [if_neg (fun hn => hn hz), if_neg (show ¬ (BitVec.toNat y ≠ 0) from fun hn => hn (by rw [hz]; rfl))]
      exact .inl h3.match
    · rw [if_pos hz, if_pos (show BitVec.toNat y ≠ 0 from fun hn => hz (BitVec.eq_of_toNat_eq hn))]
      exact sim_mono (sim_goto hc hC T hcode h3) fun _ _ h => .inr h
  · intro st l' hm
    exact next_jumped (p' := p + 1) (by omega) L hm

theorem step_plain {code : List Byte} {C : Code} {p : Nat} {a : BitVec 16} (hE : Setup E rev) (hc : E.params.code = code) (hC : E.code = C)
    (T : Targets ws code C 0 0) (hcode : code.length ≤ 2 ^ 16) (h : Rel 0 p q l s) (hpc : (byteAt code q).toNat ≠ Op.PC)
    (hpush : ¬ (0x60 ≤ (byteAt code q).toNat ∧ (byteAt code q).toNat ≤ 0x7f)) (hi : C[p]? = some ⟨(byteAt code q).toNat, a⟩)
    (L : Laid ws code C (p + 1) (q + 1)) : Sim (Next ws code C) (stepOnce E l) (stepEip (frameOf E rev) s) := by
  have hq : s.pc = q := h.pc'
  have hC' : E.code[p]? = some ⟨(byteAt code q).toNat, a⟩ := by rw [hC]; exact hi
  have hlt : (byteAt code q).toNat < 256 := (byteAt code q).isLt
  by_cases hj : (byteAt code q).toNat = Op.JUMP
  · exact step_jump hE hc hC T hcode h hj (by rw [hi, hj]) L
  by_cases hji : (byteAt code q).toNat = Op.JUMPI
  · exact step_jumpi hE hc hC T hcode h hji (by rw [hi, hji]) L
  cases hd : decode (byteAt code q).toNat with
  | none =>
    refine sim_mono (sim_stepAt (Q := fun _ _ _ => False) (h.pc) hC' ?_) fun _ _ hm => hm.elim fun _ hm => hm.1.elim
    have hspec : Failed (stepEip (frameOf E rev) s) := by
      unfold stepEip
      have : decode (byteAt (frameOf E rev).code s.pc).toNat = none := by
        show decode (byteAt E.params.code s.pc).toNat = none
        rw [hc, hq]; exact hd
      rw [if_pos h.status, this]
      exact failed_fail _ _
    dsimp only
    rw [execOp_undefined hlt hd]
    have herr : ∀ (m m' : M ω Unit) (hm : ∀ l, m l ≠ .panic) (hm' : ∀ l, m' l ≠ .panic), Sim (fun (_ : Model.Lfvm.Status) (_ : St ω) (_ : State ω) => False)
        ((m >>= fun _ => m' >>= fun _ => error) l) (stepEip (frameOf E rev) s) := by
      intro m m' hm hm'
      cases e : m l with
      | panic => exact absurd e (hm l)
      | err l1 => rw [bind_err e]; exact hspec
      | ok x l1 =>
        rw [bind_ok e]
        cases e' : m' l1 with
        | panic => exact absurd e' (hm' l1)
        | err l2 => rw [bind_err e']; exact hspec
        | ok x l2 => rw [bind_ok e']; exact hspec
    refine herr _ _ (fun l hx => ?_) (fun l hx => ?_)
    · unfold checkStackLimits at hx
      split at hx
      · cases hx
      · split at hx <;> cases hx
    · unfold useGas at hx
      split at hx <;> cases hx
  | some i =>
    obtain ⟨henc, harg⟩ := decode_inv hlt hd
    have hpl : plain i = true := by
      cases i with
      | jump => exact absurd henc hj
      | jumpi => exact absurd henc hji
      | pc => exact absurd henc hpc
      | push n =>
        have hn : n ≤ 32 := by simpa [okArg] using harg
        have henc : (byteAt code q).toNat = 0x5f + n := henc
        have : n = 0 := by omega
        subst this; rfl
      | _ => rfl
    have hil : i.length = 1 := by
      cases i with
      | push n =>
        have : n = 0 := by simpa [plain] using hpl
        subst this; rfl
      | _ => rfl
    refine sim_mono (sim_step (Q := Done (p : Int) (q + 1)) (i := i) hE h rfl hC' ?_ hlt hd (.inl hpl) ?_) ?_
    · rw [hc, hq]
      show _ = BitVec.ofNat 8 (byteAt code q).toNat
      simp
    · intro l' h' hp hpu hr hw
      rw [hil, hq] at h'
      have := sim_exec (at_ := q) hE hpl harg h' hp hpu hr hw
      rw [hil, hq]
      exact this
    · intro st l' hm
      exact next_of (p' := p + 1) (by omega) L hm


end Tosca.Proofs.Lfvm

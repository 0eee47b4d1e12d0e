import Verif.Proofs.LfvmSuper

/-!
# The long-form EVM: each of the super-instructions
-/

namespace Tosca.Proofs.Lfvm

open Tosca.Spec Tosca.Spec.Go Tosca.Go Tosca.Model.Go Tosca.Model.Lfvm

variable {ws : Bool} {ω : Type} {E : Env ω} {rev : Revision} {p q q' : Nat} {k : Nat} {l : St ω} {s : State ω} {C : Code} {code : List Byte} {a : BitVec 16}

/-- Where a super-instruction stands. -/
structure At (ws : Bool) (E : Env ω) (code : List Byte) (C : Code) (p q : Nat) (op : Nat) (is : List Instr) (a : BitVec 16) (q' : Nat) : Prop where
  same : E.params.code = code
  conv : E.code = C
  reads : Reads code q is q'
  holds : Holds C p (block code q op a)
  after : Laid ws code C (p + (block code q op a).length) q'

/-- The checks in front of the super-instruction: at least `lo` words on the stack, and space for `hi` more. -/
structure Checks (op : Nat) (is : List Instr) (lo hi : Nat) : Prop where
  gas : ∀ r, gasPrice r op = (total is : Nat)
  low : (computeStackUsage op).lo = -(lo : Int)
  high : (computeStackUsage op).hi = hi
  fits : ∀ n g : Nat, n ≤ 1024 → (Fits is n g ↔ lo ≤ n ∧ n + hi ≤ 1024 ∧ total is ≤ g)

theorem Checks.table {op lo hi : Nat} {is : List Instr} (h : Checks op is lo hi) : Table E op is :=
  ⟨h.gas _, fun n g hn => by rw [h.low, h.high, h.fits n g hn]; omega⟩

theorem at_first {op : Nat} {is : List Instr} {ar : BitVec 16} {rest : List Instruction} (h : At ws E code C p q op is a q') (hb : block code q op a = ⟨op, ar⟩ :: rest) :
    C[p]? = some ⟨op, ar⟩ := by
  have := h.holds 0 (by rw [hb]; simp)
  rw [hb, Nat.add_zero] at this
  exact this

/-- Super-instructions that only change the stack. -/
theorem step_stack {op lo hi : Nat} {pre : List Instr} {last : Instr} {m : M ω Unit} {ar : BitVec 16} {rest : List Instruction}
    (hT : Checks op (pre ++ [last]) lo hi) (h : Rel 0 p q l s)
    (hA : At ws E code C p q op (pre ++ [last]) a q') (hb : block code q op a = ⟨op, ar⟩ :: rest)
    (hpre : ∀ i ∈ pre, stackOnly i = true) (hl : stackOnly last = true) (hm : execOp E op = runs m)
    (H : ∀ l' g, Rel 0 p q l' { s with gas := g } → lo ≤ s.stack.length → s.stack.length + hi ≤ 1024 →
      ∃ l'', m l' = .ok () l'' ∧ Rel 0 ((p : Int) + rest.length) q l'' { s with gas := g, stack := eff code (q' - last.length) last (effs code q pre s.stack) }) :
    Sim (Next ws code C) (stepOnce E l) (stepsEip (frameOf E rev) (pre.length + 1) s) := by
  refine sim_mono (sim_super (Q := Done ((p : Int) + rest.length) q') hA.same hA.conv h rfl (at_first hA hb) hT.table hpre (stackOnly_easy hl).1 (stackOnly_easy hl).2 hA.reads ?_) ?_
  · intro l' h' hf hp
    rw [hm]
    refine sim_runs ?_
    obtain ⟨h1, h2, _⟩ := (hT.fits _ _ h.limit).1 hf
    obtain ⟨l'', e, h''⟩ := H l' _ h' h1 h2
    rw [e]
    exact rel_done hA.same h'' hl hp rfl
  · intro st l' hm
    have L := hA.after
    rw [hb] at L
    exact next_of (p' := p + (rest.length + 1)) (by omega) L hm

macro "checks" : tactic => `(tactic| exact ⟨by intro r; unfold gasPrice; split <;> decide, by decide, by decide,
  by intro n g hn; simp only [Fits, total, List.cons_append, List.nil_append, Instr.pops, Instr.pushes, Instr.baseGas, and_true]; constructor <;> intro h <;> omega⟩)

theorem done0 {t : State ω} (h : Rel 0 (p : Int) q l t) : Rel 0 ((p : Int) + ([] : List Instruction).length) q l t := by
  rw [show (p : Int) + ([] : List Instruction).length = p from by simp]; exact h

theorem peek0_ok {x : U256} {r : List U256} {p : Int} (h : Rel 0 p q l s) (hs : s.stack = x :: r) : (peekN 0 : M ω U256) l = .ok x l :=
  peekN_ok (n := 0) h (by rw [hs]; rfl)
theorem peek1_ok {x y : U256} {r : List U256} {p : Int} (h : Rel 0 p q l s) (hs : s.stack = x :: y :: r) : (peekN 1 : M ω U256) l = .ok y l :=
  peekN_ok (n := 1) h (by rw [hs]; rfl)
theorem peek2_ok {x y z : U256} {r : List U256} {p : Int} (h : Rel 0 p q l s) (hs : s.stack = x :: y :: z :: r) : (peekN 2 : M ω U256) l = .ok z l :=
  peekN_ok (n := 2) h (by rw [hs]; rfl)
theorem set0_ok {v x : U256} {r : List U256} {p : Int} (h : Rel 0 p q l s) (hs : s.stack = x :: r) :
    ∃ l', (setN 0 v : M ω Unit) l = .ok () l' ∧ Rel 0 p q l' { s with stack := v :: r } := by
  obtain ⟨l', e, h'⟩ := setN_ok (n := 0) (v := v) h (by rw [hs]; simp)
  rw [hs] at h'
  exact ⟨l', e, h'⟩
theorem set1_ok {v x y : U256} {r : List U256} {p : Int} (h : Rel 0 p q l s) (hs : s.stack = x :: y :: r) :
    ∃ l', (setN 1 v : M ω Unit) l = .ok () l' ∧ Rel 0 p q l' { s with stack := x :: v :: r } := by
  obtain ⟨l', e, h'⟩ := setN_ok (n := 1) (v := v) h (by rw [hs]; simp)
  rw [hs] at h'
  exact ⟨l', e, h'⟩
theorem set2_ok {v x y z : U256} {r : List U256} {p : Int} (h : Rel 0 p q l s) (hs : s.stack = x :: y :: z :: r) :
    ∃ l', (setN 2 v : M ω Unit) l = .ok () l' ∧ Rel 0 p q l' { s with stack := x :: y :: v :: r } := by
  obtain ⟨l', e, h'⟩ := setN_ok (n := 2) (v := v) h (by rw [hs]; simp)
  rw [hs] at h'
  exact ⟨l', e, h'⟩

theorem step_popPop (h : Rel 0 p q l s) (hA : At ws E code C p q Op.POP_POP ([.pop] ++ [.pop]) a q') :
    Sim (Next ws code C) (stepOnce E l) (stepsEip (frameOf E rev) 2 s) := by
  have hT : Checks Op.POP_POP ([.pop] ++ [.pop]) 2 0 := by checks
  refine step_stack hT h hA rfl (by decide) rfl rfl fun l' g h' h1 h2 => ?_
  obtain ⟨x, r, hx, hr⟩ := stack_cons h1
  obtain ⟨y, r', rfl, _⟩ := stack_cons hr
  have h4 := shrink_ok (shrink_ok h' hx) rfl
  rw [hx]
  refine ⟨_, ?_, done0 h4⟩
  show Res.ok () { l' with sp := l'.sp + -2 } = Res.ok () { l' with sp := l'.sp + -1 + -1 }
  rw [Int.add_assoc]
  rfl

theorem step_swap1Pop (h : Rel 0 p q l s) (hA : At ws E code C p q Op.SWAP1_POP ([.swap 1] ++ [.pop]) a q') :
    Sim (Next ws code C) (stepOnce E l) (stepsEip (frameOf E rev) 2 s) := by
  have hT : Checks Op.SWAP1_POP ([.swap 1] ++ [.pop]) 2 0 := by checks
  refine step_stack hT h hA rfl (by decide) rfl rfl fun l' g h' h1 h2 => ?_
  obtain ⟨x, r, hx, hr⟩ := stack_cons h1
  obtain ⟨y, r', rfl, _⟩ := stack_cons hr
  obtain ⟨l1, e1, h3⟩ := popW_ok h' hx
  obtain ⟨l2, e2, h4⟩ := setTop_ok' (v := x) h3 rfl
  rw [hx]
  exact ⟨l2, (bind_ok e1).trans e2, done0 h4⟩

theorem step_swap2Pop (h : Rel 0 p q l s) (hA : At ws E code C p q Op.SWAP2_POP ([.swap 2] ++ [.pop]) a q') :
    Sim (Next ws code C) (stepOnce E l) (stepsEip (frameOf E rev) 2 s) := by
  have hT : Checks Op.SWAP2_POP ([.swap 2] ++ [.pop]) 3 0 := by checks
  refine step_stack hT h hA rfl (by decide) rfl rfl fun l' g h' h1 h2 => ?_
  obtain ⟨x, r, hx, hr⟩ := stack_cons h1
  obtain ⟨y, r', rfl, hr'⟩ := stack_cons hr
  obtain ⟨z, r'', rfl, _⟩ := stack_cons hr'
  obtain ⟨l1, e1, h3⟩ := popW_ok h' hx
  obtain ⟨l2, e2, h4⟩ := set1_ok (v := x) h3 rfl
  rw [hx]
  exact ⟨l2, (bind_ok e1).trans e2, done0 h4⟩

/-- What SWAP1 POP SWAP2 SWAP1 and SWAP2 SWAP1 share. -/
theorem rotate_ok {p : Int} {x y z : U256} {r : List U256} (h : Rel 0 p q l s) (hs : s.stack = x :: y :: z :: r) (b1 b2 b3 : U256) :
    ∃ l', (setN 0 b1 >>= fun _ => setN 1 b2 >>= fun _ => setN 2 b3 : M ω Unit) l = .ok () l' ∧ Rel 0 p q l' { s with stack := b1 :: b2 :: b3 :: r } := by
  obtain ⟨l2, e2, h4⟩ := set0_ok (v := b1) h hs
  obtain ⟨l3, e3, h5⟩ := set1_ok (v := b2) h4 rfl
  obtain ⟨l4, e4, h6⟩ := set2_ok (v := b3) h5 rfl
  exact ⟨l4, (bind_ok e2).trans ((bind_ok e3).trans e4), h6⟩

theorem step_swap2Swap1 (h : Rel 0 p q l s) (hA : At ws E code C p q Op.SWAP2_SWAP1 ([.swap 2] ++ [.swap 1]) a q') :
    Sim (Next ws code C) (stepOnce E l) (stepsEip (frameOf E rev) 2 s) := by
  have hT : Checks Op.SWAP2_SWAP1 ([.swap 2] ++ [.swap 1]) 3 0 := by checks
  refine step_stack hT h hA rfl (by decide) rfl rfl fun l' g h' h1 h2 => ?_
  obtain ⟨x, r, hx, hr⟩ := stack_cons h1
  obtain ⟨y, r', rfl, hr'⟩ := stack_cons hr
  obtain ⟨z, r'', rfl, _⟩ := stack_cons hr'
  obtain ⟨l2, e2, h4⟩ := rotate_ok h' hx y z x
  rw [hx]
  exact ⟨l2, (bind_ok (peek0_ok h' hx)).trans ((bind_ok (peek1_ok h' hx)).trans ((bind_ok (peek2_ok h' hx)).trans e2)), done0 h4⟩

/-- `opSwap1PopSwap2Swap1`. -/
theorem rot4_ok {p : Int} {x y z w : U256} {r : List U256} (h : Rel 0 p q l s) (hs : s.stack = x :: y :: z :: w :: r) :
    ∃ l', (opSwap1PopSwap2Swap1 : M ω Unit) l = .ok () l' ∧ Rel 0 p q l' { s with stack := z :: w :: x :: r } := by
  obtain ⟨l1, e1, h3⟩ := popW_ok h hs
  obtain ⟨l2, e2, h4⟩ := rotate_ok h3 rfl z w x
  exact ⟨l2, (bind_ok e1).trans ((bind_ok (peek1_ok h3 rfl)).trans ((bind_ok (peek2_ok h3 rfl)).trans e2)), h4⟩

theorem step_swap1PopSwap2Swap1 (h : Rel 0 p q l s) (hA : At ws E code C p q Op.SWAP1_POP_SWAP2_SWAP1 ([.swap 1, .pop, .swap 2] ++ [.swap 1]) a q') :
    Sim (Next ws code C) (stepOnce E l) (stepsEip (frameOf E rev) 4 s) := by
  have hT : Checks Op.SWAP1_POP_SWAP2_SWAP1 ([.swap 1, .pop, .swap 2] ++ [.swap 1]) 4 0 := by checks
  refine step_stack hT h hA rfl (by decide) rfl rfl fun l' g h' h1 h2 => ?_
  obtain ⟨x, r, hx, hr⟩ := stack_cons h1
  obtain ⟨y, r', rfl, hr'⟩ := stack_cons hr
  obtain ⟨z, r'', rfl, hr''⟩ := stack_cons hr'
  obtain ⟨w, r3, rfl, _⟩ := stack_cons hr''
  obtain ⟨l2, e2, h4⟩ := rot4_ok h' hx
  rw [hx]
  exact ⟨l2, e2, done0 h4⟩

theorem step_popSwap2Swap1Pop (h : Rel 0 p q l s) (hA : At ws E code C p q Op.POP_SWAP2_SWAP1_POP ([.pop, .swap 2, .swap 1] ++ [.pop]) a q') :
    Sim (Next ws code C) (stepOnce E l) (stepsEip (frameOf E rev) 4 s) := by
  have hT : Checks Op.POP_SWAP2_SWAP1_POP ([.pop, .swap 2, .swap 1] ++ [.pop]) 4 0 := by checks
  refine step_stack hT h hA rfl (by decide) rfl rfl fun l' g h' h1 h2 => ?_
  obtain ⟨x, r, hx, hr⟩ := stack_cons h1
  obtain ⟨y, r', rfl, hr'⟩ := stack_cons hr
  obtain ⟨z, r'', rfl, hr''⟩ := stack_cons hr'
  obtain ⟨w, r3, rfl, _⟩ := stack_cons hr''
  obtain ⟨l1, e1, h3⟩ := popW_ok h' hx
  obtain ⟨l2, e2, h4⟩ := popW_ok h3 rfl
  obtain ⟨l3, e3, h5⟩ := set0_ok (v := w) h4 rfl
  obtain ⟨l4, e4, h6⟩ := set1_ok (v := y) h5 rfl
  rw [hx]
  exact ⟨l4, (bind_ok e1).trans ((bind_ok e2).trans ((bind_ok (peek1_ok h4 rfl)).trans ((bind_ok e3).trans e4))), done0 h6⟩

theorem step_andSwap1PopSwap2Swap1 (h : Rel 0 p q l s)
    (hA : At ws E code C p q Op.AND_SWAP1_POP_SWAP2_SWAP1 ([.and, .swap 1, .pop, .swap 2] ++ [.swap 1]) a q') :
    Sim (Next ws code C) (stepOnce E l) (stepsEip (frameOf E rev) 5 s) := by
  have hT : Checks Op.AND_SWAP1_POP_SWAP2_SWAP1 ([.and, .swap 1, .pop, .swap 2] ++ [.swap 1]) 5 0 := by checks
  refine step_stack hT h hA rfl (by decide) rfl rfl fun l' g h' h1 h2 => ?_
  obtain ⟨x, r, hx, hr⟩ := stack_cons h1
  obtain ⟨y, r', rfl, hr'⟩ := stack_cons hr
  obtain ⟨z, r'', rfl, hr''⟩ := stack_cons hr'
  obtain ⟨w, r3, rfl, hr3⟩ := stack_cons hr''
  obtain ⟨v, r4, rfl, _⟩ := stack_cons hr3
  obtain ⟨l1, e1, h3⟩ := popW_ok h' hx
  obtain ⟨l2, e2, h4⟩ := setTop_ok' (v := wAnd x y) h3 rfl
  obtain ⟨l3, e3, h5⟩ := rot4_ok h4 rfl
  rw [hx]
  rw [l_and] at h5
  refine ⟨l3, ?_, done0 h5⟩
  have eb : (binary wAnd : M ω Unit) l' = .ok () l2 := (bind_ok e1).trans ((bind_ok (peek_ok h3 rfl)).trans e2)
  exact (bind_ok eb).trans e3

theorem step_dup2Lt (h : Rel 0 p q l s) (hA : At ws E code C p q Op.DUP2_LT ([.dup 2] ++ [.lt]) a q') :
    Sim (Next ws code C) (stepOnce E l) (stepsEip (frameOf E rev) 2 s) := by
  have hT : Checks Op.DUP2_LT ([.dup 2] ++ [.lt]) 2 1 := by checks
  refine step_stack hT h hA rfl (by decide) rfl rfl fun l' g h' h1 h2 => ?_
  obtain ⟨x, r, hx, hr⟩ := stack_cons h1
  obtain ⟨y, r', rfl, hr'⟩ := stack_cons hr
  obtain ⟨l2, e2, h4⟩ := set0_ok (v := flag (y.ult x)) h' hx
  rw [hx]
  rw [show flag (y.ult x) = Word.lt y x from l_lt y x] at h4
  exact ⟨l2, (bind_ok (peek0_ok h' hx)).trans ((bind_ok (peek1_ok h' hx)).trans e2), done0 h4⟩

/-! ## With data -/

theorem push1_eq (q : Nat) {v : U256} (h : v.toNat = (byteAt code (q + 1)).toNat) : v = Word.ofBytes (slice code (q + 1) 1) :=
  ofBytes_eq (by rw [h, be_one])

theorem byteN (b : Byte) : (b.setWidth 16 : BitVec 16).toNat = b.toNat := by
  rw [BitVec.toNat_setWidth]; have := b.isLt; omega

theorem hiN (x : BitVec 16) : (x >>> 8).toNat = ((x >>> 8).setWidth 8).toNat := by
  rw [BitVec.toNat_setWidth, BitVec.toNat_ushiftRight, Nat.shiftRight_eq_div_pow]
  have := x.isLt
  omega

theorem loN (x : BitVec 16) : (x &&& 0xff).toNat = (x.setWidth 8).toNat := by
  rw [BitVec.toNat_setWidth, BitVec.toNat_and]
  exact Nat.and_two_pow_sub_one_eq_mod x.toNat 8

theorem pairHi (a b : Byte) : (pair a b >>> 8).toNat = a.toNat := by rw [hiN, pair_hi]
theorem pairLo (a b : Byte) : (pair a b &&& 0xff).toNat = b.toNat := by rw [loN, pair_lo]
theorem highHi (a : Byte) : (a.setWidth 16 <<< 8 >>> 8 : BitVec 16).toNat = a.toNat := by rw [hiN, high_hi]

theorem pairN (a b : Byte) : (pair a b).toNat = a.toNat * 256 + b.toNat := by
  have h1 := pairHi a b
  have h2 := congrArg BitVec.toNat (pair_lo a b)
  rw [BitVec.toNat_setWidth] at h2
  rw [BitVec.toNat_ushiftRight, Nat.shiftRight_eq_div_pow] at h1
  omega

theorem wide64 (x : BitVec 16) : (ofU64 (x.setWidth 64)).toNat = x.toNat := by
  rw [ofU64_toNat, BitVec.toNat_setWidth]; have := x.isLt; omega

theorem step_push1Push1 (h : Rel 0 p q l s) (hA : At ws E code C p q Op.PUSH1_PUSH1 ([.push 1] ++ [.push 1]) a q') :
    Sim (Next ws code C) (stepOnce E l) (stepsEip (frameOf E rev) 2 s) := by
  have hT : Checks Op.PUSH1_PUSH1 ([.push 1] ++ [.push 1]) 0 2 := by checks
  have hi := at_first hA rfl
  rw [← hA.conv] at hi
  have hq : q + 2 + 2 = q' := hA.reads.2.2
  subst hq
  refine step_stack hT h hA rfl (by decide) rfl rfl fun l' g h' h1 h2 => ?_
  obtain ⟨v, w, l1, e1, h3⟩ := grow2_ok h' h2
  obtain ⟨l2, e2, h4⟩ := set0_ok (v := ofU64 ((pair (byteAt code (q + 1)) (byteAt code (q + 3)) &&& 0xff).setWidth 64)) h3 rfl
  obtain ⟨l3, e3, h5⟩ := set1_ok (v := ofU64 ((pair (byteAt code (q + 1)) (byteAt code (q + 3)) >>> 8).setWidth 64)) h4 rfl
  refine ⟨l3, (bind_ok (argAt_ok h'.pc hi)).trans ((bind_ok e1).trans ((bind_ok e2).trans e3)), done0 ?_⟩
  rw [push1_eq (code := code) q (v := ofU64 ((pair (byteAt code (q + 1)) (byteAt code (q + 3)) >>> 8).setWidth 64)) (by rw [wide64, pairHi])] at h5
  rw [push1_eq (code := code) (q + 2) (v := ofU64 ((pair (byteAt code (q + 1)) (byteAt code (q + 3)) &&& 0xff).setWidth 64)) (by rw [wide64, pairLo])] at h5
  exact h5

theorem step_push1Dup1 (h : Rel 0 p q l s) (hA : At ws E code C p q Op.PUSH1_DUP1 ([.push 1] ++ [.dup 1]) a q') :
    Sim (Next ws code C) (stepOnce E l) (stepsEip (frameOf E rev) 2 s) := by
  have hT : Checks Op.PUSH1_DUP1 ([.push 1] ++ [.dup 1]) 0 2 := by checks
  have hi := at_first hA rfl
  rw [← hA.conv] at hi
  refine step_stack hT h hA rfl (by decide) rfl rfl fun l' g h' h1 h2 => ?_
  obtain ⟨v, w, l1, e1, h3⟩ := grow2_ok h' h2
  obtain ⟨l2, e2, h4⟩ := set0_ok (v := ofU64 (((byteAt code (q + 1)).setWidth 16).setWidth 64)) h3 rfl
  obtain ⟨l3, e3, h5⟩ := set1_ok (v := ofU64 (((byteAt code (q + 1)).setWidth 16).setWidth 64)) h4 rfl
  refine ⟨l3, (bind_ok (argAt_ok h'.pc hi)).trans ((bind_ok e1).trans ((bind_ok e2).trans e3)), done0 ?_⟩
  rw [push1_eq (code := code) q (v := ofU64 (((byteAt code (q + 1)).setWidth 16).setWidth 64)) (by rw [wide64, byteN])] at h5
  exact h5

theorem step_push1Add (h : Rel 0 p q l s) (hA : At ws E code C p q Op.PUSH1_ADD ([.push 1] ++ [.add]) a q') :
    Sim (Next ws code C) (stepOnce E l) (stepsEip (frameOf E rev) 2 s) := by
  have hT : Checks Op.PUSH1_ADD ([.push 1] ++ [.add]) 1 1 := by checks
  have hi := at_first hA rfl
  rw [← hA.conv] at hi
  refine step_stack hT h hA rfl (by decide) rfl rfl fun l' g h' h1 h2 => ?_
  obtain ⟨x, r, hx, hr⟩ := stack_cons h1
  obtain ⟨l2, e2, h4⟩ := setTop_ok' (v := x + ((byteAt code (q + 1)).setWidth 16).setWidth 256) h' hx
  refine ⟨l2, (bind_ok (argAt_ok h'.pc hi)).trans ((bind_ok (peek_ok h' hx)).trans e2), done0 ?_⟩
  rw [push1_eq (code := code) q (v := ((byteAt code (q + 1)).setWidth 16).setWidth 256) (by
    rw [BitVec.toNat_setWidth, byteN]; have := (byteAt code (q + 1)).isLt; omega)] at h4
  rw [hx]
  have e : x + Word.ofBytes (slice code (q + 1) 1) = Word.add (Word.ofBytes (slice code (q + 1) 1)) x := by
    rw [← l_add]; exact BitVec.add_comm _ _
  rw [e] at h4
  exact h4

theorem small_shl {x y : U256} {n : Nat} (h : y.toNat = n) (hn : n < 256) : x <<< n = Word.shl y x := by
  subst h
  rw [← l_shl]
  unfold wShl
  rw [if_pos hn, uint64_toNat, Nat.mod_eq_of_lt (by omega)]

theorem step_push1Shl (h : Rel 0 p q l s) (hA : At ws E code C p q Op.PUSH1_SHL ([.push 1] ++ [.shl]) a q') :
    Sim (Next ws code C) (stepOnce E l) (stepsEip (frameOf E rev) 2 s) := by
  have hT : Checks Op.PUSH1_SHL ([.push 1] ++ [.shl]) 1 1 := by checks
  have hi := at_first hA rfl
  rw [← hA.conv] at hi
  refine step_stack hT h hA rfl (by decide) rfl rfl fun l' g h' h1 h2 => ?_
  obtain ⟨x, r, hx, hr⟩ := stack_cons h1
  obtain ⟨l2, e2, h4⟩ := setTop_ok' (v := x <<< ((byteAt code (q + 1)).setWidth 16).toNat) h' hx
  refine ⟨l2, (bind_ok (argAt_ok h'.pc hi)).trans ((bind_ok (peek_ok h' hx)).trans e2), done0 ?_⟩
  rw [hx]
  have hlt := (byteAt code (q + 1)).isLt
  have e : (Word.ofBytes (slice code (q + 1) 1)).toNat = (byteAt code (q + 1)).toNat := by
    rw [← push1_eq (code := code) q (v := (byteAt code (q + 1)).setWidth 256) (by rw [BitVec.toNat_setWidth]; omega), BitVec.toNat_setWidth]
    omega
  rw [byteN, small_shl (x := x) e hlt] at h4
  exact h4

theorem holds_at {op : Nat} {is : List Instr} {B : List Instruction} (h : At ws E code C p q op is a q') (hb : block code q op a = B) {j : Nat} {ins : Instruction}
    (hi : B[j]? = some ins) : E.code[p + j]? = some ins := by
  obtain ⟨hj, _⟩ := List.getElem?_eq_some_iff.1 hi
  have := h.holds j (by rw [hb]; exact hj)
  rw [hb, hi] at this
  rw [h.conv]
  exact this

theorem dup2_ok {p : Int} {x y z : U256} {r : List U256} (h : Rel 0 p q l s) (hs : s.stack = x :: y :: z :: r) (hlim : s.stack.length + 1 ≤ 1024) :
    ∃ l', (dup 2 : M ω Unit) l = .ok () l' ∧ Rel 0 p q l' { s with stack := z :: s.stack } := by
  have hlen : s.stack.length = r.length + 3 := by rw [hs]; rfl
  have hv : l.data r.length = z := by
    have := words'_getElem? l.data s.stack.length 2 (by omega)
    rw [show s.stack.length - 1 - 2 = r.length by omega, h.stack, hs] at this
    injection this with this
    exact this.symm
  have e : (dup 2 : M ω Unit) l = .ok () { l with sp := l.sp + 1, data := fun x => if x = s.stack.length then z else l.data x } := by
    unfold dup
    rw [bind_ok (show (getSt : M ω _) l = .ok l l from rfl),
      bind_ok (slot_ok (i := l.sp - 2 - 1) (j := r.length) (by rw [h.sp]; omega) (by omega)),
      bind_ok (setSlot_ok (i := l.sp) (j := s.stack.length) (by rw [h.sp]; omega) (by omega)), hv]
    rfl
  exact ⟨_, e, rel_write (sp := l.sp + 1) h (by rw [h.sp]; omega) hlim⟩

theorem getSt_ok : (getSt : M ω (St ω)) l = .ok l l := rfl
theorem setPc_ok {x : Int} : (setPc x : M ω Unit) l = .ok () { l with pc := x } := rfl

theorem push4_eq (q : Nat) {v : U256} (h : v.toNat = (((byteAt code (q + 1)).toNat * 256 + (byteAt code (q + 2)).toNat) * 65536 +
    ((byteAt code (q + 3)).toNat * 256 + (byteAt code (q + 4)).toNat))) : v = Word.ofBytes (slice code (q + 1) 4) := by
  apply ofBytes_eq
  have e1 := be_two code (q + 1) 2
  have e2 := be_two code (q + 1 + 2) 0
  rw [Nat.zero_add] at e2
  rw [show 2 + 2 = 4 from rfl, e2] at e1
  rw [h, e1]
  simp only [slice, Word.beNat, List.range_zero, List.map_nil, List.foldl_nil, Nat.pow_zero, Nat.mul_one, Nat.add_zero, Nat.add_assoc, Nat.reduceAdd, Nat.reducePow]
  omega

theorem step_push1Push4Dup3 (h : Rel 0 p q l s) (hA : At ws E code C p q Op.PUSH1_PUSH4_DUP3 ([.push 1, .push 4] ++ [.dup 3]) a q') :
    Sim (Next ws code C) (stepOnce E l) (stepsEip (frameOf E rev) 3 s) := by
  have hT : Checks Op.PUSH1_PUSH4_DUP3 ([.push 1, .push 4] ++ [.dup 3]) 1 3 := by checks
  have hi : E.code[p]? = some ⟨Op.PUSH1_PUSH4_DUP3, (byteAt code (q + 1)).setWidth 16 <<< 8⟩ := holds_at (j := 0) hA rfl rfl
  have hi1 : E.code[p + 1]? = some ⟨Op.DATA, pair (byteAt code (q + 3)) (byteAt code (q + 4))⟩ := holds_at (j := 1) hA rfl rfl
  have hi2 : E.code[p + 2]? = some ⟨Op.DATA, pair (byteAt code (q + 5)) (byteAt code (q + 6))⟩ := holds_at (j := 2) hA rfl rfl
  have hlen : p + 2 < E.code.length := (List.getElem?_eq_some_iff.1 hi2).1
  refine step_stack hT h hA rfl (by decide) rfl rfl fun l' g h' h1 h2 => ?_
  obtain ⟨x, r, hx, hr⟩ := stack_cons h1
  obtain ⟨l1, e1, h3⟩ := pushV_ok (v := ofU64 (((byteAt code (q + 1)).setWidth 16 <<< 8 >>> 8 : BitVec 16).setWidth 64)) h' (show s.stack.length + 1 ≤ 1024 by omega)
  have e1' : opPush1 E l' = .ok () l1 := (bind_ok (argAt_ok h'.pc hi)).trans e1
  have h4 := rel_lpc ((p : Int) + 1) h3
  have hd : codeSlice E 2 { l1 with pc := (p : Int) + 1 } = .ok ((E.code.drop (p + 1)).take 2) { l1 with pc := (p : Int) + 1 } :=
    codeSlice_ok (j := p + 1) (by show (p : Int) + 1 = _; omega) (by omega)
  have a0 : arg64 ((E.code.drop (p + 1)).take 2) 0 = (pair (byteAt code (q + 3)) (byteAt code (q + 4))).setWidth 64 := by
    unfold arg64
    rw [take_getD (by omega), Nat.add_zero, List.getD_eq_getElem?_getD, hi1]
    rfl
  have a1 : arg64 ((E.code.drop (p + 1)).take 2) 1 = (pair (byteAt code (q + 5)) (byteAt code (q + 6))).setWidth 64 := by
    unfold arg64
    rw [take_getD (by omega), show p + 1 + 1 = p + 2 from rfl, List.getD_eq_getElem?_getD, hi2]
    rfl
  obtain ⟨l2, e2, h5⟩ := pushV_ok (v := ofU64 ((arg64 ((E.code.drop (p + 1)).take 2) 0 <<< 16) ||| arg64 ((E.code.drop (p + 1)).take 2) 1)) h4
    (show s.stack.length + 1 + 1 ≤ 1024 by omega)
  have h6 := rel_lpc (l2.pc + 1) h5
  have e2' : opPush4 E { l1 with pc := (p : Int) + 1 } = .ok () { l2 with pc := l2.pc + 1 } := (bind_ok hd).trans ((bind_ok e2).trans rfl)
  obtain ⟨l3, e3, h7⟩ := dup2_ok h6 (show _ :: _ :: s.stack = _ by rw [hx]) (show s.stack.length + 1 + 1 + 1 ≤ 1024 by omega)
  refine ⟨l3, ?_, ?_⟩
  · refine (bind_ok e1').trans ((bind_ok getSt_ok).trans ((bind_ok setPc_ok).trans ?_))
    rw [h3.pc]
    exact (bind_ok e2').trans e3
  · rw [show l2.pc + 1 = (p : Int) + 2 from by rw [h5.pc]; omega] at h7
    rw [a0, a1] at h7
    rw [push1_eq (code := code) q (v := ofU64 (((byteAt code (q + 1)).setWidth 16 <<< 8 >>> 8 : BitVec 16).setWidth 64)) (by rw [wide64, highHi])] at h7
    rw [push4_eq (code := code) (q + 2) (v := ofU64 (((pair (byteAt code (q + 3)) (byteAt code (q + 4))).setWidth 64 <<< 16) |||
      (pair (byteAt code (q + 5)) (byteAt code (q + 6))).setWidth 64)) (by
        rw [ofU64_toNat, or16, BitVec.toNat_setWidth, pairN, pairN]
        simp only [Nat.add_assoc, Nat.reduceAdd]
        have b1 := (byteAt code (q + 3)).isLt
        have b2 := (byteAt code (q + 4)).isLt
        have b3 := (byteAt code (q + 5)).isLt
        have b4 := (byteAt code (q + 6)).isLt
        omega)] at h7
    dsimp only [State.push] at h7
    rw [hx] at h7 ⊢
    exact h7

theorem push1N (code : List Byte) (q : Nat) : (Word.ofBytes (slice code (q + 1) 1)).toNat = (byteAt code (q + 1)).toNat := by
  have hlt := (byteAt code (q + 1)).isLt
  rw [← push1_eq (code := code) q (v := (byteAt code (q + 1)).setWidth 256) (by rw [BitVec.toNat_setWidth]; omega), BitVec.toNat_setWidth]
  omega

theorem push1W (code : List Byte) (q : Nat) : (byteAt code (q + 1)).setWidth 256 = Word.ofBytes (slice code (q + 1) 1) := by
  have hlt := (byteAt code (q + 1)).isLt
  exact push1_eq (code := code) q (by rw [BitVec.toNat_setWidth]; omega)

theorem step_push1Push1Push1ShlSub (h : Rel 0 p q l s)
    (hA : At ws E code C p q Op.PUSH1_PUSH1_PUSH1_SHL_SUB ([.push 1, .push 1, .push 1, .shl] ++ [.sub]) a q') :
    Sim (Next ws code C) (stepOnce E l) (stepsEip (frameOf E rev) 5 s) := by
  have hT : Checks Op.PUSH1_PUSH1_PUSH1_SHL_SUB ([.push 1, .push 1, .push 1, .shl] ++ [.sub]) 0 3 := by checks
  have hi : E.code[p]? = some ⟨Op.PUSH1_PUSH1_PUSH1_SHL_SUB, pair (byteAt code (q + 1)) (byteAt code (q + 3))⟩ := holds_at (j := 0) hA rfl rfl
  have hi1 : E.code[p + 1]? = some ⟨Op.DATA, (byteAt code (q + 5)).setWidth 16⟩ := holds_at (j := 1) hA rfl rfl
  refine step_stack hT h hA rfl (by decide) rfl rfl fun l' g h' h1 h2 => ?_
  have e1 : (argAt E 1 : M ω _) l' = .ok ((byteAt code (q + 5)).setWidth 16) l' := by
    have hpc := h'.pc
    unfold argAt Model.Lfvm.instrAt
    rw [assoc, bind_ok getSt_ok, hpc, if_pos (by omega), show ((p : Int) + 1).toNat = p + 1 by omega, hi1]
    rfl
  have f1 : ((pair (byteAt code (q + 1)) (byteAt code (q + 3)) &&& 0xff).setWidth 8 : Byte) = byteAt code (q + 3) := by
    apply BitVec.eq_of_toNat_eq
    rw [BitVec.toNat_setWidth, pairLo]
    have := (byteAt code (q + 3)).isLt
    omega
  have f2 : (((byteAt code (q + 5)).setWidth 16).setWidth 8 : Byte) = byteAt code (q + 5) := by
    apply BitVec.eq_of_toNat_eq
    rw [BitVec.toNat_setWidth, byteN]
    have := (byteAt code (q + 5)).isLt
    omega
  obtain ⟨l1, e2, h3⟩ := pushV_ok (v := ((byteAt code (q + 3)).setWidth 256 <<< (byteAt code (q + 5)).toNat) - (byteAt code (q + 1)).setWidth 256) h'
    (show s.stack.length + 1 ≤ 1024 by omega)
  refine ⟨{ l1 with pc := (p : Int) + 1 }, ?_, ?_⟩
  · refine (bind_ok (argAt_ok h'.pc hi)).trans ((bind_ok e1).trans ?_)
    dsimp only
    rw [f1, f2, pair_hi]
    refine (bind_ok e2).trans ((bind_ok getSt_ok).trans ?_)
    rw [h3.pc]
    rfl
  · have h4 := rel_lpc ((p : Int) + 1) h3
    rw [push1W code q, push1W code (q + 2), ← push1N code (q + 4), small_shl rfl (by rw [push1N]; exact (byteAt code (q + 4 + 1)).isLt)] at h4
    have e : Word.shl (Word.ofBytes (slice code (q + 4 + 1) 1)) (Word.ofBytes (slice code (q + 2 + 1) 1)) - Word.ofBytes (slice code (q + 1) 1) =
      Word.sub (Word.shl (Word.ofBytes (slice code (q + 4 + 1) 1)) (Word.ofBytes (slice code (q + 2 + 1) 1))) (Word.ofBytes (slice code (q + 1) 1)) := l_sub _ _
    rw [e] at h4
    exact h4

/-! ## Jumps and memory -/

/-- Super-instructions whose last instruction jumps or writes memory. -/
theorem step_jumping {op lo hi : Nat} {pre : List Instr} {last : Instr} {m : M ω Unit} {ar : BitVec 16}
    (hT : Checks op (pre ++ [last]) lo hi) (h : Rel 0 p q l s)
    (hA : At ws E code C p q op (pre ++ [last]) a q') (hb : block code q op a = [⟨op, ar⟩])
    (hpre : ∀ i ∈ pre, stackOnly i = true) (hl : last.since = 0) (hlw : last.writes = false) (hm : execOp E op = runs m)
    (H : ∀ l' g, Rel 0 p q' l' { s with gas := g, pc := q' } → lo ≤ s.stack.length → s.stack.length + hi ≤ 1024 →
      Sim (fun _ l t => Match p q' l t ∨ Landed ws code C l t) (m l') (execEip (frameOf E rev) (q' - last.length) last
        { s with stack := effs code q pre s.stack, gas := g, pc := q' })) :
    Sim (Next ws code C) (stepOnce E l) (stepsEip (frameOf E rev) (pre.length + 1) s) := by
  refine sim_mono (sim_super (Q := Jumped ws code C (p : Int) q') hA.same hA.conv h rfl (at_first hA hb) hT.table hpre hl hlw hA.reads ?_) ?_
  · intro l' h' hf hp
    rw [hm]
    obtain ⟨h1, h2, _⟩ := (hT.fits _ _ h.limit).1 hf
    exact sim_bind (H l' _ (rel_pc q' h') h1 h2) fun _ l2 h2 => ⟨rfl, h2⟩
  · intro st l' hm
    have L := hA.after
    rw [hb] at L
    exact next_jumped (p' := p + 1) (by omega) L hm

/-- A jump to a place given by two bytes of the code. -/
theorem sim_goto16 {p : Int} {k : Nat} {dest : U256} {ar : BitVec 16} (hd : dest.toNat = ar.toNat) (hc : E.params.code = code) (hC : E.code = C) (T : Targets ws code C 0 0)
    (hcode : code.length ≤ 2 ^ 16) (h : Rel 0 p k l s) :
    Sim (fun _ => Landed ws code C) ((setPc ((ar.toNat : Int) - 1) >>= fun _ => checkJumpDest E : M ω Unit) l) (jumpTo (frameOf E rev) dest s) := by
  have := sim_goto (rev := rev) (dest := dest) hc hC T hcode h
  have hlt := ar.isLt
  rw [if_neg (by rw [farJump_iff]; omega), uint64_toNat, Nat.mod_eq_of_lt (by omega), hd] at this
  exact this

theorem push2N (code : List Byte) (q : Nat) :
    (Word.ofBytes (slice code (q + 1) 2)).toNat = (pair (byteAt code (q + 1)) (byteAt code (q + 2))).toNat := by
  have e : BitVec.setWidth 256 (pair (byteAt code (q + 1)) (byteAt code (q + 2))) = Word.ofBytes (slice code (q + 1) 2) := by
    apply ofBytes_eq
    rw [BitVec.toNat_setWidth, pairN]
    have h1 := (byteAt code (q + 1)).isLt
    have h2 := (byteAt code (q + 2)).isLt
    rw [Nat.mod_eq_of_lt (by omega)]
    have := be_two code (q + 1) 0
    rw [Nat.zero_add] at this
    rw [this, Nat.add_assoc q 1 1]
    simp only [slice, Word.beNat, List.range_zero, List.map_nil, List.foldl_nil, Nat.pow_zero, Nat.mul_one, Nat.add_zero, Nat.reduceAdd]
    omega
  rw [← e, BitVec.toNat_setWidth]
  have := (pair (byteAt code (q + 1)) (byteAt code (q + 2))).isLt
  omega

theorem step_push2Jump (T : Targets ws code C 0 0) (hcode : code.length ≤ 2 ^ 16) (h : Rel 0 p q l s)
    (hA : At ws E code C p q Op.PUSH2_JUMP ([.push 2] ++ [.jump]) a q') : Sim (Next ws code C) (stepOnce E l) (stepsEip (frameOf E rev) 2 s) := by
  have hT : Checks Op.PUSH2_JUMP ([.push 2] ++ [.jump]) 0 1 := by checks
  have hi := at_first hA rfl
  rw [← hA.conv] at hi
  refine step_jumping hT h hA rfl (by decide) rfl rfl rfl fun l' g h' h1 h2 => ?_
  refine sim_mono (Q' := fun _ => Landed ws code C) ?_ fun _ _ h => .inr h
  show Sim _ (opPush2Jump E l') (jumpTo (frameOf E rev) (Word.ofBytes (slice code (q + 1) 2)) { s with gas := g, pc := q' })
  unfold opPush2Jump
  rw [bind_ok (argAt_ok h'.pc hi)]
  exact sim_goto16 (push2N code q) hA.same hA.conv T hcode h'

theorem step_push2Jumpi (T : Targets ws code C 0 0) (hcode : code.length ≤ 2 ^ 16) (h : Rel 0 p q l s)
    (hA : At ws E code C p q Op.PUSH2_JUMPI ([.push 2] ++ [.jumpi]) a q') : Sim (Next ws code C) (stepOnce E l) (stepsEip (frameOf E rev) 2 s) := by
  have hT : Checks Op.PUSH2_JUMPI ([.push 2] ++ [.jumpi]) 1 1 := by checks
  have hi := at_first hA rfl
  rw [← hA.conv] at hi
  refine step_jumping hT h hA rfl (by decide) rfl rfl rfl fun l' g h' h1 h2 => ?_
  obtain ⟨x, r, hx, hr⟩ := stack_cons h1
  obtain ⟨l1, e1, h3⟩ := popW_ok h' hx
  rw [hx]
  show Sim _ (opPush2Jumpi E l') (if x.toNat ≠ 0 then jumpTo (frameOf E rev) (Word.ofBytes (slice code (q + 1) 2)) { s with stack := r, gas := g, pc := q' } else
    { s with stack := r, gas := g, pc := q' })
  unfold opPush2Jumpi
  rw [bind_ok e1]
  by_cases hz : x = 0
  · rw [if_neg (fun hn => hn hz), if_neg (show ¬ (BitVec.toNat x ≠ 0) from fun hn => hn (by rw [hz]; rfl))]
    exact .inl h3.match
  · rw [if_pos hz, if_pos (show BitVec.toNat x ≠ 0 from fun hn => hz (BitVec.eq_of_toNat_eq hn))]
    rw [bind_ok (argAt_ok h3.pc hi)]
    exact sim_mono (sim_goto16 (push2N code q) hA.same hA.conv T hcode h3) fun _ _ h => .inr h

theorem iszeroN (x : U256) : (Word.iszero x).toNat ≠ 0 ↔ x = 0 := by
  rw [← l_iszero]
  unfold flag
  by_cases h : x = 0
  · subst h; simp
  · have : (x == 0) = false := by simpa using h
    rw [this]
    exact ⟨fun h => absurd rfl h, fun hx => absurd hx h⟩

theorem step_iszeroPush2Jumpi (T : Targets ws code C 0 0) (hcode : code.length ≤ 2 ^ 16) (h : Rel 0 p q l s)
    (hA : At ws E code C p q Op.ISZERO_PUSH2_JUMPI ([.iszero, .push 2] ++ [.jumpi]) a q') : Sim (Next ws code C) (stepOnce E l) (stepsEip (frameOf E rev) 3 s) := by
  have hT : Checks Op.ISZERO_PUSH2_JUMPI ([.iszero, .push 2] ++ [.jumpi]) 1 1 := by checks
  have hi := at_first hA rfl
  rw [← hA.conv] at hi
  refine step_jumping hT h hA rfl (by decide) rfl rfl rfl fun l' g h' h1 h2 => ?_
  obtain ⟨x, r, hx, hr⟩ := stack_cons h1
  obtain ⟨l1, e1, h3⟩ := popW_ok h' hx
  rw [hx]
  show Sim _ (opIsZeroPush2Jumpi E l') (if (Word.iszero x).toNat ≠ 0 then jumpTo (frameOf E rev) (Word.ofBytes (slice code (q + 1 + 1) 2)) { s with stack := r, gas := g, pc := q' } else
    { s with stack := r, gas := g, pc := q' })
  unfold opIsZeroPush2Jumpi
  rw [bind_ok e1]
  by_cases hz : x = 0
  · rw [if_pos hz, if_pos ((iszeroN x).2 hz)]
    rw [bind_ok (argAt_ok h3.pc hi)]
    exact sim_mono (sim_goto16 (push2N code (q + 1)) hA.same hA.conv T hcode h3) fun _ _ h => .inr h
  · rw [if_neg hz, if_neg (fun hn => hz ((iszeroN x).1 hn))]
    exact .inl h3.match

theorem step_popJump (T : Targets ws code C 0 0) (hcode : code.length ≤ 2 ^ 16) (h : Rel 0 p q l s)
    (hA : At ws E code C p q Op.POP_JUMP ([.pop] ++ [.jump]) a q') : Sim (Next ws code C) (stepOnce E l) (stepsEip (frameOf E rev) 2 s) := by
  have hT : Checks Op.POP_JUMP ([.pop] ++ [.jump]) 2 0 := by checks
  refine step_jumping hT h hA rfl (by decide) rfl rfl rfl fun l' g h' h1 h2 => ?_
  obtain ⟨x, r, hx, hr⟩ := stack_cons h1
  obtain ⟨y, r', rfl, hr'⟩ := stack_cons hr
  obtain ⟨l1, e1, h3⟩ := popW_ok h' hx
  obtain ⟨l2, e2, h4⟩ := popW_ok h3 rfl
  rw [hx]
  refine sim_mono (Q' := fun _ => Landed ws code C) ?_ fun _ _ h => .inr h
  show Sim _ (opPopJump E l') (jumpTo (frameOf E rev) y { s with stack := r', gas := g, pc := q' })
  unfold opPopJump opJump
  rw [bind_ok e1, bind_ok e2]
  exact sim_goto hA.same hA.conv T hcode h4

theorem step_dup2Mstore (h : Rel 0 p q l s)
    (hA : At ws E code C p q Op.DUP2_MSTORE ([.dup 2] ++ [.mstore]) a q') : Sim (Next ws code C) (stepOnce E l) (stepsEip (frameOf E rev) 2 s) := by
  have hT : Checks Op.DUP2_MSTORE ([.dup 2] ++ [.mstore]) 2 1 := by checks
  refine step_jumping hT h hA rfl (by decide) rfl rfl rfl fun l' g h' h1 h2 => ?_
  obtain ⟨x, r, hx, hr⟩ := stack_cons h1
  obtain ⟨y, r', rfl, hr'⟩ := stack_cons hr
  obtain ⟨l1, e1, h3⟩ := popW_ok h' hx
  rw [hx]
  show Sim _ (opDup2Mstore l') (({ s with stack := y :: r', gas := g, pc := q' } : State ω).touch y 32 0 fun s => { s with mem := s.mem.write y.toNat (Word.toBytes x) })
  unfold opDup2Mstore
  rw [bind_ok e1, bind_ok (peek_ok h3 rfl), l_bytes32]
  have hl : (Word.toBytes x).length = 32 := by unfold Word.toBytes; simp
  exact sim_memSet h3 (by rw [hl]; rfl) (by omega) fun l' g h' => .inl h'.match

/-! ## SWAP2 SWAP1 POP JUMP -/

theorem safe_after {P : Params ω} (n : Nat) (h : SafeReturns P s) : SafeReturns P (stepsEip P n s) := by
  intro k d r h1 h2
  rw [← stepsEip_add] at h1 h2
  exact h (n + k) d r h1 h2

theorem alive_landed : Alive (fun (_ : Unit) => Landed (ω := ω) ws code C) := by
  intro _ l t ⟨d, hm, _⟩ ⟨f, hf⟩
  have := hm.status
  rw [hf] at this
  cases this

theorem same_pc {p : Int} (h : l.pc = p) : { l with pc := p } = l := by
  cases l; cases h; rfl

theorem int32_small {x : U256} {w : Nat} (hw : x.toNat % 2 ^ 32 = w) (h : w < 2 ^ 31) : (int32 (uint64 x) - 1).bmod (2 ^ 32) = (w : Int) - 1 := by
  have e : ((uint64 x).setWidth 32 : BitVec 32).toNat = w := by
    rw [BitVec.toNat_setWidth, uint64_toNat]; omega
  have e2 : int32 (uint64 x) = w := by
    unfold int32
    rw [BitVec.toInt_eq_toNat_cond, e, if_pos (by omega)]
  rw [e2]
  exact Int.bmod_eq_of_le (by omega) (by omega)

theorem step_swap2Swap1PopJump (T : Targets ws code C 0 0) (hcode : code.length ≤ 2 ^ 16) (h : Rel 0 p q l s) (hs : SafeReturns (frameOf E rev) s)
    (hb : (byteAt code q).toNat = Op.SWAP2 ∧ (byteAt code (q + 1)).toNat = Op.SWAP1 ∧ (byteAt code (q + 2)).toNat = Op.POP ∧ (byteAt code (q + 3)).toNat = Op.JUMP)
    (hA : At ws E code C p q Op.SWAP2_SWAP1_POP_JUMP ([.swap 2, .swap 1, .pop] ++ [.jump]) a q') :
    Sim (Next ws code C) (stepOnce E l) (stepsEip (frameOf E rev) 4 s) := by
  have hT : Checks Op.SWAP2_SWAP1_POP_JUMP ([.swap 2, .swap 1, .pop] ++ [.jump]) 3 0 := by checks
  have hT3 : Fits ([.swap 2, .swap 1, .pop] ++ [.jump]) s.stack.length s.gas → Fits ([.swap 2, .swap 1] ++ [.pop]) s.stack.length s.gas := by
    rintro ⟨a1, a2, a3, b1, b2, b3, c1, c2, c3, _⟩
    exact ⟨a1, a2, a3, b1, b2, b3, c1, c2, c3, trivial⟩
  have hfc : (frameOf E rev).code = code := hA.same
  have hr3 : Reads code q ([.swap 2, .swap 1] ++ [.pop]) (q + 3) := by
    obtain ⟨r1, r2, r3, _⟩ := hA.reads
    exact ⟨r1, r2, r3, rfl⟩
  refine sim_mono (sim_super (Q := Jumped ws code C (p : Int) q') hA.same hA.conv h rfl (at_first hA rfl) hT.table (by decide) rfl rfl hA.reads ?_) ?_
  · intro l' h' hf hp
    obtain ⟨h1, h2, h0⟩ := (hT.fits _ _ h.limit).1 hf
    -- the state in front of the JUMP
    have e3 := ((steps_script (P := frameOf E rev) (last := .pop) rfl rfl [.swap 2, .swap 1] s (q + 3) (by decide) h.status
      (by rw [hfc, h.pc']; exact hr3)).2 (hT3 hf)).1
    obtain ⟨x, r, hx, hr⟩ := stack_cons h1
    obtain ⟨y, r', rfl, hr'⟩ := stack_cons hr
    obtain ⟨z, r'', rfl, hr''⟩ := stack_cons hr'
    rw [hx] at e3
    have e3 : stepsEip (frameOf E rev) 3 s = { s with stack := z :: x :: r'', gas := s.gas - total [.swap 2, .swap 1, .pop], pc := q + 3 } := e3
    have safe : SafeTarget code z.toNat := by
      rw [← hfc]
      refine hs 3 z (x :: r'') ?_ (by rw [e3])
      rw [e3]
      have byte : ∀ {i o : Nat}, (byteAt code i).toNat = o → byteAt (frameOf E rev).code i = BitVec.ofNat 8 o := fun {i o} h => by
        rw [hfc, ← h]; simp
      refine ⟨h.status, by show 3 ≤ q + 3; omega, byte ?_, byte ?_, byte ?_, byte ?_⟩
      · exact hb.1
      · exact hb.2.1
      · exact hb.2.2.1
      · exact hb.2.2.2
    have h' := rel_pc q' h'
    generalize s.gas - total ([.swap 2, .swap 1, .pop] ++ [.jump]) = g at h' ⊢
    obtain ⟨l1, e1, h3⟩ := popW_ok h' hx
    obtain ⟨l2, e2, h4⟩ := popW_ok h3 rfl
    -- the jump, to whatever remains of the target
    have go : ∀ w : Nat, z.toNat % 2 ^ 32 = w → w < 2 ^ 31 → Sim (fun _ => Landed ws code C) (opSwap2Swap1PopJump E l')
        (jumpTo (frameOf E rev) (BitVec.ofNat 256 w) { s with stack := x :: r'', gas := g, pc := q' }) := by
      intro w hw hw'
      have h5 := rel_lpc ((w : Int) - 1) h4
      obtain ⟨l3, e4, h6⟩ := setTop_ok' (v := x) h5 rfl
      have hwd : (BitVec.ofNat 256 w).toNat = w := by rw [BitVec.toNat_ofNat]; omega
      have := sim_goto (rev := rev) (dest := BitVec.ofNat 256 w) hA.same hA.conv T hcode h6
      rw [if_neg (by rw [farJump_iff, hwd]; omega), uint64_toNat, hwd, Nat.mod_eq_of_lt (by omega), bind_ok setPc_ok, same_pc h6.pc] at this
      unfold opSwap2Swap1PopJump
      rw [bind_ok e1, bind_ok e2, bind_ok (peek_ok h4 rfl), int32_small hw hw', bind_ok setPc_ok, bind_ok e4]
      exact this
    rw [hx]
    show Sim _ (runs (opSwap2Swap1PopJump E) l') (jumpTo (frameOf E rev) z { s with stack := x :: r'', gas := g, pc := q' })
    refine sim_bind (Q' := fun _ => Landed ws code C) ?_ fun _ l2 h2 => ⟨rfl, .inr h2⟩
    rcases safe with hz | ⟨hz, hnt⟩
    · have := go z.toNat (by omega) hz
      rwa [show BitVec.ofNat 256 z.toNat = z by simp] at this
    · by_cases hz' : z.toNat < 2 ^ 31
      · have := go z.toNat (by omega) hz'
        rwa [show BitVec.ofNat 256 z.toNat = z by simp] at this
      · refine sim_like alive_landed (like_of_failed ?_ ?_) (go _ rfl hz)
        · unfold jumpTo
          rw [if_neg (fun ht => by obtain ⟨ht, _⟩ := ht; rw [hfc] at ht; omega)]
          exact failed_fail _ _
        · unfold jumpTo
          rw [if_neg (fun ht => hnt (by rw [hfc, BitVec.toNat_ofNat, Nat.mod_eq_of_lt (by omega)] at ht; exact ht))]
          exact failed_fail _ _
  · intro st l' hm
    exact next_jumped (p' := p + 1) (by omega) hA.after hm

/-- A super-instruction does what the instructions it stands for do. -/
theorem step_super {op : Nat} (T : Targets ws code C 0 0) (hcode : code.length ≤ 2 ^ 16) (hc : E.params.code = code) (hC : E.code = C) (h : Rel 0 p q l s)
    (hs : SafeReturns (frameOf E rev) s) (hd : Op.decompose op ≠ []) (hsp : Spelt code q (Op.decompose op) q') (hold : Holds C p (block code q op a))
    (L : Laid ws code C (p + (block code q op a).length) q') : ∃ n, 1 ≤ n ∧ Sim (Next ws code C) (stepOnce E l) (stepsEip (frameOf E rev) n s) := by
  have at_ : (∀ {is : List Instr}, (Op.decompose op).map decode = is.map some → At ws E code C p q op is a q') ∧ Op.decompose op ≠ [] ∧
      Spelt code q (Op.decompose op) q' := ⟨fun hm => ⟨hc, hC, spelt_reads hsp hm, hold, L⟩, hd, hsp⟩
  clear hd hsp
  unfold Op.decompose at at_
  split at at_ <;> obtain ⟨at_, hd, hsp⟩ := at_
  · refine ⟨4, by decide, step_swap2Swap1PopJump T hcode h hs ?_ (at_ rfl)⟩
    obtain ⟨_, b1, _, b2, _, b3, _, b4, _⟩ := hsp
    exact ⟨b1, b2, b3, b4⟩
  · exact ⟨4, by decide, step_swap1PopSwap2Swap1 h (at_ rfl)⟩
  · exact ⟨4, by decide, step_popSwap2Swap1Pop h (at_ rfl)⟩
  · exact ⟨2, by decide, step_popPop h (at_ rfl)⟩
  · exact ⟨2, by decide, step_push1Shl h (at_ rfl)⟩
  · exact ⟨2, by decide, step_push1Add h (at_ rfl)⟩
  · exact ⟨2, by decide, step_push1Dup1 h (at_ rfl)⟩
  · exact ⟨2, by decide, step_push2Jump T hcode h (at_ rfl)⟩
  · exact ⟨2, by decide, step_push2Jumpi T hcode h (at_ rfl)⟩
  · exact ⟨2, by decide, step_push1Push1 h (at_ rfl)⟩
  · exact ⟨2, by decide, step_swap1Pop h (at_ rfl)⟩
  · exact ⟨2, by decide, step_popJump T hcode h (at_ rfl)⟩
  · exact ⟨2, by decide, step_swap2Swap1 h (at_ rfl)⟩
  · exact ⟨2, by decide, step_swap2Pop h (at_ rfl)⟩
  · exact ⟨2, by decide, step_dup2Mstore h (at_ rfl)⟩
  · exact ⟨2, by decide, step_dup2Lt h (at_ rfl)⟩
  · exact ⟨3, by decide, step_iszeroPush2Jumpi T hcode h (at_ rfl)⟩
  · exact ⟨3, by decide, step_push1Push4Dup3 h (at_ rfl)⟩
  · exact ⟨5, by decide, step_andSwap1PopSwap2Swap1 h (at_ rfl)⟩
  · exact ⟨5, by decide, step_push1Push1Push1ShlSub h (at_ rfl)⟩
  · exact absurd rfl hd

end Tosca.Proofs.Lfvm

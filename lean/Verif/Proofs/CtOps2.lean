import Verif.Proofs.CtOps1

/-!
# Rules about the environment, the stack and jumps
-/

namespace Tosca.Proofs.Ct

open Tosca.Spec Tosca.Spec.Go Tosca.Go Tosca.Model.Go Tosca.Model.Ct Tosca.Proofs.Lfvm
open Tosca.Model.Lfvm (isUint64 uint64 ofU64 bytes20 bytes32 ofBytes20 setBytes)

variable {c : S} {t : State World} {keccak : List Byte → U256}

theorem push_congr {s : State World} {v v' : U256} (h : v = v') : s.push v = s.push v' := by rw [h]

theorem env_plain {op : Nat} {g : Int} {v : Model.Ct.Fixed → S → U256} {I : Instr} (hd : decode op = some I) (hp : I.pops = 0) (hq : I.pushes = 1)
    (hg : g = (I.baseGas : Int)) (hl : I.length = 1) (hne : I ≠ .sstore) (ho : op ≠ 0) (h1 : I.since = 0) (h2 : I.writes = false)
    (he : ∀ x c rev, At x c rev op → Ok (next c I.baseGas) → Bounded (next c I.baseGas) →
      exec (testFrame keccak x c rev) c.pc.toNat I (frameState (next c I.baseGas)) = (frameState (next c I.baseGas)).push (v x (next c I.baseGas))) :
    Sounds keccak (constOp op g v) :=
  sounds_const hd hp hq hg hl hne ho (fun x _ rev _ _ => always h1 h2 x rev) he

theorem ofI_s64 {b : BitVec 64} (h : b.toNat < 2 ^ 63) : Word.ofI (s64 b) = ofU64 b := by
  rw [s64_small b h]
  exact (l_ofU64 (x := b) rfl).symm ▸ (by unfold Word.ofI Word.ofN; exact BitVec.ofInt_natCast ..)

theorem sounds_environment : Sounds keccak environmentRules := by
  unfold environmentRules
  refine sounds_append (sounds_append (sounds_append (sounds_append (sounds_append (sounds_append (sounds_append (sounds_append (sounds_append (sounds_append
    (sounds_append (sounds_append (sounds_append (sounds_append (sounds_append (sounds_append (sounds_append
    ?_ ?_) ?_) ?_) ?_) ?_) ?_) ?_) ?_) ?_) ?_) ?_) ?_) ?_) ?_) ?_) ?_) ?_
  · refine env_plain (I := .pc) rfl rfl rfl rfl rfl (by decide) (by decide) rfl rfl fun x c rev hat _ _ => push_congr ?_
    refine (l_ofU64 ?_).symm
    show ((c.pc + 1).setWidth 64 - 1#64).toNat = c.pc.toNat
    rw [BitVec.toNat_sub, BitVec.toNat_setWidth, pc_next hat (by decide)]
    have := c.pc.isLt
    have o1 : (1#64).toNat = 1 := rfl
    rw [o1]
    omega
  · refine env_plain (I := .msize) rfl rfl rfl rfl rfl (by decide) (by decide) rfl rfl fun x c rev hat ok hb => push_congr ?_
    have hl := bounded_length hb
    show Word.ofN (32 * words c.memory.length) = _
    refine (l_ofU64 ?_).symm
    have := ok.memory
    have e : (next c (Instr.baseGas .msize)).memory = c.memory := rfl
    rw [e] at this hl ⊢
    rw [BitVec.toNat_ofNat]
    unfold words
    omega
  · refine env_plain (I := .gas) rfl rfl rfl rfl rfl (by decide) (by decide) rfl rfl fun x c rev hat ok hb => push_congr ?_
    have h0 := ok.gas
    have h1 := hb
    unfold Bounded at h1
    generalize next c (Instr.baseGas .gas) = c1 at *
    show Word.ofN c1.gas.toNat = _
    refine (l_ofU64 ?_).symm
    unfold u64
    rw [BitVec.toNat_ofInt]
    omega
  · exact env_plain (I := .address) rfl rfl rfl rfl rfl (by decide) (by decide) rfl rfl fun x c rev _ _ _ => push_congr (l_ofBytes20 _).symm
  · exact env_plain (I := .origin) rfl rfl rfl rfl rfl (by decide) (by decide) rfl rfl fun x c rev _ _ _ => push_congr (l_ofBytes20 _).symm
  · exact env_plain (I := .caller) rfl rfl rfl rfl rfl (by decide) (by decide) rfl rfl fun x c rev _ _ _ => push_congr (l_ofBytes20 _).symm
  · exact env_plain (I := .callvalue) rfl rfl rfl rfl rfl (by decide) (by decide) rfl rfl fun x c rev _ _ _ => rfl
  · exact env_plain (I := .number) rfl rfl rfl rfl rfl (by decide) (by decide) rfl rfl fun x c rev hat _ _ => push_congr (ofI_s64 hat.scope.blockNumber)
  · exact env_plain (I := .coinbase) rfl rfl rfl rfl rfl (by decide) (by decide) rfl rfl fun x c rev _ _ _ => push_congr (l_ofBytes20 _).symm
  · exact env_plain (I := .gaslimit) rfl rfl rfl rfl rfl (by decide) (by decide) rfl rfl fun x c rev hat _ _ => push_congr (ofI_s64 hat.scope.gasLimit)
  · exact env_plain (I := .prevrandao) rfl rfl rfl rfl rfl (by decide) (by decide) rfl rfl fun x c rev _ _ _ => rfl
  · exact env_plain (I := .gasprice) rfl rfl rfl rfl rfl (by decide) (by decide) rfl rfl fun x c rev _ _ _ => rfl
  · exact env_plain (I := .timestamp) rfl rfl rfl rfl rfl (by decide) (by decide) rfl rfl fun x c rev hat _ _ => push_congr (ofI_s64 hat.scope.timestamp)
  · exact env_plain (I := .chainid) rfl rfl rfl rfl rfl (by decide) (by decide) rfl rfl fun x c rev _ _ _ => rfl
  · refine env_plain (I := .codesize) rfl rfl rfl rfl rfl (by decide) (by decide) rfl rfl fun x c rev hat _ _ => push_congr (l_ofN64 ?_).symm
    have := hat.scope.code
    show x.code.length < _
    omega
  · refine env_plain (I := .calldatasize) rfl rfl rfl rfl rfl (by decide) (by decide) rfl rfl fun x c rev hat _ _ => push_congr (l_ofN64 ?_).symm
    have := hat.scope.input
    show x.callData.length < _
    omega
  · exact env_plain (I := .selfbalance) rfl rfl rfl rfl rfl (by decide) (by decide) rfl rfl fun x c rev _ _ _ => rfl
  · refine env_plain (I := .returndatasize) rfl rfl rfl rfl rfl (by decide) (by decide) rfl rfl fun x c rev hat _ _ => push_congr (l_ofN64 ?_).symm
    have := hat.scope.returned
    show c.lastCallReturnData.length < _
    omega

/-! ## Instructions of later revisions -/

/-- Rules that refuse an instruction before its revision. -/
theorem sound_early {lo hi : Int} {o : Nat} {I : Instr} (hd : decode o = some I) (hs : hi + 8 ≤ (I.since : Nat)) {ks : List Cond} :
    Sound keccak ⟨.revision lo hi :: .status .running :: .op .pc o :: ks, failEffect⟩ := by
  refine sound_refuse hd (by simp) fun x c rev hat hk => exec_refused (.inl ?_)
  have h1 := check_revision.1 (hk (.revision lo hi) (by simp))
  have h2 := rev_eq hat.rev
  show rev < I.since
  have : (rev : Int) < ((I.since : Nat) : Int) := by omega
  exact Int.ofNat_lt.1 this

theorem since_ok {lo hi : Int} {x : Model.Ct.Fixed} {rev : Revision} {I : Instr} (hr : revisionOf x.revision = some rev)
    (hk : (Cond.revision lo hi).check x c = some true) (hs : ((I.since : Nat) : Int) ≤ lo + 7) : ¬ rev < I.since := by
  have h1 := check_revision.1 hk
  have h2 := rev_eq hr
  intro hc
  have : (rev : Int) < ((I.since : Nat) : Int) := Int.ofNat_lt.2 hc
  omega

theorem sounds_basefee : Sounds keccak (lateOp 0x48 2 fun x => x.block.baseFee) := by
  unfold lateOp
  refine sounds_append (sounds_const (I := .basefee) rfl rfl rfl rfl rfl (by decide) (by decide) ?_ fun x c rev hat _ _ => rfl)
    (sounds_cons (sound_early (I := .basefee) rfl (by decide)) sounds_nil)
  intro x c rev hat hk
  exact ⟨since_ok hat.rev (hk _ (List.mem_singleton.2 rfl)) (by decide), fun h => by cases h.1⟩

theorem sounds_blobbasefee : Sounds keccak (lateOp 0x4a 5 fun x => x.block.blobBaseFee) := by
  unfold lateOp
  refine sounds_append (sounds_const (I := .blobbasefee) rfl rfl rfl rfl rfl (by decide) (by decide) ?_ fun x c rev hat _ _ => rfl)
    (sounds_cons (sound_early (I := .blobbasefee) rfl (by decide)) sounds_nil)
  intro x c rev hat hk
  exact ⟨since_ok hat.rev (hk _ (List.mem_singleton.2 rfl)) (by decide), fun h => by cases h.1⟩

theorem sounds_push0 : Sounds keccak push0 := by
  unfold push0
  refine sounds_append (sounds_const (I := .push 0) rfl rfl rfl rfl rfl (by decide) (by decide) ?_ fun x c rev hat _ _ => rfl)
    (sounds_cons (sound_early (I := .push 0) rfl (by decide)) sounds_nil)
  intro x c rev hat hk
  exact ⟨since_ok hat.rev (hk _ (List.mem_singleton.2 rfl)) (by decide), fun h => by cases h.1⟩

theorem sounds_tload : Sounds keccak tload := by
  unfold tload
  have main : ∀ (k : Cond) (E : Effect), (∀ x c, k.check x c = some true → ∀ key r, c.stack = key :: r →
      E x (next c 100) = some (push { next c 100 with stack := r } (c.world.getTransient key))) →
      Sounds keccak (rulesFor { op := 0x5c, staticGas := 100, pops := 1, pushes := 1, conditions := [.revision 5 5, k], effect := E }) := by
    intro k E hE
    refine sounds_simple (I := .tload) rfl rfl rfl rfl rfl (by decide) (by decide) (by show (0x5c : Nat) ≠ 0; decide) ?_ ?_
    · intro x c rev hat hk
      exact ⟨since_ok hat.rev (hk (.revision 5 5) (by simp)) (by decide), fun h => by cases h.1⟩
    · intro x c rev hat hk hs hok hb
      obtain ⟨a, r, hst⟩ := stack1 hs
      have hst' : (next c (Instr.baseGas .tload)).stack = a :: r := hst
      have e := hE x c (hk k (by simp)) a r hst
      show Does (E x (next c 100)) ((frameState (next c 100)).pop1 fun key s => s.ask ((testFrame keccak x c rev).host.getTransient _ key) fun v s => s.push v)
      rw [e, pop1_eq (c := next c 100) hst']
      exact does_push (ok_stack hok r) rfl
  refine sounds_append (sounds_append (main _ _ ?_) (main _ _ ?_)) (sounds_cons (sound_early (I := .tload) rfl (by decide)) sounds_nil)
  · intro x c _ key r hst
    simp only [pop_eq (c := next c 100) hst, Option.bind_eq_bind, Option.bind_some]
    rfl
  · intro x c hk key r hst
    simp only [pop_eq (c := next c 100) hst, Option.bind_eq_bind, Option.bind_some]
    have h0 : c.world.getTransient key = 0 := by
      have : param c 0 = some key := by unfold param; rw [hst]; rfl
      unfold Cond.check at hk
      dsimp only at hk
      rw [this] at hk
      simpa using hk
    rw [h0]

theorem sounds_tstore : Sounds keccak tstore := by
  unfold tstore
  have main : ∀ (k : Cond), Sounds keccak (rulesFor
      { op := 0x5d, staticGas := 100, pops := 2, pushes := 0, conditions := [.revision 5 5, .readOnly false, k], effect := fun _ s => do
          let (key, s) ← Model.Ct.pop s
          let (value, s) ← Model.Ct.pop s
          some { s with world := s.world.setTransient key value } }) := by
    intro k
    refine sounds_simple (I := .tstore) rfl rfl rfl rfl rfl (by decide) (by decide) (by show (0x5d : Nat) ≠ 0; decide) ?_ ?_
    · intro x c rev hat hk
      refine ⟨since_ok hat.rev (hk (.revision 5 5) (by simp)) (by decide), fun h => ?_⟩
      have := check_readOnly.1 (hk (.readOnly false) (by simp))
      rw [this] at h
      cases h.2
    · intro x c rev hat hk hs hok hb
      obtain ⟨a, b, r, hst⟩ := stack2 hs
      have hst' : (next c (Instr.baseGas .tstore)).stack = a :: b :: r := hst
      show Does _ ((frameState (next c (Instr.baseGas .tstore))).pop2 fun key v s => { s with host := s.host.setTransient key v })
      generalize next c (Instr.baseGas .tstore) = c1 at *
      rw [pop2_eq hst']
      simp only [pop_eq hst', pop_mk, Option.bind_eq_bind, Option.bind_some]
      exact does_next ⟨hok.status, hok.result, hok.memory, hok.gas, hok.refund⟩ rfl
  refine sounds_append (sounds_append (main _) (main _)) (sounds_cons (sound_early (I := .tstore) rfl (by decide)) (sounds_cons ?_ sounds_nil))
  refine sound_refuse (I := .tstore) (o := 0x5d) rfl (by simp) fun x c rev hat hk => exec_refused (.inr (.inl ⟨rfl, ?_⟩))
  rw [frame_static]
  exact check_readOnly.1 (hk (.readOnly true) (by simp))

/-! ## Stack -/

theorem sounds_jumpdest : Sounds keccak jumpdest := by
  unfold jumpdest
  refine sounds_simple (I := .jumpdest) rfl rfl rfl rfl rfl (by decide) (by decide) (by decide) (fun x c rev _ _ => always rfl rfl x rev) ?_
  intro x c rev hat hk hs hok hb
  exact does_next hok rfl

theorem sounds_pop : Sounds keccak popOp := by
  unfold popOp
  refine sounds_simple (I := .pop) rfl rfl rfl rfl rfl (by decide) (by decide) (by decide) (fun x c rev _ _ => always rfl rfl x rev) ?_
  intro x c rev hat hk hs hok hb
  obtain ⟨a, r, hst⟩ := stack1 hs
  have hst' : (next c (Instr.baseGas .pop)).stack = a :: r := hst
  show Does _ ((frameState (next c (Instr.baseGas .pop))).pop1 fun _ s => s)
  generalize next c (Instr.baseGas .pop) = c1 at *
  rw [pop1_eq hst']
  simp only [pop_eq hst', Option.bind_eq_bind, Option.bind_some]
  exact does_next (ok_stack hok r) rfl

theorem decode_dup {n : Nat} (h1 : 1 ≤ n) (h2 : n ≤ 16) : decode (0x80 + n - 1) = some (.dup n) := by
  unfold decode
  rw [if_neg (by omega), if_pos (by omega)]
  have e : 0x80 + n - 1 - 0x7f = n := by omega
  rw [e]

theorem decode_swap {n : Nat} (h1 : 1 ≤ n) (h2 : n ≤ 16) : decode (0x90 + n - 1) = some (.swap n) := by
  unfold decode
  rw [if_neg (by omega), if_neg (by omega), if_pos (by omega)]
  have e : 0x90 + n - 1 - 0x8f = n := by omega
  rw [e]

theorem decode_push {n : Nat} (h1 : 1 ≤ n) (h2 : n ≤ 32) : decode (0x60 + n - 1) = some (.push n) := by
  unfold decode
  rw [if_pos (by omega)]
  congr 2
  omega

theorem sounds_dup {n : Nat} (h1 : 1 ≤ n) (h2 : n ≤ 16) : Sounds keccak (dupOp n) := by
  unfold dupOp
  refine sounds_simple (I := .dup n) (decode_dup h1 h2) rfl rfl rfl rfl (by show n + 1 ≤ _; omega) (by simp) (by show 0x80 + n - 1 ≠ 0; omega)
    (fun x c rev _ _ => always rfl rfl x rev) ?_
  intro x c rev hat hk hs hok hb
  have hs' : n ≤ c.stack.length := hs
  show Does _ ((frameState (next c _)).push ((next c (Instr.baseGas (.dup n))).stack.getD (n - 1) 0))
  have hs' : n ≤ (next c (Instr.baseGas (.dup n))).stack.length := hs
  generalize next c (Instr.baseGas (.dup n)) = c1 at *
  rw [List.getD_eq_getElem?_getD]
  simp only [List.getElem?_eq_getElem (show n - 1 < c1.stack.length by omega), Option.bind_eq_bind, Option.bind_some]
  exact does_push hok rfl

theorem sounds_swap {n : Nat} (h1 : 1 ≤ n) (h2 : n ≤ 16) : Sounds keccak (swapOp n) := by
  unfold swapOp
  refine sounds_simple (I := .swap n) (decode_swap h1 h2) rfl rfl rfl rfl (by show n + 1 ≤ _; omega) (by simp) (by show 0x90 + n - 1 ≠ 0; omega)
    (fun x c rev _ _ => always rfl rfl x rev) ?_
  intro x c rev hat hk hs hok hb
  have hs' : n + 1 ≤ (next c (Instr.baseGas (.swap n))).stack.length := hs
  show Does _ { frameState (next c (Instr.baseGas (.swap n))) with
    stack := ((next c (Instr.baseGas (.swap n))).stack.set 0 ((next c (Instr.baseGas (.swap n))).stack.getD n 0)).set n ((next c (Instr.baseGas (.swap n))).stack.getD 0 0) }
  generalize next c (Instr.baseGas (.swap n)) = c1 at *
  simp only [List.getD_eq_getElem?_getD, List.getElem?_eq_getElem (show n < c1.stack.length by omega), List.getElem?_eq_getElem (show 0 < c1.stack.length by omega),
    Option.bind_eq_bind, Option.bind_some]
  exact does_next (ok_stack hok _) rfl

theorem sounds_push {n : Nat} (h1 : 1 ≤ n) (h2 : n ≤ 32) : Sounds keccak (pushOp n) := by
  unfold pushOp
  refine sounds_rulesFor (I := .push n) (decode_push h1 h2) (Nat.le_refl _) (fun _ => by show 1 > 0; omega) ?_ ?_
  · intro x c rev hat _ hlt
    have := hat.scope.gas.1
    refine exec_refused (.inr (.inr (.inr (.inr ?_))))
    have hlt' : c.gas < 3 := hlt
    show c.gas.toNat < if n = 0 then 2 else 3
    rw [if_neg (by omega)]
    omega
  · intro x c rev hat hk hgas hst hst'
    have hne : 0x60 + n - 1 ≠ 0 := by omega
    have h3 := hat.scope.stack
    have hgas' : (3 : Int) ≤ c.gas := hgas
    have hst'' : c.stack.length ≤ 1023 := hst'
    have hbase : (Instr.push n).baseGas = 3 := by show (if n = 0 then 2 else 3) = 3; rw [if_neg (by omega)]
    have hsince : (Instr.push n).since = 0 := by show (if n = 0 then SHANGHAI else 0) = 0; rw [if_neg (by omega)]
    rw [exec_done (by rw [hsince]; exact Nat.not_lt_zero _) (fun h => by cases h.1) (Nat.zero_le _) (by show c.stack.length + 1 ≤ 1024 + 0; omega)
      (by rw [hbase]; show 3 ≤ c.gas.toNat; omega)]
    have hpc := pc_next hat hne
    have hlt := at_pc hat hne
    have hcode := hat.scope.code
    have hdata : pushData x.code (c.pc + 1).toNat n = some (slice x.code (c.pc.toNat + 1) n) := by
      rw [hpc]
      refine pushData_ok n fun k hk => ⟨c.pc.toNat, n, boundary_of_code (isCode_iff.1 hat.code) hlt, hlt, ?_, by omega, by omega⟩
      rw [hat.op]
      exact decode_push h1 h2
    simp only [hdata, Option.bind_eq_bind, Option.bind_some]
    refine does_next ⟨hat.scope.status, hat.scope.result, hat.scope.memory, by show 0 ≤ c.gas - 3; omega, hat.scope.refund⟩ ?_
    unfold execEip
    rw [if_neg (by simp)]
    have e1 : (c.gas - 3).toNat = c.gas.toNat - 3 := by omega
    have e2 : (c.pc + 1 + BitVec.ofNat 16 n).toNat = c.pc.toNat + (n + 1) := by
      rw [BitVec.toNat_add, hpc, BitVec.toNat_ofNat]
      omega
    rw [hbase]
    show ({ frameState c with gas := c.gas.toNat - 3, pc := c.pc.toNat + (n + 1), stack := Word.ofBytes (slice x.code (c.pc.toNat + 1) n) :: c.stack } : State World) =
      { frameState c with gas := (c.gas - 3).toNat, pc := (c.pc + 1 + BitVec.ofNat 16 n).toNat, stack := setBytes (slice x.code (c.pc.toNat + 1) n) :: c.stack }
    rw [e1, e2, l_setBytes]

/-! ## Jumps -/

theorem eval_target {x : Model.Ct.Fixed} {target : U256} {r : List U256} (hst : c.stack = target :: r) :
    evalOp x c (.param 0) = if 2 ^ 63 ≤ target.toNat then some 0 else getOperation x.code target.toNat := by
  unfold evalOp evalPos param
  rw [hst]
  show (if tooFar target = true then _ else _) = _
  unfold tooFar
  by_cases h : 2 ^ 63 ≤ target.toNat
  · rw [if_pos h]
    by_cases h64 : isUint64 target = true
    · have := (isUint64_iff _).1 h64
      rw [if_pos]
      rw [h64, uint64_toNat]
      simp
      omega
    · rw [if_pos (by simp [h64])]
  · rw [if_neg h]
    have e : (uint64 target).toNat = target.toNat := by rw [uint64_toNat]; omega
    rw [if_neg, e]
    rw [(isUint64_iff _).2 (by omega), e]
    simp
    omega

theorem check_target {x : Model.Ct.Fixed} {target : U256} {r : List U256} (hst : c.stack = target :: r) :
    checkIsCode x c (.param 0) = some (if 2 ^ 63 ≤ target.toNat then true else isCode x.code target.toNat) := by
  unfold checkIsCode evalPos param
  rw [hst]
  show some (if tooFar target = true then true else _) = _
  unfold tooFar
  by_cases h : 2 ^ 63 ≤ target.toNat
  · rw [if_pos h]
    by_cases h64 : isUint64 target = true
    · have := (isUint64_iff _).1 h64
      rw [if_pos]
      rw [h64, uint64_toNat]
      simp
      omega
    · rw [if_pos (by simp [h64])]
  · rw [if_neg h]
    have e : (uint64 target).toNat = target.toNat := by rw [uint64_toNat]; omega
    rw [if_neg, e]
    rw [(isUint64_iff _).2 (by omega), e]
    simp
    omega

theorem target_yes {x : Model.Ct.Fixed} {target : U256} {r : List U256} (hst : c.stack = target :: r)
    (hk : (Cond.op (.param 0) 0x5b).check x c = some true) : JumpTarget x.code target.toNat := by
  unfold Cond.check at hk
  dsimp only at hk
  rw [eval_target hst] at hk
  rw [jumpTarget_iff]
  split at hk
  · simp at hk
  · cases e : getOperation x.code target.toNat with
    | none => rw [e] at hk; cases hk
    | some o =>
      rw [e] at hk
      simp at hk
      rw [hk]

theorem target_ne {x : Model.Ct.Fixed} (hcode : x.code.length ≤ 49152) {target : U256} {r : List U256} (hst : c.stack = target :: r)
    (hk : (Cond.opNe (.param 0) 0x5b).check x c = some true) : ¬ JumpTarget x.code target.toNat := by
  unfold Cond.check at hk
  dsimp only at hk
  rw [eval_target hst] at hk
  intro hj
  rw [if_neg (by obtain ⟨h, _⟩ := hj; omega), jumpTarget_iff.1 hj] at hk
  simp at hk

theorem target_data {x : Model.Ct.Fixed} (hcode : x.code.length ≤ 49152) {target : U256} {r : List U256} (hst : c.stack = target :: r)
    (hk : (Cond.isData (.param 0)).check x c = some true) : ¬ JumpTarget x.code target.toNat := by
  unfold Cond.check at hk
  dsimp only at hk
  rw [check_target hst] at hk
  rintro ⟨h, _, hb⟩
  rw [if_neg (by omega)] at hk
  have : isCode x.code target.toNat = true := isCode_iff.2 fun hd => not_boundary hd hb
  rw [this] at hk
  cases hk

theorem jump_pc {x : Model.Ct.Fixed} (hcode : x.code.length ≤ 49152) {target : U256} (hj : JumpTarget x.code target.toNat) :
    ((uint64 target).setWidth 16).toNat = target.toNat := by
  obtain ⟨h, _⟩ := hj
  rw [BitVec.toNat_setWidth, uint64_toNat]
  omega

theorem sounds_jump : Sounds keccak jump := by
  unfold jump
  have bad : ∀ ks : List Cond, Cond.op .pc 0x56 ∈ ks → Cond.gasGe 8 ∈ ks → Cond.stackGe 1 ∈ ks →
      (∀ x c target r, InScope x c → c.stack = target :: r → Holds ks x c → ¬ JumpTarget x.code target.toNat) → Sound keccak ⟨ks, failEffect⟩ := by
    intro ks h1 h2 h3 h4
    refine sound_refuse (I := .jump) rfl h1 fun x c rev hat hk => ?_
    have hg := check_gasGe.1 (hk _ h2)
    have hs := check_stackGe.1 (hk _ h3)
    obtain ⟨target, r, hst⟩ := stack1 hs
    have h3 := hat.scope.stack
    rw [exec_done (I := .jump) (s := frameState c) (Nat.not_lt_zero _) (fun h => by cases h.1) hs (by show c.stack.length + 0 ≤ 1024 + 1; omega) (by show 8 ≤ c.gas.toNat; omega)]
    have hfn := frame_next hat (by decide) 8
    have : Failed ((frameState (next c (8 : Nat))).pop1 fun dest s => jumpTo (testFrame keccak x c rev) dest s) := by
      rw [pop1_eq (c := next c (8 : Nat)) hst]
      unfold jumpTo
      rw [if_neg (show ¬ JumpTarget (testFrame keccak x c rev).code target.toNat from h4 x c target r hat.scope hst hk)]
      exact failed_fail _ _
    rw [hfn] at this
    exact this
  refine sounds_append ?_ (sounds_cons (bad _ (by simp) (by simp) (by simp) ?_) (sounds_cons (bad _ (by simp) (by simp) (by simp) ?_) sounds_nil))
  · refine sounds_simple (I := .jump) rfl rfl rfl rfl rfl (by decide) (by decide) (by decide) (fun x c rev _ _ => always rfl rfl x rev) ?_
    intro x c rev hat hk hs hok hb
    obtain ⟨target, r, hst⟩ := stack1 hs
    have hst' : (next c (Instr.baseGas .jump)).stack = target :: r := hst
    have hj := target_yes hst (hk (.op (.param 0) 0x5b) (by simp))
    show Does _ ((frameState (next c (Instr.baseGas .jump))).pop1 fun dest s => jumpTo (testFrame keccak x c rev) dest s)
    generalize next c (Instr.baseGas .jump) = c1 at *
    rw [pop1_eq hst']
    simp only [pop_eq hst', Option.bind_eq_bind, Option.bind_some]
    unfold jumpTo
    rw [if_pos (show JumpTarget (testFrame keccak x c rev).code target.toNat from hj)]
    refine does_next ⟨hok.status, hok.result, hok.memory, hok.gas, hok.refund⟩ ?_
    show ({ frameState { c1 with stack := r } with pc := target.toNat } : State World) =
      { frameState { c1 with stack := r } with pc := ((uint64 target).setWidth 16).toNat }
    rw [jump_pc hat.scope.code hj]
  · exact fun x c target r hs hst hk => target_data hs.code hst (hk _ (by simp))
  · exact fun x c target r hs hst hk => target_ne hs.code hst (hk (.opNe (.param 0) 0x5b) (by simp))

theorem check_paramEq {x : Model.Ct.Fixed} {a b v : U256} {r : List U256} (hst : c.stack = a :: b :: r) :
    ((Cond.paramEq 1 v).check x c = some true ↔ b = v) ∧ ((Cond.paramNe 1 v).check x c = some true ↔ b ≠ v) := by
  have e : param c 1 = some b := by unfold param; rw [hst]; rfl
  unfold Cond.check
  dsimp only
  rw [e]
  simp

theorem sounds_jumpi : Sounds keccak jumpi := by
  unfold jumpi
  have exec : ∀ x c rev, At x c rev 0x57 → (10 : Int) ≤ c.gas → 2 ≤ c.stack.length → execInstrEip (testFrame keccak x c rev) .jumpi (frameState c) =
      (frameState (next c (10 : Nat))).pop2 fun dest cond s => if cond.toNat ≠ 0 then jumpTo (testFrame keccak x c rev) dest s else s := by
    intro x c rev hat hg hs
    have h3 := hat.scope.stack
    rw [exec_done (I := .jumpi) (s := frameState c) (Nat.not_lt_zero _) (fun h => by cases h.1) hs (by show c.stack.length + 0 ≤ 1024 + 2; omega) (by show 10 ≤ c.gas.toNat; omega),
      frame_next hat (by decide) 10]
    rfl
  have bad : ∀ ks : List Cond, Cond.op .pc 0x57 ∈ ks → Cond.gasGe 10 ∈ ks → Cond.stackGe 2 ∈ ks → Cond.paramNe 1 0 ∈ ks →
      (∀ x c target r, InScope x c → c.stack = target :: r → Holds ks x c → ¬ JumpTarget x.code target.toNat) → Sound keccak ⟨ks, failEffect⟩ := by
    intro ks h1 h2 h3 h5 h4
    refine sound_refuse (I := .jumpi) rfl h1 fun x c rev hat hk => ?_
    have hg := check_gasGe.1 (hk _ h2)
    have hs := check_stackGe.1 (hk _ h3)
    obtain ⟨target, cond, r, hst⟩ := stack2 hs
    have hne := (check_paramEq hst).2.1 (hk _ h5)
    rw [exec x c rev hat hg hs, pop2_eq (c := next c (10 : Nat)) hst, if_pos (fun hc => hne ((zero_iff _).2 hc))]
    unfold jumpTo
    rw [if_neg (show ¬ JumpTarget (testFrame keccak x c rev).code target.toNat from h4 x c target _ hat.scope hst hk)]
    exact failed_fail _ _
  refine sounds_append ?_ (sounds_cons ?_ (sounds_cons (bad _ (by simp) (by simp) (by simp) (by simp) ?_)
    (sounds_cons (bad _ (by simp) (by simp) (by simp) (by simp) ?_) sounds_nil)))
  · refine sounds_simple (I := .jumpi) rfl rfl rfl rfl rfl (by decide) (by decide) (by decide) (fun x c rev _ _ => always rfl rfl x rev) ?_
    intro x c rev hat hk hs hok hb
    obtain ⟨target, cond, r, hst⟩ := stack2 hs
    have hst' : (next c (Instr.baseGas .jumpi)).stack = target :: cond :: r := hst
    have hj := target_yes hst (hk (.op (.param 0) 0x5b) (by simp))
    have hne := (check_paramEq hst).2.1 (hk (.paramNe 1 0) (by simp))
    show Does _ ((frameState (next c (Instr.baseGas .jumpi))).pop2 fun dest cond s => if cond.toNat ≠ 0 then jumpTo (testFrame keccak x c rev) dest s else s)
    generalize next c (Instr.baseGas .jumpi) = c1 at *
    rw [pop2_eq hst', if_pos (fun hc => hne ((zero_iff _).2 hc))]
    simp only [pop_eq hst', pop_mk, Option.bind_eq_bind, Option.bind_some]
    unfold jumpTo
    rw [if_pos (show JumpTarget (testFrame keccak x c rev).code target.toNat from hj)]
    refine does_next ⟨hok.status, hok.result, hok.memory, hok.gas, hok.refund⟩ ?_
    show ({ frameState { c1 with stack := r } with pc := target.toNat } : State World) =
      { frameState { c1 with stack := r } with pc := ((uint64 target).setWidth 16).toNat }
    rw [jump_pc hat.scope.code hj]
  · intro x c rev hs hr ha
    have hk := applies_iff.1 ha
    have hat : At x c rev 0x57 := at_of hs hr (hk _ (by simp))
    have hg := check_gasGe.1 (hk (.gasGe 10) (by simp))
    have hst2 := check_stackGe.1 (hk (.stackGe 2) (by simp))
    obtain ⟨target, cond, r, hst⟩ := stack2 hst2
    have hz := (check_paramEq hst).1.1 (hk (.paramEq 1 0) (by simp))
    rw [step_decode hat.op (I := .jumpi) rfl, exec x c rev hat hg hst2, pop2_eq (c := next c (10 : Nat)) hst, if_neg (by rw [hz]; simp)]
    have hst' : ({ c with gas := c.gas - 10 } : S).stack = target :: cond :: r := hst
    simp only [pop_eq hst', pop_mk, Option.bind_eq_bind, Option.bind_some]
    exact does_next ⟨hs.status, hs.result, hs.memory, by show 0 ≤ c.gas - 10; omega, hs.refund⟩ rfl
  · exact fun x c target r hs hst hk => target_data hs.code hst (hk _ (by simp))
  · exact fun x c target r hs hst hk => target_ne hs.code hst (hk (.opNe (.param 0) 0x5b) (by simp))

end Tosca.Proofs.Ct

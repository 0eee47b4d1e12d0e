import Verif.Proofs.Facts

/-!
# What instruction bodies never look at and never change

For arbitrary hosts: bodies do not depend on `Context::gas` and `Context::stack.top` (which only
observers use), keep the fixed part of the context, and use the SHA3 cache only through its
interface.
-/

namespace Tosca.Proofs

open Tosca.Model

variable {σ α β : Type} {E : Env σ}

/-- The context with other values of `gas` and `stack.top`. -/
def Up (g t : Int) (c : Ctx σ) : Ctx σ := { c with gas := g, stack := { c.stack with top := t } }

/-- Agreement on everything instruction bodies must not change. -/
structure SameFixed (c c' : Ctx σ) : Prop where
  code : c'.code = c.code
  jumps : c'.jumpTargets = c.jumpTargets
  msg : c'.message = c.message
  rev : c'.revision = c.revision
  static : c'.isStatic = c.isStatic
  pc : c'.pc = c.pc
  gas : c'.gas = c.gas
  top : c'.stack.top = c.stack.top

theorem SameFixed.refl (c : Ctx σ) : SameFixed c c := ⟨rfl, rfl, rfl, rfl, rfl, rfl, rfl, rfl⟩

theorem SameFixed.trans {a b c : Ctx σ} (h : SameFixed a b) (k : SameFixed b c) : SameFixed a c :=
  ⟨k.1.trans h.1, k.2.trans h.2, k.3.trans h.3, k.4.trans h.4, k.5.trans h.5, k.6.trans h.6,
   k.7.trans h.7, k.8.trans h.8⟩

def Sync (I : Option Sha3Cache → Prop) (m : OpM σ α) : Prop :=
  ∀ c g t, match m c with
    | .error e => m (Up g t c) = .error e
    | .ok (a, c') => m (Up g t c) = .ok (a, Up g t c') ∧ SameFixed c c' ∧ (I c.sha3 → I c'.sha3)

variable {I : Option Sha3Cache → Prop}

theorem sync_pure (a : α) : Sync I (pure a : OpM σ α) := fun c _ _ => ⟨rfl, .refl c, id⟩

theorem sync_bind {m : OpM σ α} {f : α → OpM σ β} (hm : Sync I m) (hf : ∀ a, Sync I (f a)) :
    Sync I (m >>= f) := by
  intro c g t
  have h1 := hm c g t
  show match OpM.bind m f c with
    | .error e => OpM.bind m f (Up g t c) = .error e
    | .ok (a, c') => OpM.bind m f (Up g t c) = .ok (a, Up g t c') ∧ SameFixed c c' ∧ (I c.sha3 → I c'.sha3)
  unfold OpM.bind
  cases hmc : m c with
  | error e => rw [hmc] at h1; simp only at h1; rw [h1]
  | ok r =>
    obtain ⟨a, c'⟩ := r
    rw [hmc] at h1
    simp only at h1
    obtain ⟨e1, f1, i1⟩ := h1
    rw [e1]
    have h2 := hf a c' g t
    dsimp only
    cases hfc : f a c' with
    | error e => rw [hfc] at h2; exact h2
    | ok r =>
      obtain ⟨b, c''⟩ := r
      rw [hfc] at h2
      exact ⟨h2.1, f1.trans h2.2.1, fun h => h2.2.2 (i1 h)⟩

theorem sync_get {f : Ctx σ → OpM σ β} (hf : ∀ c, Sync I (f c)) (hu : ∀ c g t, f (Up g t c) = f c) :
    Sync I (OpM.get >>= f) := by
  intro c g t
  show match f c c with
    | .error e => f (Up g t c) (Up g t c) = .error e
    | .ok (a, c') => f (Up g t c) (Up g t c) = .ok (a, Up g t c') ∧ SameFixed c c' ∧ (I c.sha3 → I c'.sha3)
  rw [hu]
  exact hf c c g t

theorem sync_lift (m : M α) : Sync I (OpM.lift m : OpM σ α) := by
  intro c g t
  unfold OpM.lift
  cases m with
  | error e => exact rfl
  | ok a => exact ⟨rfl, .refl c, id⟩

theorem sync_modify (f : Ctx σ → Ctx σ) (h : ∀ c g t, f (Up g t c) = Up g t (f c))
    (hs : ∀ c, SameFixed c (f c)) (hi : ∀ c, (f c).sha3 = c.sha3) : Sync I (OpM.modify f) := by
  intro c g t
  refine ⟨?_, hs c, fun hc => by rw [hi]; exact hc⟩
  show Except.ok ((), f (Up g t c)) = _
  rw [h]

theorem sync_rd (p : Int) : Sync I (OpM.rd p : OpM σ U256) := by
  intro c g t
  unfold OpM.rd
  split
  · rename_i h
    split at h
    · cases h
    · injection h with h; subst h; rw [if_neg (by assumption)]
  · rename_i h
    split at h
    · injection h with h; injection h with h1 h2; subst h1 h2
      rw [if_pos (by assumption)]
      exact ⟨rfl, .refl c, id⟩
    · cases h

theorem sync_wr (p : Int) (v : U256) : Sync I (OpM.wr p v : OpM σ Unit) := by
  intro c g t
  unfold OpM.wr
  by_cases h : 0 ≤ p ∧ p < 1024
  · simp only [if_pos h]
    exact ⟨rfl, ⟨rfl, rfl, rfl, rfl, rfl, rfl, rfl, rfl⟩, id⟩
  · simp only [if_neg h]

theorem sync_host (f : σ → α × σ) : Sync I (OpM.host f) := by
  intro c g t
  exact ⟨rfl, ⟨rfl, rfl, rfl, rfl, rfl, rfl, rfl, rfl⟩, id⟩

theorem sync_mem (f : Memory → M Memory) : Sync I (OpM.mem f : OpM σ Unit) := by
  intro c g t
  unfold OpM.mem
  rw [show (Up g t c).memory = c.memory from rfl]
  cases f c.memory with
  | error e => exact rfl
  | ok m => exact ⟨rfl, ⟨rfl, rfl, rfl, rfl, rfl, rfl, rfl, rfl⟩, id⟩

theorem sync_memRead (f : Memory → M (List Byte × Memory)) : Sync I (OpM.memRead f : OpM σ (List Byte)) := by
  intro c g t
  unfold OpM.memRead
  rw [show (Up g t c).memory = c.memory from rfl]
  cases f c.memory with
  | error e => exact rfl
  | ok m => exact ⟨rfl, ⟨rfl, rfl, rfl, rfl, rfl, rfl, rfl, rfl⟩, id⟩

theorem sync_getSpan (a b : Nat) : Sync I (OpM.getSpan a b : OpM σ Span) := by
  intro c g t
  exact ⟨rfl, ⟨rfl, rfl, rfl, rfl, rfl, rfl, rfl, rfl⟩, id⟩

theorem sync_readSpan (s : Span) : Sync I (OpM.readSpan s : OpM σ (List Byte)) := by
  intro c g t
  unfold OpM.readSpan
  rw [show (Up g t c).memory = c.memory from rfl]
  cases c.memory.readSpan s with
  | error e => exact rfl
  | ok m => exact ⟨rfl, .refl c, id⟩

theorem sync_memCost (a b : U256) : Sync I (memCost a b : OpM σ MemCost) := by
  intro c g t
  unfold memCost
  rw [show (Up g t c).memory = c.memory from rfl]
  cases memoryExpansionCost c.memory.size a b with
  | error e => exact rfl
  | ok m => exact ⟨rfl, .refl c, id⟩

theorem sync_codeByte (p : Nat) : Sync I (Ops.codeByte p : OpM σ Byte) := by
  intro c g t
  unfold Ops.codeByte
  rw [show (Up g t c).code = c.code from rfl]
  by_cases h : p < c.code.length
  · simp only [if_pos h]; exact ⟨trivial, .refl c, id⟩
  · simp only [if_neg h]

theorem sync_checkJumpDest (d : U256) : Sync I (checkJumpDest d : OpM σ Bool) := by
  intro c g t
  unfold checkJumpDest
  rw [show (Up g t c).jumpTargets = c.jumpTargets from rfl]
  by_cases h1 : d.toNat / u64Mod ≠ 0
  · simp only [if_pos h1]; exact ⟨rfl, ⟨rfl, rfl, rfl, rfl, rfl, rfl, rfl, rfl⟩, id⟩
  · simp only [if_neg h1]
    by_cases h2 : lo64 d ≥ c.jumpTargets.length
    · simp only [if_pos h2]; exact ⟨rfl, ⟨rfl, rfl, rfl, rfl, rfl, rfl, rfl, rfl⟩, id⟩
    · simp only [if_neg h2]
      by_cases h3 : c.jumpTargets.getD (lo64 d) 0 = 0
      · simp only [if_pos h3]; exact ⟨rfl, ⟨rfl, rfl, rfl, rfl, rfl, rfl, rfl, rfl⟩, id⟩
      · simp only [if_neg h3]; exact ⟨trivial, .refl c, id⟩

theorem sync_ite (p : Prop) [Decidable p] {a b : OpM σ α} (ha : Sync I a) (hb : Sync I b) :
    Sync I (if p then a else b) := by
  split <;> assumption

/-- `I` is kept by every use of the SHA3 cache. -/
structure KeepsSha3 (E : Env σ) (I : Option Sha3Cache → Prop) : Prop where
  hash : ∀ s key v s', I (some s) → Sha3Cache.hash E.keccak s key = .ok (v, s') → I (some s')
  reenter : ∀ m w o, I o → I (o.map (E.reenter m w))

theorem sync_hostCall (hI : KeepsSha3 E I) (msg : Message) : Sync I (Ops.hostCall E msg) := by
  intro c g t
  exact ⟨rfl, ⟨rfl, rfl, rfl, rfl, rfl, rfl, rfl, rfl⟩, fun h => hI.reenter _ _ _ h⟩

/-- The use of the cache in SHA3. -/
theorem sync_hash (hI : KeepsSha3 E I) (bytes : List Byte) (f : U256 → OpM σ β) (hf : ∀ v, Sync I (f v)) :
    Sync I (OpM.get >>= fun c : Ctx σ => match c.sha3 with
      | some cache => OpM.lift (cache.hash E.keccak bytes) >>= fun p =>
          OpM.modify (fun c : Ctx σ => { c with sha3 := some p.2 }) >>= fun _ => f p.1
      | none => f (E.keccak bytes)) := by
  intro c g t
  cases hs : c.sha3 with
  | none =>
    have := hf (E.keccak bytes) c g t
    simp only [bind, OpM.bind, OpM.get, show (Up g t c).sha3 = c.sha3 from rfl, hs] at this ⊢
    exact this
  | some s =>
    simp only [bind, OpM.bind, OpM.get, show (Up g t c).sha3 = c.sha3 from rfl, hs, OpM.lift, OpM.modify]
    cases hh : Sha3Cache.hash E.keccak s bytes with
    | error e => exact rfl
    | ok p =>
      have := hf p.1 { c with sha3 := some p.2 } g t
      dsimp only
      rw [show ({ Up g t c with sha3 := some p.2 } : Ctx σ) = Up g t { c with sha3 := some p.2 } from rfl]
      cases hfc : f p.1 { c with sha3 := some p.2 } with
      | error e => rw [hfc] at this; exact this
      | ok r =>
        obtain ⟨b, c''⟩ := r
        rw [hfc] at this
        simp only at this ⊢
        have hsame : SameFixed c { c with sha3 := some p.2 } := ⟨rfl, rfl, rfl, rfl, rfl, rfl, rfl, rfl⟩
        refine ⟨this.1, hsame.trans this.2.1, fun h => this.2.2 ?_⟩
        exact hI.hash s bytes p.1 p.2 h hh

/-- Decomposes a body into primitive steps. -/
macro "sync_step" : tactic => `(tactic| first
  | assumption
  | with_reducible exact sync_pure _
  | with_reducible exact sync_rd _
  | with_reducible exact sync_wr _ _
  | with_reducible exact sync_host _
  | with_reducible exact sync_lift _
  | with_reducible exact sync_mem _
  | with_reducible exact sync_memRead _
  | with_reducible exact sync_getSpan _ _
  | with_reducible exact sync_readSpan _
  | with_reducible exact sync_memCost _ _
  | with_reducible exact sync_codeByte _
  | with_reducible exact sync_checkJumpDest _
  | with_reducible exact sync_hostCall (by assumption) _
  | with_reducible exact sync_modify _ (fun _ _ _ => rfl) (fun _ => ⟨rfl, rfl, rfl, rfl, rfl, rfl, rfl, rfl⟩) (fun _ => rfl)
  | (with_reducible refine sync_get (fun _ => ?_) (fun _ _ _ => rfl))
  | (with_reducible refine sync_bind ?_ (fun _ => ?_))
  | (with_reducible refine sync_ite _ ?_ ?_)
  | split)

macro "sync" : tactic => `(tactic| repeat' sync_step)

theorem sync_bin (f : U256 → U256 → U256) (top : Int) : Sync I (Ops.bin f top : OpM σ OpResult) := by
  unfold Ops.bin; sync
theorem sync_un (f : U256 → U256) (top : Int) : Sync I (Ops.un f top : OpM σ OpResult) := by
  unfold Ops.un; sync
theorem sync_push (v : U256) (top : Int) : Sync I (Ops.push v top : OpM σ OpResult) := by
  unfold Ops.push; sync
theorem sync_addRefund (x : Int) : Sync I (Ops.addRefund x : OpM σ Unit) := by
  unfold Ops.addRefund; sync
theorem sync_addRefunds (l : List Int) : Sync I (Ops.addRefunds l : OpM σ Unit) := by
  induction l with
  | nil => exact sync_pure _
  | cons x xs ih => unfold Ops.addRefunds; exact sync_bind (sync_addRefund x) fun _ => ih
theorem sync_readTopics (n : Nat) : ∀ p, Sync I (Ops.readTopics n p : OpM σ (List U256)) := by
  induction n with
  | zero => intro p; exact sync_pure _
  | succ n ih =>
    intro p
    unfold Ops.readTopics
    exact sync_bind (sync_rd p) fun _ => sync_bind (ih _) fun _ => sync_pure _
theorem sync_partialWord (n : Nat) : ∀ p w, Sync I (Ops.partialWord n p w : OpM σ (BitVec 64)) := by
  induction n with
  | zero => intro p w; exact sync_pure _
  | succ n ih => intro p w; unfold Ops.partialWord; exact sync_bind (sync_codeByte p) fun _ => ih _ _
theorem sync_loadWordBe (p : Nat) : Sync I (Ops.loadWordBe p : OpM σ (BitVec 64)) := by
  unfold Ops.loadWordBe; sync
theorem sync_fullWords (n : Nat) : ∀ p w, Sync I (Ops.fullWords n p w : OpM σ U256) := by
  induction n with
  | zero => intro p w; exact sync_pure _
  | succ n ih => intro p w; unfold Ops.fullWords; exact sync_bind (sync_loadWordBe p) fun _ => ih _ _
theorem sync_accountAccessCost (a : Address) : Sync I (Ops.accountAccessCost E a) := by
  unfold Ops.accountAccessCost; sync
theorem sync_callArgs (op : Ops.CallOp) (top : Int) : Sync I (Ops.callArgs op top : OpM σ Ops.CallArgs) := by
  unfold Ops.callArgs; sync

theorem sync_sha3 (hI : KeepsSha3 E I) (top gas : Int) : Sync I (Ops.sha3 E top gas) := by
  unfold Ops.sha3
  refine sync_bind (sync_rd _) fun offset => sync_bind (sync_rd _) fun size => sync_bind (sync_memCost _ _) fun mc => ?_
  split
  · exact sync_pure _
  · rename_i d _
    refine sync_ite _ (sync_pure _) (sync_bind (sync_getSpan _ _) fun span => sync_bind (sync_readSpan _) fun bytes => ?_)
    exact sync_hash hI bytes (fun h => OpM.wr (top + 1) h >>= fun _ => pure ({ dynGas := d } : OpResult))
      fun v => sync_bind (sync_wr _ _) fun _ => sync_pure _

theorem sync_createCall (hI : KeepsSha3 E I) (b : Bool) (t g g' : Int) (e s : U256) (mc : MemCost) :
    Sync I (Ops.createCall E b t g g' e s mc) := by
  have h := fun x => sync_addRefund (σ := σ) (I := I) x
  unfold Ops.createCall
  repeat' first | exact h _ | sync_step

theorem sync_create (hI : KeepsSha3 E I) (b : Bool) (t g : Int) : Sync I (Ops.create E b t g) := by
  have h := fun t g g' e s mc => sync_createCall (E := E) hI b t g g' e s mc
  unfold Ops.create
  dsimp only
  repeat' first | exact h _ _ _ _ _ _ | sync_step

theorem sync_callCall (hI : KeepsSha3 E I) (op : Ops.CallOp) (t g g' : Int) (cg : U256) (a : Address) (v : U256)
    (mi mo : MemCost) : Sync I (Ops.callCall E op t g g' cg a v mi mo) := by
  have h := fun x => sync_addRefund (σ := σ) (I := I) x
  unfold Ops.callCall
  dsimp only
  repeat' first | exact h _ | sync_step

theorem sync_call (hI : KeepsSha3 E I) (op : Ops.CallOp) (t g : Int) : Sync I (Ops.call E op t g) := by
  have h := fun t g g' cg a v mi mo => sync_callCall (E := E) hI op t g g' cg a v mi mo
  have h2 := fun t => sync_callArgs (σ := σ) (I := I) op t
  have h3 := fun a => sync_accountAccessCost (E := E) (I := I) a
  unfold Ops.call
  dsimp only
  repeat' first | exact h _ _ _ _ _ _ _ _ | exact h2 _ | exact h3 _ | sync_step

theorem sync_invoke (hI : KeepsSha3 E I) (op : OpCode) (top gas : Int) (pc : Nat) :
    Sync I (invoke E op top gas pc) := by
  have ha := fun a => sync_accountAccessCost (E := E) (I := I) a
  have hp := fun v t => sync_push (σ := σ) (I := I) v t
  cases op with
  | STOP => exact sync_pure _
  | ADD | MUL | SUB | DIV | SDIV | MOD | SMOD | LT | GT | SLT | SGT | EQ | AND | OR | XOR | SHL | SHR =>
    exact sync_bin _ _
  | ISZERO | NOT => exact sync_un _ _
  | ADDMOD => show Sync I (Ops.addmod top); unfold Ops.addmod; sync
  | MULMOD => show Sync I (Ops.mulmod top); unfold Ops.mulmod; sync
  | EXP => show Sync I (Ops.exp top gas); unfold Ops.exp; sync
  | SIGNEXTEND => show Sync I (Ops.signextend top); unfold Ops.signextend; dsimp only; sync
  | BYTE => show Sync I (Ops.byte top); unfold Ops.byte; sync
  | SAR => show Sync I (Ops.sar top); unfold Ops.sar; dsimp only; sync
  | SHA3 => exact sync_sha3 hI top gas
  | ADDRESS | CALLER | CALLVALUE | CALLDATASIZE | CODESIZE | RETURNDATASIZE | MSIZE =>
    exact sync_get (fun _ => sync_push _ _) (fun _ _ _ => rfl)
  | ORIGIN | GASPRICE | COINBASE | TIMESTAMP | NUMBER | PREVRANDAO | GASLIMIT | CHAINID | BASEFEE | BLOBBASEFEE
  | PC | GAS | PUSH0 => exact sync_push _ _
  | BALANCE => show Sync I (Ops.balance E top gas); unfold Ops.balance; repeat' first | exact ha _ | sync_step
  | EXTCODESIZE => show Sync I (Ops.extcodesize E top gas); unfold Ops.extcodesize; repeat' first | exact ha _ | sync_step
  | EXTCODEHASH => show Sync I (Ops.extcodehash E top gas); unfold Ops.extcodehash; repeat' first | exact ha _ | sync_step
  | EXTCODECOPY => show Sync I (Ops.extcodecopy E top gas); unfold Ops.extcodecopy; repeat' first | exact ha _ | sync_step
  | CALLDATALOAD => show Sync I (Ops.calldataload top); unfold Ops.calldataload; sync
  | CALLDATACOPY => show Sync I (Ops.calldatacopy top gas); unfold Ops.calldatacopy; sync
  | CODECOPY => show Sync I (Ops.codecopy top gas); unfold Ops.codecopy; dsimp only; sync
  | RETURNDATACOPY => show Sync I (Ops.returndatacopy top gas); unfold Ops.returndatacopy; dsimp only; sync
  | BLOCKHASH => show Sync I (Ops.blockhash E top); unfold Ops.blockhash; dsimp only; sync
  | SELFBALANCE => show Sync I (Ops.selfbalance E top); unfold Ops.selfbalance; repeat' first | exact hp _ _ | sync_step
  | BLOBHASH => show Sync I (Ops.blobhash E top); unfold Ops.blobhash; sync
  | POP | JUMP | JUMPI | JUMPDEST => exact sync_pure _
  | MLOAD => show Sync I (Ops.mload top gas); unfold Ops.mload; sync
  | MSTORE => show Sync I (Ops.mstore top gas); unfold Ops.mstore; sync
  | MSTORE8 => show Sync I (Ops.mstore8 top gas); unfold Ops.mstore8; sync
  | SLOAD => show Sync I (Ops.sload E top gas); unfold Ops.sload; sync
  | SSTORE =>
    have h := fun l => sync_addRefunds (σ := σ) (I := I) l
    show Sync I (Ops.sstore E top gas); unfold Ops.sstore; dsimp only; repeat' first | exact h _ | sync_step
  | TLOAD => show Sync I (Ops.tload E top); unfold Ops.tload; sync
  | TSTORE => show Sync I (Ops.tstore E top); unfold Ops.tstore; sync
  | MCOPY => show Sync I (Ops.mcopy top gas); unfold Ops.mcopy; sync
  | PUSH i =>
    have h1 := fun n p w => sync_partialWord (σ := σ) (I := I) n p w
    have h2 := fun n p w => sync_fullWords (σ := σ) (I := I) n p w
    show Sync I (Ops.pushN (i.val + 1) top pc); unfold Ops.pushN; dsimp only
    repeat' first | exact h1 _ _ _ | exact h2 _ _ _ | sync_step
  | DUP i => show Sync I (Ops.dup (i.val + 1) top); unfold Ops.dup; sync
  | SWAP i => show Sync I (Ops.swap (i.val + 1) top); unfold Ops.swap; sync
  | LOG i =>
    have h := fun n p => sync_readTopics (σ := σ) (I := I) n p
    show Sync I (Ops.log E i.val top gas); unfold Ops.log; repeat' first | exact h _ _ | sync_step
  | CREATE => exact sync_create hI false top gas
  | CREATE2 => exact sync_create hI true top gas
  | CALL => exact sync_call hI .call top gas
  | CALLCODE => exact sync_call hI .callcode top gas
  | DELEGATECALL => exact sync_call hI .delegatecall top gas
  | STATICCALL => exact sync_call hI .staticcall top gas
  | RETURN => show Sync I (Ops.ret .ret top gas); unfold Ops.ret; sync
  | REVERT => show Sync I (Ops.ret .revert top gas); unfold Ops.ret; sync
  | INVALID => exact sync_pure _
  | SELFDESTRUCT =>
    have h := fun x => sync_addRefund (σ := σ) (I := I) x
    show Sync I (Ops.selfdestruct E top gas); unfold Ops.selfdestruct; dsimp only; repeat' first | exact h _ | sync_step

theorem sync_runJump (op : OpCode) (top : Int) : Sync I (runJump op top : OpM σ Bool) := by
  unfold runJump
  split
  · sync
  · sync

theorem sync_run (hI : KeepsSha3 E I) (stepping : Bool) (op : OpCode) (pc : Nat) (gas top size : Int) :
    Sync I (run E stepping op pc gas top size) := by
  have h1 := fun op t => sync_runJump (σ := σ) (I := I) op t
  have h2 := fun op t g p => sync_invoke (E := E) hI op t g p
  unfold run
  dsimp only
  repeat' first | exact h1 _ _ | exact h2 _ _ _ _ | sync_step

end Tosca.Proofs

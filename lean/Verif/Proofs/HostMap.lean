import Verif.Spec.GoNative

/-!
# The reference EVM on two hosts, one a view of the other

If every answer of a host is the answer of another one on the image of its state, a frame takes the same steps on both.
-/

namespace Tosca.Proofs.HostMap

open Tosca.Spec Tosca.Spec.State

variable {σ τ : Type} {π : σ → τ}

/-- The answers of `H'` are those of `H` on the image of the state, for the queries a frame of `me` makes. -/
structure View (π : σ → τ) (me : Address) (H' : Host σ) (H : Host τ) : Prop where
  accountExists : ∀ a w, (H'.accountExists a w).1 = (H.accountExists a (π w)).1 ∧ π (H'.accountExists a w).2 = (H.accountExists a (π w)).2
  getStorage : ∀ k w, (H'.getStorage me k w).1 = (H.getStorage me k (π w)).1 ∧ π (H'.getStorage me k w).2 = (H.getStorage me k (π w)).2
  setStorage : ∀ k v w, (H'.setStorage me k v w).1 = (H.setStorage me k v (π w)).1 ∧ π (H'.setStorage me k v w).2 = (H.setStorage me k v (π w)).2
  getTransient : ∀ k w, (H'.getTransient me k w).1 = (H.getTransient me k (π w)).1 ∧ π (H'.getTransient me k w).2 = (H.getTransient me k (π w)).2
  setTransient : ∀ k v w, π (H'.setTransient me k v w) = H.setTransient me k v (π w)
  getBalance : ∀ a w, (H'.getBalance a w).1 = (H.getBalance a (π w)).1 ∧ π (H'.getBalance a w).2 = (H.getBalance a (π w)).2
  getCodeSize : ∀ a w, (H'.getCodeSize a w).1 = (H.getCodeSize a (π w)).1 ∧ π (H'.getCodeSize a w).2 = (H.getCodeSize a (π w)).2
  getCodeHash : ∀ a w, (H'.getCodeHash a w).1 = (H.getCodeHash a (π w)).1 ∧ π (H'.getCodeHash a w).2 = (H.getCodeHash a (π w)).2
  copyCode : ∀ a o n w, (H'.copyCode a o n w).1 = (H.copyCode a o n (π w)).1 ∧ π (H'.copyCode a o n w).2 = (H.copyCode a o n (π w)).2
  selfdestruct : ∀ b w, (H'.selfdestruct me b w).1 = (H.selfdestruct me b (π w)).1 ∧ π (H'.selfdestruct me b w).2 = (H.selfdestruct me b (π w)).2
  call : ∀ m w, (H'.call m w).1 = (H.call m (π w)).1 ∧ π (H'.call m w).2 = (H.call m (π w)).2
  txContext : H'.txContext = H.txContext
  getBlockHash : ∀ n : Int, 0 ≤ n → n < H.txContext.blockNumber → ∀ w,
    (H'.getBlockHash n w).1 = (H.getBlockHash n (π w)).1 ∧ π (H'.getBlockHash n w).2 = (H.getBlockHash n (π w)).2
  emitLog : ∀ d t w, π (H'.emitLog me d t w) = H.emitLog me d t (π w)
  accessAccount : ∀ a w, (H'.accessAccount a w).1 = (H.accessAccount a (π w)).1 ∧ π (H'.accessAccount a w).2 = (H.accessAccount a (π w)).2
  accessStorage : ∀ k w, (H'.accessStorage me k w).1 = (H.accessStorage me k (π w)).1 ∧ π (H'.accessStorage me k w).2 = (H.accessStorage me k (π w)).2

/-- The image of a state. -/
def img (π : σ → τ) (s : State σ) : State τ :=
  { status := s.status, pc := s.pc, gas := s.gas, refund := s.refund, stack := s.stack, mem := s.mem, ret := s.ret, host := π s.host }

theorem img_fail (s : State σ) (f : Failure) : img π (s.fail f) = (img π s).fail f := rfl
theorem img_push (s : State σ) (v : U256) : img π (s.push v) = (img π s).push v := rfl

theorem pop1 {k : U256 → State σ → State σ} {k' : U256 → State τ → State τ} (h : ∀ a s, img π (k a s) = k' a (img π s))
    (s : State σ) : img π (s.pop1 k) = (img π s).pop1 k' := by
  unfold State.pop1
  show _ = match s.stack with | a :: r => _ | _ => _
  cases s.stack with
  | nil => rfl
  | cons a r => exact h a _

theorem pop2 {k : U256 → U256 → State σ → State σ} {k' : U256 → U256 → State τ → State τ}
    (h : ∀ a b s, img π (k a b s) = k' a b (img π s)) (s : State σ) : img π (s.pop2 k) = (img π s).pop2 k' :=
  pop1 (fun a s => pop1 (fun b s => h a b s) s) s

theorem pop3 {k : U256 → U256 → U256 → State σ → State σ} {k' : U256 → U256 → U256 → State τ → State τ}
    (h : ∀ a b c s, img π (k a b c s) = k' a b c (img π s)) (s : State σ) : img π (s.pop3 k) = (img π s).pop3 k' :=
  pop2 (fun a b s => pop1 (fun c s => h a b c s) s) s

theorem pop4 {k : U256 → U256 → U256 → U256 → State σ → State σ} {k' : U256 → U256 → U256 → U256 → State τ → State τ}
    (h : ∀ a b c d s, img π (k a b c d s) = k' a b c d (img π s)) (s : State σ) : img π (s.pop4 k) = (img π s).pop4 k' :=
  pop3 (fun a b c s => pop1 (fun d s => h a b c d s) s) s

theorem charge {k : State σ → State σ} {k' : State τ → State τ} (n : Nat) (h : ∀ s, img π (k s) = k' (img π s))
    (s : State σ) : img π (s.charge n k) = (img π s).charge n k' := by
  unfold State.charge
  show _ = if s.gas < n then _ else _
  split
  · rfl
  · exact h _

theorem ask {α : Type} {f : σ → α × σ} {f' : τ → α × τ} {k : α → State σ → State σ} {k' : α → State τ → State τ}
    (hf : ∀ w, (f w).1 = (f' (π w)).1 ∧ π (f w).2 = (f' (π w)).2) (h : ∀ a s, img π (k a s) = k' a (img π s))
    (s : State σ) : img π (s.ask f k) = (img π s).ask f' k' := by
  unfold State.ask
  rw [h]
  show k' _ { img π s with host := π (f s.host).2 } = k' (f' (π s.host)).1 { img π s with host := (f' (π s.host)).2 }
  rw [(hf _).1, (hf _).2]

theorem touch {k : State σ → State σ} {k' : State τ → State τ} (off n : U256) (x : Nat) (h : ∀ s, img π (k s) = k' (img π s))
    (s : State σ) : img π (s.touch off n x k) = (img π s).touch off n x k' := by
  unfold State.touch
  exact charge (k' := fun s => k' { s with mem := s.mem.expand off.toNat n.toNat }) _ (fun s => h _) s

theorem touch2 {k : State σ → State σ} {k' : State τ → State τ} (off n off' n' : U256) (x : Nat)
    (h : ∀ s, img π (k s) = k' (img π s)) (s : State σ) :
    img π (s.touch2 off n off' n' x k) = (img π s).touch2 off n off' n' x k' := by
  unfold State.touch2
  exact charge (k' := fun s => k' { s with mem := (s.mem.expand off.toNat n.toNat).expand off'.toNat n'.toNat }) _ (fun s => h _) s

theorem ite_img (c : Prop) {inst : Decidable c} {a b : State σ} {a' b' : State τ} (h1 : c → img π a = a') (h2 : ¬ c → img π b = b') :
    img π (if c then a else b) = if c then a' else b' := by
  by_cases h : c
  · rw [if_pos h, if_pos h]; exact h1 h
  · rw [if_neg h, if_neg h]; exact h2 h

/-- Two frames that differ in the host. -/
structure Views (π : σ → τ) (P' : Params σ) (P : Params τ) : Prop where
  code : P'.code = P.code
  msg : P'.msg = P.msg
  rev : P'.rev = P.rev
  keccak : P'.keccak = P.keccak
  host : View π P.msg.recipient P'.host P.host

section
variable {P' : Params σ} {P : Params τ}

theorem accountAccess_img (V : Views π P' P) (a : Address) {k : Nat → State σ → State σ} {k' : Nat → State τ → State τ}
    (h : ∀ n s, img π (k n s) = k' n (img π s)) (s : State σ) :
    img π (accountAccess P' a s k) = accountAccess P a (img π s) k' := by
  unfold accountAccess
  rw [V.rev]
  exact ite_img _ (fun _ => ask (V.host.accessAccount a) (fun _ _ => by exact h _ _) s) (fun _ => by exact h _ _)

theorem accountOp_img (V : Views π P' P) {f : Address → σ → U256 × σ} {f' : Address → τ → U256 × τ}
    (hf : ∀ a w, (f a w).1 = (f' a (π w)).1 ∧ π (f a w).2 = (f' a (π w)).2) (s : State σ) :
    img π (accountOp P' f s) = accountOp P f' (img π s) :=
  pop1 (fun a s => accountAccess_img V _ (fun _ s => charge _ (fun s => ask (hf _) (fun _ _ => by rfl) s) s) s) s

theorem copyOp_img (src : List Byte) (s : State σ) : img π (copyOp src s) = copyOp src (img π s) :=
  pop3 (fun _ _ _ s => touch _ _ _ (fun _ => by rfl) s) s

theorem sstore_img (V : Views π P' P) (s : State σ) : img π (sstore P' s) = sstore P (img π s) := by
  unfold sstore
  rw [V.rev, V.msg]
  refine pop2 (fun key value s => ?_) s
  refine ite_img _ (fun _ => by rfl) (fun _ => ?_)
  refine ite_img _ (fun _ => ?_) (fun _ => ?_)
  · exact ask (V.host.accessStorage key) (fun st s => ask (V.host.setStorage key value) (fun status s => charge _ (fun _ => by rfl) s) s) s
  · exact ask (V.host.setStorage key value) (fun status s => charge _ (fun _ => by rfl) s) s

theorem sstoreEip_img (V : Views π P' P) (s : State σ) : img π (Go.sstoreEip P' s) = Go.sstoreEip P (img π s) := by
  unfold Go.sstoreEip
  rw [V.rev, V.msg]
  refine pop2 (fun key value s => ?_) s
  refine ite_img _ (fun _ => by rfl) (fun _ => ?_)
  refine ite_img _ (fun _ => ?_) (fun _ => ?_)
  · exact ask (V.host.accessStorage key) (fun st s => ask (V.host.setStorage key value) (fun status s => charge _ (fun _ => by rfl) s) s) s
  · exact ask (V.host.setStorage key value) (fun status s => charge _ (fun _ => by rfl) s) s

theorem sload_img (V : Views π P' P) (s : State σ) : img π (sload P' s) = sload P (img π s) := by
  unfold sload
  rw [V.rev, V.msg]
  refine pop1 (fun key s => ?_) s
  refine ite_img _ (fun _ => ?_) (fun _ => ?_)
  · exact ask (V.host.accessStorage key) (fun st s => charge _ (fun s => ask (V.host.getStorage key) (fun _ _ => by rfl) s) s) s
  · exact charge _ (fun s => ask (V.host.getStorage key) (fun _ _ => by rfl) s) s

theorem extcodecopy_img (V : Views π P' P) (s : State σ) : img π (extcodecopy P' s) = extcodecopy P (img π s) := by
  unfold extcodecopy
  refine pop4 (fun a dst off n s => ?_) s
  refine ite_img _ (fun _ => rfl) (fun _ => ?_)
  refine accountAccess_img V _ (fun cost s => ?_) s
  refine touch _ _ _ (fun s => ?_) s
  refine ite_img _ (fun _ => rfl) (fun _ => ?_)
  refine ite_img _ (fun _ => ?_) (fun _ => rfl)
  exact ask (V.host.copyCode _ _ _) (fun _ _ => by rfl) s

theorem returndatacopy_img (s : State σ) : img π (returndatacopy s) = returndatacopy (img π s) := by
  unfold returndatacopy
  refine pop3 (fun _ _ _ s => ?_) s
  refine touch _ _ _ (fun s => ?_) s
  exact ite_img _ (fun _ => rfl) (fun _ => rfl)

theorem blockhash_img (V : Views π P' P) (s : State σ) : img π (blockhash P' s) = blockhash P (img π s) := by
  unfold blockhash
  rw [V.host.txContext]
  refine pop1 (fun n s => ?_) s
  refine ite_img _ (fun h => ?_) (fun _ => rfl)
  exact ask (V.host.getBlockHash _ (Int.natCast_nonneg _) h.1) (fun _ _ => by rfl) s

theorem log_img (V : Views π P' P) (n : Nat) (s : State σ) : img π (log P' n s) = log P n (img π s) := by
  unfold log
  rw [V.msg]
  refine pop2 (fun off len s => ?_) s
  refine touch _ _ _ (fun s' => ?_) _
  unfold img
  rw [V.host.emitLog]

theorem halt_img (st : Status) (s : State σ) : img π (halt st s) = halt st (img π s) :=
  pop2 (fun _ _ s => touch _ _ _ (fun _ => by rfl) s) s

theorem selfdestruct_img (V : Views π P' P) (s : State σ) : img π (selfdestruct P' s) = selfdestruct P (img π s) := by
  unfold selfdestruct
  rw [V.rev, V.msg]
  refine pop1 (fun a s => ?_) s
  have hfin : ∀ cost (s : State σ), img π (s.charge cost fun s =>
        s.ask (P'.host.selfdestruct P.msg.recipient (Word.toAddress a)) fun first s =>
          { s with status := .stopped, ret := []
                   refund := if first ∧ P.rev < LONDON then s.refund + 24000 else s.refund }) = ((img π s).charge cost fun s =>
        s.ask (P.host.selfdestruct P.msg.recipient (Word.toAddress a)) fun first s =>
          { s with status := .stopped, ret := []
                   refund := if first ∧ P.rev < LONDON then s.refund + 24000 else s.refund }) := fun cost s =>
    charge _ (fun s => ask (V.host.selfdestruct _) (fun _ _ => by rfl) s) s
  refine ask (V.host.getBalance _) (fun bal s => ?_) s
  refine ite_img _ (fun _ => ask (V.host.accountExists _) (fun ex s => ?_) s) (fun _ => ?_)
  · exact ite_img _ (fun _ => ask (V.host.accessAccount _) (fun st s => hfin _ _) s) (fun _ => hfin _ _)
  · exact ite_img _ (fun _ => ask (V.host.accessAccount _) (fun st s => hfin _ _) s) (fun _ => hfin _ _)

theorem checkBalance_img (V : Views π P' P) (value : U256) {k : Bool → State σ → State σ} {k' : Bool → State τ → State τ}
    (h : ∀ b s, img π (k b s) = k' b (img π s)) (s : State σ) :
    img π (checkBalance P' value s k) = checkBalance P value (img π s) k' := by
  unfold checkBalance
  rw [V.msg]
  exact ite_img _ (fun _ => by exact h _ _) (fun _ => ask (V.host.getBalance _) (fun _ _ => by exact h _ _) s)

theorem createWith_img (V : Views π P' P) (salt : Option U256) (value off n : U256) (s : State σ) :
    img π (createWith P' salt value off n s) = createWith P salt value off n (img π s) := by
  unfold createWith createMessage
  rw [V.rev, V.msg]
  refine touch _ _ _ (fun s => ?_) s
  refine ite_img _ (fun _ => rfl) (fun _ => ?_)
  refine charge _ (fun s => ?_) s
  refine checkBalance_img V _ (fun ok s => ?_) _
  refine ite_img _ (fun _ => rfl) (fun _ => ?_)
  exact ask (V.host.call _) (fun _ _ => by rfl) s

theorem create_img (V : Views π P' P) (is2 : Bool) (s : State σ) : img π (create P' is2 s) = create P is2 (img π s) := by
  unfold create
  rw [V.msg]
  refine ite_img _ (fun _ => rfl) (fun _ => ?_)
  refine pop3 (fun value off n s => ?_) s
  refine ite_img _ (fun _ => ?_) (fun _ => createWith_img V _ _ _ _ _)
  refine pop1 (fun salt s => ?_) s
  exact createWith_img V _ _ _ _ _

theorem newAccountGas_img (V : Views π P' P) (v : CallVariant) (a : Address) (value : U256) {k : Nat → State σ → State σ}
    {k' : Nat → State τ → State τ} (h : ∀ n s, img π (k n s) = k' n (img π s)) (s : State σ) :
    img π (newAccountGas P' v a value s k) = newAccountGas P v a value (img π s) k' := by
  unfold newAccountGas
  exact ite_img _ (fun _ => ask (V.host.accountExists _) (fun _ _ => by exact h _ _) s) (fun _ => by exact h _ _)

theorem callWith_img (V : Views π P' P) (v : CallVariant) (g : U256) (a : Address) (value io il oo ol : U256) (s : State σ) :
    img π (callWith P' v g a value io il oo ol s) = callWith P v g a value io il oo ol (img π s) := by
  unfold callWith callMessage
  rw [V.msg]
  refine touch2 _ _ _ _ _ (fun s => ?_) s
  refine ite_img _ (fun _ => rfl) (fun _ => ?_)
  refine accountAccess_img V _ (fun access s => ?_) s
  refine newAccountGas_img V _ _ _ (fun newAccount s => ?_) s
  refine charge _ (fun s => ?_) s
  refine checkBalance_img V _ (fun ok s => ?_) _
  refine ite_img _ (fun _ => rfl) (fun _ => ?_)
  exact ask (V.host.call _) (fun _ _ => by rfl) s

theorem call_img (V : Views π P' P) (v : CallVariant) (s : State σ) : img π (call P' v s) = call P v (img π s) := by
  unfold call
  rw [V.msg]
  refine ite_img _ (fun _ => by rfl) (fun _ => ?_)
  cases v
  · refine pop3 (fun _ _ _ s => ?_) s
    refine pop4 (fun _ _ _ _ s => ?_) s
    exact callWith_img V _ _ _ _ _ _ _ _ s
  · refine pop3 (fun _ _ _ s => ?_) s
    refine pop4 (fun _ _ _ _ s => ?_) s
    exact callWith_img V _ _ _ _ _ _ _ _ s
  · refine pop2 (fun _ _ s => ?_) s
    refine pop4 (fun _ _ _ _ s => ?_) s
    exact callWith_img V _ _ _ _ _ _ _ _ s
  · refine pop2 (fun _ _ s => ?_) s
    refine pop4 (fun _ _ _ _ s => ?_) s
    exact callWith_img V _ _ _ _ _ _ _ _ s

theorem jumpTo_img (V : Views π P' P) (d : U256) (s : State σ) : img π (jumpTo P' d s) = jumpTo P d (img π s) := by
  unfold jumpTo
  rw [V.code]
  exact ite_img _ (fun _ => by rfl) (fun _ => by rfl)

theorem exec_img (V : Views π P' P) (pc : Nat) (i : Instr) (s : State σ) : img π (exec P' pc i s) = exec P pc i (img π s) := by
  cases i with
  | add => exact pop2 (fun _ _ _ => by rfl) s
  | mul => exact pop2 (fun _ _ _ => by rfl) s
  | sub => exact pop2 (fun _ _ _ => by rfl) s
  | div => exact pop2 (fun _ _ _ => by rfl) s
  | sdiv => exact pop2 (fun _ _ _ => by rfl) s
  | mod => exact pop2 (fun _ _ _ => by rfl) s
  | smod => exact pop2 (fun _ _ _ => by rfl) s
  | signextend => exact pop2 (fun _ _ _ => by rfl) s
  | lt => exact pop2 (fun _ _ _ => by rfl) s
  | gt => exact pop2 (fun _ _ _ => by rfl) s
  | slt => exact pop2 (fun _ _ _ => by rfl) s
  | sgt => exact pop2 (fun _ _ _ => by rfl) s
  | eq => exact pop2 (fun _ _ _ => by rfl) s
  | and => exact pop2 (fun _ _ _ => by rfl) s
  | or => exact pop2 (fun _ _ _ => by rfl) s
  | xor => exact pop2 (fun _ _ _ => by rfl) s
  | byte => exact pop2 (fun _ _ _ => by rfl) s
  | shl => exact pop2 (fun _ _ _ => by rfl) s
  | shr => exact pop2 (fun _ _ _ => by rfl) s
  | sar => exact pop2 (fun _ _ _ => by rfl) s
  | addmod => exact pop3 (fun _ _ _ _ => by rfl) s
  | mulmod => exact pop3 (fun _ _ _ _ => by rfl) s
  | iszero => simp only [exec]; exact pop1 (fun _ _ => by rfl) s
  | not => simp only [exec]; exact pop1 (fun _ _ => by rfl) s
  | pop => simp only [exec]; exact pop1 (fun _ _ => by rfl) s
  | exp =>
    refine pop2 (fun _ _ s => ?_) s
    exact charge _ (fun _ => by rfl) s
  | sha3 =>
    simp only [exec, V.keccak]
    refine pop2 (fun _ _ s => ?_) s
    exact touch _ _ _ (fun _ => by rfl) s
  | stop => rfl
  | invalid => rfl
  | returndatasize => rfl
  | pc => rfl
  | msize => rfl
  | gas => rfl
  | jumpdest => rfl
  | address => simp only [exec, V.msg]; rfl
  | caller => simp only [exec, V.msg]; rfl
  | callvalue => simp only [exec, V.msg]; rfl
  | calldatasize => simp only [exec, V.msg]; rfl
  | codesize => simp only [exec, V.code]; rfl
  | origin => simp only [exec, V.host.txContext]; rfl
  | gasprice => simp only [exec, V.host.txContext]; rfl
  | coinbase => simp only [exec, V.host.txContext]; rfl
  | timestamp => simp only [exec, V.host.txContext]; rfl
  | number => simp only [exec, V.host.txContext]; rfl
  | prevrandao => simp only [exec, V.host.txContext]; rfl
  | gaslimit => simp only [exec, V.host.txContext]; rfl
  | chainid => simp only [exec, V.host.txContext]; rfl
  | basefee => simp only [exec, V.host.txContext]; rfl
  | blobbasefee => simp only [exec, V.host.txContext]; rfl
  | calldataload => simp only [exec, V.msg]; exact pop1 (fun _ _ => by rfl) s
  | blobhash => simp only [exec, V.host.txContext]; exact pop1 (fun _ _ => by rfl) s
  | calldatacopy => simp only [exec, V.msg]; exact copyOp_img _ s
  | codecopy => simp only [exec, V.code]; exact copyOp_img _ s
  | balance => exact accountOp_img V V.host.getBalance s
  | extcodehash => exact accountOp_img V V.host.getCodeHash s
  | extcodesize =>
    simp only [exec]
    refine accountOp_img V (fun a w => ?_) s
    exact ⟨congrArg Word.ofN (V.host.getCodeSize a w).1, (V.host.getCodeSize a w).2⟩
  | extcodecopy => exact extcodecopy_img V s
  | returndatacopy => exact returndatacopy_img s
  | blockhash => exact blockhash_img V s
  | selfbalance => simp only [exec, V.msg]; exact ask (V.host.getBalance _) (fun _ _ => by rfl) s
  | mload =>
    simp only [exec]
    refine pop1 (fun _ s => ?_) s
    exact touch _ _ _ (fun _ => by rfl) s
  | mstore =>
    refine pop2 (fun _ _ s => ?_) s
    exact touch _ _ _ (fun _ => by rfl) s
  | mstore8 =>
    refine pop2 (fun _ _ s => ?_) s
    exact touch _ _ _ (fun _ => by rfl) s
  | sload => exact sload_img V s
  | sstore => exact sstore_img V s
  | jump => exact pop1 (fun d s => jumpTo_img V d s) s
  | jumpi =>
    refine pop2 (fun d c s => ?_) s
    exact ite_img _ (fun _ => jumpTo_img V d s) (fun _ => rfl)
  | tload =>
    simp only [exec, V.msg]
    refine pop1 (fun k s => ?_) s
    exact ask (V.host.getTransient k) (fun _ _ => by rfl) s
  | tstore =>
    simp only [exec, V.msg]
    refine pop2 (fun k v s => ?_) s
    unfold img
    rw [V.host.setTransient]
  | mcopy =>
    refine pop3 (fun _ _ _ s => ?_) s
    exact touch2 _ _ _ _ _ (fun _ => by rfl) s
  | push n => simp only [exec, V.code]; rfl
  | dup n => rfl
  | swap n => rfl
  | log n => exact log_img V _ s
  | create => exact create_img V _ s
  | create2 => exact create_img V _ s
  | call => exact call_img V _ s
  | callcode => exact call_img V _ s
  | delegatecall => exact call_img V _ s
  | staticcall => exact call_img V _ s
  | ret => exact halt_img _ s
  | revert => exact halt_img _ s
  | selfdestruct => exact selfdestruct_img V s

theorem execInstr_img (V : Views π P' P) (i : Instr) (s : State σ) : img π (execInstr P' i s) = execInstr P i (img π s) := by
  unfold execInstr
  rw [V.rev, V.msg]
  refine ite_img _ (fun _ => by rfl) fun _ => ite_img _ (fun _ => by rfl) fun _ => ite_img _ (fun _ => by rfl) fun _ =>
    ite_img _ (fun _ => by rfl) fun _ => ?_
  refine charge _ (fun s => ?_) s
  exact exec_img V _ _ _

theorem execInstrEip_img (V : Views π P' P) (i : Instr) (s : State σ) :
    img π (Go.execInstrEip P' i s) = Go.execInstrEip P i (img π s) := by
  unfold Go.execInstrEip
  rw [V.rev, V.msg]
  refine ite_img _ (fun _ => by rfl) fun _ => ite_img _ (fun _ => by rfl) fun _ => ite_img _ (fun _ => by rfl) fun _ =>
    ite_img _ (fun _ => by rfl) fun _ => ?_
  refine charge _ (fun s => ?_) s
  unfold Go.execEip
  exact ite_img _ (fun _ => sstoreEip_img V _) (fun _ => exec_img V _ _ _)

theorem step_img (V : Views π P' P) (s : State σ) : img π (step P' s) = step P (img π s) := by
  unfold step
  rw [V.code]
  refine ite_img _ (fun _ => ?_) (fun _ => by rfl)
  show img π (match decode (byteAt P.code s.pc).toNat with | none => _ | some i => _) =
    match decode (byteAt P.code s.pc).toNat with | none => _ | some i => _
  cases decode (byteAt P.code s.pc).toNat with
  | none => rfl
  | some i => exact execInstr_img V i s

theorem stepEip_img (V : Views π P' P) (s : State σ) : img π (Go.stepEip P' s) = Go.stepEip P (img π s) := by
  unfold Go.stepEip
  rw [V.code]
  refine ite_img _ (fun _ => ?_) (fun _ => by rfl)
  show img π (match decode (byteAt P.code s.pc).toNat with | none => _ | some i => _) =
    match decode (byteAt P.code s.pc).toNat with | none => _ | some i => _
  cases decode (byteAt P.code s.pc).toNat with
  | none => rfl
  | some i => exact execInstrEip_img V i s

theorem steps_img (V : Views π P' P) (n : Nat) : ∀ s : State σ, img π (steps P' n s) = steps P n (img π s) := by
  induction n with
  | zero => intro s; rfl
  | succ n ih => intro s; unfold steps; rw [ih, step_img V]

theorem stepsEip_img (V : Views π P' P) (n : Nat) : ∀ s : State σ, img π (Go.stepsEip P' n s) = Go.stepsEip P n (img π s) := by
  induction n with
  | zero => intro s; rfl
  | succ n ih => intro s; unfold Go.stepsEip; rw [ih, stepEip_img V]

end

end Tosca.Proofs.HostMap

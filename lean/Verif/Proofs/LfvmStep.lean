import Verif.Proofs.LfvmOps6

/-!
# The long-form EVM: one instruction that does not depend on the code layout
-/

namespace Tosca.Proofs.Lfvm

open Tosca.Spec Tosca.Spec.Go Tosca.Go Tosca.Model.Go Tosca.Model.Lfvm

variable {ω : Type} {E : Env ω} {rev : Revision} {p : Int} {q k : Nat} {l : St ω} {s : State ω}

/-- The byte of an instruction. -/
def encode : Instr → Nat
  | .stop => 0x00 | .add => 0x01 | .mul => 0x02 | .sub => 0x03 | .div => 0x04 | .sdiv => 0x05 | .mod => 0x06 | .smod => 0x07
  | .addmod => 0x08 | .mulmod => 0x09 | .exp => 0x0a | .signextend => 0x0b | .lt => 0x10 | .gt => 0x11 | .slt => 0x12
  | .sgt => 0x13 | .eq => 0x14 | .iszero => 0x15 | .and => 0x16 | .or => 0x17 | .xor => 0x18 | .not => 0x19 | .byte => 0x1a
  | .shl => 0x1b | .shr => 0x1c | .sar => 0x1d | .sha3 => 0x20 | .address => 0x30 | .balance => 0x31 | .origin => 0x32
  | .caller => 0x33 | .callvalue => 0x34 | .calldataload => 0x35 | .calldatasize => 0x36 | .calldatacopy => 0x37
  | .codesize => 0x38 | .codecopy => 0x39 | .gasprice => 0x3a | .extcodesize => 0x3b | .extcodecopy => 0x3c
  | .returndatasize => 0x3d | .returndatacopy => 0x3e | .extcodehash => 0x3f | .blockhash => 0x40 | .coinbase => 0x41
  | .timestamp => 0x42 | .number => 0x43 | .prevrandao => 0x44 | .gaslimit => 0x45 | .chainid => 0x46 | .selfbalance => 0x47
  | .basefee => 0x48 | .blobhash => 0x49 | .blobbasefee => 0x4a | .pop => 0x50 | .mload => 0x51 | .mstore => 0x52
  | .mstore8 => 0x53 | .sload => 0x54 | .sstore => 0x55 | .jump => 0x56 | .jumpi => 0x57 | .pc => 0x58 | .msize => 0x59
  | .gas => 0x5a | .jumpdest => 0x5b | .tload => 0x5c | .tstore => 0x5d | .mcopy => 0x5e | .push n => 0x5f + n
  | .dup n => 0x7f + n | .swap n => 0x8f + n | .log n => 0xa0 + n | .create => 0xf0 | .call => 0xf1 | .callcode => 0xf2
  | .ret => 0xf3 | .delegatecall => 0xf4 | .create2 => 0xf5 | .staticcall => 0xfa | .revert => 0xfd | .invalid => 0xfe
  | .selfdestruct => 0xff

/-- The range of an instruction's parameter. -/
def okArg : Instr → Bool
  | .push n => decide (n ≤ 32)
  | .dup n => decide (1 ≤ n ∧ n ≤ 16)
  | .swap n => decide (1 ≤ n ∧ n ≤ 16)
  | .log n => decide (n ≤ 4)
  | _ => true

def decodeOk (b : Nat) : Bool := match decode b with
  | some i => decide (b = encode i) && okArg i
  | none => true

theorem decodeOk_all : ∀ b : _root_.Fin 256, decodeOk b.val = true := by decide +kernel

theorem decode_inv {b : Nat} {i : Instr} (hb : b < 256) (h : decode b = some i) : b = encode i ∧ okArg i = true := by
  have := decodeOk_all ⟨b, hb⟩
  unfold decodeOk at this
  dsimp only at this
  rw [h] at this
  simpa using this

/-- The charge for an access that the tables contain before Berlin. -/
def pre (rev : Revision) : Instr → Nat
  | .balance | .extcodesize | .extcodecopy | .extcodehash | .call | .callcode | .delegatecall | .staticcall => accPre rev
  | .sload => sloadPre rev
  | _ => 0

def pre' (berlin : Bool) : Instr → Nat
  | .balance | .extcodesize | .extcodecopy | .extcodehash | .call | .callcode | .delegatecall | .staticcall => if berlin then 0 else 700
  | .sload => if berlin then 0 else 800
  | _ => 0

/-- Both tables agree with the reference on byte `b`. -/
def tableOk (b : Nat) : Bool := match decode b with
  | some i => decide (berlinGasPrice b = ((i.baseGas + pre' true i : Nat) : Int)) && decide (staticGasPrice b = ((i.baseGas + pre' false i : Nat) : Int)) &&
      decide (computeStackUsage b = makeUsage i.pops i.pushes)
  | none => decide (computeStackUsage b = {}) 

theorem tables : ∀ b : _root_.Fin 256, tableOk b.val = true := by decide +kernel

theorem execOp_undefined {b : Nat} (hb : b < 256) (h : decode b = none) : execOp E b = error := by
  unfold execOp
  have hp : ¬ (0x60 ≤ b ∧ b ≤ 0x7f) := fun hx => by unfold decode at h; rw [if_pos hx] at h; cases h
  have hd : ¬ (0x80 ≤ b ∧ b ≤ 0x8f) := fun hx => by unfold decode at h; rw [if_neg (by omega), if_pos hx] at h; cases h
  have hs : ¬ (0x90 ≤ b ∧ b ≤ 0x9f) := fun hx => by unfold decode at h; rw [if_neg (by omega), if_neg (by omega), if_pos hx] at h; cases h
  have hl : ¬ (0xa0 ≤ b ∧ b ≤ 0xa4) := fun hx => by
    unfold decode at h; rw [if_neg (by omega), if_neg (by omega), if_neg (by omega), if_pos hx] at h; cases h
  rw [if_neg (by show ¬ (0x64 ≤ b ∧ b ≤ 0x7e); omega), if_neg hd, if_neg hs, if_neg hl]
  split <;> first
    | rfl
    | exact absurd h (by decide)
    | exact absurd hb (by decide)

/-- How an instruction leaves the context. -/
def Done (p : Int) (q : Nat) : Model.Lfvm.Status → St ω → State ω → Prop
  | .running, l, t => Match p q l t
  | .stopped, l, t => Ended .stopped (fun _ => []) l t
  | .selfDestructed, l, t => Ended .stopped (fun _ => []) l t
  | .returned, l, t => Ended .returned St.returnData l t
  | .reverted, l, t => Ended .reverted St.returnData l t
  | .failed, _, _ => False

theorem sim_runs {m : M ω Unit} {t : State ω} (h : Sim (Post p q) (m l) t) : Sim (Done p q) (runs m l) t :=
  sim_bind h fun _ _ h' => h'

theorem sim_ends {status : Model.Lfvm.Status} {m : M ω Unit} {t : State ω} {R : St ω → State ω → Prop} (h : Sim (fun _ => R) (m l) t)
    (hR : ∀ l' , R l' t → Done p q status l' t) : Sim (Done p q) (ends status m l) t :=
  sim_bind h fun _ _ h' => hR _ h'

theorem sim_free {f : M ω Model.Lfvm.Status} {t : State ω} (h : Rel 0 p q l s) (H : ∀ l', Rel 0 p q l' s → Sim (Done p q) (f l') t) :
    Sim (Done p q) ((useGas ((0 : Nat) : Int) >>= fun _ => f) l) t := sim_useGas0 rfl h H

theorem sim_paid {n : Nat} {m : M ω Unit} {t : State ω} (h : Sim (Post p q) ((useGas (n : Int) >>= fun _ => m) l) t) :
    Sim (Done p q) ((useGas (n : Int) >>= fun _ => runs m) l) t := by
  have : (useGas (n : Int) >>= fun _ => runs m) = runs (useGas (n : Int) >>= fun _ => m) := by
    unfold runs; rw [assoc]
  rw [this]
  exact sim_runs h

/-- Instructions whose effect does not depend on where they are in the code. -/
def plain : Instr → Bool
  | .jump | .jumpi | .pc => false
  | .push n => decide (n = 0)
  | _ => true

theorem sim_exec {i : Instr} {at_ : Nat} (hE : Setup E rev) (hi : plain i = true) (ha : okArg i = true) (h : Rel 0 p q l s)
    (hpops : i.pops ≤ s.stack.length) (hpush : s.stack.length + i.pushes ≤ stackLimit + i.pops) (hrev : ¬ rev < i.since)
    (hst : ¬ (i.writes = true ∧ E.params.static = true)) :
    Sim (Done p q) ((useGas (pre rev i : Int) >>= fun _ => execOp E (encode i)) l) (execEip (frameOf E rev) at_ i s) := by
  have hlen := hE.input
  have hcode : E.params.code.length < 2 ^ 63 := by have := hE.run.code; omega
  have hch := hE.run.chain
  have stf : i.writes = true → E.params.static = false := fun hw => by
    cases hx : E.params.static with
    | false => rfl
    | true => exact absurd ⟨hw, hx⟩ hst
  have bin : ∀ {f g : U256 → U256 → U256}, (∀ a b, f a b = g a b) → 2 ≤ s.stack.length → ∀ l', Rel 0 p q l' s →
      Sim (Done p q) (runs (binary f) l') (s.pop2 fun a b s => s.push (g a b)) := fun hfg hs l' h' => sim_runs (sim_binary hfg h' hs)
  have psh : ∀ {v v' : U256}, v = v' → s.stack.length + 1 ≤ 1024 → ∀ l', Rel 0 p q l' s →
      Sim (Done p q) (pushes v l') (s.push v') := fun hv hs l' h' => sim_runs (sim_push hv h' hs)
  cases i with
  | stop => exact sim_free h fun l' h' => ⟨rfl, rfl, h'.gas, h'.refund, h'.world⟩
  | add => exact sim_free h (bin l_add hpops)
  | mul => exact sim_free h (bin l_mul hpops)
  | sub => exact sim_free h (bin l_sub hpops)
  | div => exact sim_free h (bin l_div hpops)
  | sdiv => exact sim_free h (bin l_sdiv hpops)
  | mod => exact sim_free h (bin l_mod hpops)
  | smod => exact sim_free h (bin l_smod hpops)
  | addmod => exact sim_free h fun l' h' => sim_runs (sim_ternary l_addmod h' hpops)
  | mulmod => exact sim_free h fun l' h' => sim_runs (sim_ternary l_mulmod h' hpops)
  | exp => exact sim_free h fun l' h' => sim_runs (sim_exp h' hpops)
  | signextend => exact sim_free h (bin l_signextend hpops)
  | lt => exact sim_free h (bin l_lt hpops)
  | gt => exact sim_free h (bin l_gt hpops)
  | slt => exact sim_free h (bin l_slt hpops)
  | sgt => exact sim_free h (bin l_sgt hpops)
  | eq => exact sim_free h (bin l_eq hpops)
  | iszero => exact sim_free h fun l' h' => sim_runs (sim_unary l_iszero h' hpops)
  | and => exact sim_free h (bin l_and hpops)
  | or => exact sim_free h (bin l_or hpops)
  | xor => exact sim_free h (bin l_xor hpops)
  | not => exact sim_free h fun l' h' => sim_runs (sim_unary l_not h' hpops)
  | byte => exact sim_free h (bin l_byte hpops)
  | shl => exact sim_free h (bin l_shl hpops)
  | shr => exact sim_free h (bin l_shr hpops)
  | sar => exact sim_free h (bin l_sar hpops)
  | sha3 => exact sim_free h fun l' h' => sim_runs (sim_sha3 h' hpops)
  | address => exact sim_free h (psh (l_ofBytes20 _) hpush)
  | balance => exact sim_paid (sim_balance hE h hpops)
  | origin => exact sim_free h (psh (l_ofBytes20 _) hpush)
  | caller => exact sim_free h (psh (l_ofBytes20 _) hpush)
  | callvalue => exact sim_free h (psh rfl hpush)
  | calldataload => exact sim_free h fun l' h' => sim_runs (sim_calldataload hE h' hpops)
  | calldatasize => exact sim_free h (psh (l_ofN64 (by omega)) hpush)
  | calldatacopy => exact sim_free h fun l' h' => sim_runs (sim_dataCopy hlen h' hpops)
  | codesize => exact sim_free h (psh (l_ofN64 (by omega)) hpush)
  | codecopy => exact sim_free h fun l' h' => sim_runs (sim_dataCopy hcode h' hpops)
  | gasprice => exact sim_free h (psh rfl hpush)
  | extcodesize => exact sim_paid (sim_extcodesize hE h hpops)
  | extcodecopy => exact sim_paid (sim_extcodecopy hE h hpops)
  | returndatasize => exact sim_free h fun l' h' => sim_runs (sim_returndatasize h' hpush)
  | returndatacopy => exact sim_free h fun l' h' => sim_runs (sim_returnDataCopy h' hpops)
  | extcodehash => exact sim_paid (sim_extcodehash hE h hpops)
  | blockhash => exact sim_free h fun l' h' => sim_runs (sim_blockhash hE h' hpops)
  | coinbase => exact sim_free h (psh (l_ofBytes20 _) hpush)
  | timestamp => exact sim_free h (psh (l_ofI64 hch.timestamp.1 hch.timestamp.2) hpush)
  | number => exact sim_free h (psh (l_ofI64 hch.blockNumber.1 hch.blockNumber.2) hpush)
  | prevrandao => exact sim_free h (psh rfl hpush)
  | gaslimit => exact sim_free h (psh (l_ofI64 hch.gasLimit.1 hch.gasLimit.2) hpush)
  | chainid => exact sim_free h (psh rfl hpush)
  | selfbalance => exact sim_free h fun l' h' => sim_runs (sim_selfbalance h' hpush)
  | basefee => exact sim_free h fun l' h' => sim_runs (sim_basefee hE (Nat.not_lt.1 hrev) h' hpush)
  | blobhash => exact sim_free h fun l' h' => sim_runs (sim_blobhash hE (Nat.not_lt.1 hrev) h' hpops)
  | blobbasefee => exact sim_free h fun l' h' => sim_runs (sim_blobbasefee hE (Nat.not_lt.1 hrev) h' hpush)
  | pop => exact sim_free h fun l' h' => sim_runs (sim_popOp h' hpops)
  | mload => exact sim_free h fun l' h' => sim_runs (sim_mload h' hpops)
  | mstore => exact sim_free h fun l' h' => sim_runs (sim_mstore h' hpops)
  | mstore8 => exact sim_free h fun l' h' => sim_runs (sim_mstore8 h' hpops)
  | sload => exact sim_paid (sim_sload hE h hpops)
  | sstore => exact sim_free h fun l' h' => sim_runs (sim_sstore hE (stf rfl) h' hpops)
  | jump => cases hi
  | jumpi => cases hi
  | pc => cases hi
  | msize => exact sim_free h fun l' h' => sim_runs (sim_msize h' hpush)
  | gas => exact sim_free h fun l' h' => sim_runs (sim_gas h' hpush)
  | jumpdest => exact sim_free h fun l' h' => sim_runs (sim_nop h')
  | tload => exact sim_free h fun l' h' => sim_runs (sim_tload hE (Nat.not_lt.1 hrev) h' hpops)
  | tstore => exact sim_free h fun l' h' => sim_runs (sim_tstore hE (Nat.not_lt.1 hrev) (stf rfl) h' hpops)
  | mcopy => exact sim_free h fun l' h' => sim_runs (sim_mcopy hE (Nat.not_lt.1 hrev) h' hpops)
  | push n =>
    have hn : n = 0 := by simpa [plain] using hi
    subst hn
    refine sim_free h fun l' h' => sim_runs ?_
    show Sim _ ((if E.isAtLeast R12_Shanghai = false then error else pushV 0 : M ω Unit) l') _
    have : E.isAtLeast R12_Shanghai = true := (shanghai hE).2 (Nat.not_lt.1 hrev)
    rw [this, if_neg (by decide)]
    exact sim_push rfl h' hpush
  | dup n =>
    have hn : 1 ≤ n ∧ n ≤ 16 := by simpa [okArg] using ha
    refine sim_free h fun l' h' => ?_
    have e : execOp E (encode (.dup n)) = runs (dup ((n - 1 : Nat) : Int)) := by
      unfold execOp encode
      rw [if_neg (by show ¬ (0x64 ≤ 0x7f + n ∧ 0x7f + n ≤ 0x7e); omega), if_pos (by show 0x80 ≤ 0x7f + n ∧ 0x7f + n ≤ 0x8f; omega)]
      rw [show 0x7f + n - Op.DUP1 = n - 1 from by show 0x7f + n - 0x80 = n - 1; omega]
    rw [e]
    have hpush' : s.stack.length + (n + 1) ≤ 1024 + n := hpush
    exact sim_runs (sim_dup h' hn.1 hpops (by omega))
  | swap n =>
    have hn : 1 ≤ n ∧ n ≤ 16 := by simpa [okArg] using ha
    refine sim_free h fun l' h' => ?_
    have e : execOp E (encode (.swap n)) = runs (swap (n : Int)) := by
      unfold execOp encode
      rw [if_neg (by show ¬ (0x64 ≤ 0x8f + n ∧ 0x8f + n ≤ 0x7e); omega), if_neg (by show ¬ (0x80 ≤ 0x8f + n ∧ 0x8f + n ≤ 0x8f); omega),
        if_pos (by show 0x90 ≤ 0x8f + n ∧ 0x8f + n ≤ 0x9f; omega)]
      rw [show 0x8f + n - Op.SWAP1 + 1 = n from by show 0x8f + n - 0x90 + 1 = n; omega]
    rw [e]
    exact sim_runs (sim_swap h' hn.1 hpops)
  | log n =>
    have hn : n ≤ 4 := by simpa [okArg] using ha
    refine sim_free h fun l' h' => ?_
    have e : execOp E (encode (.log n)) = runs (opLog E n) := by
      unfold execOp encode
      rw [if_neg (by show ¬ (0x64 ≤ 0xa0 + n ∧ 0xa0 + n ≤ 0x7e); omega), if_neg (by show ¬ (0x80 ≤ 0xa0 + n ∧ 0xa0 + n ≤ 0x8f); omega),
        if_neg (by show ¬ (0x90 ≤ 0xa0 + n ∧ 0xa0 + n ≤ 0x9f); omega), if_pos (by show 0xa0 ≤ 0xa0 + n ∧ 0xa0 + n ≤ 0xa4; omega)]
      rw [show 0xa0 + n - Op.LOG0 = n from by show 0xa0 + n - 0xa0 = n; omega]
    rw [e]
    exact sim_runs (sim_log (stf rfl) h' hpops)
  | create => exact sim_free h fun l' h' => sim_runs (sim_create hE (stf rfl) h' hpops)
  | call => exact sim_paid (sim_call hE h hpops)
  | callcode => exact sim_paid (sim_call7 (.inr rfl) hE h hpops (fun hx => by cases hx.1))
  | ret => exact sim_free h fun l' h' => sim_ends (sim_halt h' hpops) fun _ hx => hx
  | delegatecall => exact sim_paid (sim_call6 (.inl rfl) hE h hpops)
  | create2 => exact sim_free h fun l' h' => sim_runs (sim_create2 hE (stf rfl) h' hpops)
  | staticcall => exact sim_paid (sim_call6 (.inr rfl) hE h hpops)
  | revert => exact sim_free h fun l' h' => sim_ends (sim_halt h' hpops) fun _ hx => hx
  | invalid => exact sim_free h fun l' h' => failed_fail _ _
  | selfdestruct => exact sim_free h fun l' h' => sim_ends (sim_selfdestruct hE (stf rfl) h' hpops) fun _ hx => hx

/-! ## One step -/

theorem exec_since (hE : Setup E rev) {i : Instr} (hi : plain i = true) (hrev : rev < i.since) (l : St ω) :
    execOp E (encode i) l = .err l := by
  have no : ∀ {n : Int} {m : Nat}, (m : Int) = n + 7 → rev < m → E.isAtLeast n = false := fun hm hlt => by
    rw [Bool.eq_false_iff]
    intro hx
    exact absurd ((atLeast hE _ _ hm).1 hx) (Nat.not_le.2 hlt)
  have z : ¬ rev < (0 : Nat) := Nat.not_lt_zero _
  cases i with
  | push n =>
    have hn : n = 0 := by simpa [plain] using hi
    subst hn
    show runs (if E.isAtLeast R12_Shanghai = false then error else pushV 0 : M ω Unit) l = _
    rw [if_pos (no (n := R12_Shanghai) (m := 11) rfl hrev)]
    rfl
  | basefee =>
    show runs (opBaseFee E) l = _
    unfold opBaseFee
    rw [if_pos (no (n := R10_London) (m := 9) rfl hrev)]
    rfl
  | blobhash =>
    show runs (opBlobHash E) l = _
    unfold opBlobHash
    rw [if_pos (no (n := R13_Cancun) (m := 12) rfl hrev)]
    rfl
  | blobbasefee =>
    show runs (opBlobBaseFee E) l = _
    unfold opBlobBaseFee
    rw [if_pos (no (n := R13_Cancun) (m := 12) rfl hrev)]
    rfl
  | tload =>
    show runs (opTload E) l = _
    unfold opTload
    rw [if_pos (no (n := R13_Cancun) (m := 12) rfl hrev)]
    rfl
  | tstore =>
    show runs (opTstore E) l = _
    unfold opTstore
    rw [if_pos (no (n := R13_Cancun) (m := 12) rfl hrev)]
    rfl
  | mcopy =>
    show runs (opMcopy E) l = _
    unfold opMcopy
    rw [if_pos (no (n := R13_Cancun) (m := 12) rfl hrev)]
    rfl
  | _ => exact absurd hrev z

theorem exec_static {i : Instr} (ha : okArg i = true) (hw : i.writes = true) (hst : E.params.static = true) (l : St ω) :
    execOp E (encode i) l = .err l := by
  cases i with
  | sstore =>
    show runs (opSstore E) l = _
    unfold opSstore
    rw [if_pos hst]
    rfl
  | tstore =>
    show runs (opTstore E) l = _
    unfold opTstore
    by_cases hc : E.isAtLeast R13_Cancun = false
    · rw [if_pos hc]; rfl
    · rw [if_neg hc, if_pos hst]; rfl
  | log n =>
    have hn : n ≤ 4 := by simpa [okArg] using ha
    have e : execOp E (encode (.log n)) = runs (opLog E n) := by
      unfold execOp encode
      rw [if_neg (by show ¬ (0x64 ≤ 0xa0 + n ∧ 0xa0 + n ≤ 0x7e); omega), if_neg (by show ¬ (0x80 ≤ 0xa0 + n ∧ 0xa0 + n ≤ 0x8f); omega),
        if_neg (by show ¬ (0x90 ≤ 0xa0 + n ∧ 0xa0 + n ≤ 0x9f); omega), if_pos (by show 0xa0 ≤ 0xa0 + n ∧ 0xa0 + n ≤ 0xa4; omega)]
      rw [show 0xa0 + n - Op.LOG0 = n from by show 0xa0 + n - 0xa0 = n; omega]
    rw [e]
    unfold opLog
    rw [if_pos hst]
    rfl
  | create =>
    show runs (genericCreate E .create) l = _
    unfold genericCreate
    rw [if_pos hst]
    rfl
  | create2 =>
    show runs (genericCreate E .create2) l = _
    unfold genericCreate
    rw [if_pos hst]
    rfl
  | selfdestruct =>
    show ends .selfDestructed (opSelfdestruct E) l = _
    unfold opSelfdestruct
    rw [if_pos hst]
    rfl
  | _ => cases hw

theorem pre_eq (rev : Revision) (i : Instr) : pre rev i = pre' (decide (BERLIN ≤ rev)) i := by
  by_cases hb : BERLIN ≤ rev
  · rw [decide_eq_true hb]; cases i <;> simp [pre, pre', accPre, sloadPre, hb]
  · rw [decide_eq_false hb]; cases i <;> simp [pre, pre', accPre, sloadPre, hb]

theorem table_some {b : Nat} {i : Instr} (hb : b < 256) (hd : decode b = some i) :
    berlinGasPrice b = ((i.baseGas + pre' true i : Nat) : Int) ∧ staticGasPrice b = ((i.baseGas + pre' false i : Nat) : Int) ∧
      computeStackUsage b = makeUsage i.pops i.pushes := by
  have := tables ⟨b, hb⟩
  unfold tableOk at this
  dsimp only at this
  rw [hd] at this
  simpa [and_assoc] using this

theorem gasPrice_eq (hE : Setup E rev) {b : Nat} {i : Instr} (hb : b < 256) (hd : decode b = some i) :
    gasPrice E.params.block.revision b = ((i.baseGas + pre rev i : Nat) : Int) := by
  have ⟨h1, h2, _⟩ := table_some hb hd
  unfold gasPrice
  rw [pre_eq]
  by_cases hr : BERLIN ≤ rev
  · rw [if_pos ((rev_ge hE R09_Berlin 8 rfl).2 hr), h1, decide_eq_true hr]
  · rw [if_neg (fun hx => hr ((rev_ge hE R09_Berlin 8 rfl).1 hx)), h2, decide_eq_false hr]

theorem rel_pc (q' : Nat) (h : Rel k p q l s) : Rel k p q' l { s with pc := q' } :=
  ⟨h.status, h.pc, rfl, h.gas, h.refund, h.sp, h.stack, h.limit, h.size, h.mem, h.aligned, h.cost, h.ret, h.retLen, h.world, h.bound⟩

theorem bind_eq {α β : Type} {m m' : M ω α} {f : α → M ω β} {l l' : St ω} (h : m l = m' l') : (m >>= f) l = (m' >>= f) l' := by
  cases hm : m' l' with
  | ok a l1 => rw [bind_ok (h.trans hm), bind_ok hm]
  | err l1 => rw [bind_err (h.trans hm), bind_err hm]
  | panic => rw [bind_panic (h.trans hm), bind_panic hm]

/-- The tables contain the sum of the base gas and a charge that is part of the effect. -/
theorem sim_useGas2 {β : Type} {Q : β → St ω → State ω → Prop} {a b : Nat} {f : Unit → M ω β} {k' : State ω → State ω} (h : Rel k p q l s)
    (H : ∀ l', Rel k p q l' { s with gas := s.gas - a } → Sim Q ((useGas (b : Int) >>= f) l') (k' { s with gas := s.gas - a })) :
    Sim Q ((useGas ((a + b : Nat) : Int) >>= f) l) (s.charge a k') := by
  have hbd := h.bound
  unfold State.charge
  by_cases hg : s.gas < a
  · obtain ⟨l', e⟩ := useGas_err (amount := ((a + b : Nat) : Int)) (.inl rfl) h (by omega)
    rw [bind_err e, if_pos hg]
    exact failed_fail _ _
  · obtain ⟨l', e, h'⟩ := useGas_ok (amount := (a : Int)) rfl h (by omega)
    rw [if_neg hg]
    have H' := H l' h'
    by_cases hg2 : s.gas < a + b
    · obtain ⟨l2, e2⟩ := useGas_err (amount := ((a + b : Nat) : Int)) (.inl rfl) h hg2
      obtain ⟨l3, e3⟩ := useGas_err (amount := (b : Int)) (.inl rfl) h' (show s.gas - a < b by omega)
      rw [bind_err e2]
      rw [bind_err e3] at H'
      exact H'
    · have e1 : l' = { l with gas := i64 (l.gas - a) } := by
        unfold useGas at e
        rw [if_neg (by rw [h.gas]; omega)] at e
        injection e with _ e
        exact e.symm
      have e2 : (useGas ((a + b : Nat) : Int) : M ω Unit) l = (useGas (b : Int) : M ω Unit) l' := by
        have hga : l'.gas = ((s.gas - a : Nat) : Int) := h'.gas
        unfold useGas
        rw [if_neg (by rw [h.gas]; omega), if_neg (by rw [hga]; omega), hga, h.gas, e1]
        congr 2
        congr 1
        omega
      have e3 : (useGas ((a + b : Nat) : Int) >>= f) l = (useGas (b : Int) >>= f) l' := by
        exact bind_eq e2
      rw [e3]
      exact H'

/-- The context after the program counter moved on. -/
def Moved (Q : Model.Lfvm.Status → St ω → State ω → Prop) (st : Model.Lfvm.Status) (l : St ω) (t : State ω) : Prop :=
  ∃ l0, Q st l0 t ∧ l = { l0 with pc := l0.pc + 1 }

theorem instrAt_ok {ins : Instruction} {j : Nat} (hp : l.pc = j) (hi : E.code[j]? = some ins) : (instrAt E 0 : M ω _) l = .ok ins l := by
  show (if 0 ≤ l.pc + 0 then (match E.code[(l.pc + 0).toNat]? with | some i => pure i | none => crash) else crash : M ω _) l = _
  rw [hp, if_pos (by omega), show ((j : Int) + 0).toNat = j by omega, hi]
  rfl

theorem sim_stepAt {Q : Model.Lfvm.Status → St ω → State ω → Prop} {ins : Instruction} {j : Nat} {t : State ω} (hp : l.pc = j) (hi : E.code[j]? = some ins)
    (H : Sim Q ((checkStackLimits l.sp ins.opcode >>= fun _ => useGas (gasPrice E.params.block.revision ins.opcode) >>= fun _ =>
      execOp E ins.opcode) l) t) : Sim (Moved Q) (stepOnce E l) t := by
  have hj : j < E.code.length := (List.getElem?_eq_some_iff.1 hi).1
  have e : stepOnce E l = ((checkStackLimits l.sp ins.opcode >>= fun _ => useGas (gasPrice E.params.block.revision ins.opcode) >>= fun _ =>
      execOp E ins.opcode) >>= fun status => getSt >>= fun s => setPc (s.pc + 1) >>= fun _ => pure status) l := by
    unfold stepOnce
    rw [bind_ok (show (getSt : M ω _) l = .ok l l from rfl), if_neg (by rw [hp]; omega), bind_ok (instrAt_ok hp hi),
      bind_ok (show (getSt : M ω _) l = .ok l l from rfl), assoc]
    simp only [assoc]
  rw [e]
  refine sim_bind H fun st l0 h0 => ?_
  exact ⟨l0, h0, rfl⟩

/-- One instruction of the reference against one of the long-form EVM. -/
theorem sim_step {Q : Model.Lfvm.Status → St ω → State ω → Prop} {ins : Instruction} {j : Nat} {i : Instr} (hE : Setup E rev)
    (h : Rel 0 p q l s) (hp : p = j) (hi : E.code[j]? = some ins) (hb : byteAt E.params.code s.pc = BitVec.ofNat 8 ins.opcode)
    (hlt : ins.opcode < 256) (hd : decode ins.opcode = some i) (hna : plain i = true ∨ i.since = 0)
    (H : ∀ l', Rel 0 p (s.pc + i.length) l' { s with gas := s.gas - i.baseGas, pc := s.pc + i.length } → i.pops ≤ s.stack.length →
      s.stack.length + i.pushes ≤ stackLimit + i.pops → ¬ rev < i.since → ¬ (i.writes = true ∧ E.params.static = true) →
      Sim Q ((useGas (pre rev i : Int) >>= fun _ => execOp E (encode i)) l')
        (execEip (frameOf E rev) s.pc i { s with gas := s.gas - i.baseGas, pc := s.pc + i.length })) :
    Sim (Moved Q) (stepOnce E l) (stepEip (frameOf E rev) s) := by
  obtain ⟨henc, harg⟩ := decode_inv hlt hd
  have ⟨_, _, huse⟩ := table_some hlt hd
  refine sim_stepAt (h.pc.trans hp) hi ?_
  have hdb : decode (byteAt (frameOf E rev).code s.pc).toNat = some i := by
    show decode (byteAt E.params.code s.pc).toNat = some i
    rw [hb, BitVec.toNat_ofNat, Nat.mod_eq_of_lt hlt, hd]
  unfold stepEip
  rw [if_pos h.status, hdb]
  dsimp only
  unfold checkStackLimits
  rw [huse, gasPrice_eq hE hlt hd, henc, h.sp]
  have hsp : (s.stack.length + (0 : Nat) : Int) = s.stack.length := by omega
  rw [hsp]
  have hlo : (makeUsage i.pops i.pushes).lo = -(i.pops : Int) := rfl
  have hhi : (makeUsage i.pops i.pushes).hi = if ((i.pushes : Int) - i.pops) > 0 then (i.pushes : Int) - i.pops else 0 := rfl
  rw [hlo, hhi]
  have hlim := h.limit
  unfold execInstrEip
  by_cases hu : (s.stack.length : Int) < -(-(i.pops : Int))
  · rw [if_pos hu]
    show Failed _
    have : s.stack.length < i.pops := by omega
    split
    · exact failed_fail _ _
    · split
      · exact failed_fail _ _
      · exact failed_fail _ _
  rw [if_neg hu]
  by_cases ho : (s.stack.length : Int) > maxStackSize - (if ((i.pushes : Int) - i.pops) > 0 then (i.pushes : Int) - i.pops else 0)
  · rw [if_pos ho]
    show Failed _
    unfold maxStackSize at ho
    have hov : s.stack.length + i.pushes > stackLimit + i.pops := by
      unfold stackLimit
      split at ho <;> omega
    split
    · exact failed_fail _ _
    · split
      · exact failed_fail _ _
      · split
        · exact failed_fail _ _
        · exact failed_fail _ _
  rw [if_neg ho]
  unfold maxStackSize at ho
  have hnu : ¬ s.stack.length < i.pops := by omega
  have hno : ¬ s.stack.length + i.pushes > stackLimit + i.pops := by
    unfold stackLimit
    split at ho <;> omega
  have errs : ∀ t : State ω, Failed t → (∀ l' : St ω, execOp E (encode i) l' = .err l') →
      Sim Q ((useGas ((i.baseGas + pre rev i : Nat) : Int) >>= fun _ => execOp E (encode i)) l) t := by
    intro t ht he
    by_cases hg : s.gas < i.baseGas + pre rev i
    · obtain ⟨l', e⟩ := useGas_err (amount := ((i.baseGas + pre rev i : Nat) : Int)) (.inl rfl) h hg
      rw [bind_err e]
      exact ht
    · obtain ⟨l', e, h'⟩ := useGas_ok (amount := ((i.baseGas + pre rev i : Nat) : Int)) rfl h (by omega)
      rw [bind_ok e, he]
      exact ht
  rw [pure_bind']
  by_cases h1 : rev < i.since
  · rw [if_pos (show (frameOf E rev).rev < i.since from h1)]
    rcases hna with hna | hna
    · exact errs _ (failed_fail _ _) (exec_since hE hna h1)
    · rw [hna] at h1; exact absurd h1 (Nat.not_lt_zero _)
  rw [if_neg (show ¬ (frameOf E rev).rev < i.since from h1)]
  by_cases h2 : i.writes = true ∧ E.params.static = true
  · rw [if_pos (by rw [static_iff]; exact h2)]
    exact errs _ (failed_fail _ _) (exec_static harg h2.1 h2.2)
  rw [if_neg (by rw [static_iff]; exact h2), if_neg hnu, if_neg hno]
  refine sim_useGas2 h fun l' h' => ?_
  exact H l' (rel_pc _ h') (by omega) (by omega) h1 h2

end Tosca.Proofs.Lfvm

import Verif.Props.Memory
import Verif.Spec.AccountView

/-!
# Accounts, storage, blocks (C22, C23, C45)

As in `Props/Memory`, each theorem covers every amount of gas; the host state in the failing case shows which
questions were asked before the gas ran out.
-/

namespace Tosca

open Tosca.Model Tosca.Spec Tosca.Proofs

variable {σ : Type} {P : Params σ} {E : Env σ} {codeOf : U256 → List Byte} {vm : Vm} {x : StepIn σ}

theorem toAddress_eq (v : U256) : Word.toAddress v = accountOf v := rfl

theorem accountAccess_eq (a : Address) (s : State σ) (k : Nat → State σ → State σ) :
    accountAccess P a s k = k (accountCost P a s.host).1 { s with host := (accountCost P a s.host).2 } := by
  unfold accountAccess accountCost
  by_cases hb : P.rev < BERLIN
  · rw [if_neg (Nat.not_le.mpr hb), if_pos hb]
  · rw [if_pos (Nat.not_lt.mp hb), if_neg hb]
    unfold State.ask
    rcases P.host.accessAccount a s.host with ⟨st, w⟩
    cases st <;> rfl

theorem charge_ready (h : Setting P E codeOf vm) (hx : InputOk P x) {i : Instr} (hr : Ready P x i) {s : State σ} {n : Nat}
    {k : State σ → State σ} (hsg : s.gas = (started P x i).gas) (he : exec P x.pc i (started P x i) = s.charge n k) :
    (((i.baseGas + n : Nat) : Int) ≤ P.msg.gas →
      exec P x.pc i (started P x i) = k { s with gas := P.msg.gas.toNat - (i.baseGas + n) }) ∧
    (P.msg.gas < ((i.baseGas + n : Nat) : Int) → Fails P E vm x 1 .outOfGas s.refund s.host) := by
  have h1 := started_gas hr
  constructor
  · intro hg
    rw [he, charge_rich' _ (by omega)]
    congr 2
    omega
  · intro hg
    exact fails_dyn h hx hr he (by omega)

/-- C45.  BALANCE, EXTCODESIZE and EXTCODEHASH look at the account named by the low 160 bits of the operand, for
the price of accessing it. -/
theorem C45_account (h : Setting P E codeOf vm) (hx : InputOk P x) {op : Nat} {f : Address → σ → U256 × σ}
    (hop : AccountProperty P op f) (ho : x.opcode P = op) {v : U256} {rest : List U256} (hst : x.stack = rest ++ [v])
    {cost : Nat} {w : σ} (hc : accountCost P (accountOf v) x.world = (cost, w)) :
    ((cost : Int) ≤ P.msg.gas → Runs P E vm x 1 { x.same P with
        pc := x.pc + 1
        gasLeft := P.msg.gas - cost
        stack := rest ++ [(f (accountOf v) w).1] } (f (accountOf v) w).2) ∧
    (P.msg.gas < (cost : Int) → Fails P E vm x 1 .outOfGas x.refund w) := by
  have hll := len1 hst
  have hlen := hx.stack
  have main : ∀ i : Instr, decode op = some i → i.baseGas = 0 → i.since = 0 → i.writes = false → i.pops = 1 → i.pushes = 1 → i.length = 1 →
      (∀ s : State σ, exec P x.pc i s = accountOp P f s) →
      ((cost : Int) ≤ P.msg.gas → Runs P E vm x 1 { x.same P with
          pc := x.pc + 1
          gasLeft := P.msg.gas - cost
          stack := rest ++ [(f (accountOf v) w).1] } (f (accountOf v) w).2) ∧
      (P.msg.gas < (cost : Int) → Fails P E vm x 1 .outOfGas x.refund w) := by
    intro i hd hb hs hw hp hq hl he
    have hr : Ready P x i := ⟨by rw [ho]; exact hd, by rw [hs]; exact Nat.zero_le _, (by rw [hw]; exact nofun), by omega, by omega,
      by rw [hb]; exact h.gas⟩
    have he1 : exec P x.pc i (started P x i) = State.charge { started P x i with stack := rest.reverse, host := w } cost
        fun s => s.ask (f (accountOf v)) fun v s => s.push v := by
      rw [he]
      unfold accountOp
      rw [pop1_cons ((started_stack _).trans (rev1 hst))]
      rw [accountAccess_eq]
      show State.charge { started P x i with stack := rest.reverse, host := (accountCost P (accountOf v) x.world).2 }
        (accountCost P (accountOf v) x.world).1 _ = _
      rw [hc]
      rfl
    have := charge_ready h hx hr (s := { started P x i with stack := rest.reverse, host := w }) rfl he1
    rw [hb, Nat.zero_add] at this
    refine ⟨fun hg => ?_, this.2⟩
    refine runs_to h hx hr (this.1 hg) rfl rfl rfl rfl ?_ (gas_sub hg) rfl rfl ?_ (pad32_eq _).symm rfl rfl
    · show x.pc + i.length = _; rw [hl]
    · show ((f (accountOf v) w).1 :: rest.reverse).reverse = _
      simp
  cases hop with
  | balance => exact main .balance rfl rfl rfl rfl rfl rfl rfl fun _ => rfl
  | extcodesize => exact main .extcodesize rfl rfl rfl rfl rfl rfl rfl fun _ => rfl
  | extcodehash => exact main .extcodehash rfl rfl rfl rfl rfl rfl rfl fun _ => rfl

/-- C45.  SLOAD reads a slot of the executing account, for the price of accessing the slot. -/
theorem C45_sload (h : Setting P E codeOf vm) (hx : InputOk P x) (ho : x.opcode P = 0x54) {key : U256} {rest : List U256}
    (hst : x.stack = rest ++ [key]) {cost : Nat} {w : σ} (hc : slotCost P key x.world = (cost, w)) :
    ((cost : Int) ≤ P.msg.gas → Runs P E vm x 1 { x.same P with
        pc := x.pc + 1
        gasLeft := P.msg.gas - cost
        stack := rest ++ [(P.host.getStorage P.msg.recipient key w).1] } (P.host.getStorage P.msg.recipient key w).2) ∧
    (P.msg.gas < (cost : Int) → Fails P E vm x 1 .outOfGas x.refund w) := by
  have hll := len1 hst
  have hlen := hx.stack
  have hr : Ready P x .sload := ready_pops (k := rest.length) hx (by rw [ho]; rfl) (Nat.zero_le _) nofun hll (by decide) h.gas
  have he1 : exec P x.pc .sload (started P x .sload) = State.charge { started P x .sload with stack := rest.reverse, host := w } cost
      fun s => s.ask (P.host.getStorage P.msg.recipient key) fun v s => s.push v := by
    show sload P _ = _
    unfold sload
    rw [pop1_cons ((started_stack _).trans (rev1 hst))]
    unfold slotCost at hc
    dsimp only
    by_cases hb : P.rev < BERLIN
    · rw [if_neg (Nat.not_le.mpr hb)]
      rw [if_pos hb] at hc
      cases hc
      rfl
    · rw [if_pos (Nat.not_lt.mp hb)]
      rw [if_neg hb] at hc
      unfold State.ask
      show State.charge { started P x .sload with stack := rest.reverse, host := (P.host.accessStorage P.msg.recipient key x.world).2 }
        (if (P.host.accessStorage P.msg.recipient key x.world).1 = .warm then 100 else 2100) _ = _
      revert hc
      rcases P.host.accessStorage P.msg.recipient key x.world with ⟨st, w'⟩
      cases st <;> (intro hc; cases hc; rfl)
  have := charge_ready h hx hr (s := { started P x .sload with stack := rest.reverse, host := w }) rfl he1
  rw [show Instr.sload.baseGas = 0 from rfl, Nat.zero_add] at this
  refine ⟨fun hg => ?_, this.2⟩
  refine runs_to h hx hr (this.1 hg) rfl rfl rfl rfl rfl (gas_sub hg) rfl rfl ?_ (pad32_eq _).symm rfl rfl
  show ((P.host.getStorage P.msg.recipient key w).1 :: rest.reverse).reverse = _
  simp

/-- C45.  SELFBALANCE pushes the balance of the executing account for 5 gas. -/
theorem C45_selfbalance (h : Setting P E codeOf vm) (hx : InputOk P x) (ho : x.opcode P = 0x47) (hst : x.stack.length < 1024)
    (hg : 5 ≤ P.msg.gas) {b : U256} {w : σ} (hb : P.host.getBalance P.msg.recipient x.world = (b, w)) :
    Runs P E vm x 1 { x.same P with pc := x.pc + 1, gasLeft := P.msg.gas - 5, stack := x.stack ++ [b] } w := by
  have hr : Ready P x .selfbalance := ⟨by rw [ho]; rfl, Nat.zero_le _, nofun, Nat.zero_le _, by show _ + 1 ≤ 1024 + 0; omega, hg⟩
  have he : exec P x.pc .selfbalance (started P x .selfbalance) =
      { started P x .selfbalance with stack := b :: x.stack.reverse, host := w } := by
    show ({ started P x .selfbalance with
      stack := (P.host.getBalance P.msg.recipient x.world).1 :: x.stack.reverse
      host := (P.host.getBalance P.msg.recipient x.world).2 } : State σ) = _
    rw [hb]
  refine runs_to h hx hr he rfl rfl rfl rfl rfl (started_gas hr) rfl rfl ?_ (pad32_eq _).symm rfl rfl
  show (b :: x.stack.reverse).reverse = _
  simp

/-- C45.  TLOAD reads transient storage of the executing account for 100 gas. -/
theorem C45_tload (h : Setting P E codeOf vm) (hx : InputOk P x) (ho : x.opcode P = 0x5c) (hrev : CANCUN ≤ P.rev) {key : U256}
    {rest : List U256} (hst : x.stack = rest ++ [key]) (hg : 100 ≤ P.msg.gas) {v : U256} {w : σ}
    (hv : P.host.getTransient P.msg.recipient key x.world = (v, w)) :
    Runs P E vm x 1 { x.same P with pc := x.pc + 1, gasLeft := P.msg.gas - 100, stack := rest ++ [v] } w := by
  have hr : Ready P x .tload := ready_pops (k := rest.length) hx (by rw [ho]; rfl) hrev nofun (len1 hst) (by decide) hg
  have he : exec P x.pc .tload (started P x .tload) = { started P x .tload with stack := v :: rest.reverse, host := w } := by
    refine (pop1_cons ((started_stack _).trans (rev1 hst)) fun key s =>
      s.ask (P.host.getTransient P.msg.recipient key) fun v s => s.push v).trans ?_
    show ({ started P x .tload with
      stack := (P.host.getTransient P.msg.recipient key x.world).1 :: rest.reverse
      host := (P.host.getTransient P.msg.recipient key x.world).2 } : State σ) = _
    rw [hv]
  refine runs_to h hx hr he rfl rfl rfl rfl rfl (started_gas hr) rfl rfl ?_ (pad32_eq _).symm rfl rfl
  show (v :: rest.reverse).reverse = _
  simp

/-! ### C23 -/

/-- C23.  BLOCKHASH asks the host for exactly the 256 blocks before the current one; every other 256-bit argument
gives zero without asking. -/
theorem C23_blockhash (h : Setting P E codeOf vm) (hx : InputOk P x) (ho : x.opcode P = 0x40) {n : U256} {rest : List U256}
    (hst : x.stack = rest ++ [n]) (hg : 20 ≤ P.msg.gas) :
    (((n.toNat : Int) < P.host.txContext.blockNumber ∧ P.host.txContext.blockNumber - 256 ≤ n.toNat) →
      Runs P E vm x 1 { x.same P with
        pc := x.pc + 1
        gasLeft := P.msg.gas - 20
        stack := rest ++ [(P.host.getBlockHash n.toNat x.world).1] } (P.host.getBlockHash n.toNat x.world).2) ∧
    (¬ ((n.toNat : Int) < P.host.txContext.blockNumber ∧ P.host.txContext.blockNumber - 256 ≤ n.toNat) →
      Runs P E vm x 1 { x.same P with pc := x.pc + 1, gasLeft := P.msg.gas - 20, stack := rest ++ [0] } x.world) := by
  have hr : Ready P x .blockhash := ready_pops (k := rest.length) hx (by rw [ho]; rfl) (Nat.zero_le _) nofun (len1 hst) (by decide) hg
  have he : exec P x.pc .blockhash (started P x .blockhash) = _ :=
    pop1_cons ((started_stack _).trans (rev1 hst)) fun n s =>
      let current := P.host.txContext.blockNumber
      if (n.toNat : Int) < current ∧ current ≤ n.toNat + 256 then
        s.ask (P.host.getBlockHash n.toNat) fun h s => s.push h
      else s.push 0
  dsimp only at he
  constructor
  · intro hc
    rw [if_pos ⟨hc.1, by omega⟩] at he
    refine runs_to h hx hr he rfl rfl rfl rfl rfl (started_gas hr) rfl rfl ?_ (pad32_eq _).symm rfl rfl
    show ((P.host.getBlockHash n.toNat x.world).1 :: rest.reverse).reverse = _
    simp
  · intro hc
    rw [if_neg (by omega)] at he
    refine runs_to h hx hr he rfl rfl rfl rfl rfl (started_gas hr) rfl rfl ?_ (pad32_eq _).symm rfl rfl
    show ((0 : U256) :: rest.reverse).reverse = _
    simp

/-- C23.  BLOBHASH gives the blob hash with the given index, zero if there is none. -/
theorem C23_blobhash (h : Setting P E codeOf vm) (hx : InputOk P x) (ho : x.opcode P = 0x49) (hrev : CANCUN ≤ P.rev) {n : U256}
    {rest : List U256} (hst : x.stack = rest ++ [n]) (hg : 3 ≤ P.msg.gas) :
    (∀ hn : n.toNat < P.host.txContext.blobHashes.length, Runs P E vm x 1 { x.same P with
        pc := x.pc + 1
        gasLeft := P.msg.gas - 3
        stack := rest ++ [P.host.txContext.blobHashes[n.toNat]] } x.world) ∧
    (P.host.txContext.blobHashes.length ≤ n.toNat →
      Runs P E vm x 1 { x.same P with pc := x.pc + 1, gasLeft := P.msg.gas - 3, stack := rest ++ [0] } x.world) := by
  have := runs_un (i := .blobhash) h hx (by rw [ho]; rfl) (fun s => rfl) hrev rfl rfl rfl rfl hst hg
  constructor
  · intro hn
    rw [List.getD_eq_getElem?_getD, List.getElem?_eq_getElem hn] at this
    exact this
  · intro hn
    rw [List.getD_eq_getElem?_getD, List.getElem?_eq_none hn] at this
    exact this

/-! ### C22: EXTCODECOPY -/

/-- C22.  EXTCODECOPY writes the bytes of another account's code, zero-extended; offsets of 2^64 or more lie beyond
every code, so the host is not asked.  The memory and the account access are charged before anything is copied; if
the gas does not even pay for the memory, the account is not accessed. -/
theorem C22_extcodecopy (h : Setting P E codeOf vm) (hx : InputOk P x) (ho : x.opcode P = 0x3c) {v dst off n : U256}
    {rest : List U256} (hst : x.stack = rest ++ [n, off, dst, v]) {size access cost : Nat} {w : σ}
    (ha : accountCost P (accountOf v) x.world = (access, w)) (hz : size = x.sizeAfter dst n)
    (hc : cost = access + 3 * words n.toNat + x.growth size) :
    ((cost : Int) ≤ P.msg.gas → ∀ code w', (if n = 0 ∨ 2 ^ 64 ≤ off.toNat then ([], w) else P.host.copyCode (accountOf v) off.toNat n.toNat w) = (code, w') →
      Runs P E vm x 1 { x.same P with
        pc := x.pc + 1
        gasLeft := P.msg.gas - cost
        stack := rest
        memory := bytes size fun i => if dst.toNat ≤ i ∧ i < dst.toNat + n.toNat
          then byteAt code (i - dst.toNat) else x.byte i } w') ∧
    ((x.growth size : Int) ≤ P.msg.gas → P.msg.gas < (cost : Int) → Fails P E vm x 1 .outOfGas x.refund w) ∧
    (P.msg.gas < (x.growth size : Int) → Fails P E vm x 1 .outOfGas x.refund x.world) := by
  have hll := len4 hst
  have hlen := hx.stack
  have hr : Ready P x .extcodecopy := ready_pops (k := rest.length) hx (by rw [ho]; rfl) (Nat.zero_le _) nofun hll (by decide) h.gas
  have hgas : (started P x .extcodecopy).gas = P.msg.gas.toNat := rfl
  have hg0 := h.gas
  have he : exec P x.pc .extcodecopy (started P x .extcodecopy) =
      if P.msg.gas.toNat < x.growth size then ({ started P x .extcodecopy with stack := rest.reverse } : State σ).fail .outOfGas
      else State.charge { started P x .extcodecopy with stack := rest.reverse, host := w } (x.growth size + (3 * words n.toNat + access))
        fun s => (fun s : State σ => if n.toNat = 0 then s
          else if off.toNat < 2 ^ 64 then
            s.ask (P.host.copyCode (accountOf v) off.toNat n.toNat) fun bytes s =>
              { s with mem := s.mem.write dst.toNat (slice bytes 0 n.toNat) }
          else { s with mem := s.mem.write dst.toNat (slice [] 0 n.toNat) })
          { s with mem := s.mem.expand dst.toNat n.toNat } := by
    show extcodecopy P _ = _
    unfold extcodecopy
    rw [pop4_cons ((started_stack _).trans (rev4 hst))]
    have e1 : (started P x .extcodecopy).mem.growGas ((started P x .extcodecopy).mem.sizeAfter dst.toNat n.toNat) = x.growth size := by
      show (Mem.ofBytes x.memory).growGas ((Mem.ofBytes x.memory).sizeAfter dst.toNat n.toNat) = _
      rw [mem_sizeAfter, mem_growGas, hz]
    dsimp only
    rw [e1, hgas]
    split
    · rfl
    · rw [accountAccess_eq]
      show State.touch { started P x .extcodecopy with stack := rest.reverse, host := (accountCost P (accountOf v) x.world).2 } dst n
        (3 * words n.toNat + (accountCost P (accountOf v) x.world).1) _ = _
      rw [ha]
      unfold State.touch
      dsimp only
      rw [e1]
      rfl
  refine ⟨?_, ?_, ?_⟩
  · intro hg code w' hcc
    rw [if_neg (by omega)] at he
    rw [charge_rich' _ (by rw [hgas]; omega)] at he
    have hsz : (Mem.ofBytes x.memory).expand dst.toNat n.toNat = ⟨size, x.byte⟩ := by
      show (⟨(Mem.ofBytes x.memory).sizeAfter dst.toNat n.toNat, _⟩ : Mem) = _
      rw [mem_sizeAfter, hz]; rfl
    have fin : exec P x.pc .extcodecopy (started P x .extcodecopy) =
        { started P x .extcodecopy with
          stack := rest.reverse, host := w', gas := P.msg.gas.toNat - cost
          mem := Mem.write ⟨size, x.byte⟩ dst.toNat (slice code 0 n.toNat) } := by
      rw [he]
      have e2 : (started P x .extcodecopy).gas - (x.growth size + (3 * words n.toNat + access)) = P.msg.gas.toNat - cost := by
        rw [hgas]; omega
      have e3 : (started P x .extcodecopy).mem = Mem.ofBytes x.memory := rfl
      dsimp only
      rw [e2, e3, hsz]
      have hn0 : n = 0 ↔ n.toNat = 0 := ⟨fun h => by rw [h]; rfl, fun h => BitVec.eq_of_toNat_eq h⟩
      by_cases hn : n.toNat = 0
      · rw [if_pos hn]
        rw [if_pos (Or.inl (hn0.2 hn))] at hcc
        cases hcc
        rw [hn]
        congr 1
        unfold Mem.write
        congr 1
        funext i
        rw [if_neg (by show ¬ (_ ∧ i < dst.toNat + 0); omega)]
      · rw [if_neg hn]
        by_cases hof : off.toNat < 2 ^ 64
        · rw [if_pos hof]
          rw [if_neg (by rw [hn0]; omega)] at hcc
          unfold State.ask
          dsimp only
          rw [hcc]
        · rw [if_neg hof]
          rw [if_pos (Or.inr (by omega))] at hcc
          cases hcc
          rfl
    refine runs_to h hx hr fin rfl rfl rfl rfl rfl (gas_sub hg) rfl rfl (List.reverse_reverse _) ?_ rfl rfl
    refine (read_zero _ _).trans ?_
    show bytes size (overwrite x.byte dst.toNat (slice code 0 n.toNat)) = _
    unfold bytes
    apply List.map_congr_left
    intro i _
    unfold overwrite
    have hlb : (slice code 0 n.toNat).length = n.toNat := by unfold slice; rw [List.length_map, List.length_range]
    rw [hlb]
    split
    · rename_i hi
      unfold slice byteAt
      rw [List.getD_eq_getElem?_getD, List.getElem?_map, List.getElem?_range (by omega)]
      simp
    · rfl
  · intro hg1 hg2
    rw [if_neg (by omega)] at he
    exact fails_dyn (s := { started P x .extcodecopy with stack := rest.reverse, host := w }) h hx hr he (by rw [hgas]; omega)
  · intro hg
    rw [if_pos (by omega)] at he
    exact fails_ready (f := .outOfGas) h hx hr he rfl

/-! ### Concrete cases -/

-- BALANCE on Istanbul (700), Cancun with the always-warm demo host (100)
example : accountCost (demo [0x31] ISTANBUL) 5 0 = (700, 0) ∧ accountCost (demo [0x31]) 5 0 = (100, 0) := ⟨rfl, rfl⟩
example : ∃ vm res, Runs (demo [0x31]) (envOf (demo [0x31])) vm (demoIn [5]) 1 res 0 ∧
    res.gasLeft = 99900 ∧ res.stack = [1000000] := by
  obtain ⟨vm, h⟩ := demo_setting [0x31] (by decide) CANCUN 0
  exact ⟨vm, _, (C45_account h (demoIn_ok _ _ _ _ _ (by decide) (by decide)) .balance rfl (rest := []) rfl (cost := 100) rfl).1
    (by decide), rfl, rfl⟩
-- block 744 is the oldest of the 256 blocks before block 1000
example : ∃ vm res, Runs (demo [0x40]) (envOf (demo [0x40])) vm (demoIn [744]) 1 res 0 ∧ res.stack = [744] := by
  obtain ⟨vm, h⟩ := demo_setting [0x40] (by decide) CANCUN 0
  exact ⟨vm, _, (C23_blockhash h (demoIn_ok _ _ _ _ _ (by decide) (by decide)) rfl (rest := []) rfl (by decide)).1 (by decide), rfl⟩
example : ∃ vm res, Runs (demo [0x40]) (envOf (demo [0x40])) vm (demoIn [743]) 1 res 0 ∧ res.stack = [0] := by
  obtain ⟨vm, h⟩ := demo_setting [0x40] (by decide) CANCUN 0
  exact ⟨vm, _, (C23_blockhash h (demoIn_ok _ _ _ _ _ (by decide) (by decide)) rfl (rest := []) rfl (by decide)).2 (by decide), rfl⟩
-- EXTCODECOPY of 4 bytes at offset 3 of a 5-byte code: 4, 5, 0, 0
example : ∃ vm res, Runs (demo [0x3c]) (envOf (demo [0x3c])) vm (demoIn [4, 3, 10, 99]) 1 res 0 ∧
    (res.memory.drop 9).take 6 = [9, 4, 5, 0, 0, 14] := by
  obtain ⟨vm, h⟩ := demo_setting [0x3c] (by decide) CANCUN 0
  exact ⟨vm, _, (C22_extcodecopy h (demoIn_ok _ _ _ _ _ (by decide) (by decide)) rfl (rest := []) rfl (access := 100) (w := 0) rfl
    (size := 32) (cost := 103) (by decide) (by decide)).1 (by decide) [4, 5] 0 rfl, by decide +kernel⟩

end Tosca

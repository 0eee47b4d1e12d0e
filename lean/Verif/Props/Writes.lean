import Verif.Props.Accounts
import Verif.Spec.Storage

/-!
# Storage writes (C20), logs, transient storage, self-destruction (C46)
-/

namespace Tosca

open Tosca.Model Tosca.Spec Tosca.Proofs

variable {σ : Type} {P : Params σ} {E : Env σ} {codeOf : U256 → List Byte} {vm : Vm} {x : StepIn σ}

/-! ### C20 -/

theorem sstoreGas_eq (rev : Revision) (warm : Bool) (orig cur new : U256) :
    sstoreGas rev (storageStatus orig cur new) + (if rev ≥ BERLIN ∧ warm = false then 2100 else 0) = eipGas rev warm orig cur new := by
  unfold eipGas
  congr 1
  unfold storageStatus sloadGas sstoreResetGas
  by_cases hb : rev < BERLIN
  · have hb' : ¬ rev ≥ BERLIN := Nat.not_le.mpr hb
    split_ifs <;> simp_all [sstoreGas]
  · have hb' : rev ≥ BERLIN := Nat.not_lt.mp hb
    split_ifs <;> simp_all [sstoreGas]

theorem sstoreRefund_eq (rev : Revision) (warm : Bool) (orig cur new : U256) (hw : BERLIN ≤ rev → warm = false → cur = orig) :
    sstoreRefund rev warm (storageStatus orig cur new) = eipRefund rev orig cur new := by
  have hC : clearRefund rev = sstoreClears rev := by
    unfold clearRefund sstoreClears
    by_cases hl : rev < LONDON
    · rw [if_neg (Nat.not_le.mpr hl), if_pos hl]
    · rw [if_pos (Nat.not_lt.mp hl), if_neg hl]
  have hA : (if rev ≥ BERLIN then (19900 : Int) else 19200) = 20000 - sloadGas rev := by
    unfold sloadGas
    by_cases hb : rev < BERLIN
    · rw [if_neg (Nat.not_le.mpr hb), if_pos hb]; rfl
    · rw [if_pos (Nat.not_lt.mp hb), if_neg hb]; rfl
  have hR : cur ≠ orig → restoreRefund rev warm = sstoreResetGas rev - sloadGas rev := by
    intro hne
    unfold restoreRefund sstoreResetGas sloadGas
    by_cases hb : rev < BERLIN
    · rw [if_neg (Nat.not_le.mpr hb), if_pos hb, if_pos hb]; rfl
    · rw [if_pos (Nat.not_lt.mp hb), if_neg hb, if_neg hb]
      cases warm with
      | true => rfl
      | false => exact absurd (hw (Nat.not_lt.mp hb) rfl) hne
  unfold eipRefund storageStatus
  by_cases h1 : cur = new
  · rw [if_pos h1, if_pos h1]; rfl
  rw [if_neg h1, if_neg h1]
  by_cases h2 : orig = cur
  · rw [if_pos h2, if_pos h2]
    by_cases h3 : orig = 0
    · rw [if_pos h3, if_neg (fun hh => hh.1 h3)]; rfl
    · rw [if_neg h3]
      by_cases h4 : new = 0
      · rw [if_pos h4, if_pos ⟨h3, h4⟩]; exact hC
      · rw [if_neg h4, if_neg (fun hh => h4 hh.2)]; rfl
  rw [if_neg h2, if_neg h2]
  have h2' : cur ≠ orig := fun hh => h2 hh.symm
  by_cases h3 : orig = 0
  · rw [if_pos h3, if_neg (not_not.mpr h3)]
    by_cases h4 : new = 0
    · rw [if_pos h4, if_pos (h3.trans h4.symm), if_pos h3, Int.zero_add]; exact hA
    · rw [if_neg h4, if_neg (fun hh => h4 (hh.symm.trans h3))]; rfl
  · rw [if_neg h3, if_pos h3]
    by_cases h4 : cur = 0
    · rw [if_pos h4, if_pos h4]
      by_cases h5 : new = orig
      · rw [if_pos h5, if_pos h5.symm, if_neg h3, ← hR h2', ← hC]; rfl
      · rw [if_neg h5, if_neg (fun hh => h5 hh.symm), Int.add_zero, ← hC]; rfl
    · rw [if_neg h4, if_neg h4]
      by_cases h5 : new = 0
      · rw [if_pos h5, if_pos h5, if_neg (fun hh => h3 (hh.trans h5)), Int.add_zero, ← hC]; rfl
      · rw [if_neg h5, if_neg h5]
        by_cases h6 : new = orig
        · rw [if_pos h6, if_pos h6.symm, if_neg h3, Int.zero_add, ← hR h2']; rfl
        · rw [if_neg h6, if_neg (fun hh => h6 hh.symm)]; rfl

/-- C20.  With a host that reports warmth and storage status truthfully, and (from Berlin on) has every slot that
was written in this transaction warm, SSTORE charges and refunds what EIP-2200, EIP-2929 and EIP-3529 say in terms
of original, current and new value.  With 2300 gas or less it fails before any host access; if the gas is above
2300 but below the cost it fails as well, the write having been handed to the host. -/
theorem C20_sstore (h : Setting P E codeOf vm) (hx : InputOk P x) (ho : x.opcode P = 0x55) (hstat : P.msg.isStatic = false)
    {key new : U256} {rest : List U256} (hst : x.stack = rest ++ [new, key]) {warm : Bool} {orig cur : U256}
    (ht : TruthAt P.host P.msg.recipient key x.world warm orig cur)
    (hw : BERLIN ≤ P.rev → warm = false → cur = orig) {w' : σ}
    (hw' : w' = (P.host.setStorage P.msg.recipient key new (sstoreHost P key x.world)).2) :
    (P.msg.gas ≤ 2300 → Fails P E vm x 1 .outOfGas x.refund x.world) ∧
    (2300 < P.msg.gas → (eipGas P.rev warm orig cur new : Int) ≤ P.msg.gas → Runs P E vm x 1 { x.same P with
        pc := x.pc + 1
        gasLeft := P.msg.gas - eipGas P.rev warm orig cur new
        gasRefund := x.refund + eipRefund P.rev orig cur new
        stack := rest } w') ∧
    (2300 < P.msg.gas → P.msg.gas < (eipGas P.rev warm orig cur new : Int) → Fails P E vm x 1 .outOfGas x.refund w') := by
  have hr : Ready P x .sstore := ready_pops (k := rest.length) hx (by rw [ho]; rfl) (Nat.zero_le _) (fun _ => hstat) (len2 hst) (by decide) h.gas
  have hg0 := h.gas
  have hgas : (started P x .sstore).gas = P.msg.gas.toNat := rfl
  have he : exec P x.pc .sstore (started P x .sstore) =
      if P.msg.gas.toNat ≤ 2300 then ({ started P x .sstore with stack := rest.reverse } : State σ).fail .outOfGas
      else State.charge { started P x .sstore with stack := rest.reverse, host := w' } (eipGas P.rev warm orig cur new)
        fun s => { s with refund := s.refund + eipRefund P.rev orig cur new } := by
    show sstore P _ = _
    unfold sstore
    rw [pop2_cons ((started_stack _).trans (rev2 hst))]
    dsimp only
    rw [hgas]
    split
    · rfl
    · unfold sstoreHost at hw'
      by_cases hb : P.rev < BERLIN
      · rw [if_neg (Nat.not_le.mpr hb)]
        rw [if_pos hb] at hw'
        unfold State.ask
        dsimp only
        have e := ht.write new
        rw [show (started P x .sstore).host = x.world from rfl, e, ← hw']
        have e1 := sstoreGas_eq P.rev false orig cur new
        rw [e1, sstoreRefund_eq P.rev false orig cur new (fun h => absurd hb (Nat.not_lt.mpr h))]
        have e2 : eipGas P.rev false orig cur new = eipGas P.rev warm orig cur new := by
          unfold eipGas
          congr 1
          rw [if_neg (fun hh => absurd hb (Nat.not_lt.mpr hh.1)), if_neg (fun hh => absurd hb (Nat.not_lt.mpr hh.1))]
        rw [e2]
      · rw [if_pos (Nat.not_lt.mp hb)]
        rw [if_neg hb] at hw'
        unfold State.ask
        dsimp only
        rw [show (started P x .sstore).host = x.world from rfl, ht.writeAfter new, ← hw', ht.access]
        have e3 : decide ((if warm = true then AccessStatus.warm else AccessStatus.cold) = .warm) = warm := by
          cases warm <;> rfl
        rw [e3, sstoreGas_eq, sstoreRefund_eq P.rev warm orig cur new hw]
  refine ⟨?_, ?_, ?_⟩
  · intro hg
    rw [if_pos (by omega)] at he
    exact fails_ready (f := .outOfGas) h hx hr he rfl
  · intro hg1 hg
    rw [if_neg (by omega)] at he
    rw [charge_rich' _ (by rw [hgas]; omega)] at he
    exact runs_to h hx hr he rfl rfl rfl rfl rfl (gas_sub hg) rfl rfl (List.reverse_reverse _) (pad32_eq _).symm rfl rfl
  · intro hg1 hg
    rw [if_neg (by omega)] at he
    exact fails_dyn (s := { started P x .sstore with stack := rest.reverse, host := w' }) h hx hr he (by rw [hgas]; omega)

/-! ### C46 -/

/-- C46.  LOGn hands the host `n` topics (the topmost first) and the bytes of a memory range. -/
theorem C46_log (h : Setting P E codeOf vm) (hx : InputOk P x) {n : Nat} (hn : n ≤ 4) (ho : x.opcode P = 0xa0 + n)
    (hstat : P.msg.isStatic = false) {off len : U256} {topics rest : List U256} (ht : topics.length = n)
    (hst : x.stack = rest ++ topics.reverse ++ [len, off]) {size cost : Nat} (hz : size = x.sizeAfter off len)
    (hc : cost = 375 + 375 * n + 8 * len.toNat + x.growth size) :
    ((cost : Int) ≤ P.msg.gas → Runs P E vm x 1 { x.same P with
        pc := x.pc + 1
        gasLeft := P.msg.gas - cost
        stack := rest
        memory := bytes size x.byte }
      (P.host.emitLog P.msg.recipient (bytes len.toNat fun i => x.byte (off.toNat + i)) topics x.world)) ∧
    (P.msg.gas < (cost : Int) → Fails P E vm x 1 .outOfGas x.refund x.world) := by
  have hll := len2 hst
  have hlen := hx.stack
  rw [List.length_append, List.length_reverse, ht] at hll
  have hd : decode (x.opcode P) = some (.log n) := by
    rw [ho]
    rcases n with _ | _ | _ | _ | _ | n
    · rfl
    · rfl
    · rfl
    · rfl
    · rfl
    · omega
  have hrv : (rest ++ topics.reverse).reverse = topics ++ rest.reverse := by simp
  have hcase := touch_cases (i := .log n) h hx hd (Nat.zero_le _) (fun _ => hstat) (by show n + 2 ≤ _; omega)
    (by show _ + 0 ≤ 1024 + (n + 2); omega) (l := rest.reverse) (off := off) (n := len) (extra := 8 * len.toNat)
    (k := fun s => { s with host := P.host.emitLog P.msg.recipient (s.mem.read off.toNat len.toNat) topics s.host })
    (by
      show log P n _ = _
      unfold log
      rw [pop2_cons ((started_stack _).trans (rev2 hst))]
      dsimp only
      rw [hrv, List.drop_left' ht, List.take_left' ht]) (cost := cost)
    (by rw [hc, show (Instr.log n).baseGas = 375 + 375 * n from rfl, hz]; omega)
  refine ⟨fun hg => ?_, hcase.2⟩
  obtain ⟨hr, he⟩ := hcase.1 hg
  refine runs_to h hx hr he rfl rfl rfl rfl rfl (gas_sub hg) rfl rfl (List.reverse_reverse _) ?_ rfl rfl
  rw [hz]; exact read_zero _ _

/-- C46.  TSTORE writes transient storage of the executing account for 100 gas. -/
theorem C46_tstore (h : Setting P E codeOf vm) (hx : InputOk P x) (ho : x.opcode P = 0x5d) (hrev : CANCUN ≤ P.rev)
    (hstat : P.msg.isStatic = false) {key v : U256} {rest : List U256} (hst : x.stack = rest ++ [v, key]) (hg : 100 ≤ P.msg.gas) :
    Runs P E vm x 1 { x.same P with pc := x.pc + 1, gasLeft := P.msg.gas - 100, stack := rest }
      (P.host.setTransient P.msg.recipient key v x.world) := by
  have hr : Ready P x .tstore := ready_pops (k := rest.length) hx (by rw [ho]; rfl) hrev (fun _ => hstat) (len2 hst) (by decide) hg
  have he : exec P x.pc .tstore (started P x .tstore) = _ := pop2_cons ((started_stack _).trans (rev2 hst)) fun key v s =>
      { s with host := P.host.setTransient P.msg.recipient key v s.host }
  exact runs_to h hx hr he rfl rfl rfl rfl rfl (started_gas hr) rfl rfl (List.reverse_reverse _) (pad32_eq _).symm rfl rfl

/-- C46.  SELFDESTRUCT costs 5000, plus 25000 if a balance goes to an account that does not exist, plus 2600 if (from
Berlin on) the beneficiary is cold; it halts the frame without output, and before London refunds 24000 if the host
says that the account had not been destroyed before. -/
theorem C46_selfdestruct (h : Setting P E codeOf vm) (hx : InputOk P x) (ho : x.opcode P = 0xff) (hstat : P.msg.isStatic = false)
    {v : U256} {rest : List U256} (hst : x.stack = rest ++ [v]) {new cold cost : Nat} {w1 w2 : σ}
    (h1 : newBeneficiary P (accountOf v) x.world = (new, w1)) (h2 : coldBeneficiary P (accountOf v) w1 = (cold, w2))
    (hc : cost = 5000 + new + cold) :
    ((cost : Int) ≤ P.msg.gas → ∀ first w3, P.host.selfdestruct P.msg.recipient (accountOf v) w2 = (first, w3) →
      Runs P E vm x 1 { x.same P with
        stepStatus := .stopped
        status := .success
        pc := x.pc + 1
        gasLeft := P.msg.gas - cost
        gasRefund := x.refund + (if first = true ∧ P.rev < LONDON then 24000 else 0)
        stack := rest
        output := []
        lastCallReturnData := [] } w3) ∧
    (5000 ≤ P.msg.gas → P.msg.gas < (cost : Int) → Fails P E vm x 1 .outOfGas x.refund w2) ∧
    (P.msg.gas < 5000 → Fails P E vm x 1 .outOfGas x.refund x.world) := by
  have hll := len1 hst
  have hlen := hx.stack
  have hd : decode (x.opcode P) = some .selfdestruct := by rw [ho]; rfl
  have key : Ready P x .selfdestruct → exec P x.pc .selfdestruct (started P x .selfdestruct) =
      State.charge { started P x .selfdestruct with stack := rest.reverse, host := w2 } (new + cold) fun s =>
        s.ask (P.host.selfdestruct P.msg.recipient (accountOf v)) fun first s =>
          { s with status := .stopped, ret := []
                   refund := if first ∧ P.rev < LONDON then s.refund + 24000 else s.refund } := by
    intro hr
    obtain ⟨fin, hfin⟩ : ∃ fin : Nat → State σ → State σ, fin = fun c s => State.charge s c fun s =>
        s.ask (P.host.selfdestruct P.msg.recipient (accountOf v)) fun first s =>
          { s with status := .stopped, ret := []
                   refund := if first ∧ P.rev < LONDON then s.refund + 24000 else s.refund } := ⟨_, rfl⟩
    have hsplit : selfdestruct P (started P x .selfdestruct) =
        ({ started P x .selfdestruct with stack := rest.reverse } : State σ).ask (P.host.getBalance P.msg.recipient) fun bal s =>
          if bal.toNat ≠ 0 then
            s.ask (P.host.accountExists (Word.toAddress v)) fun ex s =>
              (if P.rev ≥ BERLIN then
                s.ask (P.host.accessAccount (Word.toAddress v)) fun st s =>
                  fin ((if ex then 0 else 25000) + (if st = .cold then 2600 else 0)) s
              else fin (if ex then 0 else 25000) s)
          else
            (if P.rev ≥ BERLIN then
              s.ask (P.host.accessAccount (Word.toAddress v)) fun st s => fin (0 + (if st = .cold then 2600 else 0)) s
            else fin 0 s) := by
      rw [hfin]
      unfold selfdestruct
      rw [pop1_cons ((started_stack _).trans (rev1 hst))]
      rfl
    refine hsplit.trans ?_
    have acc : ∀ (c : Nat) (s : State σ) (k : Nat → State σ → State σ),
        (if P.rev ≥ BERLIN then
          s.ask (P.host.accessAccount (Word.toAddress v)) fun st s => k (c + (if st = .cold then 2600 else 0)) s
        else k c s) = k (c + (coldBeneficiary P (accountOf v) s.host).1) { s with host := (coldBeneficiary P (accountOf v) s.host).2 } := by
      intro c s k
      unfold coldBeneficiary
      by_cases hb : P.rev < BERLIN
      · rw [if_neg (Nat.not_le.mpr hb), if_pos hb]; rfl
      · rw [if_pos (Nat.not_lt.mp hb), if_neg hb]
        unfold State.ask
        rw [toAddress_eq]
        rcases P.host.accessAccount (accountOf v) s.host with ⟨st, w⟩
        cases st <;> rfl
    simp only [fun (c : Nat) (s : State σ) => acc c s fin]
    unfold newBeneficiary at h1
    unfold State.ask
    dsimp only
    rw [show (started P x .selfdestruct).host = x.world from rfl]
    revert h1
    rcases P.host.getBalance P.msg.recipient x.world with ⟨bal, wb⟩
    dsimp only
    have hz : bal = 0 ↔ bal.toNat = 0 := ⟨fun h => by rw [h]; rfl, fun h => BitVec.eq_of_toNat_eq h⟩
    by_cases hb0 : bal = 0
    · rw [if_pos hb0, if_neg (by rw [hz] at hb0; omega)]
      intro h1
      cases h1
      rw [h2, hfin]
      rfl
    · rw [if_neg hb0, if_pos (by rw [hz] at hb0; omega)]
      rw [toAddress_eq]
      rcases P.host.accountExists (accountOf v) wb with ⟨ex, we⟩
      cases ex
      · intro h1
        cases h1
        dsimp only
        rw [h2, hfin]
        rfl
      · intro h1
        cases h1
        dsimp only
        rw [h2, hfin]
        rfl
  refine ⟨?_, ?_, ?_⟩
  · intro hg first w3 hs
    have hr : Ready P x .selfdestruct :=
      ready_pops (k := rest.length) hx hd (Nat.zero_le _) (fun _ => hstat) hll (by decide) (by show (5000 : Int) ≤ _; omega)
    have he := (charge_ready h hx hr (s := { started P x .selfdestruct with stack := rest.reverse, host := w2 }) rfl (key hr)).1
      (by show ((5000 + (new + cold) : Nat) : Int) ≤ _; omega)
    unfold State.ask at he
    dsimp only at he
    rw [hs] at he
    dsimp only at he
    have := runs_ready h hx hr he (by intro f hf; cases hf)
    rw [result_eq (P := P) (r := { x.same P with
        stepStatus := .stopped
        status := .success
        pc := x.pc + 1
        gasLeft := P.msg.gas - cost
        gasRefund := x.refund + (if first = true ∧ P.rev < LONDON then 24000 else 0)
        stack := rest
        output := []
        lastCallReturnData := [] }) rfl rfl rfl rfl ?_ ?_ rfl (List.reverse_reverse _) (pad32_eq _).symm rfl] at this
    · exact this
    · show ((P.msg.gas.toNat - (5000 + (new + cold)) : Nat) : Int) = P.msg.gas - cost
      omega
    · show (if first = true ∧ P.rev < LONDON then x.refund + 24000 else x.refund) = _
      split <;> simp_all
  · intro hg1 hg2
    have hr : Ready P x .selfdestruct :=
      ready_pops (k := rest.length) hx hd (Nat.zero_le _) (fun _ => hstat) hll (by decide) hg1
    exact (charge_ready h hx hr (s := { started P x .selfdestruct with stack := rest.reverse, host := w2 }) rfl (key hr)).2
      (by show _ < ((5000 + (new + cold) : Nat) : Int); omega)
  · intro hg
    exact fails_base h hx hd (Nat.zero_le _) (fun _ => hstat) (by show 1 ≤ _; omega) (by show _ + 0 ≤ 1024 + 1; omega) hg

/-! ### Concrete cases -/

/-- The storage of one account: original and current values, the slots accessed so far. -/
structure Ledger where
  orig : U256 → U256
  cur : U256 → U256
  warm : U256 → Bool

/-- A host with truthful storage, otherwise idle. -/
def ledgerHost : Host Ledger where
  accountExists _ w := (true, w)
  getStorage _ k w := (w.cur k, w)
  setStorage _ k v w := (storageStatus (w.orig k) (w.cur k) v, { w with cur := fun j => if j = k then v else w.cur j })
  getTransient _ _ w := (0, w)
  setTransient _ _ _ w := w
  getBalance _ w := (0, w)
  getCodeSize _ w := (0, w)
  getCodeHash _ w := (0, w)
  copyCode _ _ _ w := ([], w)
  selfdestruct _ _ w := (false, w)
  call m w := ({ status := .failure, gasLeft := 0 }, w)
  txContext := {}
  getBlockHash _ w := (0, w)
  emitLog _ _ _ w := w
  accessAccount _ w := (.cold, w)
  accessStorage _ k w := (if w.warm k then .warm else .cold, { w with warm := fun j => if j = k then true else w.warm j })

theorem ledgerHost_ok : HostOk ledgerHost where
  callGas m w h _ := by show (0 : Int) ≤ 0 ∧ 0 ≤ m.gas; omega
  callRefund m w h _ := by show (0 : Int) ≤ 199 * (m.gas - 0) ∧ -(199 * (m.gas - 0)) ≤ 0; omega
  callOutput m w _ _ := by show 0 < 2 ^ 64; omega
  copyCode a off n w := Nat.zero_le _
  blockNumber := by show (0 : Int) ≤ 0 ∧ (0 : Int) < 2 ^ 63; omega
  timestamp := by show (0 : Int) ≤ 0 ∧ (0 : Int) < 2 ^ 63; omega
  gasLimit := by show (0 : Int) ≤ 0 ∧ (0 : Int) < 2 ^ 63; omega
  blobHashes := by show 0 ≤ 2 ^ 63; omega

/-- It is truthful in every state. -/
theorem ledgerHost_truth (a : Address) (k : U256) (w : Ledger) : TruthAt ledgerHost a k w (w.warm k) (w.orig k) (w.cur k) :=
  ⟨rfl, fun _ => rfl, fun _ => rfl⟩

/-- Starting from a state with no changed cold slot, the accesses SSTORE makes keep it that way. -/
theorem ledgerHost_warm (a : Address) (k v : U256) (w : Ledger) (h : ∀ j, w.warm j = false → w.cur j = w.orig j) :
    let w' := (ledgerHost.setStorage a k v (ledgerHost.accessStorage a k w).2).2
    ∀ j, w'.warm j = false → w'.cur j = w'.orig j := by
  intro w' j
  show (if j = k then true else w.warm j) = false → (if j = k then v else w.cur j) = w.orig j
  by_cases hj : j = k
  · rw [if_pos hj]; exact nofun
  · rw [if_neg hj, if_neg hj]; exact h j

/-- A frame on that host. -/
def ledgerFrame (rev : Revision) : Params Ledger where
  code := [0x55]
  msg := { gas := 100000, recipient := 10 }
  rev := rev
  host := ledgerHost
  keccak := demoKeccak

-- restoring slot 1 (original 5, current 7, warm) to 5 on London: 100 gas, 2800 refund; and on Istanbul: 800 and 4200
example : eipGas LONDON true 5 7 5 = 100 ∧ eipRefund LONDON 5 7 5 = 2800 := ⟨by decide, by decide⟩
example : eipGas ISTANBUL true 5 7 5 = 800 ∧ eipRefund ISTANBUL 5 7 5 = 4200 := ⟨by decide, by decide⟩
example : ∃ vm res w', Runs (ledgerFrame LONDON) (envOf (ledgerFrame LONDON)) vm
      { stack := [5, 1], world := { orig := fun _ => 5, cur := fun k => if k = 1 then 7 else 5, warm := fun k => k = 1 } } 1 res w' ∧
    res.gasLeft = 99900 ∧ res.gasRefund = 2800 ∧ w'.cur 1 = 5 := by
  obtain ⟨vm, _, h, _⟩ := Proofs.vm_new (fun _ => []) demoKeccak
  have hs : Setting (ledgerFrame LONDON) (envOf (ledgerFrame LONDON)) (fun _ => []) vm :=
    ⟨⟨ledgerHost_ok, by decide, by decide, by decide⟩, envOf_ok _, h, nofun, by decide⟩
  refine ⟨vm, _, _, (C20_sstore hs ⟨by decide, by decide, by decide, by decide, by decide, by decide⟩ rfl rfl (rest := []) rfl
    (ledgerHost_truth _ _ _) ?_ rfl).2.1 (by decide) (by decide), by decide, by decide, rfl⟩
  intro _ hw
  exact Bool.noConfusion hw
-- a cold slot, unset before: 22100 from Berlin on
example : eipGas CANCUN false 0 0 9 = 22100 ∧ eipRefund CANCUN 0 0 9 = 0 := ⟨by decide, by decide⟩
-- LOG1 of two bytes with topic 77
example : ∃ vm res, Runs (demo [0xa1]) (envOf (demo [0xa1])) vm (demoIn [77, 2, 3]) 1 res 1 ∧ res.gasLeft = 99234 := by
  obtain ⟨vm, h⟩ := demo_setting [0xa1] (by decide) CANCUN 0
  exact ⟨vm, _, (C46_log h (demoIn_ok _ _ _ _ _ (by decide) (by decide)) (n := 1) (by decide) rfl rfl (topics := [77]) (rest := []) rfl rfl
    (size := 32) (cost := 766) (by decide) (by decide)).1 (by decide), by decide⟩
-- SELFDESTRUCT to a fresh account on Berlin: 30000, with refund
example : ∃ vm res, Runs (demo [0xff] BERLIN) (envOf (demo [0xff] BERLIN)) vm (demoIn [500]) 1 res 1 ∧
    res.gasLeft = 70000 ∧ res.gasRefund = 24000 ∧ res.stepStatus = .stopped := by
  obtain ⟨vm, h⟩ := demo_setting [0xff] (by decide) BERLIN 0
  exact ⟨vm, _, (C46_selfdestruct h (demoIn_ok _ _ _ _ _ (by decide) (by decide)) rfl rfl (rest := []) rfl (new := 25000) (cold := 0)
    (w1 := 0) (w2 := 0) (cost := 30000) (by decide) rfl rfl).1 (by decide) true 1 rfl, by decide, by decide, rfl⟩

end Tosca

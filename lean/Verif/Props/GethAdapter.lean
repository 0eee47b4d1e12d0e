import Verif.Spec.GoGeth
import Verif.Spec.GoSetting
import Verif.Proofs.HostMap
import Verif.Props.GoValue
import Verif.Props.GoBridge
import Verif.Props.Lfvm

/-!
# C78: interpreters behind the go-ethereum adapters

The opera processor runs Tosca interpreters inside geth's EVM; two adapters translate between the client's state and the interpreter.
-/

namespace Tosca

open Tosca.Spec Tosca.Go Tosca.Model.Go Tosca.Model.Geth Tosca.Spec.Geth Tosca.Proofs

variable {ω σ : Type}

/-! ### The state as the interpreter sees it -/

private theorem setStorage_mirror {c : Client ω} (hc : ClientOk c) (cancun : Bool) (me a : Address) (k v : U256) (s : GethState ω) :
    ((through c cancun me).setStorage a k v s).1 = (c.db.setStorage a k v s.world).1 ∧
    ((through c cancun me).setStorage a k v s).2.world = (c.db.setStorage a k v s.world).2 := by
  show (if c.db.storage a k s.world = v then (StorageStatus.assigned, s) else _).1 = _ ∧ GethState.world (if c.db.storage a k s.world = v then (StorageStatus.assigned, s) else _).2 = _
  split
  · rename_i h
    refine ⟨?_, ?_⟩
    · rw [hc.status]; unfold storageStatus; rw [if_pos h]
    · rw [← h]; exact (hc.rewrite a k s.world).symm
  · refine ⟨?_, rfl⟩
    rw [hc.status, ← C55_status]
    rfl

private theorem blockHash_mirror (c : Client ω) (cancun : Bool) (me : Address) (n : Int) (s : GethState ω) (h0 : 0 ≤ n) (h1 : n < 2 ^ 63) :
    (through c cancun me).blockHash n s = c.db.blockHash n s.world := by
  show c.db.blockHash (s64 (u64 n)) s.world = _
  have : s64 (u64 n) = n := by
    unfold s64 u64
    rw [BitVec.toInt_ofInt, Int.bmod_def]
    omega
  rw [this]

private theorem mirror_of {c : Client ω} (hc : ClientOk c) (cancun : Bool) (me : Address) (d : Db ω)
    (hd : { d with selfDestruct := c.db.selfDestruct } = c.db)
    (hsd : ∀ b s, ((through c cancun me).selfDestruct me b s).1 = (d.selfDestruct me b s.world).1 ∧
      ((through c cancun me).selfDestruct me b s).2.world = (d.selfDestruct me b s.world).2) :
    Mirrors GethState.world me (through c cancun me) d := by
  have e : ∀ {α : Type} (f : Db ω → α), f { d with selfDestruct := c.db.selfDestruct } = f c.db := fun f => congrArg f hd
  exact
    { accountExists := fun a s => (congrFun (congrFun (e Db.accountExists) a) s.world).symm
      balance := fun a s => (congrFun (congrFun (e Db.balance) a) s.world).symm
      nonce := fun a s => (congrFun (congrFun (e Db.nonce) a) s.world).symm
      code := fun a s => (congrFun (congrFun (e Db.code) a) s.world).symm
      codeHash := fun a s => (congrFun (congrFun (e Db.codeHash) a) s.world).symm
      codeSize := fun a s => (congrFun (congrFun (e Db.codeSize) a) s.world).symm
      storage := fun a k s => (congrFun (congrFun (congrFun (e Db.storage) a) k) s.world).symm
      transient := fun a k s => (congrFun (congrFun (congrFun (e Db.transient) a) k) s.world).symm
      blockHash := fun n s h0 h1 => by
        rw [blockHash_mirror c cancun me n s h0 h1]; exact (congrFun (congrFun (e Db.blockHash) n) s.world).symm
      setNonce := fun a n s => (congrFun (congrFun (congrFun (e Db.setNonce) a) n) s.world).symm
      setCode := fun a n s => (congrFun (congrFun (congrFun (e Db.setCode) a) n) s.world).symm
      setTransient := fun a k v s => (congrFun (congrFun (congrFun (congrFun (e Db.setTransient) a) k) v) s.world).symm
      emitLog := fun l s => (congrFun (congrFun (e Db.emitLog) l) s.world).symm
      setStorage := fun a k v s => by
        have h := setStorage_mirror hc cancun me a k v s
        have h2 : d.setStorage a k v s.world = c.db.setStorage a k v s.world :=
          congrFun (congrFun (congrFun (congrFun (e Db.setStorage) a) k) v) s.world
        rw [h2]; exact h
      accessAccount := fun a s => by
        have h2 : d.accessAccount a s.world = c.db.accessAccount a s.world := congrFun (congrFun (e Db.accessAccount) a) s.world
        rw [h2]
        exact ⟨(hc.account a s.world).symm, rfl⟩
      accessStorage := fun a k s => by
        have h2 : d.accessStorage a k s.world = c.db.accessStorage a k s.world :=
          congrFun (congrFun (congrFun (e Db.accessStorage) a) k) s.world
        rw [h2]
        exact ⟨(hc.slot a k s.world).symm, rfl⟩
      selfDestruct := hsd }

private theorem selfDestruct_flag {c : Client ω} (hc : ClientOk c) (cancun : Bool) (me b : Address) (s : GethState ω) :
    ((through c cancun me).selfDestruct me b s).1 = (c.db.selfDestruct me b s.world).1 := by
  rw [hc.destructed]
  show (if c.hasSelfDestructed me s.world = true then false else true) = _
  cases c.hasSelfDestructed me s.world <;> rfl

/-- C78.  From Cancun on an interpreter behind the two adapters sees the client's state as it is: every query has the answer, and every
operation the effect and status, it has on the client's interface.  (Logs are not read by interpreters.) -/
theorem C78_state_cancun {c : Client ω} (hc : ClientOk c) (hb : Balances c.db) (hm : Moves c.db) (me : Address) :
    Mirrors GethState.world me (through c true me) c.db := by
  refine mirror_of hc true me c.db rfl (fun b s => ⟨selfDestruct_flag hc true me b s, ?_⟩)
  rw [← hm]
  show (c.db.selfDestruct me b (c.db.setBalance me (sub (c.db.balance me (c.db.setBalance b (add (c.db.balance b s.world)
    (c.db.balance me s.world)) s.world)) (c.db.balance me s.world)) (c.db.setBalance b (add (c.db.balance b s.world) (c.db.balance me s.world)) s.world))).2 = _
  congr 2
  rw [add_eq, sub_eq, hb.get]
  unfold moved
  by_cases h : me = b
  · subst h
    rw [if_pos rfl, if_pos rfl, BitVec.add_sub_cancel, hb.last, hb.same]
  · rw [if_neg h, if_neg h, BitVec.sub_self]; rfl

/-- C78.  Before Cancun the same holds except for SELFDESTRUCT, where the balance is credited to the beneficiary before the client's
`SelfDestruct` is called … -/
theorem C78_state_before {c : Client ω} (hc : ClientOk c) (me : Address) :
    Mirrors GethState.world me (through c false me) (credited c.db) := by
  refine mirror_of hc false me (credited c.db) rfl (fun b s => ⟨selfDestruct_flag hc false me b s, ?_⟩)
  show (c.db.selfDestruct me b (c.db.setBalance b (add (c.db.balance b s.world) (c.db.balance me s.world)) s.world)).2 = _
  rw [add_eq]
  rfl

/-- … so that with a client whose `SelfDestruct` transfers the balance, as the interface demands, the beneficiary gets it twice. -/
theorem C78_credited_twice {c : Client ω} (hc : ClientOk c) (hb : Balances c.db) {me b : Address} (hne : b ≠ me)
    (transfer : ∀ w, c.db.balance b (c.db.selfDestruct me b w).2 = c.db.balance b w + c.db.balance me w) (s : GethState ω) :
    (through c false me).balance b ((through c false me).selfDestruct me b s).2 =
      c.db.balance b s.world + c.db.balance me s.world + c.db.balance me s.world := by
  have h := ((C78_state_before hc me).selfDestruct b s).2
  rw [(C78_state_before hc me).balance, h]
  show c.db.balance b (c.db.selfDestruct me b (c.db.setBalance b (c.db.balance b s.world + c.db.balance me s.world) s.world)).2 = _
  rw [transfer, hb.get, hb.get, if_pos rfl, if_neg (Ne.symm hne)]

/-- `SetBalance` behind the adapters sets the balance. -/
theorem C78_setBalance {c : Client ω} (hb : Balances c.db) (cancun : Bool) (me a : Address) (v : U256) (s : GethState ω) :
    ((through c cancun me).setBalance a v s).world = c.db.setBalance a v s.world := by
  show GethState.world (if cmp (c.db.balance a s.world) v < 0 then _ else if cmp (c.db.balance a s.world) v > 0 then _ else s) = _
  rw [cmp_eq]
  by_cases h1 : (c.db.balance a s.world).toNat < v.toNat
  · rw [if_pos h1, if_pos (by decide)]
    show c.db.setBalance a (add (c.db.balance a s.world) (sub v (c.db.balance a s.world))) s.world = _
    rw [add_eq, sub_eq]
    congr 1
    rw [BitVec.add_comm, BitVec.sub_add_cancel]
  · rw [if_neg h1]
    by_cases h2 : v.toNat < (c.db.balance a s.world).toNat
    · rw [if_pos h2, if_neg (by decide), if_pos (by decide)]
      show c.db.setBalance a (sub (c.db.balance a s.world) (sub (c.db.balance a s.world) v)) s.world = _
      rw [sub_eq, sub_eq]
      congr 1
      apply BitVec.eq_of_toNat_eq
      simp only [BitVec.toNat_sub]
      have := v.isLt
      have := (c.db.balance a s.world).isLt
      omega
    · rw [if_neg h2, if_neg (by decide), if_neg (by decide)]
      have : v = c.db.balance a s.world := BitVec.eq_of_toNat_eq (by omega)
      rw [this, hb.same]

/-! ### Runs -/

private theorem views {π : σ → ω} {D : Db σ} {d : Db ω} {call' : CallFn σ} {call : CallFn ω} {p : Parameters} (hp : Spec.Go.RunOk p)
    (M : Mirrors π p.recipient D d) (hcall : CallsAgree π call' call) (R : Spec.Go.Reports) (keccak : List Byte → U256) (rev : Revision)
    (q : Parameters) (hq : q.recipient = p.recipient) (hqb : q.block = p.block) :
    HostMap.Views π (Spec.Go.frame R keccak D call' q rev) (Spec.Go.frame R keccak d call q rev) where
  code := rfl
  msg := rfl
  rev := rfl
  keccak := rfl
  host :=
    have habs : ∀ a w, Spec.Go.Absent D a w ↔ Spec.Go.Absent d a (π w) := fun a w => by
      unfold Spec.Go.Absent
      rw [M.nonce, M.balance, M.codeSize]
    { accountExists := fun a w => ⟨by
        show decide (¬ Spec.Go.Absent D a w) = decide (¬ Spec.Go.Absent d a (π w))
        rw [decide_eq_decide]; exact not_congr (habs a w), rfl⟩
      getStorage := fun k w => ⟨M.storage _ _ _, rfl⟩
      setStorage := fun k v w => M.setStorage _ _ _ _
      getTransient := fun k w => ⟨M.transient _ _ _, rfl⟩
      setTransient := fun k v w => M.setTransient _ _ _ _
      getBalance := fun a w => ⟨M.balance _ _, rfl⟩
      getCodeSize := fun a w => ⟨M.codeSize _ _, rfl⟩
      getCodeHash := fun a w => ⟨by
        show (if Spec.Go.Absent D a w then 0 else D.codeHash a w) = if Spec.Go.Absent d a (π w) then 0 else d.codeHash a (π w)
        rw [M.codeHash]
        by_cases h : Spec.Go.Absent d a (π w)
        · rw [if_pos h, if_pos ((habs a w).mpr h)]
        · rw [if_neg h, if_neg (fun h' => h ((habs a w).mp h'))], rfl⟩
      copyCode := fun a o n w => ⟨by
        show ((D.code a w).drop o).take n = ((d.code a (π w)).drop o).take n
        rw [M.code], rfl⟩
      selfdestruct := fun b w => by
        show (D.selfDestruct q.recipient b w).1 = (d.selfDestruct q.recipient b (π w)).1 ∧ π (D.selfDestruct q.recipient b w).2 = (d.selfDestruct q.recipient b (π w)).2
        rw [hq]; exact M.selfDestruct b w
      call := fun m w => by
        show (if m.input.length ≤ 2 ^ 30 then (Spec.Go.answerOf R.error (call' _ _ w).1, (call' _ _ w).2) else _).1 =
          (if m.input.length ≤ 2 ^ 30 then (Spec.Go.answerOf R.error (call _ _ (π w)).1, (call _ _ (π w)).2) else _).1 ∧
          π (if m.input.length ≤ 2 ^ 30 then (Spec.Go.answerOf R.error (call' _ _ w).1, (call' _ _ w).2) else _).2 =
          (if m.input.length ≤ 2 ^ 30 then (Spec.Go.answerOf R.error (call _ _ (π w)).1, (call _ _ (π w)).2) else _).2
        have h := hcall (Spec.Go.kindOf m) (Spec.Go.paramsOf m) w
        split
        · exact ⟨congrArg (Spec.Go.answerOf R.error) h.1, h.2⟩
        · exact ⟨rfl, rfl⟩
      txContext := rfl
      getBlockHash := fun n h0 h1 w => ⟨M.blockHash n w h0 (by
        have h2 : n < q.block.blockNumber := h1
        rw [hqb] at h2
        have := hp.chain.blockNumber.2
        omega), rfl⟩
      emitLog := fun d t w => M.emitLog _ _
      accessAccount := fun a w => M.accessAccount _ _
      accessStorage := fun k w => M.accessStorage _ _ _ }

private theorem nativeRun_mirror {π : σ → ω} {D : Db σ} {d : Db ω} {call' : CallFn σ} {call : CallFn ω} {p : Parameters}
    (hp : Spec.Go.RunOk p) (M : Mirrors π p.recipient D d) (hcall : CallsAgree π call' call) (keccak : List Byte → U256) (s : σ) :
    (Spec.Go.nativeRun keccak D call' p s).1 = (Spec.Go.nativeRun keccak d call p (π s)).1 ∧
    π (Spec.Go.nativeRun keccak D call' p s).2 = (Spec.Go.nativeRun keccak d call p (π s)).2 := by
  unfold Spec.Go.nativeRun
  cases Spec.Go.revisionOf p.block.revision with
  | none => exact ⟨rfl, rfl⟩
  | some rev =>
    have h := HostMap.stepsEip_img (views hp M hcall Spec.Go.failures keccak rev { p with depth := 0 } rfl rfl) (p.gas.toNat + 1)
      (initial (Spec.Go.nativeFrame keccak D call' p rev) s)
    have h2 : HostMap.img π (initial (Spec.Go.nativeFrame keccak D call' p rev) s) = initial (Spec.Go.nativeFrame keccak d call p rev) (π s) := rfl
    rw [h2] at h
    dsimp only
    unfold Spec.Go.nativeFrame at h ⊢
    rw [← h]
    exact ⟨rfl, rfl⟩

private theorem specRun_mirror {π : σ → ω} {D : Db σ} {d : Db ω} {call' : CallFn σ} {call : CallFn ω} {p : Parameters}
    (hp : Spec.Go.RunOk p) (M : Mirrors π p.recipient D d) (hcall : CallsAgree π call' call) (R : Spec.Go.Reports)
    (keccak : List Byte → U256) (s : σ) :
    (Spec.Go.run R keccak D call' p s).1 = (Spec.Go.run R keccak d call p (π s)).1 ∧
    π (Spec.Go.run R keccak D call' p s).2 = (Spec.Go.run R keccak d call p (π s)).2 := by
  unfold Spec.Go.run
  cases Spec.Go.revisionOf p.block.revision with
  | none => exact ⟨rfl, rfl⟩
  | some rev =>
    have h := HostMap.steps_img (views hp M hcall R keccak rev p rfl rfl) (p.gas.toNat + 1)
      (initial (Spec.Go.frame R keccak D call' p rev) s)
    have h2 : HostMap.img π (initial (Spec.Go.frame R keccak D call' p rev) s) = initial (Spec.Go.frame R keccak d call p rev) (π s) := rfl
    rw [h2] at h
    dsimp only
    rw [← h]
    exact ⟨rfl, rfl⟩

private theorem callFnOk_mirror {π : σ → ω} {call' : CallFn σ} {call : CallFn ω} (hcall : CallsAgree π call' call)
    (h : Spec.Go.CallFnOk call) : Spec.Go.CallFnOk call' := by
  intro kind p w r w' h0 h1 h2 hr
  have h3 := (hcall kind p w).1
  rw [hr] at h3
  exact h kind p (π w) r (call kind p (π w)).2 h0 h1 h2 (Prod.ext h3.symm rfl)

/-- C78.  A run of evmzero on a database that shows another one gives the result, and has the effects, of the run on that one. -/
theorem C78_evmzero {π : σ → ω} {D : Db σ} {d : Db ω} {call' : CallFn σ} {call : CallFn ω} {p : Parameters} (hp : Spec.Go.RunOk p)
    (M : Mirrors π p.recipient D d) (hcall : CallsAgree π call' call) (hc : Spec.Go.CallFnOk call) (B : Model.Go.Binding)
    (keccak : List Byte → U256) {f' : Model.Found σ} {f : Model.Found ω} (hf' : FoundFor keccak p f') (hf : FoundFor keccak p f) (s : σ) :
    (Model.Go.evmzeroRun B keccak f' D call' p s).1 = (Model.Go.evmzeroRun B keccak f d call p (π s)).1 ∧
    π (Model.Go.evmzeroRun B keccak f' D call' p s).2 = (Model.Go.evmzeroRun B keccak f d call p (π s)).2 := by
  rw [C51_run B keccak D (callFnOk_mirror hcall hc) hp hf', C51_run B keccak d hc hp hf]
  exact specRun_mirror hp M hcall _ keccak s

/-- C78.  The same for the long-form EVM; the state after a run that failed is of no interest, for it is discarded. -/
theorem C78_lfvm {keccak : List Byte → U256} {π : σ → ω} {D : Db σ} {d : Db ω} {call' : CallFn σ} {call : CallFn ω} {p : Parameters}
    {f : Model.Lfvm.Found} {fuel : Parameters → Nat} (h : LfvmSetting keccak d call p f) (M : Mirrors π p.recipient D d)
    (hcall : CallsAgree π call' call) (hfuel : 2 * p.gas.toNat + 2 ≤ fuel p) (s : σ) :
    (Model.Lfvm.lfvmRun false f fuel D call' p s).1 = (Model.Lfvm.lfvmRun false f fuel d call p (π s)).1 ∧
    (π (Model.Lfvm.lfvmRun false f fuel D call' p s).2 = (Model.Lfvm.lfvmRun false f fuel d call p (π s)).2 ∨
      (Model.Lfvm.lfvmRun false f fuel D call' p s).1 = .ok {}) := by
  have h' : LfvmSetting keccak D call' p f :=
    { call := callFnOk_mirror hcall h.call
      access :=
        { balance := fun a b w => by rw [M.balance, M.balance, (M.accessAccount a w).2, h.access.balance]
          nonce := fun a b w => by rw [M.nonce, M.nonce, (M.accessAccount a w).2, h.access.nonce]
          codeSize := fun a b w => by rw [M.codeSize, M.codeSize, (M.accessAccount a w).2, h.access.codeSize] }
      lengths := ⟨fun a w => by rw [M.code]; exact h.lengths.code _ _, fun a w => by rw [M.codeSize]; exact h.lengths.codeSize _ _⟩
      run := h.run
      input := h.input
      code := h.code
      gas := h.gas
      revision := h.revision
      found := h.found }
  have e' := C65_run h' hfuel s
  have e := C65_run h hfuel (π s)
  have m := nativeRun_mirror h.run M hcall keccak s
  refine ⟨by rw [e'.1, e.1, m.1], ?_⟩
  rcases e'.2 with h1 | h1
  · rcases e.2 with h2 | h2
    · left; rw [h1, h2, m.2]
    · right; rw [e'.1, m.1, h2]
  · right; rw [e'.1, h1]

/-! ### Read-only mode, gas and refunds of nested calls -/

/-- C78.  Geth's calls have no read-only flag; it travels in the gas.  The run of a nested call finds the gas given to the call and is
read-only if the calling one is, unless the address of the code looks like that of a precompiled contract, … -/
theorem C78_readonly {kind : Kind} {p : CallParameters} (hg : 0 ≤ p.gas) (hg' : p.gas < 2 ^ 63)
    (ha : ¬ (p.codeAddress.toNat / 2 ^ 16 = 0 ∧ 1 ≤ p.codeAddress.toNat % 256 ∧ p.codeAddress.toNat % 256 ≤ 9)) {depth : Int} (hd : 0 < depth)
    (own readOnly : Bool) :
    decodeReadOnlyFromGas depth own (gethCall readOnly kind p).gas = (own || readOnly, BitVec.ofInt 64 p.gas) := by
  have hgas : (gethCall readOnly kind p).gas = encodeReadOnlyInGas (u64 p.gas) p.codeAddress readOnly := by cases kind <;> rfl
  have hp : isPrecompiledContract p.codeAddress = false := by unfold isPrecompiledContract; exact decide_eq_false ha
  have hn : (u64 p.gas).toNat = p.gas.toNat := by unfold u64; rw [BitVec.toNat_ofInt]; omega
  have hlt : (u64 p.gas).toNat < 2 ^ 63 := by omega
  rw [hgas]
  unfold encodeReadOnlyInGas decodeReadOnlyFromGas
  rw [if_pos hp, if_pos hd]
  cases readOnly with
  | false =>
    rw [if_neg (by decide), if_neg (by omega)]
    simp only [Bool.or_false, Prod.mk.injEq]
    exact ⟨by rw [decide_eq_false (by omega), Bool.or_false], rfl⟩
  | true =>
    rw [if_pos rfl]
    have h2 : (u64 p.gas + BitVec.ofNat 64 (2 ^ 63)).toNat = (u64 p.gas).toNat + 2 ^ 63 := by
      rw [BitVec.toNat_add, BitVec.toNat_ofNat]; omega
    rw [if_pos (by omega), decide_eq_true (by omega), BitVec.add_sub_cancel]
    rfl

/-- … in which case the flag is lost: this concerns addresses up to 0xff09 whose last byte is 1 to 9, whatever the byte before. -/
theorem C78_readonly_lost (kind : Kind) (p : CallParameters) (hg : 0 ≤ p.gas) (hg' : p.gas < 2 ^ 63)
    (ha : p.codeAddress.toNat / 2 ^ 16 = 0 ∧ 1 ≤ p.codeAddress.toNat % 256 ∧ p.codeAddress.toNat % 256 ≤ 9) {depth : Int} (hd : 0 < depth)
    (own : Bool) : decodeReadOnlyFromGas depth own (gethCall true kind p).gas = (own, BitVec.ofInt 64 p.gas) := by
  have hgas : (gethCall true kind p).gas = encodeReadOnlyInGas (u64 p.gas) p.codeAddress true := by cases kind <;> rfl
  have hp : isPrecompiledContract p.codeAddress = true := by unfold isPrecompiledContract; exact decide_eq_true ha
  have hn : (u64 p.gas).toNat = p.gas.toNat := by unfold u64; rw [BitVec.toNat_ofInt]; omega
  rw [hgas]
  unfold encodeReadOnlyInGas decodeReadOnlyFromGas
  have hq : ¬ isPrecompiledContract p.codeAddress = false := by rw [hp]; decide
  rw [if_neg hq, if_pos hd, if_neg (by omega), decide_eq_false (by omega), Bool.or_false]
  rfl

/-- Geth's EVM running the code of a nested call on an interpreter behind the adapter (third-party, reduced to what becomes of the
results): unless the code reverts, the gas of a failed run is lost. -/
def gethFrame (D : StateDB σ) (depth : Nat) (own : Bool) (run : Bool → BitVec 64 → σ → Except Err RunResult × σ) (g : GethCall) (s : σ) :
    GethRet × σ :=
  let (out, gas, err, s) := adapterRun D depth own g.gas run s
  ({ output := out, gasLeft := if err = none ∨ err = some .executionReverted then gas else 0, err := err }, s)

/-- C78.  What an interpreter returns for a nested call is what the calling interpreter gets: success, output and gas.  The refund goes to
the counter of the adapter if the call succeeded, and is dropped otherwise. -/
theorem C78_roundtrip (c : Client ω) {kind : Kind} {p : CallParameters} (hg : 0 ≤ p.gas) (hg' : p.gas < 2 ^ 63)
    (ha : ¬ (p.codeAddress.toNat / 2 ^ 16 = 0 ∧ 1 ≤ p.codeAddress.toNat % 256 ∧ p.codeAddress.toNat % 256 ≤ 9))
    {depth : Nat} (hd : 0 < depth ∧ depth ≤ 1024) (own readOnly : Bool) {run : Bool → BitVec 64 → GethState ω → Except Err RunResult × GethState ω}
    {r : RunResult} {s s' : GethState ω} (hr : run (own || readOnly) (BitVec.ofInt 64 p.gas) s = (.ok r, s'))
    (hgas : 0 ≤ r.gasLeft ∧ r.gasLeft ≤ p.gas) :
    ∃ s'', adapterCall (gethFrame (stateDbAdapter c) depth own run) readOnly kind p s =
        (.ok { output := r.output, gasLeft := r.gasLeft, success := r.success }, s'') ∧
      s''.world = s'.world ∧ s''.refund = if r.success = true then s'.refund + BitVec.ofInt 64 r.gasRefund else s'.refund := by
  have hdec := C78_readonly (kind := kind) hg hg' ha (depth := (depth : Int)) (by omega) own readOnly
  have hu : s64 (u64 r.gasLeft) = r.gasLeft := by
    unfold s64 u64; rw [BitVec.toInt_ofInt, Int.bmod_def]; omega
  have hrefund : ∀ s : GethState ω, ∃ s'' : GethState ω, (if r.success = true then
        if r.gasRefund ≥ 0 then (stateDbAdapter c).addRefund (u64 r.gasRefund) s else (stateDbAdapter c).subRefund (u64 (i64 (-r.gasRefund))) s
      else s) = s'' ∧ s''.world = s.world ∧ s''.refund = if r.success = true then s.refund + BitVec.ofInt 64 r.gasRefund else s.refund := by
    intro s
    refine ⟨_, rfl, ?_⟩
    by_cases h1 : r.success = true
    · rw [if_pos h1, if_pos h1]
      by_cases h2 : r.gasRefund ≥ 0
      · rw [if_pos h2]; exact ⟨rfl, rfl⟩
      · rw [if_neg h2]
        refine ⟨rfl, ?_⟩
        show s.refund - u64 (i64 (-r.gasRefund)) = _
        unfold u64 i64
        have e : BitVec.ofInt 64 ((-r.gasRefund).bmod (2 ^ 64)) = -(BitVec.ofInt 64 r.gasRefund) := by
          apply BitVec.eq_of_toInt_eq
          rw [BitVec.toInt_ofInt, BitVec.toInt_neg, BitVec.toInt_ofInt]
          simp only [Int.bmod_def]
          omega
        rw [e, BitVec.sub_neg]
    · rw [if_neg h1, if_neg h1]; exact ⟨rfl, rfl⟩
  obtain ⟨s'', hs, hw, hrf⟩ := hrefund s'
  refine ⟨s'', ?_, hw, hrf⟩
  have hd1 : ¬ depth = 0 := by omega
  have hd2 : ¬ depth > 1024 := by omega
  have hrun : adapterRun (stateDbAdapter c) depth own (gethCall readOnly kind p).gas run s =
      adapterEnd (stateDbAdapter c) (BitVec.ofInt 64 p.gas) (run (own || readOnly) (BitVec.ofInt 64 p.gas) s) := by
    unfold adapterRun
    simp only [if_neg hd1, if_neg hd2, hdec]
  unfold adapterCall gethFrame
  rw [hrun, hr]
  unfold adapterEnd
  simp only [hs]
  by_cases hsucc : r.success = true
  · simp only [hsucc]
    simp only [Bool.true_eq_false, and_false, if_false, true_or, if_true]
    congr 2
    by_cases h0 : r.gasLeft > 0
    · rw [if_pos h0, hu]
      cases kind <;> rfl
    · rw [if_neg h0]; have : r.gasLeft = 0 := by omega
      rw [this]; cases kind <;> rfl
  · have hf : r.success = false := by cases h : r.success <;> simp_all
    simp only [hf]
    by_cases h0 : r.gasLeft > 0 ∨ r.output.length > 0
    · simp only [h0, and_self, if_true, or_true]
      congr 2
      by_cases h1 : r.gasLeft > 0
      · rw [if_pos h1, hu]
        cases kind <;> rfl
      · rw [if_neg h1]; have : r.gasLeft = 0 := by omega
        rw [this]; cases kind <;> rfl
    · simp only [h0, false_and, if_false, if_true, gethToVMErrors]
      have h1 : r.gasLeft = 0 := by omega
      have h2 : r.output = [] := List.eq_nil_of_length_eq_zero (by omega)
      rw [h1, h2]

/-- C78.  The refund counter of a transaction: the adapter raises it by 2^60 during the outermost run, so that it can go down before it
goes up, and takes that away at the end.  If the runs of a transaction add up to a refund `total` that is not negative, the
counter holds `total`. -/
theorem C78_refund (c : Client ω) (readOnly : Bool) {gas : BitVec 64} {run : Bool → BitVec 64 → GethState ω → Except Err RunResult × GethState ω}
    {s s' : GethState ω} {r : RunResult} {nested total : Int} (h0 : s.refund = 0)
    (hr : run readOnly gas { s with refund := BitVec.ofNat 64 (2 ^ 60) } = (.ok r, s')) (hs : r.success = true)
    (hn : s'.refund = BitVec.ofInt 64 (2 ^ 60 + nested)) (ht : total = nested + r.gasRefund) (hpos : 0 ≤ total) (hlt : total < 2 ^ 60) :
    (adapterRun (stateDbAdapter c) 0 readOnly gas run s).2.2.2.refund.toNat = total ∧
    (adapterRun (stateDbAdapter c) 0 readOnly gas run s).2.2.2.world = s'.world ∧ (adapterRun (stateDbAdapter c) 0 readOnly gas run s).2.2.1 = none := by
  have hstart : (stateDbAdapter c).addRefund (BitVec.ofNat 64 (2 ^ 60)) s = { s with refund := BitVec.ofNat 64 (2 ^ 60) } := by
    show ({ s with refund := s.refund + _ } : GethState ω) = _
    rw [h0]
    have hz : (0 : BitVec 64) + BitVec.ofNat 64 (2 ^ 60) = BitVec.ofNat 64 (2 ^ 60) := BitVec.zero_add _
    rw [hz]
  have hrefund : ∃ s'' : GethState ω, (if r.gasRefund ≥ 0 then (stateDbAdapter c).addRefund (u64 r.gasRefund) s'
      else (stateDbAdapter c).subRefund (u64 (i64 (-r.gasRefund))) s') = s'' ∧ s''.world = s'.world ∧ s''.refund = BitVec.ofInt 64 (2 ^ 60 + total) := by
    refine ⟨_, rfl, ?_⟩
    by_cases h2 : r.gasRefund ≥ 0
    · rw [if_pos h2]
      refine ⟨rfl, ?_⟩
      show s'.refund + u64 r.gasRefund = _
      unfold u64
      rw [hn, ← BitVec.ofInt_add, ht]
      congr 1; omega
    · rw [if_neg h2]
      refine ⟨rfl, ?_⟩
      show s'.refund - u64 (i64 (-r.gasRefund)) = _
      unfold u64 i64
      have e : BitVec.ofInt 64 ((-r.gasRefund).bmod (2 ^ 64)) = -(BitVec.ofInt 64 r.gasRefund) := by
        apply BitVec.eq_of_toInt_eq
        rw [BitVec.toInt_ofInt, BitVec.toInt_neg, BitVec.toInt_ofInt]
        simp only [Int.bmod_def]
        omega
      rw [e, BitVec.sub_neg, hn, ← BitVec.ofInt_add, ht]
      congr 1; omega
  obtain ⟨s'', hs1, hs2, hs3⟩ := hrefund
  have hnat : s''.refund.toNat = 2 ^ 60 + total.toNat := by
    rw [hs3, BitVec.toNat_ofInt]; omega
  have hrun : adapterRun (stateDbAdapter c) 0 readOnly gas run s =
      (r.output, if r.gasLeft > 0 then u64 r.gasLeft else 0, none, undoRefundShift (stateDbAdapter c) none (BitVec.ofNat 64 (2 ^ 60)) s'') := by
    have hend : adapterEnd (stateDbAdapter c) gas (run readOnly gas { s with refund := BitVec.ofNat 64 (2 ^ 60) }) =
        (r.output, if r.gasLeft > 0 then u64 r.gasLeft else 0, none, s'') := by
      rw [hr]
      unfold adapterEnd
      simp only [hs, if_true, hs1]
      simp only [Bool.true_eq_false, and_false, if_false]
    have e : adapterRun (stateDbAdapter c) 0 readOnly gas run s =
        (let q := adapterEnd (stateDbAdapter c) gas (run readOnly gas ((stateDbAdapter c).addRefund (BitVec.ofNat 64 (2 ^ 60)) s))
         (q.1, q.2.1, q.2.2.1, undoRefundShift (stateDbAdapter c) q.2.2.1 (BitVec.ofNat 64 (2 ^ 60)) q.2.2.2)) := rfl
    rw [e, hstart, hend]
  rw [hrun]
  refine ⟨?_, ?_, rfl⟩
  · show (((s''.refund - if s''.refund.toNat < (BitVec.ofNat 64 (2 ^ 60)).toNat then s''.refund else BitVec.ofNat 64 (2 ^ 60)).toNat : Nat) : Int) = total
    have hc60 : (BitVec.ofNat 64 (2 ^ 60)).toNat = 2 ^ 60 := by decide
    rw [if_neg (by omega), BitVec.toNat_sub, hnat, hc60]
    omega
  · exact hs2

/-- C78.  The refund counter after an outermost run that is reverted: what the runs of successful calls before the revert have left in it
remains, without the 2^60; geth takes it away with its snapshot. -/
theorem C78_refund_revert (c : Client ω) (readOnly : Bool) {gas : BitVec 64} {run : Bool → BitVec 64 → GethState ω → Except Err RunResult × GethState ω}
    {s s' : GethState ω} {r : RunResult} {nested : Int} (h0 : s.refund = 0)
    (hr : run readOnly gas { s with refund := BitVec.ofNat 64 (2 ^ 60) } = (.ok r, s')) (hs : r.success = false) (hrev : 0 < r.gasLeft ∨ r.output ≠ [])
    (hn : s'.refund = BitVec.ofInt 64 (2 ^ 60 + nested)) (hpos : 0 ≤ nested) (hlt : nested < 2 ^ 60) :
    (adapterRun (stateDbAdapter c) 0 readOnly gas run s).2.2.2.refund.toNat = nested ∧
    (adapterRun (stateDbAdapter c) 0 readOnly gas run s).2.2.2.world = s'.world ∧
    (adapterRun (stateDbAdapter c) 0 readOnly gas run s).2.2.1 = some .executionReverted := by
  have hstart : (stateDbAdapter c).addRefund (BitVec.ofNat 64 (2 ^ 60)) s = { s with refund := BitVec.ofNat 64 (2 ^ 60) } := by
    show ({ s with refund := s.refund + _ } : GethState ω) = _
    rw [h0]
    have hz : (0 : BitVec 64) + BitVec.ofNat 64 (2 ^ 60) = BitVec.ofNat 64 (2 ^ 60) := BitVec.zero_add _
    rw [hz]
  have hnat : s'.refund.toNat = 2 ^ 60 + nested.toNat := by
    rw [hn, BitVec.toNat_ofInt]; omega
  have hlen : r.gasLeft > 0 ∨ r.output.length > 0 := by
    rcases hrev with h | h
    · exact .inl h
    · exact .inr (List.length_pos_iff.2 h)
  have hrun : adapterRun (stateDbAdapter c) 0 readOnly gas run s =
      (r.output, if r.gasLeft > 0 then u64 r.gasLeft else 0, some .executionReverted,
        undoRefundShift (stateDbAdapter c) (some .executionReverted) (BitVec.ofNat 64 (2 ^ 60)) s') := by
    have hend : adapterEnd (stateDbAdapter c) gas (run readOnly gas { s with refund := BitVec.ofNat 64 (2 ^ 60) }) =
        (r.output, if r.gasLeft > 0 then u64 r.gasLeft else 0, some .executionReverted, s') := by
      rw [hr]
      unfold adapterEnd
      simp only [hs, hlen, Bool.false_eq_true, if_false, and_self, if_true]
    have e : adapterRun (stateDbAdapter c) 0 readOnly gas run s =
        (let q := adapterEnd (stateDbAdapter c) gas (run readOnly gas ((stateDbAdapter c).addRefund (BitVec.ofNat 64 (2 ^ 60)) s))
         (q.1, q.2.1, q.2.2.1, undoRefundShift (stateDbAdapter c) q.2.2.1 (BitVec.ofNat 64 (2 ^ 60)) q.2.2.2)) := rfl
    rw [e, hstart, hend]
  rw [hrun]
  refine ⟨?_, rfl, rfl⟩
  show (((s'.refund - if s'.refund.toNat < (BitVec.ofNat 64 (2 ^ 60)).toNat then s'.refund else BitVec.ofNat 64 (2 ^ 60)).toNat : Nat) : Int) = nested
  have hc60 : (BitVec.ofNat 64 (2 ^ 60)).toNat = 2 ^ 60 := by decide
  rw [if_neg (by omega), BitVec.toNat_sub, hnat, hc60]
  omega

/-- C78.  What geth is asked for: the code, the account, the input, the value and the salt of the request; a delegate call keeps the value of its
caller in geth itself. -/
theorem C78_request (self : Address) (readOnly : Bool) {kind : Kind} {p : CallParameters} (h : WellFormed self kind p) :
    (gethCall readOnly kind p).kind = kind ∧ (gethCall readOnly kind p).input = p.input ∧
    (kind ≠ .create → kind ≠ .create2 → (gethCall readOnly kind p).address = p.codeAddress ∧ worksOn self (gethCall readOnly kind p) = p.recipient) ∧
    (gethCall readOnly kind p).value = (if kind = .staticCall ∨ kind = .delegateCall then 0 else p.value) ∧
    (kind = .create2 → (gethCall readOnly kind p).salt = p.salt) := by
  cases kind <;> simp_all [WellFormed, gethCall, worksOn]

/-- C78.  Answers of geth's EVM: a call that does not start, for lack of money, for its depth or because of the nonce, gives back its gas; a reverted one
its output and the gas left; all other failures take the gas; unknown errors are passed on.  The state is geth's in any case. -/
theorem C78_answer (evm : GethCall → σ → GethRet × σ) (readOnly : Bool) (kind : Kind) (p : CallParameters) (s s' : σ) (r : GethRet)
    (h : evm (gethCall readOnly kind p) s = (r, s')) (hg : r.gasLeft.toNat < 2 ^ 63) :
    (r.err = none ∨ r.err = some .executionReverted → adapterCall evm readOnly kind p s =
      (.ok { output := r.output, gasLeft := r.gasLeft.toNat, success := r.err.isNone
             createdAddress := if kind = .create ∨ kind = .create2 then r.created else 0 }, s')) ∧
    (r.err = some .insufficientBalance ∨ r.err = some .depth ∨ r.err = some .nonceUintOverflow →
      adapterCall evm readOnly kind p s = (.ok { gasLeft := p.gas, success := false }, s')) ∧
    (r.err = some .other → ∃ e, adapterCall evm readOnly kind p s = (.error e, s')) ∧
    (∀ e, r.err = some e → e ∉ [.executionReverted, .insufficientBalance, .depth, .nonceUintOverflow, .other] →
      adapterCall evm readOnly kind p s = (.ok { gasLeft := 0, success := false }, s')) := by
  have hu : s64 r.gasLeft = r.gasLeft.toNat := by
    unfold s64; rw [BitVec.toInt_eq_toNat_cond]; omega
  unfold adapterCall
  rw [h]
  obtain ⟨out, cr, gl, err⟩ := r
  dsimp only at *
  refine ⟨?_, ?_, ?_, ?_⟩
  · rintro (rfl | rfl) <;> cases kind <;> simp [hu]
  · rintro (rfl | rfl | rfl) <;> rfl
  · rintro rfl; exact ⟨_, rfl⟩
  · rintro e rfl he
    cases e <;> first | rfl | (exact absurd (by decide) he)

/-- A request for a call of a library. -/
example : WellFormed 7 .delegateCall { recipient := 7, codeAddress := 9, gas := 100 } ∧
    adapterCall (σ := Nat) (fun q n => ({ gasLeft := q.gas, err := some .depth }, n + 1)) false .delegateCall { recipient := 7, codeAddress := 9, gas := 100 } 3 =
      (.ok { gasLeft := 100, success := false }, 4) := ⟨rfl, rfl⟩

/-! ### A client that meets the hypotheses -/

/-- The state of a small client. -/
structure SmallWorld where
  bal : Address → U256
  sto : Address → U256 → U256
  dead : Address → Bool
  warm : Address → Bool
  warmSlots : Address → U256 → Bool

/-- A client with balances, storage that was empty at the start of the transaction, access lists and destroyed accounts. -/
def smallClient : Client SmallWorld where
  db :=
    { accountExists := fun _ _ => true
      balance := fun a w => w.bal a
      setBalance := fun a v w => { w with bal := fun b => if b = a then v else w.bal b }
      nonce := fun _ _ => 1
      setNonce := fun _ _ w => w
      code := fun _ _ => []
      codeHash := fun _ _ => 0
      codeSize := fun _ _ => 0
      setCode := fun _ _ w => w
      storage := fun a k w => w.sto a k
      setStorage := fun a k v w =>
        (storageStatus 0 (w.sto a k) v, { w with sto := fun b l => if b = a ∧ l = k then v else w.sto b l })
      transient := fun _ _ _ => 0
      setTransient := fun _ _ _ w => w
      accessAccount := fun a w => (if w.warm a = true then .warm else .cold, { w with warm := fun b => decide (b = a) || w.warm b })
      accessStorage := fun a k w =>
        (if w.warmSlots a k = true then .warm else .cold, { w with warmSlots := fun b l => decide (b = a ∧ l = k) || w.warmSlots b l })
      selfDestruct := fun a b w =>
        (!w.dead a, { w with dead := fun x => decide (x = a) || w.dead x
                             bal := fun x => if a = b then w.bal x else if x = a then 0 else if x = b then w.bal b + w.bal a else w.bal x })
      emitLog := fun _ w => w
      logs := fun _ => []
      blockHash := fun n _ => BitVec.ofInt 256 n }
  committedStorage := fun _ _ _ => 0
  isAddressInAccessList := fun a w => w.warm a
  isSlotInAccessList := fun a k w => (w.warm a, w.warmSlots a k)
  hasSelfDestructed := fun a w => w.dead a

theorem smallClient_ok : ClientOk smallClient where
  status _ _ _ _ := rfl
  rewrite a k w := by
    show ({ w with sto := fun b l => if b = a ∧ l = k then w.sto a k else w.sto b l } : SmallWorld) = w
    have : (fun b l => if b = a ∧ l = k then w.sto a k else w.sto b l) = w.sto := by
      funext b l
      by_cases h : b = a ∧ l = k
      · rw [if_pos h, h.1, h.2]
      · rw [if_neg h]
    rw [this]
  account _ _ := rfl
  slot _ _ _ := rfl
  destructed _ _ _ := rfl

theorem smallClient_balances : Balances smallClient.db where
  get a b v w := rfl
  same a w := by
    show ({ w with bal := fun b => if b = a then w.bal a else w.bal b } : SmallWorld) = w
    have : (fun b => if b = a then w.bal a else w.bal b) = w.bal := by
      funext b
      by_cases h : b = a
      · rw [if_pos h, h]
      · rw [if_neg h]
    rw [this]
  last a u v w := by
    show ({ w with bal := fun b => if b = a then v else if b = a then u else w.bal b } : SmallWorld) =
      { w with bal := fun b => if b = a then v else w.bal b }
    congr 1
    funext b
    by_cases h : b = a
    · rw [if_pos h, if_pos h]
    · rw [if_neg h, if_neg h, if_neg h]

theorem smallClient_moves : Moves smallClient.db := by
  intro a b w
  unfold moved
  by_cases h : a = b
  · rw [if_pos h]
  · rw [if_neg h]
    show ({ w with dead := _, bal := fun x => if a = b then _ else if x = a then 0 else if x = b then
        (if b = a then 0 else if b = b then w.bal b + w.bal a else w.bal b) + (if a = a then (0 : U256) else _) else
        if x = a then 0 else if x = b then w.bal b + w.bal a else w.bal x } : SmallWorld) =
      { w with dead := _, bal := fun x => if a = b then _ else if x = a then 0 else if x = b then w.bal b + w.bal a else w.bal x }
    congr 1
    funext x
    rw [if_neg h, if_neg h]
    by_cases hx : x = a
    · rw [if_pos hx, if_pos hx]
    · rw [if_neg hx, if_neg hx]
      by_cases hb : x = b
      · rw [if_pos hb, if_pos hb, if_neg (Ne.symm h), if_pos rfl, if_pos rfl]
        exact BitVec.add_zero _
      · rw [if_neg hb, if_neg hb]

example (me : Address) : Mirrors GethState.world me (through smallClient true me) smallClient.db :=
  C78_state_cancun smallClient_ok smallClient_balances smallClient_moves me

example (s : GethState SmallWorld) : (through smallClient false 7).balance 9 ((through smallClient false 7).selfDestruct 7 9 s).2 =
    smallClient.db.balance 9 s.world + smallClient.db.balance 7 s.world + smallClient.db.balance 7 s.world :=
  C78_credited_twice smallClient_ok smallClient_balances (by decide) (fun w => by
    show (if (7 : Address) = 9 then w.bal 9 else if (9 : Address) = 7 then 0 else if (9 : Address) = 9 then w.bal 9 + w.bal 7 else w.bal 9) = w.bal 9 + w.bal 7
    rw [if_neg (by decide), if_neg (by decide), if_pos rfl]) s

/-- Calls that fail without effect agree. -/
example : CallsAgree (GethState.world (ω := SmallWorld)) (fun _ _ s => (.ok {}, s)) (fun _ _ s => (.ok {}, s)) :=
  fun _ _ _ => ⟨rfl, rfl⟩

example (own : Bool) : decodeReadOnlyFromGas 3 own (gethCall true .call { codeAddress := 0x1234567, gas := 5000 }).gas = (true, 5000) := by
  rw [C78_readonly (by decide) (by decide) (by decide) (by decide)]
  cases own <;> rfl

/-- The address 0x0105 has nothing to do with precompiled contracts. -/
example : decodeReadOnlyFromGas 3 false (gethCall true .staticCall { codeAddress := 0x0105, gas := 5000 }).gas = (false, 5000) :=
  C78_readonly_lost .staticCall _ (by decide) (by decide) (by decide) (by decide) false

/-- A nested call that reverts with some gas left. -/
example (s : GethState SmallWorld) : ∃ s'', adapterCall (gethFrame (stateDbAdapter smallClient) 2 false
      fun _ _ s => (.ok { success := false, output := [1], gasLeft := 30 }, s)) false .call { codeAddress := 0x4567, gas := 100 } s =
      (.ok { output := [1], gasLeft := 30, success := false }, s'') ∧ s''.world = s.world ∧ s''.refund = if false = true then s.refund + BitVec.ofInt 64 0 else s.refund :=
  C78_roundtrip smallClient (r := { success := false, output := [1], gasLeft := 30 }) (by decide) (by decide) (by decide) (by decide) false false rfl
    (by decide)

/-- A transaction whose nested calls give back 4800 and whose outermost run takes 100 away. -/
example (w : SmallWorld) :
    (adapterRun (stateDbAdapter smallClient) 0 false 1000
      (fun _ _ s => (.ok { success := true, gasLeft := 10, gasRefund := -100 }, { s with refund := s.refund + 4800 })) { world := w }).2.2.2.refund.toNat =
      (4700 : Int) :=
  (C78_refund smallClient (readOnly := false) (gas := 1000)
    (run := fun _ _ s => (.ok { success := true, gasLeft := 10, gasRefund := -100 }, { s with refund := s.refund + 4800 }))
    (s := { world := w }) (nested := 4800) rfl rfl rfl (by show (BitVec.ofNat 64 (2 ^ 60) + 4800 : BitVec 64) = _; decide) (by decide) (by decide) (by decide)).1

end Tosca

import Verif.Props.GoRefund

/-!
# Nonces and balances (C58, C59)
-/

namespace Tosca

open Tosca.Model Tosca.Spec Tosca.Proofs Tosca.Go Tosca.Model.Go Tosca.Spec.Go

variable {ω : Type} {P : Processor ω} {db : Db ω} {block : BlockParameters} {t : Transaction} {w w' : ω} {receipt : Receipt} {err : Option Err}

theorem txCall_notBy {x : Address} (hs : t.sender ≠ driverAddress) (hx : t.recipient = none → t.sender ≠ x) :
    NotBy x false (txCall t).1 (txCall t).2 := by
  cases hr : t.recipient with
  | none =>
    unfold txCall; rw [hr]
    exact ⟨⟨hs, fun h => by rcases h with h | h <;> cases h⟩, fun _ => hx hr, fun h => by rcases h with h | h <;> cases h⟩
  | some r =>
    unfold txCall; rw [hr]
    refine ⟨⟨hs, fun h => ?_⟩, fun h => ?_, fun h => ?_⟩ <;> (rcases h with h | h <;> cases h)

/-- What the preparation of a call leaves unchanged. -/
theorem callStart_quiet (hD : DbOk db) {x : Address} {n : BitVec 64} (block : BlockParameters) (pre : List Address) (t : Transaction) {w : ω}
    (h : Quiet db x n w) :
    Quiet db x (if t.recipient ≠ none ∧ x = t.sender then n + 1 else n) (callStart db block pre t w) := by
  have hacc : ∀ (l : List DbOp), (∀ o ∈ l, (∃ a, o = .accessAccount a) ∨ ∃ a k, o = .accessStorage a k) → ∀ w, Quiet db x n w →
      Quiet db x n (l.foldl (DbOp.apply db) w) := by
    intro l
    induction l with
    | nil => intro _ w h; exact h
    | cons o l ih =>
      intro ho w h
      refine ih (fun o' h' => ho o' (by simp [h'])) _ ?_
      rcases ho o (by simp) with ⟨a, rfl⟩ | ⟨a, k, rfl⟩
      · exact quiet_op hD _ (fun _ _ h => by cases h) (fun _ _ h => by cases h) h
      · exact quiet_op hD _ (fun _ _ h => by cases h) (fun _ _ h => by cases h) h
  have hl : ∀ o ∈ listedAccesses block pre t, (∃ a, o = .accessAccount a) ∨ ∃ a k, o = .accessStorage a k := by
    intro o ho
    unfold listedAccesses at ho
    split at ho
    · split at ho
      · cases ho
      · simp only [List.mem_append, List.mem_map, List.mem_flatMap, List.mem_cons, List.not_mem_nil, or_false] at ho
        rcases ho with ((rfl | ⟨a, _, rfl⟩) | ⟨a, _, rfl⟩) | ⟨a, _, rfl | ⟨k, _, rfl⟩⟩
        · exact Or.inl ⟨_, rfl⟩
        · exact Or.inl ⟨_, rfl⟩
        · exact Or.inl ⟨_, rfl⟩
        · exact Or.inl ⟨_, rfl⟩
        · exact Or.inr ⟨_, _, rfl⟩
    · cases ho
  have h1 := hacc _ hl w h
  unfold callStart
  cases hr : t.recipient with
  | none => rw [if_neg (fun h => h.1 rfl)]; exact h1
  | some r =>
    dsimp only
    by_cases hx : x = t.sender
    · rw [if_pos ⟨(by intro h; cases h), hx⟩]
      subst hx
      refine ⟨?_, (hD.code (.setNonce _ _) _ _ (fun _ _ h => by cases h)).trans h1.2.1, (hD.code (.setNonce _ _) _ _ (fun _ _ h => by cases h)).trans h1.2.2⟩
      rw [hD.setNonce, if_pos rfl, h1.1]
    · rw [if_neg (fun h => hx h.2)]
      exact quiet_setNonce hD (fun e => hx e.symm) _ h1

theorem add_one_ne_zero {n : BitVec 64} (h : n.toNat + 1 < 2 ^ 64) : n + 1 ≠ 0 := by
  intro e
  have := congrArg BitVec.toNat e
  rw [BitVec.toNat_add, show (1 : BitVec 64).toNat = 1 from rfl, Nat.mod_eq_of_lt h] at this
  have e0 : (0 : BitVec 64).toNat = 0 := rfl
  omega

/-! ### C58: nonces -/

/-- C58.  A transaction that calls an account counts exactly once, if it is admitted and makes its call, whatever the
called contracts do and whether or not they succeed; otherwise it does not count.  (Assumptions: a world state that stores what
is written; accounts with the hash of empty code have none; no code at the driver's address.) -/
theorem C58_call (h : Supported P db block t) (hD : DbOk db) (hN : NoDriver (P.context db block t))
    (hs : t.sender ≠ driverAddress) (hd : db.code driverAddress w = [])
    (hcode : db.codeHash t.sender w = 0 ∨ db.codeHash t.sender w = P.keccak [] → db.code t.sender w = [])
    (ht : t.recipient ≠ none) (hr : P.run db block t w = (receipt, err, w')) :
    (Admitted db P.keccak t w ∧ Runnable block t → db.nonce t.sender w' = db.nonce t.sender w + 1) ∧
    (¬ (Admitted db P.keccak t w ∧ Runnable block t) → db.nonce t.sender w' = db.nonce t.sender w) := by
  obtain ⟨I, hS, hrun, _⟩ := supported_sound h
  rw [hrun] at hr
  obtain ⟨R, hW⟩ := hS.works
  have hbal : ∀ v w, db.nonce t.sender (db.setBalance t.sender v w) = db.nonce t.sender w := fun v w =>
    hD.nonce (.setBalance t.sender v) _ w (fun _ _ h => by cases h)
  rcases sound_receipt hS hr with ⟨hn, _, _, rfl⟩ | ⟨ha, w1, hw1, ⟨hg, _, _, rfl⟩ | ⟨_, hg, _, _, rfl⟩ | ⟨hg, w2, w3, res, hcall, hw2, hcase⟩⟩
  · exact ⟨fun h => absurd h.1 hn, fun _ => rfl⟩
  · exact ⟨fun h => absurd h.2.gas (by omega), fun _ => by rw [hw1, hbal]⟩
  · exact ⟨fun h => absurd h.2 hg, fun _ => by rw [hw1, hbal]⟩
  · refine ⟨fun _ => ?_, fun hh => absurd ⟨ha, hg⟩ hh⟩
    have q1 : Quiet db t.sender (db.nonce t.sender w) w1 := by
      rw [hw1]
      exact quiet_op hD (.setBalance _ _) (fun _ _ h => by cases h) (fun _ _ h => by cases h) ⟨rfl, hcode ha.sender, hd⟩
    have q2 := callStart_quiet hD block (P.precompileList block.revision) t q1
    rw [if_pos ⟨ht, rfl⟩, ← hw2] at q2
    have q3 := call_stable hW (nonce_stable (F := Processor.context { P with interpreter := I } db block t) hD hN t.sender (add_one_ne_zero ha.last)) 0 false _ _ w2
      (txCall_notBy hs (fun h => absurd h ht)) q2
    rw [hcall] at q3
    rcases hcase with ⟨e, _, _, _, rfl⟩ | ⟨r, _, _, _, ⟨_, _, _, rfl⟩ | ⟨_, _, _, _, _, _, hw'⟩⟩
    · exact q3.1
    · exact q3.1
    · rw [hw', hbal]; exact q3.1

/-- C58.  A transaction that creates a contract counts exactly once, unless the address of the new contract is taken; then it
fails and does not count. -/
theorem C58_create (h : Supported P db block t) (hD : DbOk db) (hN : NoDriver (P.context db block t))
    (hs : t.sender ≠ driverAddress) (hd : db.code driverAddress w = [])
    (hcode : db.codeHash t.sender w = 0 ∨ db.codeHash t.sender w = P.keccak [] → db.code t.sender w = [])
    (ht : t.recipient = none) (ha : Admitted db P.keccak t w) (hg : Runnable block t)
    {new : Address} (hnew : new = P.createAddress1 t.sender (db.nonce t.sender w)) (hne : new ≠ t.sender)
    (hr : P.run db block t w = (receipt, err, w')) :
    ∃ w2, w2 = callStart db block (P.precompileList block.revision) t
        (db.setBalance t.sender (db.balance t.sender w - t.gasPrice * BitVec.ofInt 256 t.gasLimit) w) ∧
      db.nonce t.sender w' =
        if db.nonce new w ≠ 0 ∨ (db.codeHash new w2 ≠ 0 ∧ db.codeHash new w2 ≠ P.keccak []) then db.nonce t.sender w
        else db.nonce t.sender w + 1 := by
  obtain ⟨I, hS, hrun, _⟩ := supported_sound h
  rw [hrun] at hr
  obtain ⟨R, hW⟩ := hS.works
  have hbal : ∀ a v w, db.nonce a (db.setBalance t.sender v w) = db.nonce a w := fun a v w =>
    hD.nonce (.setBalance t.sender v) _ w (fun _ _ h => by cases h)
  rcases sound_receipt hS hr with ⟨hn, _, _, rfl⟩ | ⟨_, w1, hw1, ⟨hg', _, _, rfl⟩ | ⟨_, hg', _, _, rfl⟩ | ⟨_, w2, w3, res, hcall, hw2, hcase⟩⟩
  · exact absurd ha hn
  · exact absurd hg.gas (by omega)
  · exact absurd hg hg'
  · refine ⟨w2, by rw [hw2, hw1], ?_⟩
    have q1 : Quiet db t.sender (db.nonce t.sender w) w1 := by
      rw [hw1]
      exact quiet_op hD (.setBalance _ _) (fun _ _ h => by cases h) (fun _ _ h => by cases h) ⟨rfl, hcode ha.sender, hd⟩
    have q2 := callStart_quiet hD block (P.precompileList block.revision) t q1
    rw [if_neg (fun h => h.1 ht), ← hw2] at q2
    have hnonce : db.nonce new w2 = db.nonce new w := by
      have hv := txStart_view (db := db) (fun w => db.nonce new w)
        (fun a w => hD.nonce (.accessAccount a) _ w (fun _ _ h => by cases h)) (fun a k w => hD.nonce (.accessStorage a k) _ w (fun _ _ h => by cases h))
        block (P.precompileList block.revision) t (fun n w => by rw [hD.setNonce, if_neg hne]) w1
      rw [hw2, ← txStart_eq, hv, hw1, hbal]
    have hk : (txCall t).1 = .create := by unfold txCall; rw [ht]
    rw [hk] at hcall
    have hp : (txCall t).2.sender = t.sender := rfl
    have hat : createdAt (Processor.context { P with interpreter := I } db block t) .create (txCall t).2 w2 = new := by
      unfold createdAt Floria.createAddress
      rw [if_pos rfl]
      show P.createAddress1 t.sender (db.nonce t.sender w2) = new
      rw [q2.1, hnew]
    have q3 := nonce_create hW (F := Processor.context { P with interpreter := I } db block t) hD hN (p := (txCall t).2) (w := w2) (kind := .create) (Or.inl rfl) hs
      (by rw [hat]; exact hne) (by show db.nonce t.sender w2 + 1 ≠ 0; rw [q2.1]; exact add_one_ne_zero ha.last) q2.2.1 q2.2.2 false
    rw [hat, hcall] at q3
    have hfin : db.nonce t.sender w' = db.nonce t.sender w3 := by
      rcases hcase with ⟨e, _, _, _, rfl⟩ | ⟨r, _, _, _, ⟨_, _, _, rfl⟩ | ⟨_, _, _, _, _, _, hw'⟩⟩
      · rfl
      · rfl
      · rw [hw', hbal]
    have e := q3.1
    change db.nonce t.sender w3 = (if db.nonce new w2 ≠ 0 ∨ (db.codeHash new w2 ≠ 0 ∧ db.codeHash new w2 ≠ P.keccak []) then db.nonce t.sender w2 else db.nonce t.sender w2 + 1) at e
    rw [hfin, e, q2.1, hnonce]

/-- C58.  A transaction does not affect the nonce of other accounts that have no code and were used before. -/
theorem C58_others (h : Supported P db block t) (hD : DbOk db) (hN : NoDriver (P.context db block t))
    (hs : t.sender ≠ driverAddress) (hd : db.code driverAddress w = []) {a : Address} (ha : a ≠ t.sender)
    (hcode : db.code a w = []) (hn : db.nonce a w ≠ 0) (hr : P.run db block t w = (receipt, err, w')) :
    db.nonce a w' = db.nonce a w ∧ db.code a w' = [] := by
  obtain ⟨I, hS, hrun, _⟩ := supported_sound h
  rw [hrun] at hr
  obtain ⟨R, hW⟩ := hS.works
  have hq : ∀ v {x}, Quiet db a (db.nonce a w) x → Quiet db a (db.nonce a w) (db.setBalance t.sender v x) := fun v w hw =>
    quiet_op hD (.setBalance _ _) (fun _ _ h => by cases h) (fun _ _ h => by cases h) hw
  have q0 : Quiet db a (db.nonce a w) w := ⟨rfl, hcode, hd⟩
  suffices Quiet db a (db.nonce a w) w' from ⟨this.1, this.2.1⟩
  rcases sound_receipt hS hr with ⟨_, _, _, rfl⟩ | ⟨_, w1, hw1, ⟨_, _, _, rfl⟩ | ⟨_, _, _, _, rfl⟩ | ⟨_, w2, w3, res, hcall, hw2, hcase⟩⟩
  · exact q0
  · rw [hw1]; exact hq _ q0
  · rw [hw1]; exact hq _ q0
  · have q1 : Quiet db a (db.nonce a w) w1 := by rw [hw1]; exact hq _ q0
    have q2 := callStart_quiet hD block (P.precompileList block.revision) t q1
    rw [if_neg (fun h => ha h.2), ← hw2] at q2
    have q3 := call_stable hW (nonce_stable (F := Processor.context { P with interpreter := I } db block t) hD hN a hn) 0 false _ _ w2
      (txCall_notBy hs (fun _ e => ha e.symm)) q2
    rw [hcall] at q3
    rcases hcase with ⟨e, _, _, _, rfl⟩ | ⟨r, _, _, _, ⟨_, _, _, rfl⟩ | ⟨_, _, _, _, _, _, hw'⟩⟩
    · exact q3
    · exact q3
    · rw [hw']; exact hq _ q3


/-! ### C59: balances -/

/-- C59.  Calls that do not come from the driver neither create nor destroy money, at any depth, if self-destructing contracts
does not. -/
theorem C59_call {F : Floria ω} {kind : Kind} {p : CallParameters} (h : CallSupported F kind p) (hD : DbOk F.db) (hN : NoDriver F)
    (hsd : ∀ a b w, supply F.db (F.db.selfDestruct a b w).2 = supply F.db w)
    (depth : Nat) (static : Bool) (hs : p.sender ≠ driverAddress)
    (hk : kind = .callCode ∨ kind = .delegateCall → p.recipient ≠ driverAddress) (hd : F.db.code driverAddress w = []) :
    supply F.db (F.call depth static kind p w).2 = supply F.db w := by
  obtain ⟨I, R, hW, hc⟩ := callSupported_works h depth static
  rw [hc]
  have := call_stable (F := { F with interpreter := I }) hW (supply_stable (F := { F with interpreter := I }) hD hN (Q := (· = supply F.db w)) (fun a b x h => (hsd a b x).trans h))
    depth static kind p w ⟨hs, hk⟩ ⟨rfl, hd⟩
  exact this.1

/-- C59.  A transaction does not create money: the balances of all accounts and the price of the gas used make up at most what
the balances were before.  (For gas used up to the gas limit; see `C57_bounds`, `C57_exceeds`.  The driver aside.) -/
theorem C59_transaction (h : Supported P db block t) (hD : DbOk db) (hN : NoDriver (P.context db block t))
    (hs : t.sender ≠ driverAddress) (hd : db.code driverAddress w = [])
    (hsd : ∀ a b w, supply db (db.selfDestruct a b w).2 ≤ supply db w)
    (hp : t.gasPrice.toNat * t.gasLimit.toNat < 2 ^ 256) (hr : P.run db block t w = (receipt, err, w')) (hu : receipt.gasUsed ≤ t.gasLimit) :
    supply db w' + t.gasPrice.toNat * receipt.gasUsed.toNat ≤ supply db w := by
  obtain ⟨I, hS, hrun, _⟩ := supported_sound h
  rw [hrun] at hr
  have hl := hS.tx.gasLimit
  have key : ∀ u : Int, 0 ≤ u → u ≤ t.gasLimit →
      t.gasPrice.toNat * (t.gasLimit - u).toNat + t.gasPrice.toNat * u.toNat = t.gasPrice.toNat * t.gasLimit.toNat := by
    intro u h0 h1
    rw [← Nat.mul_add]
    congr 1
    omega
  rcases supply_run hS hD hN hs hd hp (Q := (· ≤ supply db w - t.gasPrice.toNat * t.gasLimit.toNat))
    (fun a b x hx => Nat.le_trans (hsd a b x) hx) (Nat.le_refl _) hr hu with
    ⟨rfl, rfl⟩ | ⟨hle, ⟨rfl, _, he⟩ | ⟨h0, w3, hq, ⟨h1, h2⟩ | ⟨h2, _⟩⟩⟩
  · have e : t.gasPrice.toNat * Int.toNat 0 = 0 := Nat.mul_zero _
    rw [e]
    omega
  · have e : t.gasPrice.toNat * Int.toNat 0 = 0 := Nat.mul_zero _
    rw [e, he]
    omega
  · rw [h1, h2]; omega
  · have := key _ h0 hu
    omega

/-- C59.  The only money a transaction destroys is the price of the gas used, if self-destructing contracts destroys none and
the transaction's init code is not too long.  (No account's balance overflows, as all money is less than 2^256.) -/
theorem C59_exact (h : Supported P db block t) (hD : DbOk db) (hN : NoDriver (P.context db block t))
    (hs : t.sender ≠ driverAddress) (hd : db.code driverAddress w = [])
    (hsd : ∀ a b w, supply db (db.selfDestruct a b w).2 = supply db w)
    (hp : t.gasPrice.toNat * t.gasLimit.toNat < 2 ^ 256) (hm : supply db w < 2 ^ 256) (hi : t.input.length ≤ 49152 ∨ t.recipient ≠ none)
    (hr : P.run db block t w = (receipt, err, w')) (hu : receipt.gasUsed ≤ t.gasLimit) :
    supply db w' + t.gasPrice.toNat * receipt.gasUsed.toNat = supply db w := by
  obtain ⟨I, hS, hrun, _⟩ := supported_sound h
  rw [hrun] at hr
  have hl := hS.tx.gasLimit
  have key : ∀ u : Int, 0 ≤ u → u ≤ t.gasLimit →
      t.gasPrice.toNat * (t.gasLimit - u).toNat + t.gasPrice.toNat * u.toNat = t.gasPrice.toNat * t.gasLimit.toNat := by
    intro u h0 h1
    rw [← Nat.mul_add]
    congr 1
    omega
  rcases supply_run hS hD hN hs hd hp (Q := (· = supply db w - t.gasPrice.toNat * t.gasLimit.toNat))
    (fun a b x hx => (hsd a b x).trans hx) rfl hr hu with
    ⟨rfl, rfl⟩ | ⟨hle, ⟨rfl, hbad, he⟩ | ⟨h0, w3, hq, ⟨h1, h2⟩ | ⟨_, h2⟩⟩⟩
  · have e : t.gasPrice.toNat * Int.toNat 0 = 0 := Nat.mul_zero _
    rw [e]
    omega
  · exfalso
    have : t.input.length > 49152 := hbad.2.2
    rcases hi with hi | hi
    · omega
    · exact hi hbad.2.1
  · rw [h1, h2]; omega
  · have := key _ h0 hu
    rw [h2 (by omega)]
    omega

theorem sum_zero {α : Type} (f : α → Nat) (l : List α) (h : ∀ a, f a = 0) : (l.map f).sum = 0 := by
  induction l with
  | nil => rfl
  | cons a l ih => rw [List.map_cons, List.sum_cons, ih, h]

theorem supply_zero (db : Db ω) (w : ω) (h : ∀ a, db.balance a w = 0) : supply db w = 0 := by
  unfold supply
  exact sum_zero _ _ (fun n => by rw [h]; rfl)

theorem supply_single {db : Db ω} (hD : DbOk db) (a : Address) (v : U256) (w : ω) (h : ∀ a, db.balance a w = 0) :
    supply db (db.setBalance a v w) = v.toNat := by
  have h1 := supply_setBalance hD a v w
  have e : (0 : U256).toNat = 0 := rfl
  have h2 := supply_zero db w h
  rw [h, e] at h1
  omega

theorem over_supply : supply demoDb overWorld = (1000000 : U256).toNat :=
  supply_single demoDb_ok 1 1000000 { overWorld with balance := fun _ => 0 } (fun _ => rfl)

/-- C59 (finding).  A transaction that is billed for more gas than its limit creates money. -/
theorem C59_minted {vm : Vm} (hvm : Vm.new = .ok vm) :
    supply demoDb overWorld = (1000000 : U256).toNat ∧
    2 ^ 63 < supply demoDb ((demoProcessor vm).run demoDb (demoBlock 2) overTx overWorld).2.2 := by
  refine ⟨over_supply, ?_⟩
  obtain ⟨receipt, w', hr, _, _, _, _, hb⟩ := C57_exceeds hvm
  rw [hr]
  show 2 ^ 63 < supply demoDb w'
  have := balance_le_supply demoDb_ok 1 w'
  omega

/-! ### Examples -/

/-- The hypotheses of C58 and C59 are met by the transaction of `C57_exceeds`... -/
example (vm : Vm) (hvm : Vm.new = .ok vm) :
    Supported (demoProcessor vm) demoDb (demoBlock 2) overTx ∧ DbOk demoDb ∧
    NoDriver ((demoProcessor vm).context demoDb (demoBlock 2) overTx) ∧ overTx.sender ≠ driverAddress ∧ demoDb.code driverAddress overWorld = [] ∧
    demoDb.code overTx.sender overWorld = [] ∧ Admitted demoDb demoKeccak overTx overWorld ∧ Runnable (demoBlock 2) overTx :=
  ⟨.evmzero (demo_txSetting hvm 2 overTx_ok), demoDb_ok, demo_noDriver vm 2 overTx, by decide +kernel, by decide +kernel, by decide +kernel, over_admitted, over_runnable 2⟩

/-- ... and those of `C59_exact` by a transfer of 5 from account 1, which is billed for 21000 gas and a tenth of the rest. -/
def payTx : Transaction := { sender := 1, recipient := some 7, value := 5, gasLimit := 30000, gasPrice := 2 }

theorem pay_billed {vm : Vm} (hvm : Vm.new = .ok vm) :
    ∃ receipt w', (demoProcessor vm).run demoDb (demoBlock 2) payTx overWorld = (receipt, none, w') ∧ receipt.success = true ∧
      receipt.gasUsed = 21900 ∧ demoDb.balance 7 w' = 5 ∧ demoDb.balance 1 w' = 1000000 - 5 - 2 * 21900 := by
  have hok : TxOk payTx := by
    refine ⟨?_, ?_, ?_, ?_⟩
    · show (0 : Int) ≤ 30000 ∧ (30000 : Int) ≤ 2 ^ 54; omega
    · show 0 ≤ 2 ^ 30; omega
    · show 0 < 2 ^ 40; omega
    · show 0 < 2 ^ 40; omega
  obtain ⟨receipt, err, w', hr⟩ : ∃ receipt err w', (demoProcessor vm).run demoDb (demoBlock 2) payTx overWorld = (receipt, err, w') := ⟨_, _, _, rfl⟩
  have ha : Admitted demoDb demoKeccak payTx overWorld := ⟨by decide +kernel, by decide +kernel, by decide +kernel, by decide +kernel⟩
  have hg : Runnable (demoBlock 2) payTx := ⟨by decide +kernel, fun _ h => by cases h⟩
  have hc : callSummary ((demoEval 2 payTx).call 0 false (txCall payTx).1 (txCall payTx).2 (callStart demoDb (demoBlock 2) [4] payTx
      (demoDb.setBalance 1 (demoDb.balance 1 overWorld - payTx.gasPrice * BitVec.ofInt 256 payTx.gasLimit) overWorld))).1 = some (true, 9000, 0) ∧
      ((demoEval 2 payTx).call 0 false (txCall payTx).1 (txCall payTx).2 (callStart demoDb (demoBlock 2) [4] payTx
      (demoDb.setBalance 1 (demoDb.balance 1 overWorld - payTx.gasPrice * BitVec.ofInt 256 payTx.gasLimit) overWorld))).2.balance 7 = 5 ∧
      ((demoEval 2 payTx).call 0 false (txCall payTx).1 (txCall payTx).2 (callStart demoDb (demoBlock 2) [4] payTx
      (demoDb.setBalance 1 (demoDb.balance 1 overWorld - payTx.gasPrice * BitVec.ofInt 256 payTx.gasLimit) overWorld))).2.balance 1 = 939995 := by
    decide +kernel
  rcases C57_receipt (.evmzero (demo_txSetting hvm 2 hok)) hr with ⟨h, _⟩ | ⟨_, w1, hw1, ⟨h, _⟩ | ⟨_, h, _⟩ | ⟨_, w2, w3, res, hcall, hw2, hcase⟩⟩
  · exact absurd ha h
  · exact absurd hg.gas (by omega)
  · exact absurd hg h
  · rw [demo_call hvm 2 payTx (by decide +kernel) (by decide +kernel) (by decide +kernel)] at hcall
    rw [show (demoEval 2 payTx).call 0 false (txCall payTx).1 (txCall payTx).2 (callStart demoDb (demoBlock 2) [4] payTx
      (demoDb.setBalance 1 (demoDb.balance 1 overWorld - payTx.gasPrice * BitVec.ofInt 256 payTx.gasLimit) overWorld)) = (res, w3) by
        rw [← hcall, hw2, hw1]; rfl] at hc
    rcases hcase with ⟨e, rfl, _⟩ | ⟨r, rfl, _, rfl, hcase⟩
    · cases hc.1
    · have h1 : (r.success, r.gasLeft, r.gasRefund) = (true, 9000, 0) := Option.some.inj hc.1
      simp only [Prod.mk.injEq] at h1
      rcases hcase with ⟨h2, _⟩ | ⟨_, h2, _, _, h3, _, h4⟩
      · rw [h1.1] at h2; cases h2
      · have hg : receipt.gasUsed = 21900 := by
          rw [h3, h1.1, h1.2.1, h1.2.2]
          decide +kernel
        refine ⟨receipt, w', hr, h2.trans h1.1, hg, ?_, ?_⟩
        · rw [h4, demoDb_ok.setBalance, if_neg (by decide +kernel)]
          exact hc.2.1
        · rw [h4, hg, demoDb_ok.setBalance, if_pos (show (1 : Address) = payTx.sender from rfl)]
          rw [show demoDb.balance payTx.sender w3 = 939995 from hc.2.2]
          decide +kernel

/-- The hypotheses of `C58_create` are met by a transaction that creates a contract. -/
example (vm : Vm) :
    let t : Transaction := { sender := 1, recipient := none, input := [0x60, 0, 0x60, 0, 0xf3], gasLimit := 100000, gasPrice := 2 }
    Admitted demoDb demoKeccak t overWorld ∧ Runnable (demoBlock 2) t ∧ TxOk t ∧ (demoProcessor vm).createAddress1 t.sender 0 ≠ t.sender := by
  refine ⟨⟨?_, ?_, ?_, ?_⟩, ⟨?_, ?_⟩, ⟨?_, ?_, ?_, ?_⟩, ?_⟩
  · decide +kernel
  · decide +kernel
  · decide +kernel
  · decide +kernel
  · decide +kernel
  · exact fun h => absurd h (by decide)
  · show (0 : Int) ≤ 100000 ∧ (100000 : Int) ≤ 2 ^ 54; omega
  · show 5 ≤ 2 ^ 30; omega
  · show 0 < 2 ^ 40; omega
  · show 0 < 2 ^ 40; omega
  · show (2 ^ 30 + BitVec.ofNat 160 ((1 : Address).toNat % 256 * 1000 + (0 : BitVec 64).toNat % 1000) : Address) ≠ 1
    decide +kernel

end Tosca

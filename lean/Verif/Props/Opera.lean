import Verif.Spec.Opera
import Verif.Spec.GoGeth
import Verif.Props.GoTx
import Verif.Props.LfvmLedger

/-!
# C79: transactions on the opera processor
-/

namespace Tosca

open Tosca.Spec Tosca.Go Tosca.Model.Go Tosca.Model.Geth Tosca.Spec.Geth Tosca.Spec.Go Tosca.Proofs

variable {ω : Type}

/-! ### Intrinsic gas -/

private theorem foldl_keys64 (l : List AccessTuple) : ∀ g : BitVec 64, g.toNat + 1900 * (l.map fun x => x.keys.length).sum < 2 ^ 62 →
    (l.foldl (fun gas tuple => gas + BitVec.ofNat 64 tuple.keys.length * 1900) g).toNat = g.toNat + 1900 * (l.map fun x => x.keys.length).sum := by
  induction l with
  | nil => intro g _; simp
  | cons a l ih =>
    intro g h
    simp only [List.map_cons, List.sum_cons, List.foldl_cons] at h ⊢
    have e : (g + BitVec.ofNat 64 a.keys.length * 1900).toNat = g.toNat + 1900 * a.keys.length := by
      rw [BitVec.toNat_add, BitVec.toNat_mul, BitVec.toNat_ofNat]
      have : (1900 : BitVec 64).toNat = 1900 := by decide
      rw [this]
      omega
    rw [ih _ (by omega), e]
    omega

private theorem s64_of {x : BitVec 64} (h : x.toNat < 2 ^ 63) : s64 x = x.toNat := by
  unfold s64
  rw [BitVec.toInt_eq_toNat_of_lt (by omega)]

/-- C79.  The intrinsic gas of the opera processor is that of the specification (and so that of floria), and is always computed. -/
theorem C79_intrinsic {t : Transaction} (ht : TxOk t) : operaIntrinsicGas t = ((intrinsicGas t : Int), none) := by
  have hi := ht.input
  have ha := ht.accessList
  have hk := ht.keys
  have hs := countP_split t.input
  have hbase : ∃ b : Nat, (if t.recipient.isNone then 53000 else 21000 : Nat) = b ∧ b ≤ 53000 ∧ 21000 ≤ b ∧
      (if t.recipient = none then 53000 else 21000 : BitVec 64) = BitVec.ofNat 64 b := by
    cases t.recipient with
    | none => exact ⟨53000, rfl, by omega, by omega, rfl⟩
    | some r => exact ⟨21000, rfl, by omega, by omega, rfl⟩
  obtain ⟨b, hb1, hb2, hb3, hb4⟩ := hbase
  unfold operaIntrinsicGas intrinsicGas
  rw [hb4, hb1]
  generalize hz : t.input.countP (fun b => b == 0) = z at *
  generalize hn : t.input.countP (fun b => b != 0) = n at *
  have hbn : (BitVec.ofNat 64 b).toNat = b := by rw [BitVec.toNat_ofNat]; omega
  have hnn : (BitVec.ofNat 64 n).toNat = n := by rw [BitVec.toNat_ofNat]; omega
  have hln : (BitVec.ofNat 64 t.input.length).toNat = t.input.length := by rw [BitVec.toNat_ofNat]; omega
  have h16 : (16 : BitVec 64).toNat = 16 := by decide
  have h4 : (4 : BitVec 64).toNat = 4 := by decide
  have hones : (BitVec.allOnes 64).toNat = 2 ^ 64 - 1 := by decide
  have hdata : ∃ g : BitVec 64, (if t.input.length > 0 then
      if (BitVec.allOnes 64 - BitVec.ofNat 64 b) / 16 < BitVec.ofNat 64 n then (BitVec.ofNat 64 b, some OperaErr.outOfGas)
      else
        if (BitVec.allOnes 64 - (BitVec.ofNat 64 b + BitVec.ofNat 64 n * 16)) / 4 < BitVec.ofNat 64 t.input.length - BitVec.ofNat 64 n then
          (BitVec.ofNat 64 b + BitVec.ofNat 64 n * 16, some OperaErr.gasUintOverflow)
        else (BitVec.ofNat 64 b + BitVec.ofNat 64 n * 16 + (BitVec.ofNat 64 t.input.length - BitVec.ofNat 64 n) * 4, none)
      else (BitVec.ofNat 64 b, none)) = (g, none) ∧ g.toNat = b + 4 * z + 16 * n := by
    by_cases hl : t.input.length > 0
    · have e1 : (BitVec.ofNat 64 b + BitVec.ofNat 64 n * 16).toNat = b + 16 * n := by
        rw [BitVec.toNat_add, BitVec.toNat_mul, hbn, hnn, h16]; omega
      have e2 : (BitVec.ofNat 64 t.input.length - BitVec.ofNat 64 n).toNat = z := by
        rw [BitVec.toNat_sub, hln, hnn]; omega
      rw [if_pos hl, if_neg, if_neg]
      · refine ⟨_, rfl, ?_⟩
        rw [BitVec.toNat_add, BitVec.toNat_mul, e1, e2, h4]; omega
      · rw [BitVec.lt_def, BitVec.toNat_udiv, BitVec.toNat_sub, e1, e2, h4, hones]; omega
      · rw [BitVec.lt_def, BitVec.toNat_udiv, BitVec.toNat_sub, hbn, hnn, h16, hones]; omega
    · rw [if_neg hl]
      exact ⟨_, rfl, by rw [hbn]; omega⟩
  obtain ⟨g, hg, hgn⟩ := hdata
  dsimp only
  rw [hg]
  dsimp only
  cases hl : t.accessList with
  | none =>
    simp only [Option.getD_none, List.length_nil, List.map_nil, List.sum_nil]
    rw [s64_of (by omega), hgn]
    simp only [Nat.mul_zero, Nat.add_zero]
  | some l =>
    rw [hl] at ha hk
    simp only [Option.getD_some] at ha hk ⊢
    have e : (g + BitVec.ofNat 64 l.length * 2400).toNat = g.toNat + 2400 * l.length := by
      rw [BitVec.toNat_add, BitVec.toNat_mul, BitVec.toNat_ofNat, show (2400 : BitVec 64).toNat = 2400 from by decide]; omega
    have e2 := foldl_keys64 l (g + BitVec.ofNat 64 l.length * 2400) (by omega)
    rw [s64_of (by omega), e2, e, hgn]

/-! ### Receipts -/

private theorem price_eq {t : Transaction} (ht : TxOk t) : ((u64 t.gasLimit).setWidth 256 * t.gasPrice).toNat = gasPrice t := by
  have h := ht.gasLimit
  have e := u64_toNat h.1 (by omega)
  rw [BitVec.toNat_mul, BitVec.toNat_setWidth, e, Nat.mod_eq_of_lt (a := t.gasLimit.toNat) (by omega), Nat.mul_comm]
  rfl

private theorem price_form {t : Transaction} (ht : TxOk t) : (u64 t.gasLimit).setWidth 256 * t.gasPrice = t.gasPrice * BitVec.ofInt 256 t.gasLimit := by
  have h := ht.gasLimit
  apply BitVec.eq_of_toNat_eq
  rw [price_eq ht, BitVec.toNat_mul, BitVec.toNat_ofInt]
  unfold gasPrice
  congr 2
  omega

private theorem preCheck_cases {keccak : List Byte → U256} {db : Db ω} {t : Transaction} (ht : TxOk t) (w : ω) :
    (∃ e, operaPreCheck keccak db t w = .error e ∧ Rejected keccak db t w e) ∨
    (operaPreCheck keccak db t w = .ok (db.setBalance t.sender (db.balance t.sender w - t.gasPrice * BitVec.ofInt 256 t.gasLimit) w) ∧
      Accepted keccak db t w) := by
  unfold operaPreCheck
  dsimp only
  by_cases h1 : (db.nonce t.sender w).toNat < t.nonce.toNat
  · rw [if_pos h1]; exact Or.inl ⟨_, rfl, .nonceTooHigh h1⟩
  · rw [if_neg h1]
    by_cases h2 : (db.nonce t.sender w).toNat > t.nonce.toNat
    · rw [if_pos h2]; exact Or.inl ⟨_, rfl, .nonceTooLow h2⟩
    · rw [if_neg h2]
      have hn : t.nonce = db.nonce t.sender w := BitVec.eq_of_toNat_eq (by omega)
      by_cases h3 : db.codeHash t.sender w ≠ keccak [] ∧ db.codeHash t.sender w ≠ 0
      · rw [if_pos h3]
        exact Or.inl ⟨_, rfl, .senderNoEOA hn (fun h => by rcases h with h | h <;> [exact h3.2 h; exact h3.1 h])⟩
      · rw [if_neg h3]
        have hp : Person keccak db t.sender w := by
          unfold Person
          by_cases h : db.codeHash t.sender w = 0
          · exact Or.inl h
          · exact Or.inr (Classical.byContradiction fun h' => h3 ⟨h', h⟩)
        unfold operaBuyGas
        dsimp only
        rw [price_eq ht]
        by_cases h4 : (db.balance t.sender w).toNat < gasPrice t
        · rw [if_pos h4]; exact Or.inl ⟨_, rfl, .insufficientFunds hn hp h4⟩
        · rw [if_neg h4]
          refine Or.inr ⟨?_, hn, hp, by omega⟩
          rw [sub_eq, price_form ht]

private theorem start_eq (db : Db ω) (block : BlockParameters) (pre : List Address) (t : Transaction) (w : ω) :
    (match t.recipient with
      | none => (if block.revision ≥ 1 then prepareAccessList db t.sender t.recipient pre (t.accessList.getD []) w else w)
      | some _ =>
        db.setNonce t.sender (db.nonce t.sender (if block.revision ≥ 1 then prepareAccessList db t.sender t.recipient pre (t.accessList.getD []) w else w) + 1)
          (if block.revision ≥ 1 then prepareAccessList db t.sender t.recipient pre (t.accessList.getD []) w else w)) =
    callStart db block pre (listed t) w := by
  rw [← txStart_eq]
  unfold txStart
  have e : setUpAccessList db pre (listed t) w = prepareAccessList db t.sender t.recipient pre (t.accessList.getD []) w := rfl
  rw [e]
  dsimp only
  unfold txKind
  show _ = if (if t.recipient = none then Kind.create else Kind.call) = Kind.call then _ else _
  cases t.recipient with
  | none => rw [if_neg (show ¬ (if (none : Option Address) = none then Kind.create else Kind.call) = Kind.call from by decide)]
  | some r => rw [if_neg (show ¬ some r = none from fun h => by cases h), if_pos rfl]; rfl

private theorem gasLeft_eq {t : Transaction} (ht : TxOk t) (revision : Int) {left : BitVec 64} (err : Option GethErr) (refund : BitVec 64)
    (h : (left.toNat : Int) ≤ t.gasLimit) :
    ((operaGasLeft t revision left err refund).toNat : Int) =
      t.gasLimit - billed (2 ≤ revision) (t.sender = 0) (decide (err = none)) t.gasLimit left.toNat refund.toNat := by
  have hl := ht.gasLimit
  have hu := u64_toNat hl.1 (show t.gasLimit < 2 ^ 63 by omega)
  unfold operaGasLeft billed isInternal
  have hkept : ∃ k : BitVec 64, (if decide (t.sender = 0) = false then left - left / 10 else left) = k ∧
      (k.toNat : Int) = (if decide (t.sender = 0) = true then (left.toNat : Int) else (left.toNat : Int) - (left.toNat : Int) / 10) ∧ k.toNat ≤ left.toNat := by
    refine ⟨_, rfl, ?_⟩
    have hlt := left.isLt
    by_cases hs : t.sender = 0
    · have hd : decide (t.sender = 0) = true := decide_eq_true hs
      rw [hd, if_neg (by decide), if_pos rfl]; exact ⟨rfl, Nat.le_refl _⟩
    · have hd : decide (t.sender = 0) = false := decide_eq_false hs
      rw [hd, if_pos rfl, if_neg (by decide)]
      have h10 : (left / 10).toNat = left.toNat / 10 := by rw [BitVec.toNat_udiv, show (10 : BitVec 64).toNat = 10 from by decide]
      have hsub : (left - left / 10).toNat = left.toNat - left.toNat / 10 := by
        rw [BitVec.toNat_sub_of_le (by rw [BitVec.le_def, h10]; omega), h10]
      rw [hsub]
      omega
  obtain ⟨k, hk, hk2, hk3⟩ := hkept
  dsimp only
  rw [hk, ← hk2]
  by_cases he : err = none
  · have hd : decide (err = none) = true := decide_eq_true he
    rw [if_pos he, hd, if_pos (show true = true from rfl)]
    have hused : (u64 t.gasLimit - k).toNat = t.gasLimit.toNat - k.toNat := by
      rw [BitVec.toNat_sub, hu]; omega
    have hmax : ∃ m : BitVec 64, (if revision < 2 then (u64 t.gasLimit - k) / 2 else (u64 t.gasLimit - k) / 5) = m ∧
        (m.toNat : Int) = (t.gasLimit - k.toNat) / (if decide (2 ≤ revision) = true then 5 else 2) := by
      refine ⟨_, rfl, ?_⟩
      by_cases hr : revision < 2
      · rw [if_pos hr, decide_eq_false (show ¬ (2 ≤ revision) from by omega), if_neg (show ¬ false = true from by decide), BitVec.toNat_udiv, hused, show (2 : BitVec 64).toNat = 2 from by decide]; omega
      · rw [if_neg hr, decide_eq_true (show 2 ≤ revision from by omega), if_pos (show true = true from rfl), BitVec.toNat_udiv, hused, show (5 : BitVec 64).toNat = 5 from by decide]; omega
    obtain ⟨m, hm, hm2⟩ := hmax
    rw [hm, ← hm2]
    have hmle : (m.toNat : Int) ≤ t.gasLimit - k.toNat := by rw [hm2]; split <;> omega
    by_cases hlt : m < refund
    · rw [if_pos hlt, BitVec.toNat_add]
      rw [BitVec.lt_def] at hlt
      omega
    · rw [if_neg hlt, BitVec.toNat_add]
      rw [BitVec.lt_def] at hlt
      omega
  · have hd : decide (err = none) = false := decide_eq_false he
    rw [if_neg he, hd, if_neg (show ¬ false = true from by decide)]
    omega

/-- C79.  What the opera processor answers, and its effect, by the checks a transaction passes and by what geth's EVM makes of it.
(`Rejected`, `Accepted`, `listed`, `outermost`: `Verif/Spec/Opera.lean`; `intrinsicGas`, `callStart`, `billed`: those of C57.) -/
theorem C79_receipt (keccak : List Byte → U256) (pre : List Address) {evm : GethEvm ω} (hevm : GasKept evm) (c : Client ω) (block : BlockParameters)
    {t : Transaction} (ht : TxOk t) {w w' : ω} {receipt : Receipt} {err : Option OperaErr}
    (hr : operaRun keccak pre evm c block t w = (receipt, err, w')) :
    (∃ e, Rejected keccak c.db t w e ∧ receipt = {} ∧ err = some e ∧ w' = w) ∨
    (Accepted keccak c.db t w ∧ ∃ w1, w1 = c.db.setBalance t.sender (c.db.balance t.sender w - t.gasPrice * BitVec.ofInt 256 t.gasLimit) w ∧
      ((t.gasLimit < intrinsicGas t ∧ receipt = { gasUsed := t.gasLimit } ∧ err = some .intrinsicGas ∧ w' = w1) ∨
       (intrinsicGas t ≤ t.gasLimit ∧ err = none ∧ ∃ out s, outermost evm t (t.gasLimit - intrinsicGas t) (callStart c.db block pre (listed t) w1) = (out, s) ∧
          receipt.success = decide (out.err = none) ∧ receipt.output = out.output ∧
          receipt.contractAddress = (if t.recipient = none then some out.created else none) ∧
          (out.gasLeft.toNat : Int) ≤ t.gasLimit - intrinsicGas t ∧
          receipt.gasUsed = billed (2 ≤ block.revision) (t.sender = 0) receipt.success t.gasLimit out.gasLeft.toNat s.refund.toNat ∧
          receipt.logs = c.db.logs w' ∧
          w' = c.db.setBalance t.sender (c.db.balance t.sender s.world + t.gasPrice * (BitVec.ofInt 64 (t.gasLimit - receipt.gasUsed)).setWidth 256) s.world))) := by
  have hl := ht.gasLimit
  unfold operaRun at hr
  dsimp only at hr
  rcases preCheck_cases (keccak := keccak) (db := c.db) ht w with ⟨e, h1, h2⟩ | ⟨h1, h2⟩
  · rw [h1] at hr
    cases hr
    exact Or.inl ⟨e, h2, rfl, rfl, rfl⟩
  · rw [h1, C79_intrinsic ht] at hr
    dsimp only at hr
    refine Or.inr ⟨h2, _, rfl, ?_⟩
    generalize c.db.setBalance t.sender (c.db.balance t.sender w - t.gasPrice * BitVec.ofInt 256 t.gasLimit) w = w1 at *
    by_cases hg : t.gasLimit < (intrinsicGas t : Int)
    · rw [if_pos hg] at hr
      cases hr
      exact Or.inl ⟨hg, rfl, rfl, rfl⟩
    · rw [if_neg hg, i64_id (by omega) (by omega)] at hr
      right
      have hcall : ∃ out s, outermost evm t (t.gasLimit - intrinsicGas t) (callStart c.db block pre (listed t) w1) = (out, s) ∧
          operaCall evm c.db t (t.gasLimit - intrinsicGas t)
            (if block.revision ≥ 1 then prepareAccessList c.db t.sender t.recipient pre (t.accessList.getD []) w1 else w1) = (out, s) ∧
          out.gasLeft.toNat ≤ (u64 (t.gasLimit - intrinsicGas t)).toNat := by
        rw [← start_eq]
        unfold outermost operaCall u64
        cases t.recipient with
        | none => exact ⟨_, _, rfl, rfl, hevm.2 _ _ _ _ _⟩
        | some r => exact ⟨_, _, rfl, rfl, hevm.1 _ _ _ _ _ _⟩
      obtain ⟨out, s, ho, hm, hleft⟩ := hcall
      rw [u64_toNat (by omega) (by omega)] at hleft
      rw [hm] at hr
      dsimp only at hr
      have hgl := gasLeft_eq ht block.revision out.err s.refund (left := out.gasLeft) (by omega)
      have hb : 0 ≤ billed (2 ≤ block.revision) (t.sender = 0) (decide (out.err = none)) t.gasLimit out.gasLeft.toNat s.refund.toNat := by
        unfold billed
        dsimp only
        by_cases hs : decide (t.sender = 0) = true
        · rw [if_pos hs]
          split
          · have : (t.gasLimit - (out.gasLeft.toNat : Int)) / (if decide (2 ≤ block.revision) = true then (5 : Int) else 2) ≤ t.gasLimit - out.gasLeft.toNat := by
              split <;> omega
            omega
          · omega
        · rw [if_neg hs]
          split
          · have : (t.gasLimit - ((out.gasLeft.toNat : Int) - (out.gasLeft.toNat : Int) / 10)) / (if decide (2 ≤ block.revision) = true then (5 : Int) else 2) ≤ t.gasLimit - ((out.gasLeft.toNat : Int) - (out.gasLeft.toNat : Int) / 10) := by
              split <;> omega
            omega
          · omega
      have hs64 : s64 (operaGasLeft t block.revision out.gasLeft out.err s.refund) =
          t.gasLimit - billed (2 ≤ block.revision) (t.sender = 0) (decide (out.err = none)) t.gasLimit out.gasLeft.toNat s.refund.toNat := by
        rw [s64_of (by omega), hgl]
      rw [hs64] at hr
      have hused : i64 (t.gasLimit - (t.gasLimit - billed (2 ≤ block.revision) (t.sender = 0) (decide (out.err = none)) t.gasLimit out.gasLeft.toNat s.refund.toNat)) =
          billed (2 ≤ block.revision) (t.sender = 0) (decide (out.err = none)) t.gasLimit out.gasLeft.toNat s.refund.toNat := by
        rw [i64_id (by omega) (by omega)]; omega
      rw [hused] at hr
      cases hr
      refine ⟨by omega, rfl, out, s, ho, rfl, rfl, rfl, by omega, rfl, rfl, ?_⟩
      unfold operaRefundGas u64
      dsimp only
      rw [BitVec.mul_comm]

/-- C79.  The gas used is never negative and never more than the gas limit. -/
theorem C79_bounds (keccak : List Byte → U256) (pre : List Address) {evm : GethEvm ω} (hevm : GasKept evm) (c : Client ω) (block : BlockParameters)
    {t : Transaction} (ht : TxOk t) {w w' : ω} {receipt : Receipt} {err : Option OperaErr}
    (hr : operaRun keccak pre evm c block t w = (receipt, err, w')) : 0 ≤ receipt.gasUsed ∧ receipt.gasUsed ≤ t.gasLimit := by
  have hl := ht.gasLimit
  rcases C79_receipt keccak pre hevm c block ht hr with ⟨_, _, rfl, _⟩ | ⟨_, w1, _, ⟨_, rfl, _⟩ | ⟨_, _, out, s, _, _, _, _, hg, h2, _⟩⟩
  · exact ⟨Int.le_refl 0, hl.1⟩
  · exact ⟨hl.1, Int.le_refl _⟩
  · rw [h2]
    unfold billed
    dsimp only
    have hb : 0 ≤ (if decide (t.sender = 0) = true then (out.gasLeft.toNat : Int) else (out.gasLeft.toNat : Int) - (out.gasLeft.toNat : Int) / 10) ∧
        (if decide (t.sender = 0) = true then (out.gasLeft.toNat : Int) else (out.gasLeft.toNat : Int) - (out.gasLeft.toNat : Int) / 10) ≤ t.gasLimit := by
      split <;> omega
    generalize (if decide (t.sender = 0) = true then (out.gasLeft.toNat : Int) else (out.gasLeft.toNat : Int) - (out.gasLeft.toNat : Int) / 10) = x at *
    cases receipt.success with
    | false =>
      simp only [Bool.false_eq_true, if_false]
      exact ⟨by omega, by omega⟩
    | true =>
      simp only [if_true]
      have h5 : (t.gasLimit - x) / (if decide (2 ≤ block.revision) = true then (5 : Int) else 2) ≤ t.gasLimit - x := by split <;> omega
      have h6 : 0 ≤ (t.gasLimit - x) / (if decide (2 ≤ block.revision) = true then (5 : Int) else 2) := by split <;> omega
      omega

/-- C79.  A successful transaction is billed for at least four fifths of its intrinsic gas (before London: half). -/
theorem C79_minimum (keccak : List Byte → U256) (pre : List Address) {evm : GethEvm ω} (hevm : GasKept evm) (c : Client ω) (block : BlockParameters)
    {t : Transaction} (ht : TxOk t) {w w' : ω} {receipt : Receipt} {err : Option OperaErr}
    (hr : operaRun keccak pre evm c block t w = (receipt, err, w')) (hs : receipt.success = true) :
    (2 ≤ block.revision → 4 * (intrinsicGas t : Int) ≤ 5 * receipt.gasUsed) ∧
    (block.revision < 2 → (intrinsicGas t : Int) ≤ 2 * receipt.gasUsed) := by
  have hl := ht.gasLimit
  rcases C79_receipt keccak pre hevm c block ht hr with ⟨_, _, rfl, _⟩ | ⟨_, w1, _, ⟨_, rfl, _⟩ | ⟨_, _, out, s, _, _, _, _, hg, h2, _⟩⟩
  · cases hs
  · cases hs
  · rw [h2, hs]
    unfold billed
    dsimp only
    have hb : (if decide (t.sender = 0) = true then (out.gasLeft.toNat : Int) else (out.gasLeft.toNat : Int) - (out.gasLeft.toNat : Int) / 10) ≤
        t.gasLimit - intrinsicGas t := by
      split <;> omega
    generalize (if decide (t.sender = 0) = true then (out.gasLeft.toNat : Int) else (out.gasLeft.toNat : Int) - (out.gasLeft.toNat : Int) / 10) = x at *
    simp only [if_true]
    refine ⟨fun hv => ?_, fun hv => ?_⟩
    · rw [if_pos (by simpa using hv)]
      have : min (s.refund.toNat : Int) ((t.gasLimit - x) / 5) ≤ (t.gasLimit - x) / 5 := Int.min_le_right _ _
      omega
    · rw [if_neg (by simpa using hv)]
      have : min (s.refund.toNat : Int) ((t.gasLimit - x) / 2) ≤ (t.gasLimit - x) / 2 := Int.min_le_right _ _
      omega

/-! ### Opera and floria -/

/-- C79.  Opera and floria give the same receipt, and leave the same state, for a transaction whose call has the same outcome in both (and
does not fail with all its gas consumed), unless their rules differ: floria rejects senders of maximal nonce and (from Shanghai on) long
init code, and records no accesses for transactions without an access list. -/
theorem C79_floria {P : Processor ω} {c : Client ω} {block : BlockParameters} {t : Transaction} {w : ω} (h : Supported P c.db block t)
    {evm : GethEvm ω} (hevm : GasKept evm)
    (hlist : block.revision ≥ 1 → t.accessList ≠ none) (hnonce : (c.db.nonce t.sender w).toNat + 1 < 2 ^ 64)
    (hinit : 4 ≤ block.revision → t.recipient = none → t.input.length ≤ 49152)
    (hsame : ∀ w1, w1 = callStart c.db block (P.precompileList block.revision) t
        (c.db.setBalance t.sender (c.db.balance t.sender w - t.gasPrice * BitVec.ofInt 256 t.gasLimit) w) →
      Runnable block t → SameOutcome t ((P.context c.db block t).call 0 false (txCall t).1 (txCall t).2 w1) (outermost evm t (t.gasLimit - intrinsicGas t) w1))
    {rf ro : Receipt} {ef : Option Err} {eo : Option OperaErr} {wf wo : ω}
    (hf : P.run c.db block t w = (rf, ef, wf)) (ho : operaRun P.keccak (P.precompileList block.revision) evm c block t w = (ro, eo, wo)) :
    ro.success = rf.success ∧ ro.output = rf.output ∧ ro.contractAddress = rf.contractAddress ∧ ro.gasUsed = rf.gasUsed ∧ ro.logs = rf.logs ∧
      wo = wf := by
  have hx := C79_receipt P.keccak (P.precompileList block.revision) hevm c block (supported_tx h) ho
  have hcs : ∀ w, callStart c.db block (P.precompileList block.revision) (listed t) w = callStart c.db block (P.precompileList block.revision) t w := by
    intro w
    have e : listedAccesses block (P.precompileList block.revision) (listed t) = listedAccesses block (P.precompileList block.revision) t := by
      unfold listedAccesses
      by_cases hv : 1 ≤ block.revision
      · rw [if_pos hv, if_pos hv]
        cases ha : t.accessList with
        | none => exact absurd ha (hlist hv)
        | some l =>
          have : (listed t).accessList = some l := by unfold listed; rw [ha]; rfl
          rw [this]
          rfl
      · rw [if_neg hv, if_neg hv]
    unfold callStart
    rw [e]
    rfl
  rcases C57_receipt h hf with ⟨hna, rfl, _, rfl⟩ | ⟨ha, w1, rfl, hb⟩
  · rcases hx with ⟨_, _, rfl, _, rfl⟩ | ⟨hacc, _⟩
    · exact ⟨rfl, rfl, rfl, rfl, rfl, rfl⟩
    · exact absurd ⟨hacc.nonce, hnonce, hacc.person, hacc.funds⟩ hna
  · rcases hx with ⟨e, hrej, _⟩ | ⟨_, w1', rfl, hy⟩
    · exfalso
      cases hrej with
      | nonceTooHigh h => rw [ha.nonce] at h; omega
      | nonceTooLow h => rw [ha.nonce] at h; omega
      | senderNoEOA _ hp => exact hp ha.sender
      | insufficientFunds _ _ hb => exact absurd ha.funds (Nat.not_le.mpr hb)
    · rcases hb with ⟨hg, rfl, _, rfl⟩ | ⟨hg, hnr, _⟩ | ⟨hrun, w2, w3, res, hcall, rfl, hb⟩
      · rcases hy with ⟨_, rfl, _, rfl⟩ | ⟨hg2, _⟩
        · exact ⟨rfl, rfl, rfl, rfl, rfl, rfl⟩
        · omega
      · exact absurd ⟨hg, hinit⟩ hnr
      · have hgas := hrun.gas
        rcases hy with ⟨hg2, _⟩ | ⟨_, _, out, s, hout, o1, o2, o3, _, o4, o5, o6⟩
        · omega
        · rw [hcs] at hout
          have hs := hsame _ rfl hrun
          rw [hcall, hout] at hs
          obtain ⟨r, hr, h1, h2, h3, h4, h5, h6, h7⟩ := hs
          dsimp only at hr h1 h2 h3 h4 h5 h6 h7
          subst hr
          rcases hb with ⟨e, he, _⟩ | ⟨r', hr', _, _, hb⟩
          · cases he
          · cases hr'
            rcases hb with ⟨b1, b2, _⟩ | ⟨_, b1, b2, b3, b4, b5, b6⟩
            · exact absurd ⟨b1, b2⟩ h7
            · have hsucc : ro.success = rf.success := by
                rw [o1, b1]
                cases hr : r.success with
                | true => exact decide_eq_true (h1.mp hr)
                | false => exact decide_eq_false (fun h => by rw [h1.mpr h] at hr; cases hr)
              have hused : ro.gasUsed = rf.gasUsed := by rw [o4, b4, ← b1, hsucc, h2, h3]
              have hw : wo = wf := by rw [o6, b6, hused, h5]
              have hout : ro.output = rf.output := by rw [o2, b2, h4]
              have hadr : ro.contractAddress = rf.contractAddress := by
                rw [o3, b3]
                by_cases hc : t.recipient = none
                · rw [if_pos hc, if_pos hc, h6 hc]
                · rw [if_neg hc, if_neg hc]
              have hlogs : ro.logs = rf.logs := by rw [o5, b5, hw]
              exact ⟨hsucc, hout, hadr, hused, hlogs, hw⟩

/-! ### The state contract -/

private theorem lt_nat {a : BitVec 64} {n : Nat} (hn : n < 2 ^ 64) : (a < BitVec.ofNat 64 n) ↔ a.toNat < n := by
  rw [BitVec.lt_def, BitVec.toNat_ofNat, Nat.mod_eq_of_lt hn]

private theorem sub_nat {a : BitVec 64} {n : Nat} (h : n ≤ a.toNat) : (a - BitVec.ofNat 64 n).toNat = a.toNat - n := by
  have := a.isLt
  rw [BitVec.toNat_sub_of_le (by rw [BitVec.le_def, BitVec.toNat_ofNat]; omega), BitVec.toNat_ofNat, Nat.mod_eq_of_lt (by omega)]

private theorem code_cost {n : Nat} (h : n < 2 ^ 32) : (BitVec.ofNat 64 n * (200 + 3)).toNat = 203 * n := by
  rw [BitVec.toNat_mul, BitVec.toNat_ofNat, show ((200 : BitVec 64) + 3).toNat = 203 from by decide]
  omega

/-- C79.  A call of the state contract by the driver, under opera: with the gas a method costs, the number of arguments it takes, and arguments
permitted for the transaction's origin, it has exactly the documented effect and price; otherwise it fails without effect. -/
theorem C79_state (m : StateMethod) {keccak : List Byte → U256} (hsel : Selectors keccak) (c : Client ω) (origin : Address) {input : List Byte}
    (gas : BitVec 64) (s : GethState ω) (hm : input.take 4 = methodId keccak m.signature) (hl : 4 ≤ input.length)
    (hc : ∀ a, (c.db.code a s.world).length < 2 ^ 32) {r : Except GethErr (BitVec 64)} {s' : GethState ω}
    (hr : operaStateContract keccak (stateDbAdapter c) origin driverAddress input gas s = (r, s')) :
    (input.length = 4 + 32 * m.arity ∧ m.cost c.db input s.world ≤ gas.toNat ∧ OriginSafe origin input m ∧
      (∃ left, r = .ok left ∧ left.toNat = gas.toNat - m.cost c.db input s.world) ∧ s'.world = m.effect c.db input s.world ∧ s'.refund = s.refund) ∨
    (¬ (input.length = 4 + 32 * m.arity ∧ m.cost c.db input s.world ≤ gas.toNat ∧ OriginSafe origin input m) ∧ (∃ e, r = .error e) ∧ s' = s) := by
  unfold operaStateContract at hr
  rw [if_neg (fun h => h rfl), if_neg (by omega)] at hr
  dsimp only at hr
  have hne : ∀ a : StateMethod, a ≠ m → ¬ input.take 4 = methodId keccak a.signature := by
    intro a ha h
    exact ha (hsel a m (by rw [← h, hm]))
  have hlen : (input.drop 4).length = input.length - 4 := List.length_drop
  have fail : ∀ {P : Prop} {e : GethErr}, ¬ P → ((.error e : Except GethErr (BitVec 64)), s) = (r, s') →
      P ∧ (∃ left, r = .ok left ∧ left.toNat = gas.toNat - m.cost c.db input s.world) ∧ s'.world = m.effect c.db input s.world ∧ s'.refund = s.refund ∨
        ¬ P ∧ (∃ e, r = .error e) ∧ s' = s := by
    intro P e h h'
    cases h'
    exact Or.inr ⟨h, ⟨e, rfl⟩, rfl⟩
  suffices h : (input.length = 4 + 32 * m.arity ∧ m.cost c.db input s.world ≤ gas.toNat ∧ OriginSafe origin input m) ∧
      (∃ left, r = .ok left ∧ left.toNat = gas.toNat - m.cost c.db input s.world) ∧ s'.world = m.effect c.db input s.world ∧ s'.refund = s.refund ∨
        ¬ (input.length = 4 + 32 * m.arity ∧ m.cost c.db input s.world ≤ gas.toNat ∧ OriginSafe origin input m) ∧ (∃ e, r = .error e) ∧ s' = s by
    rcases h with ⟨⟨h1, h2, h3⟩, h4, h5, h6⟩ | h
    · exact Or.inl ⟨h1, h2, h3, h4, h5, h6⟩
    · exact Or.inr h
  cases m with
  | setBalance =>
    rw [if_pos (show input.take 4 = methodId keccak "setBalance(address,uint256)" from hm)] at hr
    have hcost : StateMethod.setBalance.cost c.db input s.world = 9000 := rfl
    have har : StateMethod.setBalance.arity = 2 := rfl
    by_cases hg : gas.toNat < 9000
    · rw [if_pos (show gas < (9000 : BitVec 64) from (lt_nat (n := 9000) (by omega)).mpr hg)] at hr
      exact fail (fun h => by omega) hr
    · rw [if_neg (show ¬ gas < (9000 : BitVec 64) from fun h => hg ((lt_nat (n := 9000) (by omega)).mp h))] at hr
      by_cases hn : input.length = 68
      · rw [if_neg (by omega)] at hr
        rw [show addressAt (input.drop 4) 0 = StateMethod.account input 0 from addressAt_eq input 0 (by omega),
          show wordAt (input.drop 4) 32 = StateMethod.argument input 1 from wordAt_eq input 1] at hr
        by_cases ha : StateMethod.account input 0 = origin
        · rw [if_pos ha] at hr
          exact fail (fun h => h.2.2 ha) hr
        · rw [if_neg ha] at hr
          refine Or.inl ⟨⟨hn, by omega, ha⟩, ?_⟩
          have hsub : (gas - 9000).toNat = gas.toNat - 9000 := sub_nat (n := 9000) (by omega)
          generalize hbal : (stateDbAdapter c).getBalance (StateMethod.account input 0) s = bal at hr
          have hbal2 : c.db.balance (StateMethod.account input 0) s.world = bal := hbal
          by_cases hv : bal.toNat ≥ (StateMethod.argument input 1).toNat
          · rw [if_pos hv] at hr
            cases hr
            refine ⟨⟨_, rfl, by rw [hsub, hcost]⟩, ?_, rfl⟩
            show c.db.setBalance _ (sub (c.db.balance (StateMethod.account input 0) s.world) _) _ = c.db.setBalance _ _ _
            rw [hbal2, sub_eq, show bal - (bal - StateMethod.argument input 1) = StateMethod.argument input 1 from by bv_omega]
          · rw [if_neg hv] at hr
            cases hr
            refine ⟨⟨_, rfl, by rw [hsub, hcost]⟩, ?_, rfl⟩
            show c.db.setBalance _ (add (c.db.balance (StateMethod.account input 0) s.world) _) _ = c.db.setBalance _ _ _
            rw [hbal2, add_eq, BitVec.add_comm, BitVec.sub_add_cancel]
      · rw [if_pos (by omega)] at hr
        exact fail (fun h => by omega) hr
  | copyCode =>
    rw [if_neg (show ¬ input.take 4 = methodId keccak "setBalance(address,uint256)" from hne .setBalance (by decide)), if_pos (show input.take 4 = methodId keccak "copyCode(address,address)" from hm)] at hr
    have hcost : StateMethod.copyCode.cost c.db input s.world = 32000 + 203 * (c.db.code (StateMethod.account input 1) s.world).length := rfl
    have har : StateMethod.copyCode.arity = 2 := rfl
    by_cases hg : gas.toNat < 32000
    · rw [if_pos (show gas < (32000 : BitVec 64) from (lt_nat (n := 32000) (by omega)).mpr hg)] at hr
      exact fail (fun h => by omega) hr
    · rw [if_neg (show ¬ gas < (32000 : BitVec 64) from fun h => hg ((lt_nat (n := 32000) (by omega)).mp h))] at hr
      by_cases hn : input.length = 68
      · rw [if_neg (by omega)] at hr
        rw [show addressAt (input.drop 4) 0 = StateMethod.account input 0 from addressAt_eq input 0 (by omega),
          show addressAt (input.drop 4) 32 = StateMethod.account input 1 from addressAt_eq input 1 (by omega)] at hr
        have hsub : (gas - 32000).toNat = gas.toNat - 32000 := sub_nat (n := 32000) (by omega)
        have hcc := code_cost (hc (StateMethod.account input 1))
        rw [show (stateDbAdapter c).getCode (StateMethod.account input 1) s = c.db.code (StateMethod.account input 1) s.world from rfl] at hr
        by_cases ha : gas - 32000 < BitVec.ofNat 64 (c.db.code (StateMethod.account input 1) s.world).length * (200 + 3)
        · rw [if_pos ha] at hr
          rw [BitVec.lt_def, hsub, hcc] at ha
          exact fail (fun h => by omega) hr
        · rw [if_neg ha] at hr
          rw [BitVec.lt_def, hsub, hcc] at ha
          cases hr
          refine Or.inl ⟨⟨hn, by omega, trivial⟩, ⟨_, rfl, ?_⟩, ?_, ?_⟩
          · rw [BitVec.toNat_sub_of_le (by rw [BitVec.le_def, hsub, hcc]; omega), hsub, hcc, hcost]; omega
          · by_cases hx : StateMethod.account input 0 = StateMethod.account input 1
            · rw [if_neg (fun h => h hx), show StateMethod.copyCode.effect c.db input s.world = s.world from if_pos hx.symm]
            · rw [if_pos hx, show StateMethod.copyCode.effect c.db input s.world = _ from if_neg (fun h => hx h.symm)]; rfl
          · by_cases hx : StateMethod.account input 0 = StateMethod.account input 1
            · rw [if_neg (fun h => h hx)]
            · rw [if_pos hx]; rfl
      · rw [if_pos (by omega)] at hr
        exact fail (fun h => by omega) hr
  | swapCode =>
    rw [if_neg (show ¬ input.take 4 = methodId keccak "setBalance(address,uint256)" from hne .setBalance (by decide)), if_neg (show ¬ input.take 4 = methodId keccak "copyCode(address,address)" from hne .copyCode (by decide)), if_pos (show input.take 4 = methodId keccak "swapCode(address,address)" from hm)] at hr
    have hcost : StateMethod.swapCode.cost c.db input s.world =
      64000 + 203 * ((c.db.code (StateMethod.account input 0) s.world).length + (c.db.code (StateMethod.account input 1) s.world).length) / 2 := rfl
    have har : StateMethod.swapCode.arity = 2 := rfl
    have h2 : (2 * 32000 : BitVec 64) = BitVec.ofNat 64 64000 := by decide
    rw [h2] at hr
    by_cases hg : gas.toNat < 64000
    · rw [if_pos (show gas < (BitVec.ofNat 64 64000 : BitVec 64) from (lt_nat (n := 64000) (by omega)).mpr hg)] at hr
      exact fail (fun h => by omega) hr
    · rw [if_neg (show ¬ gas < (BitVec.ofNat 64 64000 : BitVec 64) from fun h => hg ((lt_nat (n := 64000) (by omega)).mp h))] at hr
      by_cases hn : input.length = 68
      · rw [if_neg (by omega)] at hr
        rw [show addressAt (input.drop 4) 0 = StateMethod.account input 0 from addressAt_eq input 0 (by omega),
          show addressAt (input.drop 4) 32 = StateMethod.account input 1 from addressAt_eq input 1 (by omega)] at hr
        have hsub : (gas - BitVec.ofNat 64 64000).toNat = gas.toNat - 64000 := sub_nat (n := 64000) (by omega)
        have hcc0 := code_cost (hc (StateMethod.account input 0))
        have hcc1 := code_cost (hc (StateMethod.account input 1))
        have hl0 := hc (StateMethod.account input 0)
        have hl1 := hc (StateMethod.account input 1)
        rw [show (stateDbAdapter c).getCode (StateMethod.account input 1) s = c.db.code (StateMethod.account input 1) s.world from rfl,
          show (stateDbAdapter c).getCode (StateMethod.account input 0) s = c.db.code (StateMethod.account input 0) s.world from rfl] at hr
        have hcc : ((BitVec.ofNat 64 (c.db.code (StateMethod.account input 0) s.world).length * (200 + 3) +
            BitVec.ofNat 64 (c.db.code (StateMethod.account input 1) s.world).length * (200 + 3)) / 2).toNat =
            203 * ((c.db.code (StateMethod.account input 0) s.world).length + (c.db.code (StateMethod.account input 1) s.world).length) / 2 := by
          rw [BitVec.toNat_udiv, BitVec.toNat_add, hcc0, hcc1, show (2 : BitVec 64).toNat = 2 from by decide, Nat.mod_eq_of_lt (by omega), Nat.mul_add]
        generalize (BitVec.ofNat 64 (c.db.code (StateMethod.account input 0) s.world).length * (200 + 3) +
            BitVec.ofNat 64 (c.db.code (StateMethod.account input 1) s.world).length * (200 + 3)) / 2 = k at hr hcc
        by_cases ha : gas - BitVec.ofNat 64 64000 < k
        · rw [if_pos ha] at hr
          rw [BitVec.lt_def, hsub, hcc] at ha
          exact fail (fun h => by omega) hr
        · rw [if_neg ha] at hr
          rw [BitVec.lt_def, hsub, hcc] at ha
          cases hr
          refine Or.inl ⟨⟨hn, by omega, trivial⟩, ⟨_, rfl, ?_⟩, ?_, ?_⟩
          · rw [BitVec.toNat_sub_of_le (by rw [BitVec.le_def, hsub, hcc]; omega), hsub, hcc, hcost]; omega
          · by_cases hx : StateMethod.account input 0 = StateMethod.account input 1
            · rw [if_neg (fun h => h hx), show StateMethod.swapCode.effect c.db input s.world = s.world from if_pos hx]
            · rw [if_pos hx, show StateMethod.swapCode.effect c.db input s.world = _ from if_neg hx]; rfl
          · by_cases hx : StateMethod.account input 0 = StateMethod.account input 1
            · rw [if_neg (fun h => h hx)]
            · rw [if_pos hx]; rfl
      · rw [if_pos (by omega)] at hr
        exact fail (fun h => by omega) hr
  | setStorage =>
    rw [if_neg (show ¬ input.take 4 = methodId keccak "setBalance(address,uint256)" from hne .setBalance (by decide)), if_neg (show ¬ input.take 4 = methodId keccak "copyCode(address,address)" from hne .copyCode (by decide)), if_neg (show ¬ input.take 4 = methodId keccak "swapCode(address,address)" from hne .swapCode (by decide)), if_pos (show input.take 4 = methodId keccak "setStorage(address,bytes32,bytes32)" from hm)] at hr
    have hcost : StateMethod.setStorage.cost c.db input s.world = 20000 := rfl
    have har : StateMethod.setStorage.arity = 3 := rfl
    by_cases hg : gas.toNat < 20000
    · rw [if_pos (show gas < (20000 : BitVec 64) from (lt_nat (n := 20000) (by omega)).mpr hg)] at hr
      exact fail (fun h => by omega) hr
    · rw [if_neg (show ¬ gas < (20000 : BitVec 64) from fun h => hg ((lt_nat (n := 20000) (by omega)).mp h))] at hr
      by_cases hn : input.length = 100
      · rw [if_neg (by omega)] at hr
        rw [show addressAt (input.drop 4) 0 = StateMethod.account input 0 from addressAt_eq input 0 (by omega),
          show wordAt (input.drop 4) 32 = StateMethod.argument input 1 from wordAt_eq input 1,
          show wordAt (input.drop 4) 64 = StateMethod.argument input 2 from wordAt_eq input 2] at hr
        have hsub : (gas - 20000).toNat = gas.toNat - 20000 := sub_nat (n := 20000) (by omega)
        cases hr
        exact Or.inl ⟨⟨hn, by omega, trivial⟩, ⟨_, rfl, by rw [hsub, hcost]⟩, rfl, rfl⟩
      · rw [if_pos (by omega)] at hr
        exact fail (fun h => by omega) hr
  | incNonce =>
    rw [if_neg (show ¬ input.take 4 = methodId keccak "setBalance(address,uint256)" from hne .setBalance (by decide)), if_neg (show ¬ input.take 4 = methodId keccak "copyCode(address,address)" from hne .copyCode (by decide)), if_neg (show ¬ input.take 4 = methodId keccak "swapCode(address,address)" from hne .swapCode (by decide)), if_neg (show ¬ input.take 4 = methodId keccak "setStorage(address,bytes32,bytes32)" from hne .setStorage (by decide)), if_pos (show input.take 4 = methodId keccak "incNonce(address,uint256)" from hm)] at hr
    have hcost : StateMethod.incNonce.cost c.db input s.world = 9000 := rfl
    have har : StateMethod.incNonce.arity = 2 := rfl
    by_cases hg : gas.toNat < 9000
    · rw [if_pos (show gas < (9000 : BitVec 64) from (lt_nat (n := 9000) (by omega)).mpr hg)] at hr
      exact fail (fun h => by omega) hr
    · rw [if_neg (show ¬ gas < (9000 : BitVec 64) from fun h => hg ((lt_nat (n := 9000) (by omega)).mp h))] at hr
      by_cases hn : input.length = 68
      · rw [if_neg (by omega)] at hr
        rw [show addressAt (input.drop 4) 0 = StateMethod.account input 0 from addressAt_eq input 0 (by omega),
          show wordAt (input.drop 4) 32 = StateMethod.argument input 1 from wordAt_eq input 1] at hr
        by_cases ha : StateMethod.account input 0 = origin
        · rw [if_pos ha] at hr
          exact fail (fun h => h.2.2.1 ha) hr
        · rw [if_neg ha] at hr
          by_cases hv : (StateMethod.argument input 1).toNat ≥ 256
          · rw [if_pos hv] at hr
            exact fail (fun h => by have := h.2.2.2.2; omega) hr
          · rw [if_neg hv] at hr
            by_cases h0 : (StateMethod.argument input 1).toNat = 0
            · rw [if_pos h0] at hr
              exact fail (fun h => by have := h.2.2.2.1; omega) hr
            · rw [if_neg h0] at hr
              have hsub : (gas - 9000).toNat = gas.toNat - 9000 := sub_nat (n := 9000) (by omega)
              cases hr
              refine Or.inl ⟨⟨hn, by omega, ha, by omega, by omega⟩, ⟨_, rfl, by rw [hsub, hcost]⟩, ?_, rfl⟩
              show c.db.setNonce _ (c.db.nonce _ s.world + (StateMethod.argument input 1).setWidth 64) s.world = _
              rw [show (StateMethod.argument input 1).setWidth 64 = BitVec.ofNat 64 (StateMethod.argument input 1).toNat from
                BitVec.eq_of_toNat_eq (by rw [BitVec.toNat_setWidth, BitVec.toNat_ofNat])]
              rfl
      · rw [if_pos (by omega)] at hr
        exact fail (fun h => by omega) hr

/-- C79.  Other callers of the state contract, and calls that select none of its methods, fail without effect. -/
theorem C79_state_others {σ : Type} (keccak : List Byte → U256) (D : StateDB σ) (origin caller : Address) (input : List Byte) (gas : BitVec 64) (s : σ)
    (h : caller ≠ driverAddress ∨ input.length < 4 ∨ ∀ m : StateMethod, input.take 4 ≠ methodId keccak m.signature) :
    operaStateContract keccak D origin caller input gas s = (.error .executionReverted, s) := by
  unfold operaStateContract
  by_cases h1 : caller ≠ driverAddress
  · rw [if_pos h1]
  · rw [if_neg h1]
    by_cases h2 : input.length < 4
    · rw [if_pos h2]
    · rw [if_neg h2]
      rcases h with h | h | h
      · exact absurd h h1
      · exact absurd h h2
      · dsimp only
        rw [if_neg (show ¬ input.take 4 = methodId keccak "setBalance(address,uint256)" from h .setBalance),
          if_neg (show ¬ input.take 4 = methodId keccak "copyCode(address,address)" from h .copyCode),
          if_neg (show ¬ input.take 4 = methodId keccak "swapCode(address,address)" from h .swapCode),
          if_neg (show ¬ input.take 4 = methodId keccak "setStorage(address,bytes32,bytes32)" from h .setStorage),
          if_neg (show ¬ input.take 4 = methodId keccak "incNonce(address,uint256)" from h .incNonce)]

/-- C79.  The state contract does the same under opera and under floria, where it is permitted in both: then either both fail without effect,
or both succeed with the same gas left and the same state. -/
theorem C79_state_floria (m : StateMethod) {keccak : List Byte → U256} (hsel : Selectors keccak) (c : Client ω) (origin : Address) {input : List Byte}
    (gas : BitVec 64) (s : GethState ω) (hm : input.take 4 = methodId keccak m.signature) (hl : 4 ≤ input.length) (hg : gas.toNat ≤ 2 ^ 54)
    (hc : ∀ a, (c.db.code a s.world).length < 2 ^ 32) (hboth : m.Allowed driverAddress input ↔ OriginSafe origin input m)
    {r : Except GethErr (BitVec 64)} {s' : GethState ω}
    (hr : operaStateContract keccak (stateDbAdapter c) origin driverAddress input gas s = (r, s')) :
    handleStateContract keccak c.db driverAddress stateContractAddress input gas.toNat s.world =
      (match r with
        | .ok left => some { success := true, gasLeft := (left.toNat : Int) }
        | .error _ => some {}, s'.world) := by
  rw [state_method m hsel hm hl (by omega) (by omega) hc]
  rcases C79_state m hsel c origin gas s hm hl hc hr with ⟨h1, h2, h3, ⟨left, rfl, h4⟩, h5, _⟩ | ⟨hn, ⟨e, rfl⟩, rfl⟩
  · rw [if_pos ⟨h1, by omega, hboth.mpr h3⟩, h5]
    show (some ({ success := true, gasLeft := _ } : CallRes), _) = (some { success := true, gasLeft := _ }, _)
    rw [h4]
    rw [Int.ofNat_sub h2]
  · rw [if_neg (fun h => hn ⟨h.1, by have := h.2.1; omega, hboth.mp h.2.2⟩)]

/-! ### Concrete cases -/

/-- A client. -/
def operaClient : Client DemoWorld where
  db := smallDb
  committedStorage _ _ _ := 0
  isAddressInAccessList _ _ := true
  isSlotInAccessList _ _ _ := (true, true)
  hasSelfDestructed _ _ := false

/-- An EVM that knows payments only. -/
def payingEvm : GethEvm DemoWorld where
  call sender recipient _ gas value s :=
    match transferred smallDb value sender recipient s.world with
    | some w => ({ gasLeft := gas }, { s with world := w })
    | none => ({ err := some .insufficientBalance }, s)
  create _ _ _ _ s := ({ err := some .outOfGas }, s)

theorem payingEvm_kept : GasKept payingEvm := by
  refine ⟨fun a b i g v s => ?_, fun a i g v s => Nat.zero_le _⟩
  show (match transferred smallDb v a b s.world with
    | some w => (({ gasLeft := g } : GethOut), { s with world := w })
    | none => ({ err := some .insufficientBalance }, s)).1.gasLeft.toNat ≤ _
  split
  · exact Nat.le_refl _
  · exact Nat.zero_le _

/-- A payment of 5 to account 7, at a gas price of 2. -/
def operaTx : Transaction := { sender := 1, recipient := some 7, gasLimit := 31000, gasPrice := 2, value := 5, accessList := some [] }

theorem operaTx_ok : TxOk operaTx := ⟨by decide, by decide, by decide, by decide⟩

theorem operaTx_supported : Supported lfvmProcessor smallDb (demoBlock 5) operaTx := .lfvm (lfvm_txSetting operaTx_ok (by decide))

/-- 10000 of its gas is left over, of which a tenth is lost. -/
example : (operaRun demoKeccak [] payingEvm operaClient (demoBlock 5) operaTx lfvmWorld).1 = { success := true, gasUsed := 22000 } ∧
    smallDb.balance 1 (operaRun demoKeccak [] payingEvm operaClient (demoBlock 5) operaTx lfvmWorld).2.2 = 1000000 - 5 - 2 * 22000 ∧
    smallDb.balance 7 (operaRun demoKeccak [] payingEvm operaClient (demoBlock 5) operaTx lfvmWorld).2.2 = 5 := by
  refine ⟨?_, ?_, ?_⟩ <;> decide +kernel

/-- So it is on floria. -/
example {rf : Receipt} {ef : Option Err} {wf : DemoWorld} (hf : lfvmProcessor.run smallDb (demoBlock 5) operaTx lfvmWorld = (rf, ef, wf)) :
    rf.success = true ∧ rf.gasUsed = 22000 ∧ smallDb.balance 7 wf = 5 := by
  obtain ⟨h1, _, _, h4, _, h6⟩ := C79_floria (c := operaClient) (evm := payingEvm) (w := lfvmWorld) operaTx_supported payingEvm_kept
    (fun _ h => by cases h) (by decide +kernel) (fun _ h => by cases h) (fun w1 hw1 _ => by
      have hp := C62_payment (F := lfvmProcessor.context smallDb (demoBlock 5) operaTx) (depth := 0) (static := false) (p := (txCall operaTx).2) (w := w1)
        (lfvm_floria 5 operaTx) (lfvm_callSetting (by decide) (by decide)) (by decide) (by omega)
        (by subst hw1; show smallDb.code 7 _ = []; decide +kernel) (by decide +kernel)
        (show (if (7 : Address) = 4 then some demoEcho else none) = none from rfl) (by decide) (by decide) (by decide)
      have ht : (transferred smallDb 5 1 7 w1).isSome = true := by subst hw1; decide +kernel
      obtain ⟨w2, h2⟩ := Option.isSome_iff_exists.mp ht
      have e1 : (lfvmProcessor.context smallDb (demoBlock 5) operaTx).call 0 false (txCall operaTx).1 (txCall operaTx).2 w1 =
          (.ok { success := true, gasLeft := 10000 }, w2) := by
        refine hp.trans ?_
        show afterTransfer (transferred smallDb 5 1 7 w1) w1 _ = _
        rw [h2]
        rfl
      have e2 : outermost payingEvm operaTx (operaTx.gasLimit - intrinsicGas operaTx) w1 = ({ gasLeft := 10000 }, { world := w2 }) := by
        show (match transferred smallDb 5 1 7 w1 with
          | some w => (({ gasLeft := BitVec.ofInt 64 10000 } : GethOut), ({ world := w } : GethState DemoWorld))
          | none => ({ err := some .insufficientBalance }, { world := w1 })) = _
        rw [h2]
        rfl
      show SameOutcome operaTx ((lfvmProcessor.context smallDb (demoBlock 5) operaTx).call 0 false (txCall operaTx).1 (txCall operaTx).2 w1) _
      rw [e1, e2]
      exact ⟨_, rfl, ⟨fun _ => rfl, fun _ => rfl⟩, rfl, rfl, rfl, rfl, fun h => (by cases h), fun h => (by cases h.1)⟩) hf rfl
  rw [← h1, ← h4, ← h6]
  refine ⟨?_, ?_, ?_⟩ <;> decide +kernel

/-- A transaction that costs more than its sender has is not run. -/
example : ∃ e, Rejected demoKeccak smallDb { operaTx with gasPrice := 1000 } lfvmWorld e ∧
    (operaRun demoKeccak [] payingEvm operaClient (demoBlock 5) { operaTx with gasPrice := 1000 } lfvmWorld).2.1 = some e :=
  ⟨.insufficientFunds, .insufficientFunds (by decide +kernel) (Or.inr (by decide +kernel)) (by decide +kernel), by decide +kernel⟩

/-- A transaction with too little gas is an error, but its sender pays. -/
example : (operaRun demoKeccak [] payingEvm operaClient (demoBlock 5) { operaTx with gasLimit := 20000 } lfvmWorld).2.1 = some .intrinsicGas ∧
    smallDb.balance 1 (operaRun demoKeccak [] payingEvm operaClient (demoBlock 5) { operaTx with gasLimit := 20000 } lfvmWorld).2.2 = 1000000 - 40000 := by
  refine ⟨?_, ?_⟩ <;> decide +kernel

/-- The driver sets the balance of account 7, which a transaction of account 1 may do, and one of account 7 may not. -/
example : ∃ left s, operaStateContract headHash (stateDbAdapter operaClient) 1 driverAddress setBalanceInput 9100 { world := lfvmWorld } = (.ok left, s) ∧
    left.toNat = 100 ∧ s.world = smallDb.setBalance 7 10 lfvmWorld := by
  have h4 : setBalanceInput.take 4 = methodId headHash StateMethod.setBalance.signature := by decide +kernel
  have hl : setBalanceInput.length = 68 := by decide +kernel
  have e1 : StateMethod.account setBalanceInput 0 = 7 := by decide +kernel
  have e2 : StateMethod.argument setBalanceInput 1 = 10 := by decide +kernel
  generalize setBalanceInput = input at h4 hl e1 e2
  have hc : ∀ a, (smallDb.code a lfvmWorld).length < 2 ^ 32 := fun a => by have := small_code a lfvmWorld; omega
  have hs : OriginSafe 1 input .setBalance := by show StateMethod.account input 0 ≠ 1; rw [e1]; decide
  rcases hr : operaStateContract headHash (stateDbAdapter operaClient) 1 driverAddress input 9100 { world := lfvmWorld } with ⟨r, s'⟩
  rcases C79_state .setBalance headHash_selectors operaClient 1 9100 { world := lfvmWorld } h4 (by omega) hc hr with
    ⟨_, _, _, ⟨left, h1, h2⟩, h3, _⟩ | ⟨hn, _⟩
  · subst h1
    refine ⟨left, s', rfl, h2.trans (show (9100 : BitVec 64).toNat - 9000 = 100 from by decide), h3.trans ?_⟩
    show smallDb.setBalance _ _ _ = _
    rw [e1, e2]
  · exact absurd ⟨hl, show 9000 ≤ (9100 : BitVec 64).toNat from by decide, hs⟩ hn

example : ∃ e, operaStateContract headHash (stateDbAdapter operaClient) 7 driverAddress setBalanceInput 9100 { world := lfvmWorld } =
    (.error e, { world := lfvmWorld }) := by
  have h4 : setBalanceInput.take 4 = methodId headHash StateMethod.setBalance.signature := by decide +kernel
  have hl : setBalanceInput.length = 68 := by decide +kernel
  have e1 : StateMethod.account setBalanceInput 0 = 7 := by decide +kernel
  generalize setBalanceInput = input at h4 hl e1
  have hc : ∀ a, (smallDb.code a lfvmWorld).length < 2 ^ 32 := fun a => by have := small_code a lfvmWorld; omega
  rcases C79_state .setBalance headHash_selectors operaClient 7 9100 { world := lfvmWorld } h4 (by omega) hc rfl with
    ⟨_, _, hs, _⟩ | ⟨_, ⟨e, he⟩, hs⟩
  · exact absurd e1 hs
  · exact ⟨e, Prod.ext he hs⟩

end Tosca

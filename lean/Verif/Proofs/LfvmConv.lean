import Verif.Proofs.LfvmStep
import Verif.Proofs.Jump
import Verif.Proofs.Push

/-!
# The long-form EVM: the converter without super-instructions
-/

namespace Tosca.Proofs.Lfvm

open Tosca.Spec Tosca.Model.Lfvm

/-- `b'` continues `b`. -/
structure Ext (b b' : CodeBuilder) : Prop where
  pos : b.nextPos ≤ b'.nextPos
  len : b.code.length ≤ b'.code.length
  fit : b'.nextPos ≤ b'.code.length
  same : ∀ j, j < b.nextPos → b'.code[j]? = b.code[j]?

theorem Ext.refl {b : CodeBuilder} (h : b.nextPos ≤ b.code.length) : Ext b b := ⟨Nat.le_refl _, Nat.le_refl _, h, fun _ _ => rfl⟩

theorem Ext.trans {a b c : CodeBuilder} (h : Ext a b) (h' : Ext b c) : Ext a c :=
  ⟨Nat.le_trans h.pos h'.pos, Nat.le_trans h.len h'.len, h'.fit, fun j hj => (h'.same j (by have := h.pos; omega)).trans (h.same j hj)⟩

theorem appendOp_ok {b : CodeBuilder} {op : Nat} {arg : BitVec 16} (h : b.nextPos < b.code.length) :
    ∃ b', b.appendOp op arg = some b' ∧ Ext b b' ∧ b'.nextPos = b.nextPos + 1 ∧ b'.code.length = b.code.length ∧
      b'.code[b.nextPos]? = some ⟨op, arg⟩ := by
  refine ⟨_, if_pos h, ⟨?_, ?_, ?_, ?_⟩, rfl, by simp, by simp [h]⟩
  · show b.nextPos ≤ b.nextPos + 1; omega
  · simp
  · simp; omega
  · intro j hj
    show (b.code.set _ _)[j]? = _
    rw [List.getElem?_set_ne (by omega)]

theorem appendCode_ok {b : CodeBuilder} {op : Nat} (h : b.nextPos < b.code.length) :
    ∃ b' arg, b.appendCode op = some b' ∧ Ext b b' ∧ b'.nextPos = b.nextPos + 1 ∧ b'.code.length = b.code.length ∧
      b'.code[b.nextPos]? = some ⟨op, arg⟩ := by
  refine ⟨_, (b.code.getD b.nextPos {}).arg, if_pos h, ⟨?_, ?_, ?_, ?_⟩, rfl, by simp, by simp [h]⟩
  · show b.nextPos ≤ b.nextPos + 1; omega
  · simp
  · simp; omega
  · intro j hj
    show (b.code.set _ _)[j]? = _
    rw [List.getElem?_set_ne (by omega)]

theorem padLoop_ok (n : Nat) : ∀ (code : List Instruction) (i : Nat), i + n ≤ code.length →
    ∃ code', CodeBuilder.padLoop code i n = some code' ∧ code'.length = code.length ∧ (∀ j, j < i → code'[j]? = code[j]?) ∧
      ∀ j, i ≤ j → j < i + n → ∃ a, code'[j]? = some ⟨Op.NOOP, a⟩ := by
  induction n with
  | zero => intro code i _; exact ⟨code, rfl, rfl, fun _ _ => rfl, fun j h1 h2 => absurd h2 (by omega)⟩
  | succ n ih =>
    intro code i h
    obtain ⟨c', e, hl, h1, h2⟩ := ih (code.set i { code.getD i {} with opcode := Op.NOOP }) (i + 1) (by simp; omega)
    refine ⟨c', ?_, by simpa using hl, fun j hj => ?_, fun j hj1 hj2 => ?_⟩
    · unfold CodeBuilder.padLoop
      rw [if_pos (by omega), e]
    · rw [h1 j (by omega), List.getElem?_set_ne (by omega)]
    · by_cases hji : j = i
      · subst hji
        refine ⟨(code.getD j {}).arg, ?_⟩
        rw [h1 j (by omega), List.getElem?_set_self (by omega)]
      · exact h2 j (by omega) (by omega)

theorem pad_ok {b : CodeBuilder} {pos : Nat} (h : b.nextPos ≤ pos) (hl : pos ≤ b.code.length) :
    ∃ b', b.padNoOpsUntil pos = some b' ∧ Ext b b' ∧ b'.nextPos = pos ∧ b'.code.length = b.code.length ∧
      ∀ j, b.nextPos ≤ j → j < pos → ∃ a, b'.code[j]? = some ⟨Op.NOOP, a⟩ := by
  obtain ⟨c', e, hlen, h1, h2⟩ := padLoop_ok (pos - b.nextPos) b.code b.nextPos (by omega)
  refine ⟨⟨c', pos⟩, ?_, ⟨h, by show _ ≤ c'.length; omega, by show pos ≤ c'.length; omega, h1⟩, rfl, hlen, fun j hj1 hj2 => h2 j hj1 (by omega)⟩
  unfold CodeBuilder.padNoOpsUntil
  rw [e]
  rfl

/-! ## PUSH -/

/-- The bytes behind a PUSH, packed in the arguments. -/
def Packed (C : List Instruction) (p : Nat) (data : List Byte) (n : Nat) : Prop :=
  ∀ k, k < n → packedByte (C.drop p) k = data.getD k 0

theorem packedByte_drop (C : List Instruction) (p k : Nat) :
    packedByte (C.drop p) k = if k % 2 = 0 then ((C.getD (p + k / 2) {}).arg >>> 8).setWidth 8 else (C.getD (p + k / 2) {}).arg.setWidth 8 := by
  unfold packedByte
  simp only [List.getD_eq_getElem?_getD, List.getElem?_drop]

theorem pair_hi (a b : Byte) : ((pair a b) >>> 8).setWidth 8 = a := by
  unfold pair
  apply BitVec.eq_of_getLsbD_eq
  intro i hi
  simp only [BitVec.getLsbD_setWidth, BitVec.getLsbD_ushiftRight, BitVec.getLsbD_or, BitVec.getLsbD_shiftLeft]
  simp [hi, show 8 + i < 16 by omega, show i < 16 by omega, show ¬ 8 + i < 8 by omega]

theorem pair_lo (a b : Byte) : (pair a b).setWidth 8 = b := by
  unfold pair
  apply BitVec.eq_of_getLsbD_eq
  intro i hi
  simp only [BitVec.getLsbD_setWidth, BitVec.getLsbD_or, BitVec.getLsbD_shiftLeft]
  simp [hi, show i < 16 by omega]

theorem high_hi (a : Byte) : (((a.setWidth 16 <<< 8 : BitVec 16)) >>> 8).setWidth 8 = a := by
  have := pair_hi a 0
  unfold pair at this
  simpa using this

theorem packLoop_ok (data : List Byte) (n : Nat) (fuel : Nat) : ∀ (b : CodeBuilder) (i : Nat), (n - i) / 2 ≤ fuel →
    b.nextPos + (n - i) / 2 ≤ b.code.length →
    ∃ b', packLoop b data n i fuel = some b' ∧ Ext b b' ∧ b'.nextPos = b.nextPos + (n - i) / 2 ∧ b'.code.length = b.code.length ∧
      ∀ j, j < (n - i) / 2 → b'.code[b.nextPos + j]? = some ⟨Op.DATA, pair (data.getD (i + 2 * j) 0) (data.getD (i + 2 * j + 1) 0)⟩ := by
  induction fuel with
  | zero =>
    intro b i hf hl
    exact ⟨b, rfl, .refl (by omega), by omega, rfl, fun j hj => absurd hj (by omega)⟩
  | succ fuel ih =>
    intro b i hf hl
    unfold packLoop
    by_cases h : i + 1 < n
    · rw [if_pos h]
      obtain ⟨b1, e1, x1, n1, l1, d1⟩ := appendOp_ok (b := b) (op := Op.DATA) (arg := pair (data.getD i 0) (data.getD (i + 1) 0)) (by omega)
      obtain ⟨b2, e2, x2, n2, l2, d2⟩ := ih b1 (i + 2) (by omega) (by omega)
      refine ⟨b2, ?_, x1.trans x2, by omega, by omega, fun j hj => ?_⟩
      · unfold CodeBuilder.appendData
        rw [e1]
        exact e2
      · cases j with
        | zero =>
          rw [x2.same _ (by omega)]
          exact d1
        | succ j =>
          have := d2 j (by omega)
          rw [n1] at this
          rw [show b.nextPos + (j + 1) = b.nextPos + 1 + j by omega, this, show i + 2 + 2 * j = i + 2 * (j + 1) by omega]
    · rw [if_neg h]
      exact ⟨b, rfl, .refl (by omega), by omega, rfl, fun j hj => absurd hj (by omega)⟩

theorem rightPadCode_ok {b : CodeBuilder} (e : Nat) (h : b.nextPos ≤ b.code.length) :
    Ext b { b with code := rightPadCode b.code (b.code.length + e) } ∧ (rightPadCode b.code (b.code.length + e)).length = b.code.length + e := by
  have hl : (rightPadCode b.code (b.code.length + e)).length = b.code.length + e := by
    unfold rightPadCode; simp
  refine ⟨⟨Nat.le_refl _, by show _ ≤ (rightPadCode _ _).length; omega, by show _ ≤ (rightPadCode _ _).length; dsimp only; omega, fun j hj => ?_⟩, hl⟩
  show (rightPadCode _ _)[j]? = _
  unfold rightPadCode
  rw [List.take_of_length_le (by omega), List.getElem?_append_left (by omega)]

theorem pushData_getD (code : List Byte) (pos n k : Nat) (hk : k < n) :
    (if code.length < pos + n + 2 then rightPadBytes (code.drop (pos + 1)) (n + 1) else (code.drop (pos + 1)).take n).getD k 0 =
      byteAt code (pos + 1 + k) := by
  unfold byteAt
  simp only [List.getD_eq_getElem?_getD]
  split
  · unfold rightPadBytes
    by_cases h : k < ((code.drop (pos + 1)).take (n + 1)).length
    · rw [List.getElem?_append_left h, List.getElem?_take_of_lt (by omega), List.getElem?_drop]
    · rw [List.getElem?_append_right (by omega)]
      have hlen : code.length ≤ pos + 1 + k := by
        rw [List.length_take, List.length_drop] at h
        omega
      rw [List.getElem?_eq_none (l := code) hlen, List.getElem?_replicate]
      split <;> rfl
  · rw [List.getElem?_take_of_lt hk, List.getElem?_drop]

theorem appendPush_ok {b : CodeBuilder} {pos n : Nat} {code : List Byte} (h1 : 1 ≤ n) (hpos : pos < code.length) (hb : b.nextPos ≤ pos)
    (hl : code.length ≤ b.code.length) :
    ∃ b', appendPush b pos code n = some b' ∧ Ext b b' ∧ b'.nextPos = b.nextPos + (n / 2 + n % 2) ∧
      (∃ a, b'.code[b.nextPos]? = some ⟨Op.PUSH1 + (n - 1), a⟩) ∧
      (∀ j, b.nextPos < j → j < b'.nextPos → ∃ a, b'.code[j]? = some ⟨Op.DATA, a⟩) ∧
      ∀ k, k < n → packedByte (b'.code.drop b.nextPos) k = byteAt code (pos + 1 + k) := by
  -- the builder with enough room
  obtain ⟨b0, hb0, x0, n0, room⟩ : ∃ b0 : CodeBuilder,
      (if code.length < pos + n + 2 ∧ (pos + n + 2 - code.length) / 2 + (if (pos + n + 2 - code.length) % 2 > 0 then 1 else 0) > 0 then
        { b with code := rightPadCode b.code (b.code.length + ((pos + n + 2 - code.length) / 2 + (if (pos + n + 2 - code.length) % 2 > 0 then 1 else 0))) }
        else b) = b0 ∧ Ext b b0 ∧ b0.nextPos = b.nextPos ∧ b.nextPos + (n / 2 + n % 2) ≤ b0.code.length := by
    by_cases hs : code.length < pos + n + 2
    · have hpos' : (pos + n + 2 - code.length) / 2 + (if (pos + n + 2 - code.length) % 2 > 0 then 1 else 0) > 0 := by
        split <;> omega
      obtain ⟨x, hx⟩ := rightPadCode_ok (b := b) ((pos + n + 2 - code.length) / 2 + (if (pos + n + 2 - code.length) % 2 > 0 then 1 else 0)) (by omega)
      refine ⟨_, if_pos ⟨hs, hpos'⟩, x, rfl, ?_⟩
      show _ ≤ (rightPadCode _ _).length
      rw [hx]
      split <;> omega
    · exact ⟨b, if_neg fun hx => hs hx.1, .refl (by omega), rfl, by omega⟩
  generalize hdata : (if code.length < pos + n + 2 then rightPadBytes (code.drop (pos + 1)) (n + 1) else (code.drop (pos + 1)).take n) = data
  have hget : ∀ k, k < n → data.getD k 0 = byteAt code (pos + 1 + k) := fun k hk => by rw [← hdata]; exact pushData_getD code pos n k hk
  unfold appendPush
  dsimp only
  rw [hb0, hdata]
  -- the first instruction
  obtain ⟨b1, a1, e1, x1, n1, l1, d1, p1⟩ : ∃ b1 a, (if n = 1 then b0.appendOp Op.PUSH1 ((data.getD 0 0).setWidth 16 <<< 8)
      else b0.appendOp (Op.PUSH1 + (n - 1)) (pair (data.getD 0 0) (data.getD 1 0))) = some b1 ∧ Ext b0 b1 ∧ b1.nextPos = b0.nextPos + 1 ∧
        b1.code.length = b0.code.length ∧ b1.code[b0.nextPos]? = some ⟨Op.PUSH1 + (n - 1), a⟩ ∧
        ((a >>> 8).setWidth 8 = data.getD 0 0 ∧ (1 < n → a.setWidth 8 = data.getD 1 0)) := by
    by_cases hn : n = 1
    · subst hn
      obtain ⟨b1, e1, x1, n1, l1, d1⟩ := appendOp_ok (b := b0) (op := Op.PUSH1) (arg := (data.getD 0 0).setWidth 16 <<< 8) (by omega)
      exact ⟨b1, _, by rw [if_pos rfl]; exact e1, x1, n1, l1, d1, high_hi _, fun h => absurd h (by omega)⟩
    · obtain ⟨b1, e1, x1, n1, l1, d1⟩ := appendOp_ok (b := b0) (op := Op.PUSH1 + (n - 1)) (arg := pair (data.getD 0 0) (data.getD 1 0)) (by omega)
      exact ⟨b1, _, by rw [if_neg hn]; exact e1, x1, n1, l1, d1, pair_hi _ _, fun _ => pair_lo _ _⟩
  rw [e1]
  show ∃ b', ((packLoop b1 data n 2 n).bind _) = some b' ∧ _
  obtain ⟨b2, e2, x2, n2, l2, d2⟩ := packLoop_ok data n n b1 2 (by omega) (by omega)
  rw [e2]
  show ∃ b', (if n > 1 ∧ n % 2 = 1 then _ else some b2) = some b' ∧ _
  -- what holds of every continuation
  have fin : ∀ b3 : CodeBuilder, Ext b2 b3 → b3.nextPos = b.nextPos + (n / 2 + n % 2) →
      (n > 1 ∧ n % 2 = 1 → ∃ a, b3.code[b2.nextPos]? = some ⟨Op.DATA, a⟩ ∧ (a >>> 8).setWidth 8 = data.getD (n - 1) 0) →
      Ext b b3 ∧ b3.nextPos = b.nextPos + (n / 2 + n % 2) ∧
      (∃ a, b3.code[b.nextPos]? = some ⟨Op.PUSH1 + (n - 1), a⟩) ∧
      (∀ j, b.nextPos < j → j < b3.nextPos → ∃ a, b3.code[j]? = some ⟨Op.DATA, a⟩) ∧
      ∀ k, k < n → packedByte (b3.code.drop b.nextPos) k = byteAt code (pos + 1 + k) := by
    intro b3 x3 n3 h3
    have x23 := x2.trans x3
    have first : b3.code[b.nextPos]? = some ⟨Op.PUSH1 + (n - 1), a1⟩ := by
      rw [← n0, x23.same _ (by omega)]; exact d1
    have mid : ∀ j, j < (n - 2) / 2 → b3.code[b.nextPos + 1 + j]? = some ⟨Op.DATA, pair (data.getD (2 + 2 * j) 0) (data.getD (2 + 2 * j + 1) 0)⟩ := by
      intro j hj
      rw [x3.same _ (by omega), show b.nextPos + 1 + j = b1.nextPos + j by omega]
      exact d2 j hj
    refine ⟨(x0.trans x1).trans x23, n3, ⟨_, first⟩, fun j hj1 hj2 => ?_, fun k hk => ?_⟩
    · by_cases hm : j - (b.nextPos + 1) < (n - 2) / 2
      · have := mid _ hm
        rw [show b.nextPos + 1 + (j - (b.nextPos + 1)) = j by omega] at this
        exact ⟨_, this⟩
      · obtain ⟨a, ha, _⟩ := h3 (by omega)
        rw [show b2.nextPos = j by omega] at ha
        exact ⟨a, ha⟩
    · rw [packedByte_drop, ← hget k hk, List.getD_eq_getElem?_getD]
      by_cases hk0 : k < 2
      · rw [show b.nextPos + k / 2 = b.nextPos by omega, first]
        show (if k % 2 = 0 then (a1 >>> 8).setWidth 8 else a1.setWidth 8) = _
        by_cases hk1 : k = 0
        · subst hk1; rw [if_pos rfl]; exact p1.1
        · have : k = 1 := by omega
          subst this
          rw [if_neg (by decide)]
          exact p1.2 hk
      · by_cases hm : k / 2 - 1 < (n - 2) / 2
        · have := mid _ hm
          rw [show b.nextPos + 1 + (k / 2 - 1) = b.nextPos + k / 2 by omega] at this
          rw [this]
          show (if k % 2 = 0 then (pair _ _ >>> 8).setWidth 8 else (pair _ _).setWidth 8) = _
          rw [pair_hi, pair_lo]
          by_cases hke : k % 2 = 0
          · rw [if_pos hke, show 2 + 2 * (k / 2 - 1) = k by omega]
          · rw [if_neg hke, show 2 + 2 * (k / 2 - 1) + 1 = k by omega]
        · obtain ⟨a, ha, hv⟩ := h3 (by omega)
          rw [show b.nextPos + k / 2 = b2.nextPos by omega, ha]
          show (if k % 2 = 0 then (a >>> 8).setWidth 8 else a.setWidth 8) = _
          rw [if_pos (by omega), hv, show n - 1 = k by omega]
  by_cases ho : n > 1 ∧ n % 2 = 1
  · rw [if_pos ho]
    obtain ⟨b3, e3, x3, n3, l3, d3⟩ := appendOp_ok (b := b2) (op := Op.DATA) (arg := (data.getD (n - 1) 0).setWidth 16 <<< 8) (by omega)
    exact ⟨b3, e3, fin b3 x3 (by omega) fun _ => ⟨_, d3, high_hi _⟩⟩
  · rw [if_neg ho]
    exact ⟨b2, rfl, fin b2 (.refl x2.fit) (by omega) fun hx => absurd hx ho⟩

/-! ## Super-instructions -/

/-- The length of an instruction with its data. -/
def opLen (o : Nat) : Nat := if 0x60 ≤ o ∧ o ≤ 0x7f then o - 0x5f + 1 else 1

/-- The code from `q` to `q'` consists of the given instructions. -/
def Spelt (code : List Byte) : Nat → List Nat → Nat → Prop
  | q, [], q' => q = q'
  | q, o :: r, q' => q < code.length ∧ (byteAt code q).toNat = o ∧ Spelt code (q + opLen o) r q'

/-- The instructions a super-instruction for the code at `q` is converted to. -/
def block (code : List Byte) (q op : Nat) (a : BitVec 16) : List Instruction :=
  match op with
  | Op.PUSH1_PUSH4_DUP3 => [⟨Op.PUSH1_PUSH4_DUP3, (byteAt code (q + 1)).setWidth 16 <<< 8⟩, ⟨Op.DATA, pair (byteAt code (q + 3)) (byteAt code (q + 4))⟩,
      ⟨Op.DATA, pair (byteAt code (q + 5)) (byteAt code (q + 6))⟩]
  | Op.PUSH1_PUSH1_PUSH1_SHL_SUB => [⟨Op.PUSH1_PUSH1_PUSH1_SHL_SUB, pair (byteAt code (q + 1)) (byteAt code (q + 3))⟩,
      ⟨Op.DATA, (byteAt code (q + 5)).setWidth 16⟩]
  | Op.ISZERO_PUSH2_JUMPI => [⟨Op.ISZERO_PUSH2_JUMPI, pair (byteAt code (q + 2)) (byteAt code (q + 3))⟩]
  | Op.PUSH2_JUMP => [⟨Op.PUSH2_JUMP, pair (byteAt code (q + 1)) (byteAt code (q + 2))⟩]
  | Op.PUSH2_JUMPI => [⟨Op.PUSH2_JUMPI, pair (byteAt code (q + 1)) (byteAt code (q + 2))⟩]
  | Op.PUSH1_PUSH1 => [⟨Op.PUSH1_PUSH1, pair (byteAt code (q + 1)) (byteAt code (q + 3))⟩]
  | Op.PUSH1_ADD => [⟨Op.PUSH1_ADD, (byteAt code (q + 1)).setWidth 16⟩]
  | Op.PUSH1_SHL => [⟨Op.PUSH1_SHL, (byteAt code (q + 1)).setWidth 16⟩]
  | Op.PUSH1_DUP1 => [⟨Op.PUSH1_DUP1, (byteAt code (q + 1)).setWidth 16⟩]
  | op => [⟨op, a⟩]

/-- `C` has the given instructions at `p`. -/
def Holds (C : List Instruction) (p : Nat) (B : List Instruction) : Prop := ∀ j, j < B.length → C[p + j]? = B[j]?

/-- What `appendSuper` does if it finds a super-instruction `n + 1` bytes long. -/
def Super (b : CodeBuilder) (pos : Nat) (code : List Byte) (b' : CodeBuilder) (n : Nat) : Prop :=
  0 < n ∧ Ext b b' ∧ b'.code.length = b.code.length ∧ b'.nextPos ≤ pos + n + 1 ∧ ∃ op a, Op.decompose op ≠ [] ∧
    Spelt code pos (Op.decompose op) (pos + n + 1) ∧
    b'.nextPos = b.nextPos + (block code pos op a).length ∧ Holds b'.code b.nextPos (block code pos op a)

theorem holds_one {C : List Instruction} {p : Nat} {i : Instruction} (h : C[p]? = some i) : Holds C p [i] := by
  intro j hj
  have : j = 0 := by simpa using hj
  subst this
  exact h

theorem super_op {b : CodeBuilder} {pos n : Nat} {code : List Byte} {op : Nat} {arg : BitVec 16} (hn : 0 < n) (hb : b.nextPos ≤ pos)
    (hl : b.nextPos < b.code.length) (hd : Op.decompose op ≠ []) (hs : Spelt code pos (Op.decompose op) (pos + n + 1))
    (hB : ∀ a, block code pos op a = [⟨op, arg⟩]) :
    ∃ b' m, ((b.appendOp op arg).map fun b => (b, n)) = some (b', m) ∧ (m = 0 ∧ b' = b ∨ Super b pos code b' m) := by
  obtain ⟨b1, e1, x1, n1, l1, d1⟩ := appendOp_ok (b := b) (op := op) (arg := arg) hl
  refine ⟨b1, n, by rw [e1]; rfl, .inr ⟨hn, x1, l1, by omega, op, arg, hd, hs, ?_, ?_⟩⟩
  · rw [hB]; exact n1
  · rw [hB]; exact holds_one d1

theorem super_code {b : CodeBuilder} {pos n : Nat} {code : List Byte} {op : Nat} (hn : 0 < n) (hb : b.nextPos ≤ pos)
    (hl : b.nextPos < b.code.length) (hd : Op.decompose op ≠ []) (hs : Spelt code pos (Op.decompose op) (pos + n + 1))
    (hB : ∀ a, block code pos op a = [⟨op, a⟩]) :
    ∃ b' m, ((b.appendCode op).map fun b => (b, n)) = some (b', m) ∧ (m = 0 ∧ b' = b ∨ Super b pos code b' m) := by
  obtain ⟨b1, a, e1, x1, n1, l1, d1⟩ := appendCode_ok (b := b) (op := op) hl
  refine ⟨b1, n, by rw [e1]; rfl, .inr ⟨hn, x1, l1, by omega, op, a, hd, hs, ?_, ?_⟩⟩
  · rw [hB]; exact n1
  · rw [hB]; exact holds_one d1

theorem opLens : opLen Op.PUSH1 = 2 ∧ opLen Op.PUSH2 = 3 ∧ opLen Op.PUSH4 = 5 ∧ opLen Op.AND = 1 ∧ opLen Op.SWAP1 = 1 ∧ opLen Op.SWAP2 = 1 ∧ opLen Op.POP = 1 ∧
    opLen Op.JUMP = 1 ∧ opLen Op.JUMPI = 1 ∧ opLen Op.ISZERO = 1 ∧ opLen Op.DUP1 = 1 ∧ opLen Op.DUP2 = 1 ∧ opLen Op.DUP3 = 1 ∧ opLen Op.MSTORE = 1 ∧
    opLen Op.LT = 1 ∧ opLen Op.SHL = 1 ∧ opLen Op.ADD = 1 ∧ opLen Op.SUB = 1 := by decide

theorem ite_cases {α : Type} {c : Prop} [Decidable c] {R : α → Prop} {x y : α} (h1 : c → R x) (h2 : ¬ c → R y) : R (if c then x else y) := by
  by_cases h : c
  · rw [if_pos h]; exact h1 h
  · rw [if_neg h]; exact h2 h

theorem appendSuper_ok {b : CodeBuilder} {pos : Nat} {code : List Byte} (hb : b.nextPos ≤ pos) (hl : code.length ≤ b.code.length) :
    ∃ b' n, appendSuper b pos code = some (b', n) ∧ (n = 0 ∧ b' = b ∨ Super b pos code b' n) := by
  unfold appendSuper
  dsimp only
  let R : Option (CodeBuilder × Nat) → Prop := fun x => ∃ b' n, x = some (b', n) ∧ (n = 0 ∧ b' = b ∨ Super b pos code b' n)
  show R _
  refine ite_cases (R := R) (fun h => ?_) fun _ => ?_
  · show ∃ b' n, _ = some (b', n) ∧ _
    obtain ⟨b1, e1, x1, n1, l1, d1⟩ := appendOp_ok (b := b) (op := Op.PUSH1_PUSH4_DUP3) (arg := (code.getD (pos + 1) 0).setWidth 16 <<< 8) (by omega)
    obtain ⟨b2, e2, x2, n2, l2, d2⟩ := appendOp_ok (b := b1) (op := Op.DATA) (arg := pair (code.getD (pos + 3) 0) (code.getD (pos + 4) 0)) (by omega)
    obtain ⟨b3, e3, x3, n3, l3, d3⟩ := appendOp_ok (b := b2) (op := Op.DATA) (arg := pair (code.getD (pos + 5) 0) (code.getD (pos + 6) 0)) (by omega)
    refine ⟨b3, 7, ?_, .inr ⟨by omega, x1.trans (x2.trans x3), by omega, by omega, Op.PUSH1_PUSH4_DUP3, 0, by decide, ?_, ?_, ?_⟩⟩
    · rw [e1]
      show Option.map _ ((b1.appendOp _ _).bind _) = _
      rw [e2]
      show Option.map _ (b2.appendOp _ _) = _
      rw [e3]
      rfl
    · simp only [Op.decompose, Spelt, opLens, byteAt, Nat.add_assoc, Nat.reduceAdd]
      exact ⟨by omega, h.2.1, by omega, h.2.2.1, by omega, h.2.2.2, trivial⟩
    · show _ = b.nextPos + 3
      omega
    · intro j hj
      have hj : j < 3 := hj
      match j, hj with
      | 0, _ => rw [Nat.add_zero, (x2.trans x3).same _ (by omega)]; exact d1
      | 1, _ => rw [show b.nextPos + 1 = b1.nextPos by omega, x3.same _ (by omega)]; exact d2
      | 2, _ => rw [show b.nextPos + 2 = b2.nextPos by omega]; exact d3
  refine ite_cases (R := R) (fun h => ?_) fun _ => ?_
  · show ∃ b' n, _ = some (b', n) ∧ _
    obtain ⟨b1, e1, x1, n1, l1, d1⟩ := appendOp_ok (b := b) (op := Op.PUSH1_PUSH1_PUSH1_SHL_SUB) (arg := pair (code.getD (pos + 1) 0) (code.getD (pos + 3) 0)) (by omega)
    obtain ⟨b2, e2, x2, n2, l2, d2⟩ := appendOp_ok (b := b1) (op := Op.DATA) (arg := (code.getD (pos + 5) 0).setWidth 16) (by omega)
    refine ⟨b2, 7, ?_, .inr ⟨by omega, x1.trans x2, by omega, by omega, Op.PUSH1_PUSH1_PUSH1_SHL_SUB, 0, by decide, ?_, ?_, ?_⟩⟩
    · rw [e1]
      show Option.map _ (b1.appendOp _ _) = _
      rw [e2]
      rfl
    · simp only [Op.decompose, Spelt, opLens, byteAt, Nat.add_assoc, Nat.reduceAdd]
      exact ⟨by omega, h.2.1, by omega, h.2.2.1, by omega, h.2.2.2.1, by omega, h.2.2.2.2.1, by omega, h.2.2.2.2.2, trivial⟩
    · show _ = b.nextPos + 2
      omega
    · intro j hj
      have hj : j < 2 := hj
      match j, hj with
      | 0, _ => rw [Nat.add_zero, x2.same _ (by omega)]; exact d1
      | 1, _ => rw [show b.nextPos + 1 = b1.nextPos by omega]; exact d2
  iterate 18
    refine ite_cases (R := R) (fun h => ?_) fun _ => ?_
    · show ∃ b' n, _ = some (b', n) ∧ _
      first
        | refine super_op (by omega) hb (by omega) (by decide) ?_ (fun _ => rfl)
        | refine super_code (by omega) hb (by omega) (by decide) ?_ (fun _ => rfl)
      simp only [Op.decompose, Spelt, opLens, byteAt, Nat.add_assoc, Nat.reduceAdd]
      obtain ⟨h0, h⟩ := h
      rw [Nat.add_zero] at h
      simp only [h, true_and, and_true]
      omega
  exact ⟨b, 0, rfl, .inl ⟨rfl, rfl⟩⟩

/-! ## The layout of converted code -/

/-- `C` continues at `p` with the conversion of the code from `q` on. -/
inductive Laid (ws : Bool) (code : List Byte) (C : Code) : Nat → Nat → Prop
  | done {p q : Nat} : code.length ≤ q → C.length = p → Laid ws code C p q
  | jumpTo {p q : Nat} : p < q → q < code.length → (byteAt code q).toNat = Op.JUMPDEST →
      C[p]? = some ⟨Op.JUMP_TO, BitVec.ofNat 16 q⟩ → Laid ws code C q q → Laid ws code C p q
  | push {p q n : Nat} {a : BitVec 16} : q < code.length → 1 ≤ n → n ≤ 32 → (byteAt code q).toNat = 0x5f + n →
      C[p]? = some ⟨0x5f + n, a⟩ → p + (n / 2 + n % 2) ≤ C.length →
      (∀ k, k < n → packedByte (C.drop p) k = byteAt code (q + 1 + k)) →
      Laid ws code C (p + (n / 2 + n % 2)) (q + n + 1) → Laid ws code C p q
  | pc {p q : Nat} : q < code.length → (byteAt code q).toNat = Op.PC → C[p]? = some ⟨Op.PC, BitVec.ofNat 16 q⟩ →
      Laid ws code C (p + 1) (q + 1) → Laid ws code C p q
  | plain {p q : Nat} {a : BitVec 16} : q < code.length → (byteAt code q).toNat ≠ Op.PC →
      ¬ (0x60 ≤ (byteAt code q).toNat ∧ (byteAt code q).toNat ≤ 0x7f) → C[p]? = some ⟨(byteAt code q).toNat, a⟩ →
      Laid ws code C (p + 1) (q + 1) → Laid ws code C p q
  | super {p q q' op : Nat} {a : BitVec 16} : ws = true → Op.decompose op ≠ [] → Spelt code q (Op.decompose op) q' →
      Holds C p (block code q op a) → Laid ws code C (p + (block code q op a).length) q' → Laid ws code C p q

/-- What the converted code says about jump targets from `p` / `i` on. -/
structure Targets (ws : Bool) (code : List Byte) (C : Code) (p i : Nat) : Prop where
  sound : ∀ d a, p ≤ d → C[d]? = some ⟨Op.JUMPDEST, a⟩ → JumpTarget code d
  complete : ∀ d, i ≤ d → JumpTarget code d → Laid ws code C d d ∧ ∃ a, C[d]? = some ⟨Op.JUMPDEST, a⟩

theorem codeOf {b b' : CodeBuilder} (h : Ext b b') (j : Nat) (hj : j < b.nextPos) : (b'.code.take b'.nextPos)[j]? = b.code[j]? := by
  rw [List.getElem?_take_of_lt (by have := h.pos; omega), h.same j hj]

theorem codeOf_length {b : CodeBuilder} (h : b.nextPos ≤ b.code.length) : (b.code.take b.nextPos).length = b.nextPos := by
  rw [List.length_take]; omega

theorem byteAt_boundary {code : List Byte} {i : Nat} (hi : i < code.length) : code[i] = byteAt code i := (getD_eq code i hi).symm

/-- The next boundary behind an instruction that is not a PUSH. -/
theorem nxt_plain {code : List Byte} {i : Nat} (h : ¬ (0x60 ≤ (byteAt code i).toNat ∧ (byteAt code i).toNat ≤ 0x7f)) : nxt code i = i + 1 := by
  have h' : ¬ (0x60 ≤ (code.getD i 0).toNat ∧ (code.getD i 0).toNat ≤ 0x7f) := h
  unfold nxt
  rw [byteLen_eq, if_neg h']

theorem nxt_push {code : List Byte} {i n : Nat} (h1 : 1 ≤ n) (h2 : n ≤ 32) (h : (byteAt code i).toNat = 0x5f + n) : nxt code i = i + n + 1 := by
  unfold nxt
  have h' : (code.getD i 0).toNat = 0x5f + n := h
  rw [byteLen_eq, h', if_pos (by omega)]
  omega

theorem nxt_opLen {code : List Byte} {i o : Nat} (h : (byteAt code i).toNat = o) : nxt code i = i + opLen o := by
  unfold opLen
  by_cases hp : 0x60 ≤ o ∧ o ≤ 0x7f
  · rw [if_pos hp, nxt_push (n := o - 0x5f) (by omega) (by omega) (by omega)]
    omega
  · rw [if_neg hp, nxt_plain (by rw [h]; exact hp)]

theorem spelt_bound {code : List Byte} {q' : Nat} : ∀ {ops : List Nat} {q : Nat}, Spelt code q ops q' → (∀ o ∈ ops, o ≠ Op.JUMPDEST) → Boundary code q →
    Boundary code q' ∧ ∀ d, q ≤ d → JumpTarget code d → q' ≤ d
  | [], q, h, _, hB => by
    have h : q = q' := h
    subst h
    exact ⟨hB, fun _ hd _ => hd⟩
  | o :: r, q, h, hj, hB => by
    obtain ⟨h1, h2, h3⟩ := h
    have hn := nxt_opLen h2
    have hB' := boundary_next code q hB h1
    rw [hn] at hB'
    obtain ⟨h4, h5⟩ := spelt_bound h3 (fun o ho => hj o (List.mem_cons_of_mem _ ho)) hB'
    refine ⟨h4, fun d hd ht => h5 d ?_ ht⟩
    obtain ⟨hl, hb, hBd⟩ := ht
    by_cases hdq : d = q
    · subst hdq
      rw [byteAt_boundary hl] at hb
      exact absurd (h2.symm.trans hb) (hj o List.mem_cons_self)
    · have := boundary_gap code q d hB hBd (by omega)
      omega

theorem decompose_jumpdest {op : Nat} : ∀ o ∈ Op.decompose op, o ≠ Op.JUMPDEST := by
  unfold Op.decompose
  split <;> decide

theorem block_jumpdest {code : List Byte} {q op : Nat} {a : BitVec 16} (h : Op.decompose op ≠ []) :
    ∀ i ∈ block code q op a, i.opcode ≠ Op.JUMPDEST := by
  have hj : op ≠ Op.JUMPDEST := fun hx => by subst hx; exact h rfl
  unfold block
  split <;> simp <;> first | decide | exact hj

theorem convertLoop_ok (ws : Bool) (code : List Byte) (hcode : code.length ≤ 2 ^ 16) (fuel : Nat) : ∀ (i : Nat) (b : CodeBuilder), code.length ≤ i + fuel →
    b.nextPos ≤ i → b.nextPos ≤ b.code.length → code.length ≤ b.code.length → Boundary code i →
    ∃ b', convertLoop code ws fuel i b = some b' ∧ Ext b b' ∧ Laid ws code (b'.code.take b'.nextPos) b.nextPos i ∧
      Targets ws code (b'.code.take b'.nextPos) b.nextPos i := by
  have stop : ∀ (i : Nat) (b : CodeBuilder), code.length ≤ i → b.nextPos ≤ b.code.length →
      Ext b b ∧ Laid ws code (b.code.take b.nextPos) b.nextPos i ∧ Targets ws code (b.code.take b.nextPos) b.nextPos i := by
    intro i b hi hn
    have hl := codeOf_length hn
    refine ⟨.refl hn, .done hi (by omega), ⟨fun d a hd hc => ?_, fun d hd ⟨h, _⟩ => absurd h (by omega)⟩⟩
    have := (List.getElem?_eq_some_iff.1 hc).1
    omega
  induction fuel with
  | zero =>
    intro i b hf hb hn hl hB
    refine ⟨b, ?_, stop i b (by omega) hn⟩
    unfold convertLoop
    rw [if_neg (by omega)]
  | succ fuel ih =>
    intro i b hf hb hn hl hB
    unfold convertLoop
    by_cases hi : i < code.length
    · rw [if_pos hi]
      have hnx := boundary_next code i hB hi
      have tgt : ∀ d, i ≤ d → JumpTarget code d → d = i ∨ nxt code i ≤ d := fun d hd ⟨h, _, hBd⟩ => by
        by_cases hdi : d = i
        · exact .inl hdi
        · exact .inr (boundary_gap code i d hB hBd (by omega))
      by_cases hj : (code.getD i 0).toNat = Op.JUMPDEST
      · rw [if_pos hj]
        have hj' : (byteAt code i).toNat = Op.JUMPDEST := hj
        have hnp : nxt code i = i + 1 := nxt_plain (by rw [hj']; decide)
        rw [hnp] at hnx tgt
        have jt : JumpTarget code i := ⟨hi, by rw [byteAt_boundary hi]; exact hj, hB⟩
        -- the jump over the padding
        obtain ⟨b1, e1, x1, n1, l1, d1⟩ : ∃ b1, (if b.nextPos < i then b.appendOp Op.JUMP_TO (BitVec.ofNat 16 i) else some b) = some b1 ∧ Ext b b1 ∧
            b1.nextPos ≤ i ∧ b1.code.length = b.code.length ∧
            ((b.nextPos < i ∧ b1.nextPos = b.nextPos + 1 ∧ b1.code[b.nextPos]? = some ⟨Op.JUMP_TO, BitVec.ofNat 16 i⟩) ∨ (b.nextPos = i ∧ b1.nextPos = b.nextPos)) := by
          by_cases hbi : b.nextPos < i
          · obtain ⟨b1, e1, x1, n1, l1, d1⟩ := appendOp_ok (b := b) (op := Op.JUMP_TO) (arg := BitVec.ofNat 16 i) (by omega)
            exact ⟨b1, by rw [if_pos hbi]; exact e1, x1, by omega, l1, .inl ⟨hbi, n1, d1⟩⟩
          · exact ⟨b, if_neg hbi, .refl hn, hb, rfl, .inr ⟨by omega, rfl⟩⟩
        rw [e1]
        obtain ⟨b2, e2, x2, n2, l2, d2⟩ := pad_ok (b := b1) (pos := i) n1 (by omega)
        show ∃ b', ((b1.padNoOpsUntil i).bind _) = some b' ∧ _
        rw [e2]
        obtain ⟨b3, a3, e3, x3, n3, l3, d3⟩ := appendCode_ok (b := b2) (op := Op.JUMPDEST) (by omega)
        show ∃ b', ((b2.appendCode Op.JUMPDEST).bind _) = some b' ∧ _
        rw [e3]
        show ∃ b', convertLoop code ws fuel (i + 1) b3 = some b' ∧ _
        obtain ⟨b', e', x', L', T'⟩ := ih (i + 1) b3 (by omega) (by omega) x3.fit (by omega) hnx
        have x23 := x2.trans (x3.trans x')
        have x13 := x1.trans x23
        refine ⟨b', e', x13, ?_, ?_⟩
        all_goals
          have ci : (b'.code.take b'.nextPos)[i]? = some ⟨Op.JUMPDEST, a3⟩ := by
            rw [codeOf x' i (by omega), ← n2]; exact d3
          have Li : Laid ws code (b'.code.take b'.nextPos) i i := by
            refine .plain (a := a3) hi (by rw [hj']; decide) (by rw [hj']; decide) (by rw [hj']; exact ci) ?_
            have := n3
            rw [n2] at this
            rw [this] at L'
            exact L'
        · rcases d1 with ⟨hlt, hn1, hd1⟩ | ⟨heq, _⟩
          · refine .jumpTo hlt hi hj' ?_ Li
            rw [codeOf x23 _ (by omega)]
            exact hd1
          · rw [heq]; exact Li
        · refine ⟨fun d a hd hc => ?_, fun d hd ht => ?_⟩
          · by_cases hdi : d = i
            · rw [hdi]; exact jt
            by_cases hdi2 : i < d
            · exact T'.sound d a (by omega) hc
            · exfalso
              rcases d1 with ⟨hlt, hn1, hd1⟩ | ⟨heq, _⟩
              · by_cases hdn : d = b.nextPos
                · subst hdn
                  rw [codeOf x23 _ (by omega), hd1] at hc
                  cases hc
                · obtain ⟨a', ha'⟩ := d2 d (by omega) (by omega)
                  rw [codeOf (x3.trans x') _ (by omega), ha'] at hc
                  cases hc
              · omega
          · rcases tgt d hd ht with rfl | hdn
            · exact ⟨Li, a3, ci⟩
            · exact T'.complete d hdn ht
      · rw [if_neg hj]
        have hj' : (byteAt code i).toNat ≠ Op.JUMPDEST := hj
        have tgt' : ∀ d, i ≤ d → JumpTarget code d → nxt code i ≤ d := fun d hd ht => by
          rcases tgt d hd ht with rfl | h
          · obtain ⟨h, h5, _⟩ := ht
            rw [byteAt_boundary h] at h5
            exact absurd h5 hj'
          · exact h
        have pick : appendInstructions b i code ws = appendSingle b i code ∨
            (ws = true ∧ ∃ b3 n, appendInstructions b i code ws = some (b3, n) ∧ Super b i code b3 n) := by
          unfold appendInstructions
          by_cases hws : ws = true
          · rw [if_pos hws]
            obtain ⟨b3, n, e, h⟩ := appendSuper_ok (b := b) (pos := i) (code := code) hb hl
            rw [e]
            rcases h with ⟨rfl, rfl⟩ | h
            · exact .inl rfl
            · refine .inr ⟨hws, b3, n, ?_, h⟩
              show (if n > 0 then some (b3, n) else appendSingle b3 i code) = _
              rw [if_pos h.1]
          · rw [if_neg hws]
            exact .inl rfl
        rcases pick with pick | ⟨hws, b3, n, e3, h0, x3, l3, hp3, op, a, hdec, hsp, n3, hold⟩
        case inr =>
          rw [e3]
          show ∃ b', convertLoop code ws fuel (i + n + 1) b3 = some b' ∧ _
          obtain ⟨hB', ht⟩ := spelt_bound hsp decompose_jumpdest hB
          obtain ⟨b', e', x', L', T'⟩ := ih (i + n + 1) b3 (by omega) hp3 x3.fit (by omega) hB'
          rw [n3] at L'
          have hold' : Holds (b'.code.take b'.nextPos) b.nextPos (block code i op a) := fun j hj => by
            rw [codeOf x' _ (by omega)]
            exact hold j hj
          refine ⟨b', e', x3.trans x', .super hws hdec hsp hold' L', ⟨fun d a' hd hc => ?_, fun d hd hj => T'.complete d (ht d hd hj) hj⟩⟩
          by_cases hdn : d < b3.nextPos
          · exfalso
            have hjl : d - b.nextPos < (block code i op a).length := by omega
            have := hold' (d - b.nextPos) hjl
            rw [show b.nextPos + (d - b.nextPos) = d by omega, hc, List.getElem?_eq_getElem hjl] at this
            injection this with this
            exact block_jumpdest (code := code) (q := i) (a := a) hdec _ (List.getElem_mem hjl) (by rw [← this])
          · exact T'.sound d a' (by omega) hc
        rw [pick]
        unfold appendSingle
        dsimp only
        by_cases hpc : (code.getD i 0).toNat = Op.PC
        · rw [if_pos hpc, if_neg (show ¬ i > 0xffff by omega)]
          have hpc' : (byteAt code i).toNat = Op.PC := hpc
          have hnp : nxt code i = i + 1 := nxt_plain (by rw [hpc']; decide)
          rw [hnp] at hnx tgt'
          obtain ⟨b3, e3, x3, n3, l3, d3⟩ := appendOp_ok (b := b) (op := Op.PC) (arg := BitVec.ofNat 16 i) (by omega)
          rw [e3]
          show ∃ b', convertLoop code ws fuel (i + 0 + 1) b3 = some b' ∧ _
          obtain ⟨b', e', x', L', T'⟩ := ih (i + 1) b3 (by omega) (by omega) x3.fit (by omega) hnx
          have ci : (b'.code.take b'.nextPos)[b.nextPos]? = some ⟨Op.PC, BitVec.ofNat 16 i⟩ := by
            rw [codeOf x' _ (by omega)]; exact d3
          rw [n3] at L' T'
          refine ⟨b', e', x3.trans x', .pc hi hpc' ci L', ⟨fun d a hd hc => ?_, fun d hd ht => T'.complete d (tgt' d hd ht) ht⟩⟩
          by_cases hdn : d = b.nextPos
          · subst hdn
            rw [ci] at hc
            cases hc
          · exact T'.sound d a (by omega) hc
        · rw [if_neg hpc]
          by_cases hpu : Op.PUSH1 ≤ (code.getD i 0).toNat ∧ (code.getD i 0).toNat ≤ Op.PUSH32
          · rw [if_pos hpu]
            have hpu' : 0x60 ≤ (byteAt code i).toNat ∧ (byteAt code i).toNat ≤ 0x7f := hpu
            obtain ⟨n, hn1, hn2, hnb⟩ : ∃ n, 1 ≤ n ∧ n ≤ 32 ∧ (byteAt code i).toNat = 0x5f + n :=
              ⟨(byteAt code i).toNat - 0x5f, by omega, by omega, by omega⟩
            have hnn : (code.getD i 0).toNat - Op.PUSH1 + 1 = n := by
              have : (code.getD i 0).toNat = 0x5f + n := hnb
              rw [this]
              show 0x5f + n - 0x60 + 1 = n
              omega
            rw [hnn]
            have hnp := nxt_push hn1 hn2 hnb
            rw [hnp] at hnx tgt'
            obtain ⟨b3, e3, x3, n3, ⟨a3, d3⟩, dd, pk⟩ := appendPush_ok (b := b) (pos := i) (n := n) (code := code) hn1 hi hb hl
            rw [e3]
            show ∃ b', convertLoop code ws fuel (i + n + 1) b3 = some b' ∧ _
            obtain ⟨b', e', x', L', T'⟩ := ih (i + n + 1) b3 (by omega) (by omega) x3.fit (by have := x3.len; omega) hnx
            have hcl := codeOf_length x'.fit
            have hp3 := x'.pos
            have hop : Op.PUSH1 + (n - 1) = 0x5f + n := by show 0x60 + (n - 1) = 0x5f + n; omega
            have ci : (b'.code.take b'.nextPos)[b.nextPos]? = some ⟨0x5f + n, a3⟩ := by
              rw [codeOf x' _ (by omega), d3, hop]
            rw [n3] at L'
            refine ⟨b', e', x3.trans x', .push hi hn1 hn2 hnb ci (by omega) (fun k hk => ?_) L',
              ⟨fun d a hd hc => ?_, fun d hd ht => T'.complete d (tgt' d hd ht) ht⟩⟩
            · rw [← pk k hk, packedByte_drop, packedByte_drop]
              simp only [List.getD_eq_getElem?_getD]
              rw [codeOf x' (b.nextPos + k / 2) (by omega)]
            · by_cases hdn : d = b.nextPos
              · subst hdn
                rw [ci] at hc
                injection hc with hc
                injection hc with hc _
                exact absurd hc (by show ¬ 0x5f + n = 0x5b; omega)
              · by_cases hd3 : d < b3.nextPos
                · obtain ⟨a', ha'⟩ := dd d (by omega) hd3
                  rw [codeOf x' _ hd3, ha'] at hc
                  cases hc
                · exact T'.sound d a (by omega) hc
          · rw [if_neg hpu]
            have hpu' : ¬ (0x60 ≤ (byteAt code i).toNat ∧ (byteAt code i).toNat ≤ 0x7f) := hpu
            have hnp : nxt code i = i + 1 := nxt_plain hpu'
            rw [hnp] at hnx tgt'
            obtain ⟨b3, a3, e3, x3, n3, l3, d3⟩ := appendCode_ok (b := b) (op := (code.getD i 0).toNat) (by omega)
            rw [e3]
            show ∃ b', convertLoop code ws fuel (i + 0 + 1) b3 = some b' ∧ _
            obtain ⟨b', e', x', L', T'⟩ := ih (i + 1) b3 (by omega) (by omega) x3.fit (by omega) hnx
            have ci : (b'.code.take b'.nextPos)[b.nextPos]? = some ⟨(byteAt code i).toNat, a3⟩ := by
              rw [codeOf x' _ (by omega)]; exact d3
            rw [n3] at L' T'
            refine ⟨b', e', x3.trans x', .plain hi hpc hpu' ci L', ⟨fun d a hd hc => ?_, fun d hd ht => T'.complete d (tgt' d hd ht) ht⟩⟩
            by_cases hdn : d = b.nextPos
            · subst hdn
              rw [ci] at hc
              injection hc with hc
              injection hc with hc _
              exact absurd hc hj'
            · exact T'.sound d a (by omega) hc
    · rw [if_neg hi]
      exact ⟨b, rfl, stop i b (by omega) hn⟩

/-- The conversion succeeds, and what its result looks like. -/
theorem convert_ok (ws : Bool) {code : List Byte} (hcode : code.length ≤ 2 ^ 16) :
    ∃ C, convert code ws = some C ∧ Laid ws code C 0 0 ∧ Targets ws code C 0 0 := by
  obtain ⟨b', e', x', L', T'⟩ := convertLoop_ok ws code hcode code.length 0 (CodeBuilder.new code.length) (by omega) (Nat.le_refl _) (Nat.zero_le _)
    (by show _ ≤ (List.replicate code.length _).length; simp) .zero
  refine ⟨_, ?_, L', T'⟩
  unfold convert
  rw [e']
  show CodeBuilder.toCode b' = _
  unfold CodeBuilder.toCode
  rw [if_pos x'.fit]

end Tosca.Proofs.Lfvm

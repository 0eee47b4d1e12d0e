import Verif.Model.LfvmCt
import Verif.Proofs.LfvmConv

/-!
# The long-form EVM: program counters for the conformance tests
-/

namespace Tosca.Proofs.Lfvm

open Tosca.Spec Tosca.Model.Lfvm

/-! ## A position of converted code belongs to one offset -/

theorem byteAt_end {code : List Byte} {j : Nat} (h : code.length ≤ j) : byteAt code j = 0 := by
  unfold byteAt
  rw [List.getD_eq_getElem?_getD, List.getElem?_eq_none h]
  rfl

/-- The opcode of a PUSH cannot be in the data of an equal PUSH that reaches the end of the code. -/
theorem push_apart {code : List Byte} {n q q' : Nat} (h : q < q') (he : code.length ≤ q + n + 1)
    (hd : ∀ k, k < n → byteAt code (q + 1 + k) = byteAt code (q' + 1 + k)) : byteAt code q' = 0 := by
  have step : ∀ m, byteAt code (q' + m * (q' - q)) = byteAt code q' := by
    intro m
    induction m with
    | zero => rw [Nat.zero_mul]; rfl
    | succ m ih =>
      rw [← ih, Nat.succ_mul]
      generalize m * (q' - q) = x
      by_cases hj : q' + x ≤ q + n
      · have := hd (q' + x - q - 1) (by omega)
        rw [show q + 1 + (q' + x - q - 1) = q' + x by omega, show q' + 1 + (q' + x - q - 1) = q' + (x + (q' - q)) by omega] at this
        exact this.symm
      · rw [byteAt_end (by omega), byteAt_end (by omega)]
  rw [← step code.length]
  apply byteAt_end
  have : code.length * 1 ≤ code.length * (q' - q) := Nat.mul_le_mul_left _ (by omega)
  omega

theorem laid_unique {code : List Byte} {C : Code} (hcode : code.length ≤ 2 ^ 16) {p q : Nat} (h : Laid false code C p q) :
    ∀ {q'}, Laid false code C p q' → q = q' ∨ (code.length ≤ q ∧ code.length ≤ q') := by
  have none_ : ∀ {x : Instruction} {r : Nat}, C.length = r → C[r]? = some x → False := fun h1 h2 => by
    have := (List.getElem?_eq_some_iff.1 h2).1
    omega
  have b256 : ∀ j, (byteAt code j).toNat < 256 := fun j => (byteAt code j).isLt
  have jt : ∀ j, (byteAt code j).toNat ≠ Op.JUMP_TO := fun j h => by
    have := b256 j
    rw [h] at this
    exact absurd this (by decide)
  induction h with
  | done h1 h2 =>
    intro q' h'
    cases h' with
    | done h3 _ => exact .inr ⟨h1, h3⟩
    | jumpTo _ _ _ h => exact (none_ h2 h).elim
    | push _ _ _ _ h => exact (none_ h2 h).elim
    | pc _ _ h => exact (none_ h2 h).elim
    | plain _ _ _ h => exact (none_ h2 h).elim
    | super h => cases h
  | jumpTo h1 h2 h3 h4 h5 _ =>
    intro q' h'
    cases h' with
    | done _ h => exact (none_ h h4).elim
    | jumpTo h6 h7 h8 h9 _ =>
      rw [h4] at h9
      injection h9 with h9
      injection h9 with _ h9
      have := congrArg BitVec.toNat h9
      rw [BitVec.toNat_ofNat, BitVec.toNat_ofNat, Nat.mod_eq_of_lt (by omega), Nat.mod_eq_of_lt (by omega)] at this
      exact .inl this
    | push _ _ hn _ h =>
      rw [h4] at h
      injection h with h
      injection h with h _
      exact absurd h (by show ¬ (256 : Nat) = _; omega)
    | pc _ _ h => rw [h4] at h; cases h
    | plain _ _ _ h =>
      rw [h4] at h
      injection h with h
      injection h with h _
      exact absurd h.symm (jt _)
    | super h => cases h
  | @push p q n a h0 h1 h2 h3 h4 h5 h6 h7 ih =>
    intro q' h'
    cases h' with
    | done _ h => exact (none_ h h4).elim
    | jumpTo _ _ _ h =>
      rw [h4] at h
      injection h with h
      injection h with h _
      exact absurd h (by show ¬ _ = (256 : Nat); omega)
    | @push _ _ n' a' g0 g1 g2 g3 g4 g5 g6 g7 =>
      rw [h4] at g4
      injection g4 with g4
      injection g4 with g4 _
      have : n' = n := by omega
      subst this
      rcases ih g7 with h | ⟨e1, e2⟩
      · exact .inl (by omega)
      · have same : ∀ k, k < n' → byteAt code (q + 1 + k) = byteAt code (q' + 1 + k) := fun k hk => (h6 k hk).symm.trans (g6 k hk)
        rcases Nat.lt_trichotomy q q' with hlt | heq | hlt
        · have := push_apart hlt e1 same
          rw [this] at g3
          exact absurd g3 (by show ¬ 0 = _; omega)
        · exact .inl heq
        · have := push_apart hlt e2 fun k hk => (same k hk).symm
          rw [this] at h3
          exact absurd h3 (by show ¬ 0 = _; omega)
    | pc _ _ h =>
      rw [h4] at h
      injection h with h
      injection h with h _
      exact absurd h (by show ¬ _ = (0x58 : Nat); omega)
    | plain _ _ g h =>
      rw [h4] at h
      injection h with h
      injection h with h _
      exact absurd ⟨by omega, by omega⟩ g
    | super h => cases h
  | pc h1 h2 h3 h4 ih =>
    intro q' h'
    cases h' with
    | done _ h => exact (none_ h h3).elim
    | jumpTo _ _ _ h => rw [h3] at h; cases h
    | push _ _ _ _ h =>
      rw [h3] at h
      injection h with h
      injection h with h _
      exact absurd h (by show ¬ (0x58 : Nat) = _; omega)
    | pc g1 _ h _ =>
      rw [h3] at h
      injection h with h
      injection h with _ h
      have := congrArg BitVec.toNat h
      rw [BitVec.toNat_ofNat, BitVec.toNat_ofNat, Nat.mod_eq_of_lt (by omega), Nat.mod_eq_of_lt (by omega)] at this
      exact .inl this
    | plain _ g _ h =>
      rw [h3] at h
      injection h with h
      injection h with h _
      exact absurd h.symm g
    | super h => cases h
  | plain h1 h2 h3 h4 h5 ih =>
    intro q' h'
    cases h' with
    | done _ h => exact (none_ h h4).elim
    | jumpTo _ _ _ h =>
      rw [h4] at h
      injection h with h
      injection h with h _
      exact absurd h (jt _)
    | push _ _ _ _ h =>
      rw [h4] at h
      injection h with h
      injection h with h _
      exact absurd ⟨by omega, by omega⟩ h3
    | pc _ _ h =>
      rw [h4] at h
      injection h with h
      injection h with h _
      exact absurd h h2
    | plain g1 _ _ _ g5 =>
      rcases ih g5 with h | ⟨e1, e2⟩
      · exact .inl (by omega)
      · exact .inl (by omega)
    | super h => cases h
  | super h => cases h

/-! ## One round of the converter -/

theorem jumpdest_ok {code : List Byte} {i : Nat} {b : CodeBuilder} (hi : i < code.length) (hb : b.nextPos ≤ i) (hl : code.length ≤ b.code.length) :
    ∃ b3, ((if b.nextPos < i then b.appendOp Op.JUMP_TO (BitVec.ofNat 16 i) else some b).bind fun b =>
        (b.padNoOpsUntil i).bind fun b => b.appendCode Op.JUMPDEST) = some b3 ∧ Ext b b3 ∧ b3.nextPos = i + 1 ∧ b3.code.length = b.code.length ∧
      (∀ j, b.nextPos ≤ j → j < i → ∃ o a, b3.code[j]? = some ⟨o, a⟩ ∧ (o = Op.JUMP_TO ∨ o = Op.NOOP)) ∧
      (b.nextPos < i → b3.code[b.nextPos]? = some ⟨Op.JUMP_TO, BitVec.ofNat 16 i⟩) := by
  obtain ⟨b1, e1, x1, n1, l1, d1⟩ : ∃ b1, (if b.nextPos < i then b.appendOp Op.JUMP_TO (BitVec.ofNat 16 i) else some b) = some b1 ∧ Ext b b1 ∧
      b1.nextPos ≤ i ∧ b1.code.length = b.code.length ∧
      ((b.nextPos < i ∧ b1.nextPos = b.nextPos + 1 ∧ b1.code[b.nextPos]? = some ⟨Op.JUMP_TO, BitVec.ofNat 16 i⟩) ∨ (b.nextPos = i ∧ b1.nextPos = b.nextPos)) := by
    by_cases hbi : b.nextPos < i
    · obtain ⟨b1, e1, x1, n1, l1, d1⟩ := appendOp_ok (b := b) (op := Op.JUMP_TO) (arg := BitVec.ofNat 16 i) (by omega)
      exact ⟨b1, by rw [if_pos hbi]; exact e1, x1, by omega, l1, .inl ⟨hbi, n1, d1⟩⟩
    · exact ⟨b, if_neg hbi, .refl (by omega), hb, rfl, .inr ⟨by omega, rfl⟩⟩
  rw [e1]
  obtain ⟨b2, e2, x2, n2, l2, d2⟩ := pad_ok (b := b1) (pos := i) n1 (by omega)
  obtain ⟨b3, a3, e3, x3, n3, l3, d3⟩ := appendCode_ok (b := b2) (op := Op.JUMPDEST) (by omega)
  refine ⟨b3, ?_, x1.trans (x2.trans x3), by omega, by omega, fun j hj1 hj2 => ?_, fun hlt => ?_⟩
  · show ((b1.padNoOpsUntil i).bind _) = _
    rw [e2]
    exact e3
  · rcases d1 with ⟨h1, h2, h3⟩ | ⟨h1, _⟩
    · by_cases hjn : j = b.nextPos
      · subst hjn
        exact ⟨_, _, by rw [(x2.trans x3).same _ (by omega)]; exact h3, .inl rfl⟩
      · obtain ⟨a, ha⟩ := d2 j (by omega) hj2
        exact ⟨_, a, by rw [x3.same _ (by omega)]; exact ha, .inr rfl⟩
    · omega
  · rcases d1 with ⟨h1, h2, h3⟩ | ⟨h1, _⟩
    · rw [(x2.trans x3).same _ (by omega)]; exact h3
    · omega

theorem single_ok {code : List Byte} {i : Nat} {b : CodeBuilder} (hcode : code.length ≤ 2 ^ 16) (hi : i < code.length) (hb : b.nextPos ≤ i)
    (hl : code.length ≤ b.code.length) :
    ∃ b3 n, appendInstructions b i code false = some (b3, n) ∧ n ≤ 32 ∧ nxt code i = i + n + 1 ∧ Ext b b3 ∧ b.nextPos < b3.nextPos ∧ b3.nextPos ≤ i + n + 1 ∧
      ∀ j, b.nextPos < j → j < b3.nextPos → ∃ a, b3.code[j]? = some ⟨Op.DATA, a⟩ := by
  have e : appendInstructions b i code false = appendSingle b i code := rfl
  rw [e]
  unfold appendSingle
  dsimp only
  by_cases hpc : (code.getD i 0).toNat = Op.PC
  · rw [if_pos hpc, if_neg (show ¬ i > 0xffff by omega)]
    have hpc' : (byteAt code i).toNat = Op.PC := hpc
    obtain ⟨b3, e3, x3, n3, l3, d3⟩ := appendOp_ok (b := b) (op := Op.PC) (arg := BitVec.ofNat 16 i) (by omega)
    exact ⟨b3, 0, by rw [e3]; rfl, by omega, nxt_plain (by rw [hpc']; decide), x3, by omega, by omega, fun j h1 h2 => by omega⟩
  · rw [if_neg hpc]
    by_cases hpu : Op.PUSH1 ≤ (code.getD i 0).toNat ∧ (code.getD i 0).toNat ≤ Op.PUSH32
    · rw [if_pos hpu]
      have hpu' : 0x60 ≤ (byteAt code i).toNat ∧ (byteAt code i).toNat ≤ 0x7f := hpu
      obtain ⟨n, hn1, hn2, hnb⟩ : ∃ n, 1 ≤ n ∧ n ≤ 32 ∧ (byteAt code i).toNat = 0x5f + n :=
        ⟨(byteAt code i).toNat - 0x5f, by omega, by omega, by omega⟩
      have hnn : (code.getD i 0).toNat - Op.PUSH1 + 1 = n := by
        have : (code.getD i 0).toNat = 0x5f + n := hnb
        rw [this]
        show 0x5f + n - 0x60 + 1 = n
        omega
      rw [hnn]
      obtain ⟨b3, e3, x3, n3, _, dd, _⟩ := appendPush_ok (b := b) (pos := i) (n := n) (code := code) hn1 hi hb hl
      exact ⟨b3, n, by rw [e3]; rfl, hn2, nxt_push hn1 hn2 hnb, x3, by omega, by omega, dd⟩
    · rw [if_neg hpu]
      obtain ⟨b3, a3, e3, x3, n3, l3, d3⟩ := appendCode_ok (b := b) (op := (code.getD i 0).toNat) (by omega)
      exact ⟨b3, 0, by rw [e3]; rfl, by omega, nxt_plain hpu, x3, by omega, by omega, fun j h1 h2 => by omega⟩

/-! ## What the observer sees -/

/-- The observed pairs from position `p` / offset `i` on. -/
structure Seen (code : List Byte) (C : Code) (O : List (Nat × Nat)) (p i : Nat) : Prop where
  sound : ∀ e l, (e, l) ∈ O → Laid false code C l e ∧ p ≤ l ∧ i ≤ e ∧ l ≤ e ∧ e < code.length ∧ ∃ a, C[l]? = some ⟨(byteAt code e).toNat, a⟩
  complete : ∀ e, i ≤ e → e < code.length → Boundary code e → ∃ l, (e, l) ∈ O
  real : ∀ l ins, p ≤ l → C[l]? = some ins → (∃ e, (e, l) ∈ O) ∨ ins.opcode = Op.JUMP_TO ∨ ins.opcode = Op.NOOP ∨ ins.opcode = Op.DATA
  sorted : O.Pairwise fun a b => a.1 < b.1 ∧ a.2 < b.2
  len : C.length ≤ max (code.length + 32) p

/-- One more pair. -/
theorem Seen.cons {code : List Byte} {C : Code} {O : List (Nat × Nat)} {p p' i i' l : Nat} (h : Seen code C O p' i') (hp : p ≤ l) (hl : l < p') (hi : i < i')
    (hle : l ≤ i) (hlen : i < code.length) (hp' : p' ≤ code.length + 32) (L : Laid false code C l i) (hc : ∃ a, C[l]? = some ⟨(byteAt code i).toNat, a⟩)
    (hB : ∀ e, i ≤ e → Boundary code e → e = i ∨ i' ≤ e)
    (hr : ∀ j ins, p ≤ j → j < p' → j ≠ l → C[j]? = some ins → ins.opcode = Op.JUMP_TO ∨ ins.opcode = Op.NOOP ∨ ins.opcode = Op.DATA) :
    Seen code C ((i, l) :: O) p i where
  sound e l' hm := by
    rcases List.mem_cons.1 hm with hm | hm
    · injection hm with h1 h2
      subst h1; subst h2
      exact ⟨L, hp, Nat.le_refl _, hle, hlen, hc⟩
    · obtain ⟨h1, h2, h3, h4, h5, h6⟩ := h.sound e l' hm
      exact ⟨h1, by omega, by omega, h4, h5, h6⟩
  complete e h1 h2 h3 := by
    rcases hB e h1 h3 with rfl | hx
    · exact ⟨l, List.mem_cons_self⟩
    · obtain ⟨l', hl'⟩ := h.complete e hx h2 h3
      exact ⟨l', List.mem_cons_of_mem _ hl'⟩
  real j ins h1 h2 := by
    by_cases hj : j = l
    · subst hj
      exact .inl ⟨i, List.mem_cons_self⟩
    by_cases hj' : j < p'
    · exact .inr (hr j ins h1 hj' hj h2)
    · rcases h.real j ins (by omega) h2 with ⟨e, he⟩ | hx
      · exact .inl ⟨e, List.mem_cons_of_mem _ he⟩
      · exact .inr hx
  sorted := by
    refine List.Pairwise.cons (fun x hx => ?_) h.sorted
    obtain ⟨_, h2, h3, _⟩ := h.sound x.1 x.2 hx
    exact ⟨by show i < x.1; omega, by show l < x.2; omega⟩
  len := by have := h.len; omega

theorem observeLoop_ok (code : List Byte) (hcode : code.length ≤ 2 ^ 16) (fuel : Nat) : ∀ (i : Nat) (b : CodeBuilder), code.length ≤ i + fuel →
    b.nextPos ≤ i → b.nextPos ≤ b.code.length → code.length ≤ b.code.length → Boundary code i →
    ∀ b', convertLoop code false fuel i b = some b' → Seen code (b'.code.take b'.nextPos) (observeLoop code false fuel i b) b.nextPos i := by
  have stop : ∀ (i : Nat) (b : CodeBuilder), code.length ≤ i → b.nextPos ≤ b.code.length → Seen code (b.code.take b.nextPos) [] b.nextPos i := by
    intro i b hi hn
    have hl := codeOf_length hn
    refine ⟨fun _ _ h => (by cases h), fun e h1 h2 => (by omega), fun l ins h1 h2 => ?_, .nil, by omega⟩
    have := (List.getElem?_eq_some_iff.1 h2).1
    omega
  induction fuel with
  | zero =>
    intro i b hf hb hn hl hB b' he
    unfold convertLoop at he
    rw [if_neg (by omega)] at he
    injection he with he
    subst he
    exact stop i b (by omega) hn
  | succ fuel ih =>
    intro i b hf hb hn hl hB b' he
    obtain ⟨b'', he', _, L0, T0⟩ := convertLoop_ok false code hcode (fuel + 1) i b hf hb hn hl hB
    rw [he] at he'
    injection he' with he'
    subst he'
    unfold convertLoop at he
    unfold observeLoop
    by_cases hi : i < code.length
    · rw [if_pos hi] at he ⊢
      have hnx := boundary_next code i hB hi
      have gap : ∀ e, i ≤ e → Boundary code e → e = i ∨ nxt code i ≤ e := fun e h1 h2 => by
        by_cases hei : e = i
        · exact .inl hei
        · exact .inr (boundary_gap code i e hB h2 (by omega))
      by_cases hj : (code.getD i 0).toNat = Op.JUMPDEST
      · rw [if_pos hj] at he ⊢
        have hj' : (byteAt code i).toNat = Op.JUMPDEST := hj
        have hnp : nxt code i = i + 1 := nxt_plain (by rw [hj']; decide)
        rw [hnp] at hnx gap
        obtain ⟨b3, e3, x3, n3, l3, d3, _⟩ := jumpdest_ok (b := b) hi hb hl
        rw [e3]
        have he : convertLoop code false fuel (i + 1) b3 = some b' := by
          rw [← he]
          cases h1 : (if b.nextPos < i then b.appendOp Op.JUMP_TO (BitVec.ofNat 16 i) else some b) with
          | none => rw [h1] at e3; cases e3
          | some b1 =>
            rw [h1] at e3
            have e3 : ((b1.padNoOpsUntil i).bind fun b => b.appendCode Op.JUMPDEST) = some b3 := e3
            show _ = (b1.padNoOpsUntil i).bind _
            cases h2 : b1.padNoOpsUntil i with
            | none => rw [h2] at e3; cases e3
            | some b2 =>
              rw [h2] at e3
              have e3 : b2.appendCode Op.JUMPDEST = some b3 := e3
              show _ = (b2.appendCode Op.JUMPDEST).bind _
              rw [e3]
              rfl
        have S := ih (i + 1) b3 (by omega) (by omega) x3.fit (by omega) hnx b' he
        obtain ⟨b'', he'', x', _, _⟩ := convertLoop_ok false code hcode fuel (i + 1) b3 (by omega) (by omega) x3.fit (by omega) hnx
        rw [he] at he''
        injection he'' with he''
        subst he''
        have jt : JumpTarget code i := ⟨hi, by rw [byteAt_boundary hi]; exact hj, hB⟩
        obtain ⟨Li, a, ha⟩ := T0.complete i (Nat.le_refl _) jt
        refine S.cons (p := b.nextPos) hb (by omega) (Nat.lt_succ_self _) (Nat.le_refl _) hi (by omega) Li ⟨a, by rw [hj']; exact ha⟩ gap fun j ins h1 h2 h3 h4 => ?_
        obtain ⟨o, a', h5, h6⟩ := d3 j h1 (by omega)
        rw [codeOf x' j (by omega), h5] at h4
        injection h4 with h4
        subst h4
        rcases h6 with h6 | h6
        · exact .inl h6
        · exact .inr (.inl h6)
      · rw [if_neg hj] at he ⊢
        have hj' : (byteAt code i).toNat ≠ Op.JUMPDEST := hj
        obtain ⟨b3, n, e3, hn32, hnp, x3, hp1, hp2, d3⟩ := single_ok (b := b) hcode hi hb hl
        rw [e3] at he ⊢
        have he : convertLoop code false fuel (i + n + 1) b3 = some b' := he
        rw [hnp] at hnx gap
        have hl3 := x3.len
        have S := ih (i + n + 1) b3 (by omega) hp2 x3.fit (by omega) hnx b' he
        obtain ⟨b'', he'', x', _, _⟩ := convertLoop_ok false code hcode fuel (i + n + 1) b3 (by omega) hp2 x3.fit (by omega) hnx
        rw [he] at he''
        injection he'' with he''
        subst he''
        refine S.cons (p := b.nextPos) (Nat.le_refl _) hp1 (by omega) hb hi (by omega) L0 ?_ gap fun j ins h1 h2 h3 h4 => ?_
        · cases L0 with
          | done h => omega
          | jumpTo _ _ h => exact absurd h hj'
          | push _ _ _ h3 h4 => exact ⟨_, by rw [h3]; exact h4⟩
          | pc _ h2 h3 => exact ⟨_, by rw [h2]; exact h3⟩
          | plain _ _ _ h4 => exact ⟨_, h4⟩
          | super h => cases h
        · obtain ⟨a, ha⟩ := d3 j (by omega) h2
          rw [codeOf x' j h2, ha] at h4
          injection h4 with h4
          subst h4
          exact .inr (.inr rfl)
    · rw [if_neg hi] at he ⊢
      injection he with he
      subst he
      exact stop i b (by omega) hn

theorem observed_ok {code : List Byte} (hcode : code.length ≤ 2 ^ 16) :
    ∃ C, convert code false = some C ∧ Laid false code C 0 0 ∧ Targets false code C 0 0 ∧ Seen code C (observed code false) 0 0 := by
  have hl : code.length ≤ (CodeBuilder.new code.length).code.length := by show _ ≤ (List.replicate code.length _).length; simp
  obtain ⟨b', e', x', L', T'⟩ := convertLoop_ok false code hcode code.length 0 (CodeBuilder.new code.length) (by omega) (Nat.le_refl _) (Nat.zero_le _) hl .zero
  refine ⟨_, ?_, L', T', observeLoop_ok code hcode code.length 0 _ (by omega) (Nat.le_refl _) (Nat.zero_le _) hl .zero b' e'⟩
  unfold convert
  rw [e']
  show CodeBuilder.toCode b' = _
  unfold CodeBuilder.toCode
  rw [if_pos x'.fit]

/-! ## The maps -/

theorem write_ok {l : List (BitVec 16)} {i : Nat} (v : BitVec 16) (h : i < l.length) : write l i v = some (l.set i v) := if_pos h

theorem observe_ok {n : Nat} : ∀ (O : List (Nat × Nat)) (m : PcMap), m.evmToLfvm.length = n → m.lfvmToEvm.length = n →
    (∀ x ∈ O, x.1 < n ∧ x.2 < n) → O.Pairwise (fun a b => a.1 < b.1 ∧ a.2 < b.2) →
    ∃ m', observe O m = some m' ∧ m'.evmToLfvm.length = n ∧ m'.lfvmToEvm.length = n ∧
      (∀ x ∈ O, m'.evmToLfvm[x.1]? = some (BitVec.ofNat 16 x.2) ∧ m'.lfvmToEvm[x.2]? = some (BitVec.ofNat 16 x.1)) ∧
      (∀ e, (∀ x ∈ O, x.1 ≠ e) → m'.evmToLfvm[e]? = m.evmToLfvm[e]?) ∧ (∀ l, (∀ x ∈ O, x.2 ≠ l) → m'.lfvmToEvm[l]? = m.lfvmToEvm[l]?)
  | [], m, h1, h2, _, _ => ⟨m, rfl, h1, h2, fun _ h => (by cases h), fun _ _ => rfl, fun _ _ => rfl⟩
  | (e, l) :: r, m, h1, h2, hO, hs => by
    have he := hO (e, l) List.mem_cons_self
    obtain ⟨hs1, hs2⟩ := List.pairwise_cons.1 hs
    obtain ⟨m', e', k1, k2, k3, k4, k5⟩ := observe_ok (n := n) r ⟨m.evmToLfvm.set e (BitVec.ofNat 16 l), m.lfvmToEvm.set l (BitVec.ofNat 16 e)⟩ (by simpa using h1)
      (by simpa using h2) (fun x hx => hO x (List.mem_cons_of_mem _ hx)) hs2
    refine ⟨m', ?_, k1, k2, fun x hx => ?_, fun e1 hx => ?_, fun l1 hx => ?_⟩
    · show ((write _ _ _).bind _) = _
      rw [write_ok _ (by rw [h1]; exact he.1)]
      show ((write _ _ _).bind _) = _
      rw [write_ok _ (by rw [h2]; exact he.2)]
      exact e'
    · rcases List.mem_cons.1 hx with hx | hx
      · subst hx
        refine ⟨?_, ?_⟩
        · rw [k4 e fun x hx => Nat.ne_of_gt (hs1 x hx).1]
          show (m.evmToLfvm.set e _)[e]? = _
          rw [List.getElem?_set_self (by rw [h1]; exact he.1)]
        · rw [k5 l fun x hx => Nat.ne_of_gt (hs1 x hx).2]
          show (m.lfvmToEvm.set l _)[l]? = _
          rw [List.getElem?_set_self (by rw [h2]; exact he.2)]
      · exact k3 x hx
    · rw [k4 e1 fun x h => hx x (List.mem_cons_of_mem _ h)]
      show (m.evmToLfvm.set e _)[e1]? = _
      rw [List.getElem?_set_ne (hx (e, l) List.mem_cons_self)]
    · rw [k5 l1 fun x h => hx x (List.mem_cons_of_mem _ h)]
      show (m.lfvmToEvm.set l _)[l1]? = _
      rw [List.getElem?_set_ne (hx (e, l) List.mem_cons_self)]

theorem redirect_ok : ∀ (C : List Instruction) (i : Nat) (l : List (BitVec 16)), i + C.length ≤ l.length →
    ∃ l', redirect C i l = some l' ∧ l'.length = l.length ∧ (∀ j, j < i → l'[j]? = l[j]?) ∧ (∀ j, i + C.length ≤ j → l'[j]? = l[j]?) ∧
      ∀ j ins, C[j]? = some ins → l'[i + j]? = if ins.opcode = Op.JUMP_TO then some ins.arg else l[i + j]?
  | [], i, l, _ => ⟨l, rfl, rfl, fun _ _ => rfl, fun _ _ => rfl, fun j ins h => by simp at h⟩
  | x :: r, i, l, h => by
    have h : i + (r.length + 1) ≤ l.length := h
    obtain ⟨l1, e1, n1, d1, d2⟩ : ∃ l1, (if x.opcode = Op.JUMP_TO then write l i x.arg else some l) = some l1 ∧ l1.length = l.length ∧
        (∀ j, j ≠ i → l1[j]? = l[j]?) ∧ l1[i]? = if x.opcode = Op.JUMP_TO then some x.arg else l[i]? := by
      by_cases hx : x.opcode = Op.JUMP_TO
      · simp only [if_pos hx]
        exact ⟨_, write_ok _ (by omega), by simp, fun j hj => List.getElem?_set_ne (Ne.symm hj), by rw [List.getElem?_set_self (by omega)]⟩
      · simp only [if_neg hx]
        exact ⟨l, rfl, rfl, fun _ _ => rfl, rfl⟩
    obtain ⟨l', e', n', k1, k2, k3⟩ := redirect_ok r (i + 1) l1 (by omega)
    refine ⟨l', ?_, by omega, fun j hj => ?_, fun j hj => ?_, fun j ins hj => ?_⟩
    · unfold redirect
      by_cases hx : x.opcode = Op.JUMP_TO
      · rw [if_pos hx] at e1 ⊢
        rw [e1]; exact e'
      · rw [if_neg hx] at e1 ⊢
        injection e1 with e1
        rw [e1]; exact e'
    · rw [k1 j (by omega), d1 j (by omega)]
    · have hj : i + (r.length + 1) ≤ j := hj
      rw [k2 j (by omega), d1 j (by omega)]
    · cases j with
      | zero =>
        injection hj with hj
        subst hj
        rw [Nat.add_zero, k1 i (by omega), d2]
      | succ j =>
        have hj : r[j]? = some ins := hj
        have := k3 j ins hj
        rw [show i + 1 + j = i + (j + 1) by omega] at this
        rw [this, d1 _ (by omega)]

/-- The map of program counters: every offset of an instruction, and the end, has a position of its conversion; every position reached leads back. -/
structure MapOk (code : List Byte) (C : Code) (m : PcMap) : Prop where
  there : ∀ q, q = code.length ∨ (Boundary code q ∧ q < code.length) → ∃ p, m.evmToLfvm[q]? = some (BitVec.ofNat 16 p) ∧ Laid false code C p q ∧ p < 2 ^ 16 ∧
    ∀ a, C[p]? ≠ some ⟨Op.JUMP_TO, a⟩
  back : ∀ p q, Laid false code C p q → m.lfvmToEvm[p]? = some (BitVec.ofNat 16 (min q code.length))
  opcodes : ∀ i ∈ C, Op.decompose i.opcode = []

theorem genPcMap_ok {code : List Byte} (hcode : code.length ≤ 49152) :
    ∃ C m, convert code false = some C ∧ genPcMap code = some m ∧ Laid false code C 0 0 ∧ Targets false code C 0 0 ∧ MapOk code C m := by
  obtain ⟨C, hC, L, T, S⟩ := observed_ok (code := code) (by omega)
  obtain ⟨m1, e1, a1, a2, a3, a4, a5⟩ := observe_ok (n := code.length + 1) (observed code false)
    ⟨List.replicate (code.length + 1) 0, List.replicate (code.length + 1) 0⟩ (by simp) (by simp)
    (fun x hx => by obtain ⟨_, _, _, h1, h2, _⟩ := S.sound x.1 x.2 hx; omega) S.sorted
  have hlen : C.length ≤ code.length + 32 := by have := S.len; omega
  obtain ⟨l2, e2, b1, b2⟩ : ∃ l2, (if C.length + 1 > m1.lfvmToEvm.length then m1.lfvmToEvm ++ List.replicate (C.length + 1 - m1.lfvmToEvm.length) 0 else m1.lfvmToEvm) = l2 ∧
      C.length < l2.length ∧ ∀ j, j < m1.lfvmToEvm.length → l2[j]? = m1.lfvmToEvm[j]? := by
    by_cases h : C.length + 1 > m1.lfvmToEvm.length
    · exact ⟨_, if_pos h, by simp; omega, fun j hj => by rw [List.getElem?_append_left hj]⟩
    · exact ⟨_, if_neg h, by omega, fun _ _ => rfl⟩
  obtain ⟨l4, e4, c1, c2, c3, c4⟩ := redirect_ok C 0 (l2.set C.length (BitVec.ofNat 16 code.length)) (by simp; omega)
  have b256 : ∀ j, (byteAt code j).toNat < 256 := fun j => (byteAt code j).isLt
  refine ⟨C, ⟨m1.evmToLfvm.set code.length (BitVec.ofNat 16 C.length), l4⟩, hC, ?_, L, T, ?_, ?_, ?_⟩
  · unfold genPcMap
    rw [e1]
    show ((convert code false).bind _) = _
    rw [hC]
    show ((write m1.evmToLfvm _ _).bind _) = _
    rw [write_ok _ (by omega)]
    dsimp only [Option.bind]
    rw [e2, write_ok _ b1]
    dsimp only
    rw [e4]
    rfl
  · rintro q (hq | ⟨hB, hlt⟩)
    on_goal 2 =>
      obtain ⟨l, hl⟩ := S.complete q (Nat.zero_le _) hlt hB
      obtain ⟨h1, _, _, h4, h5, a, h6⟩ := S.sound q l hl
      refine ⟨l, ?_, h1, by omega, fun a' h => ?_⟩
      · show (m1.evmToLfvm.set _ _)[q]? = _
        rw [List.getElem?_set_ne (by omega)]
        exact (a3 (q, l) hl).1
      · rw [h6] at h
        injection h with h
        injection h with h _
        have := b256 q
        rw [h] at this
        exact absurd this (by decide)
    · subst hq
      refine ⟨C.length, ?_, .done (Nat.le_refl _) rfl, by omega, fun a h => ?_⟩
      · show (m1.evmToLfvm.set _ _)[code.length]? = _
        rw [List.getElem?_set_self (by omega)]
      · have := (List.getElem?_eq_some_iff.1 h).1
        omega
  · intro p q hL
    show l4[p]? = _
    -- a real instruction
    have obs : ∀ {o : Nat} {a : BitVec 16}, C[p]? = some ⟨o, a⟩ → o < 256 → q < code.length → l4[p]? = some (BitVec.ofNat 16 (min q code.length)) := by
      intro o a hc ho hq
      rcases S.real p _ (Nat.zero_le _) hc with ⟨e, he⟩ | h | h | h
      · obtain ⟨h1, _, _, h4, h5, _⟩ := S.sound e p he
        have := laid_unique (by omega) hL h1
        have heq : q = e := by omega
        subst heq
        have := c4 p _ hc
        rw [Nat.zero_add] at this
        rw [this, if_neg (by show ¬ o = 256; omega), List.getElem?_set_ne (by have := (List.getElem?_eq_some_iff.1 hc).1; omega), b2 p (by omega),
          (a3 (q, p) he).2, Nat.min_eq_left (Nat.le_of_lt hq)]
      all_goals
        have h : o = _ := h
        rw [h] at ho
        exact absurd ho (by decide)
    cases hL with
    | done h1 h2 =>
      subst h2
      rw [c3 _ (by omega), List.getElem?_set_self b1, Nat.min_eq_right h1]
    | jumpTo h1 h2 h3 h4 h5 =>
      have := c4 p _ h4
      rw [Nat.zero_add, if_pos rfl] at this
      rw [this, Nat.min_eq_left (Nat.le_of_lt h2)]
    | push h0 h1 h2 h3 h4 => exact obs h4 (by omega) h0
    | pc h1 h2 h3 => exact obs h3 (by decide) h1
    | plain h1 h2 h3 h4 => exact obs h4 (b256 _) h1
    | super h => cases h
  · intro ins hi
    obtain ⟨j, hj⟩ := List.getElem?_of_mem hi
    have small : ∀ o, o < 256 → Op.decompose o = [] := by decide +kernel
    rcases S.real j ins (Nat.zero_le _) hj with ⟨e, he⟩ | h | h | h
    · obtain ⟨_, _, _, _, _, a, ha⟩ := S.sound e j he
      rw [hj] at ha
      injection ha with ha
      subst ha
      exact small _ (b256 e)
    all_goals rw [h]; rfl

end Tosca.Proofs.Lfvm

import Verif.Spec.GoRules
import Verif.Model.CtRules
import Verif.Proofs.Jump

/-!
# Code of test states: what is an instruction and what is data
-/

namespace Tosca.Proofs.Ct

open Tosca.Spec Tosca.Spec.Go Tosca.Go Tosca.Model.Go Tosca.Model.Ct

/-- The loop of the layout. -/
theorem layoutLoop_ok (code : List Byte) (fuel : Nat) : ∀ i, code.length ≤ i + fuel → Boundary code i →
    (∀ k, (layoutLoop code fuel i)[k]? = some true → Boundary code (i + k) ∧ i + k < code.length) ∧
    (∀ k, (layoutLoop code fuel i)[k]? = some false → PushData code (i + k)) ∧
    (i ≤ code.length → code.length ≤ i + (layoutLoop code fuel i).length) ∧ Boundary code (i + (layoutLoop code fuel i).length) := by
  induction fuel with
  | zero =>
    intro i h hb
    unfold layoutLoop
    exact ⟨fun k h => by simp at h, fun k h => by simp at h, fun _ => by simpa using h, by simpa using hb⟩
  | succ fuel ih =>
    intro i h hb
    unfold layoutLoop
    split
    · rename_i hi
      have hnx : nxt code i = i + byteLen (code.getD i 0).toNat := rfl
      rw [byteLen_eq] at hnx
      have hb' := boundary_next code i hb hi
      dsimp only
      generalize hop : (code.getD i 0).toNat = op at *
      split
      · rename_i hpush
        rw [if_pos hpush] at hnx
        have e : i + (op - 0x60 + 1) + 1 = nxt code i := by omega
        rw [e]
        obtain ⟨h1, h2, h3, h4⟩ := ih (nxt code i) (by have := lt_nxt code i; omega) hb'
        have hlen : (List.replicate (op - 0x60 + 1) false ++ layoutLoop code fuel (nxt code i)).length =
            (op - 0x60 + 1) + (layoutLoop code fuel (nxt code i)).length := by simp
        have key : ∀ k b, (true :: (List.replicate (op - 0x60 + 1) false ++ layoutLoop code fuel (nxt code i)))[k]? = some b →
            (k = 0 ∧ b = true) ∨ (1 ≤ k ∧ k ≤ op - 0x60 + 1 ∧ b = false) ∨
              (op - 0x60 + 2 ≤ k ∧ (layoutLoop code fuel (nxt code i))[k - (op - 0x60 + 2)]? = some b) := by
          intro k b hk
          cases k with
          | zero => left; simpa using hk.symm
          | succ k =>
            rw [List.getElem?_cons_succ] at hk
            by_cases hlt : k < op - 0x60 + 1
            · rw [List.getElem?_append_left (by simpa using hlt), List.getElem?_replicate, if_pos hlt] at hk
              injection hk with hk
              exact .inr (.inl ⟨by omega, by omega, hk.symm⟩)
            · rw [List.getElem?_append_right (by simp; omega)] at hk
              refine .inr (.inr ⟨by omega, ?_⟩)
              rw [List.length_replicate] at hk
              rw [show k + 1 - (op - 0x60 + 2) = k - (op - 0x60 + 1) by omega]
              exact hk
        refine ⟨fun k hk => ?_, fun k hk => ?_, fun _ => ?_, ?_⟩
        · rcases key k _ hk with ⟨h0, _⟩ | ⟨_, _, h0⟩ | ⟨h5, h6⟩
          · subst h0; exact ⟨hb, hi⟩
          · cases h0
          · have := h1 _ h6
            rw [show nxt code i + (k - (op - 0x60 + 2)) = i + k by omega] at this
            exact this
        · rcases key k _ hk with ⟨_, h0⟩ | ⟨h5, h6, _⟩ | ⟨h5, h6⟩
          · cases h0
          · refine ⟨i, op - 0x5f, hb, hi, ?_, by omega, by omega⟩
            show decode (code.getD i 0).toNat = _
            rw [hop]
            unfold decode
            rw [if_pos (by omega)]
          · have := h2 _ h6
            rw [show nxt code i + (k - (op - 0x60 + 2)) = i + k by omega] at this
            exact this
        · rw [List.length_cons, hlen]
          by_cases hn : nxt code i ≤ code.length
          · have := h3 hn; omega
          · omega
        · rw [List.length_cons, hlen]
          rw [show i + (op - 0x60 + 1 + (layoutLoop code fuel (nxt code i)).length + 1) = nxt code i + (layoutLoop code fuel (nxt code i)).length by omega]
          exact h4
      · rename_i hpush
        rw [if_neg hpush] at hnx
        rw [← hnx]
        obtain ⟨h1, h2, h3, h4⟩ := ih (nxt code i) (by omega) hb'
        refine ⟨fun k hk => ?_, fun k hk => ?_, fun _ => ?_, ?_⟩
        · cases k with
          | zero => exact ⟨hb, hi⟩
          | succ k =>
            rw [List.getElem?_cons_succ] at hk
            have := h1 _ hk
            rw [show nxt code i + k = i + (k + 1) by omega] at this
            exact this
        · cases k with
          | zero => simp at hk
          | succ k =>
            rw [List.getElem?_cons_succ] at hk
            have := h2 _ hk
            rw [show nxt code i + k = i + (k + 1) by omega] at this
            exact this
        · rw [List.length_cons]
          have := h3 (by omega)
          omega
        · rw [List.length_cons, show i + ((layoutLoop code fuel (nxt code i)).length + 1) = nxt code i + (layoutLoop code fuel (nxt code i)).length by omega]
          exact h4
    · exact ⟨fun k h => by simp at h, fun k h => by simp at h, fun _ => by simp only [List.length_nil]; omega, by simpa using hb⟩

theorem layout_true {code : List Byte} {k : Nat} (h : (layout code)[k]? = some true) : Boundary code k ∧ k < code.length := by
  have := (layoutLoop_ok code code.length 0 (by omega) .zero).1 k h
  rwa [Nat.zero_add] at this

theorem layout_false {code : List Byte} {k : Nat} (h : (layout code)[k]? = some false) : PushData code k := by
  have := (layoutLoop_ok code code.length 0 (by omega) .zero).2.1 k h
  rwa [Nat.zero_add] at this

theorem layout_len (code : List Byte) : code.length ≤ (layout code).length ∧ Boundary code (layout code).length := by
  have h := (layoutLoop_ok code code.length 0 (by omega) .zero).2.2
  rw [Nat.zero_add] at h
  exact ⟨h.1 (Nat.zero_le _), h.2⟩

/-- No boundary within data. -/
theorem not_boundary {code : List Byte} {q : Nat} (h : PushData code q) : ¬ Boundary code q := by
  obtain ⟨p, n, hb, hp, hd, h1, h2⟩ := h
  intro hq
  have hg := boundary_gap code p q hb hq h1
  have : nxt code p = p + (n + 1) := by
    unfold nxt byteLen
    have hd' : decode (code.getD p 0).toNat = some (.push n) := hd
    rw [hd']
    rfl
  omega

theorem layout_data {code : List Byte} {q : Nat} (h : PushData code q) : (layout code)[q]? = some false := by
  cases e : (layout code)[q]? with
  | some b =>
    cases b with
    | false => rfl
    | true => exact absurd (layout_true e).1 (not_boundary h)
  | none =>
    rw [List.getElem?_eq_none_iff] at e
    obtain ⟨p, n, hb, hp, hd, h1, h2⟩ := h
    have hl := layout_len code
    have hg := boundary_gap code p _ hb hl.2 (by omega)
    have : nxt code p = p + (n + 1) := by
      unfold nxt byteLen
      have hd' : decode (code.getD p 0).toNat = some (.push n) := hd
      rw [hd']
      rfl
    omega

theorem isCode_iff {code : List Byte} {q : Nat} : isCode code q = true ↔ ¬ PushData code q := by
  unfold isCode
  rw [List.getD_eq_getElem?_getD]
  constructor
  · intro h hd
    rw [layout_data hd] at h
    cases h
  · intro h
    cases e : (layout code)[q]? with
    | none => rfl
    | some b =>
      cases b with
      | true => rfl
      | false => exact absurd (layout_false e) h

theorem getOperation_eq {code : List Byte} {q : Nat} : getOperation code q = if isCode code q = true then some (byteAt code q).toNat else none := by
  unfold getOperation isCode
  have hl := (layout_len code).1
  split
  · rename_i h
    rw [List.getD_eq_getElem?_getD, List.getElem?_eq_none (by omega)]
    unfold byteAt
    rw [List.getD_eq_getElem?_getD, List.getElem?_eq_none (by omega)]
    rfl
  · by_cases h : (layout code).getD q true = true
    · rw [h]; rfl
    · rw [Bool.not_eq_true] at h
      rw [h]; rfl

theorem jumpTarget_iff {code : List Byte} {q : Nat} : JumpTarget code q ↔ getOperation code q = some 0x5b := by
  rw [getOperation_eq]
  constructor
  · rintro ⟨h, h1, h2⟩
    rw [if_pos (isCode_iff.2 fun hd => not_boundary hd h2)]
    unfold byteAt
    rw [getD_eq code q h, h1]
  · intro h
    split at h
    · rename_i hc
      injection h with h
      have hlt : q < code.length := by
        apply Classical.byContradiction
        intro hge
        unfold byteAt at h
        rw [List.getD_eq_getElem?_getD, List.getElem?_eq_none (by omega)] at h
        simp at h
      refine ⟨hlt, by rw [← getD_eq code q hlt]; exact h, ?_⟩
      have hl := (layout_len code).1
      unfold isCode at hc
      rw [List.getD_eq_getElem?_getD, List.getElem?_eq_getElem (by omega)] at hc
      exact (layout_true (by rw [List.getElem?_eq_getElem (by omega)]; exact congrArg some hc)).1
    · cases h

theorem boundary_of_code {code : List Byte} {q : Nat} (h : ¬ PushData code q) (hq : q < code.length) : Boundary code q := by
  have hl := (layout_len code).1
  cases e : (layout code)[q]? with
  | none => rw [List.getElem?_eq_none_iff] at e; omega
  | some b =>
    cases b with
    | true => exact (layout_true e).1
    | false => exact absurd (layout_false e) h

/-! ## PUSH -/

theorem getData_ok {code : List Byte} {q : Nat} (h : PushData code q) : getData code q = some (byteAt code q) := by
  unfold getData
  rw [if_neg (fun hc => isCode_iff.1 hc h)]
  unfold byteAt
  split
  · rw [List.getD_eq_getElem?_getD, List.getElem?_eq_none (by omega)]; rfl
  · rfl

theorem pushData_ok {code : List Byte} {q : Nat} : ∀ n, (∀ k, k < n → PushData code (q + k)) → pushData code q n = some (slice code q n)
  | 0, _ => rfl
  | n + 1, h => by
    unfold pushData
    rw [pushData_ok n fun k hk => h k (by omega), getData_ok (h n (by omega))]
    show some _ = some _
    unfold slice
    rw [List.range_succ, List.map_append]
    rfl

end Tosca.Proofs.Ct

import Verif.Proofs.Compare
import Verif.Spec.GoRules

/-!
# C83: comparison of test states

Two states are equal to the tests exactly if they are alike, this is an equivalence, and what is not equal is explained, with one exception.
-/

namespace Tosca

open Tosca.Go Tosca.Model.Ct Tosca.Model.Compare Tosca.Spec.Compare Tosca.Proofs.Compare

variable {keccak : List Byte → U256} {s o t : TestState}

/-- C83.  `Eq` decides whether two states are alike. -/
theorem C83_eq (hs : Proper s) (ho : Proper o) : Model.Compare.eq keccak s o = true ↔ Alike s o := eq_iff hs ho

/-- C83.  `Eq` is an equivalence. -/
theorem C83_equivalence (hs : Proper s) (ho : Proper o) (ht : Proper t) :
    Model.Compare.eq keccak s s = true ∧
    (Model.Compare.eq keccak s o = Model.Compare.eq keccak o s) ∧
    (Model.Compare.eq keccak s o = true → Model.Compare.eq keccak o t = true → Model.Compare.eq keccak s t = true) := by
  have symm : ∀ {a b : TestState}, Alike a b → Alike b a := by
    rintro a b ⟨h1, h2⟩
    refine ⟨h1.symm, ?_⟩
    rcases h2 with h2 | ⟨h2, h3, h4⟩
    · exact .inl (h1 ▸ h2)
    · refine .inr ⟨⟨h2.1.symm, h2.2.symm, h2.3.symm, h2.4.symm, h2.5.symm, h2.6.symm, h2.7.symm, h2.8.symm, h2.9.symm, h2.10.symm,
        fun k v hv => (h2.11 k v hv).symm, fun e => (h2.12 e).symm, fun k v hv => (h2.13 k v hv).symm, fun e => (h2.14 e).symm,
        fun e => (h2.15 e).symm, h2.16.symm, h2.17.symm, h2.18.symm, h2.19.symm, h2.20.symm, h2.21.symm⟩, fun e => (h3 e).symm, ?_⟩
      rw [← h1]
      split at h4
      · rename_i hr
        rw [if_pos hr]
        obtain ⟨p, q1, q2, q3⟩ := h4
        refine ⟨?_, q1.symm, q2.symm, q3.symm⟩
        rcases p with p | ⟨p1, p2⟩
        · exact .inl p.symm
        · exact .inr ⟨h2.code ▸ p2, h2.code ▸ p1⟩
      · rename_i hr
        rw [if_neg hr]
        exact h4.symm
  refine ⟨(eq_iff hs hs).mpr ?_, ?_, fun h1 h2 => (eq_iff hs ht).mpr ?_⟩
  · refine ⟨rfl, .inr ⟨⟨rfl, rfl, rfl, rfl, rfl, rfl, rfl, rfl, rfl, rfl, fun _ _ _ => .rfl, fun _ => .rfl, fun _ _ _ => .rfl, fun _ => .rfl,
      fun _ => .rfl, rfl, rfl, rfl, rfl, rfl, rfl⟩, fun _ => .rfl, ?_⟩⟩
    split
    · exact ⟨.inl rfl, rfl, rfl, rfl⟩
    · rfl
  · rw [Bool.eq_iff_iff, eq_iff hs ho, eq_iff ho hs]
    exact ⟨symm, symm⟩
  · obtain ⟨a1, a2⟩ := (eq_iff hs ho).mp h1
    obtain ⟨b1, b2⟩ := (eq_iff ho ht).mp h2
    refine ⟨a1.trans b1, ?_⟩
    rcases a2 with a2 | ⟨a2, a3, a4⟩
    · exact .inl a2
    rcases b2 with b2 | ⟨b2, b3, b4⟩
    · exact .inl (a1.trans b2)
    refine .inr ⟨⟨a2.1.trans b2.1, a2.2.trans b2.2, a2.3.trans b2.3, a2.4.trans b2.4, a2.5.trans b2.5, a2.6.trans b2.6, a2.7.trans b2.7,
      a2.8.trans b2.8, a2.9.trans b2.9, a2.10.trans b2.10, fun k v hv => (a2.11 k v hv).trans (b2.11 k v hv), fun e => (a2.12 e).trans (b2.12 e),
      fun k v hv => (a2.13 k v hv).trans (b2.13 k v hv), fun e => (a2.14 e).trans (b2.14 e), fun e => (a2.15 e).trans (b2.15 e),
      a2.16.trans b2.16, a2.17.trans b2.17, a2.18.trans b2.18, a2.19.trans b2.19, a2.20.trans b2.20, a2.21.trans b2.21⟩,
      fun e => (a3 e).trans (b3 e), ?_⟩
    rw [← a1] at b4
    by_cases hr : s.status = .running
    · rw [if_pos hr] at a4 b4 ⊢
      obtain ⟨p, q1, q2, q3⟩ := a4
      obtain ⟨p', q1', q2', q3'⟩ := b4
      refine ⟨?_, q1.trans q1', q2.trans q2', q3.trans q3'⟩
      unfold SamePc at p p' ⊢
      rw [← a2.code] at p'
      rcases p with p | ⟨p1, p2⟩
      · rw [p]; exact p'
      · rcases p' with p' | ⟨p3, p4⟩
        · exact .inr ⟨p1, p' ▸ p2⟩
        · exact .inr ⟨p1, p4⟩
    · rw [if_neg hr] at a4 b4 ⊢
      exact a4.trans b4

/-- C83.  `Diff` has no message exactly if there is nothing to report. -/
theorem C83_diff (hs : Proper s) (ho : Proper o) : Model.Compare.diff keccak s o = [] ↔ Nothing s o := diff_iff hs ho

/-- C83.  If two states are not equal, `Diff` says why, as long as they agree on the original values of storage. -/
theorem C83_explained (hs : Proper s) (ho : Proper o) (h : Model.Compare.eq keccak s o = false)
    (hg : SameEntries s.storage.original o.storage.original) : Model.Compare.diff keccak s o ≠ [] := by
  intro hd
  obtain ⟨h1, h2, _, h4, h5, h6, h7, h8⟩ := (diff_iff hs ho).mp hd
  have : Alike s o := by
    refine ⟨h1, ?_⟩
    cases hst : s.status with
    | failed => exact .inl rfl
    | running =>
      rw [if_pos rfl]
      exact .inr ⟨h2, hg, .inl h4, h5, h6, h7⟩
    | stopped =>
      rw [if_neg (fun h => (by cases h))]
      exact .inr ⟨h2, hg, h8 (.inl hst)⟩
    | reverted =>
      rw [if_neg (fun h => (by cases h))]
      exact .inr ⟨h2, hg, h8 (.inr hst)⟩
  rw [(eq_iff hs ho).mpr this] at h
  cases h

/-- C83.  Between states that are equal and not failed, `Diff` only mentions what may differ. -/
theorem C83_sound (hs : Proper s) (ho : Proper o) (h : Model.Compare.eq keccak s o = true) (hf : s.status ≠ .failed) {m : Difference}
    (hm : m ∈ Model.Compare.diff keccak s o) : MayDiffer s.status m.what := by
  obtain ⟨h1, h2⟩ := (eq_iff hs ho).mp h
  obtain ⟨h2, hg, h3⟩ := h2.resolve_left hf
  -- With the parts that may differ made equal there is nothing to report.
  let o' : TestState := { o with pc := s.pc, stack := s.stack, memory := s.memory, lastCallReturnData := s.lastCallReturnData }
  have ho' : Proper o' := ⟨ho.1, ho.2, ho.3, ho.4, ho.5, ho.6, ho.7, ho.8⟩
  have hd : Model.Compare.diff keccak s o' = [] := by
    refine (diff_iff hs ho').mpr ⟨h1, ⟨h2.1, h2.2, h2.3, h2.4, h2.5, h2.6, h2.7, h2.8, h2.9, h2.10, h2.11, h2.12, h2.13, h2.14, h2.15, h2.16, h2.17,
      h2.18, h2.19, h2.20, h2.21⟩, fun k v _ => hg (k, v), rfl, rfl, rfl, rfl, fun ht => ?_⟩
    rw [if_neg (by rcases ht with ht | ht <;> rw [ht] <;> exact fun h => (by cases h))] at h3
    exact h3
  have reported : ∀ {w : String} {c : Bool}, m ∈ report w c → m.what = w := by
    intro w c h
    unfold report at h
    split at h
    · rw [List.mem_singleton] at h; rw [h]
    · cases h
  have slices : ∀ {α : Type} {w : String} {d : α → α → Bool} {a b : List α}, m ∈ sliceDiff w d a b → m.what = w := by
    intro α w d a b h
    unfold sliceDiff at h
    split at h
    · rw [List.mem_singleton] at h; rw [h]
    · rw [List.mem_flatMap] at h
      obtain ⟨i, _, h⟩ := h
      unfold atIndex at h
      split at h
      · dsimp only at h
        split at h
        · rw [List.mem_singleton] at h; rw [h]
        · cases h
      · cases h
  have whens : ∀ {e : Bool} {d : List Difference}, m ∈ whenUnequal e d → e = false ∧ m ∈ d := by
    intro e d h
    unfold whenUnequal at h
    cases e
    · exact ⟨rfl, h⟩
    · cases h
  unfold Model.Compare.diff at hd hm
  simp only [List.append_eq_nil_iff] at hd
  obtain ⟨⟨⟨⟨⟨⟨⟨⟨⟨⟨⟨⟨⟨⟨⟨⟨⟨⟨⟨⟨⟨⟨n1, n2⟩, n3⟩, n4⟩, n5⟩, n6⟩, n7⟩, n8⟩, n9⟩, n10⟩, n11⟩, n12⟩, n13⟩, n14⟩, n15⟩, n16⟩, n17⟩, n18⟩, n19⟩, n20⟩, n21⟩, n22⟩, n23⟩ := hd
  have never : ∀ {d d' : List Difference}, d' = [] → m ∈ d → d = d' → False := by
    intro d d' h1 h2 h3
    rw [h3, h1] at h2
    cases h2
  have inside : s.status ≠ .running ∨ (s.stack = o.stack ∧ s.memory = o.memory ∧ s.lastCallReturnData = o.lastCallReturnData) := by
    by_cases hr : s.status = .running
    · rw [if_pos hr] at h3
      exact .inr h3.2
    · exact .inl hr
  simp only [List.mem_append, or_assoc] at hm
  rcases hm with hm | hm | hm | hm | hm | hm | hm | hm | hm | hm | hm | hm | hm | hm | hm | hm | hm | hm | hm | hm | hm | hm | hm
  · exact (never n1 hm rfl).elim
  · exact (never n2 hm rfl).elim
  · exact (never n3 hm rfl).elim
  · exact .inl (reported hm)
  · exact (never n5 hm rfl).elim
  · exact (never n6 hm rfl).elim
  · exact (never n7 hm rfl).elim
  · obtain ⟨he, hm⟩ := whens hm
    rcases inside with h | h
    · exact .inr ⟨h, .inl (slices hm)⟩
    · rw [beq_iff_eq.mpr h.1] at he; cases he
  · obtain ⟨he, hm⟩ := whens hm
    rcases inside with h | h
    · exact .inr ⟨h, .inr (.inl (slices hm))⟩
    · rw [beq_iff_eq.mpr h.2.1] at he; cases he
  · exact (never n10 hm rfl).elim
  · exact (never n11 hm rfl).elim
  · exact (never n12 hm rfl).elim
  · exact (never n13 hm rfl).elim
  · exact (never n14 hm rfl).elim
  · exact (never n15 hm rfl).elim
  · exact (never n16 hm rfl).elim
  · exact (never n17 hm rfl).elim
  · exact (never n18 hm rfl).elim
  · rcases inside with h | h
    · exact .inr ⟨h, .inr (.inr (reported hm))⟩
    · simp [report, h.2.2] at hm
  · exact (never n20 hm rfl).elim
  · exact (never n21 hm rfl).elim
  · exact (never n22 hm rfl).elim
  · exact (never n23 hm rfl).elim

/-- C83.  The exception: an original value of zero counts for `Eq`, even though no instruction can tell it from a missing one, but not for `Diff`. -/
theorem C83_original_zero (keccak : List Byte → U256) :
    let a : TestState := { storage := { original := [(1, 0)] } }
    let b : TestState := {}
    Proper a ∧ Proper b ∧ Model.Compare.eq keccak a b = false ∧ Model.Compare.diff keccak a b = [] := by
  intro a b
  have ha : Proper a := by
    refine ⟨?_, ?_, ?_, ?_, ?_, ?_, fun l h => (by cases h), by decide⟩ <;> (unfold Map; decide)
  have hb : Proper b := by
    refine ⟨?_, ?_, ?_, ?_, ?_, ?_, fun l h => (by cases h), by decide⟩ <;> (unfold Map; decide)
  refine ⟨ha, hb, ?_, (diff_iff ha hb).mpr ?_⟩
  · cases he : Model.Compare.eq keccak a b
    · rfl
    · have := ((eq_iff ha hb).mp he).2.resolve_left (fun h => (by cases h))
      have := (this.2.1 (1, 0)).mp (List.mem_singleton.mpr rfl)
      cases this
  · refine ⟨rfl, ⟨rfl, rfl, rfl, rfl, rfl, rfl, rfl, rfl, rfl, rfl, fun _ _ _ => .rfl, fun _ => .rfl, fun _ _ _ => .rfl, fun _ => .rfl,
      fun _ => .rfl, rfl, rfl, rfl, rfl, rfl, rfl⟩, ?_, rfl, rfl, rfl, rfl, fun _ => rfl⟩
    intro k v hv
    constructor
    · intro h
      rw [List.mem_singleton] at h
      exact absurd (Prod.mk.inj h).2 hv
    · intro h
      cases h

/-- C83.  Code of 2^16 bytes (longer than anything a chain accepts, but not ruled out by the API): its length is taken for zero, and states at different
instructions are equal. -/
theorem C83_long_code (code : List Byte) (h : code.length = 2 ^ 16) :
    Model.Compare.eq keccak { code := code, pc := 1 } { code := code, pc := 2 } = true := by
  have hp : ∀ pc : BitVec 16, pc ≥ BitVec.ofNat 16 code.length := by
    intro pc
    rw [h]
    exact BitVec.le_def.mpr (Nat.zero_le _)
  unfold Model.Compare.eq
  rw [if_neg (by simp), if_neg (fun h => (by cases h.1))]
  dsimp only
  rw [if_neg (by simp)]
  simp [hp, equivalent, codeEq, journalEqual, Storage.eq, Accounts.eq, mapsEqual, mapEqualIgnoringZeroValues, logsEq, logsLoop, hashesEqual, transactionEq]

/-- C83.  Results of rules and interpreters that are the same for C75 are equal for the tests. -/
theorem C83_same {x : Model.Ct.Fixed} {c c' : S} (hs : Proper s) (ho : Proper o) (h1 : Represents s x c) (h2 : Represents o x c')
    (h : Tosca.Spec.Go.Same x.code c c') : Model.Compare.eq keccak s o = true := by
  refine (eq_iff hs ho).mpr ⟨by rw [h1.status, h2.status]; exact h.1, ?_⟩
  rcases h.2 with hf | ⟨g1, g2, g3, g4⟩
  · exact .inl (h1.status.trans hf)
  refine .inr ⟨⟨?_, ?_, ?_, ?_, ?_, ?_, ?_, ?_, ?_, ?_, ?_, ?_, ?_, ?_, ?_, ?_, ?_, ?_, ?_, ?_, ?_⟩, ?_, ?_⟩
  · rw [h1.code, h2.code]
  · rw [h1.revision, h2.revision]
  · rw [h1.readOnly, h2.readOnly]
  · rw [h1.gas, h2.gas, g1]
  · rw [h1.refund, h2.refund, g2]
  · rw [h1.callContext, h2.callContext]
  · rw [h1.past, h2.past, g3]
  · rw [h1.future, h2.future, g3]
  · rw [h1.block, h2.block]
  · rw [h1.callData, h2.callData]
  · intro k v _; rw [h1.current, h2.current, g3]
  · rintro ⟨k, ⟨⟩⟩; rw [h1.warm, h2.warm, g3]
  · intro k v _; rw [h1.transient, h2.transient, g3]
  · rintro ⟨k, v⟩; rw [h1.accounts, h2.accounts, g3]
  · rintro ⟨k, ⟨⟩⟩; rw [h1.warmAccounts, h2.warmAccounts, g3]
  · rw [h1.logs, h2.logs, g3]
  · rw [h1.hasSelfDestructed, h2.hasSelfDestructed, g3]
  · rw [h1.selfDestructed, h2.selfDestructed, g3]
  · refine List.ext_getElem? fun i => ?_
    by_cases hi : i < 256
    · rw [h1.hashes i hi, h2.hashes i hi]
    · rw [List.getElem?_eq_none (by rw [hashes_length hs]; omega), List.getElem?_eq_none (by rw [hashes_length ho]; omega)]
  · rw [h1.origin, h2.origin]
  · rw [h1.blobHashes, h2.blobHashes]
  · rintro ⟨k, v⟩; rw [h1.original, h2.original, g3]
  · rw [h1.status]
    by_cases hr : c.status = .running
    · rw [if_pos hr] at g4 ⊢
      obtain ⟨p, q1, q2, q3⟩ := g4
      refine ⟨?_, ?_, ?_, ?_⟩
      · unfold SamePc
        rw [h1.pc, h2.pc, h1.code]
        exact p
      · rw [h1.stack, h2.stack, q1]
      · rw [h1.memory, h2.memory, q2]
      · rw [h1.last, h2.last, q3]
    · rw [if_neg hr] at g4 ⊢
      rw [h1.result, h2.result, g4]

/-- A state with something in every map. -/
def someState (order : Bool) : TestState :=
  let entries : GoMap U256 U256 := [(1, 5), (2, 0), (3, 7)]
  { storage := { current := if order then entries else [(3, 7), (1, 5)], original := if order then [(1, 2), (4, 0)] else [(4, 0), (1, 2)], warm := [(1, ())] }
    transient := if order then [(9, 9)] else [(8, 0), (9, 9)]
    accounts := { accounts := [(7, { balance := 3 })], warm := [(7, ())] }
    code := [0x60, 1], pc := if order then 2 else 77, hashes := if order then none else some (List.replicate 256 0) }

/-- The hypotheses are met, by states that differ in the order of their maps, in zero values, beyond the code and in how they have no hashes. -/
theorem someState_proper (order : Bool) : Proper (someState order) := by
  cases order
  · refine ⟨?_, ?_, ?_, ?_, ?_, ?_, fun l h => ?_, by decide⟩
    case refine_7 =>
      cases h
      exact List.length_replicate
    all_goals (unfold Map; decide)
  · refine ⟨?_, ?_, ?_, ?_, ?_, ?_, fun l h => (by cases h), by decide⟩ <;> (unfold Map; decide)

example : Model.Compare.eq (fun _ => 0) (someState true) (someState false) = true := by decide +kernel

example : Model.Compare.eq (fun _ => 0) (someState true) { someState false with code := [0x60] } = false := by decide +kernel

end Tosca

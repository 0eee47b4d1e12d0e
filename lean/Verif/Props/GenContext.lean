import Verif.Proofs.GenContext

/-!
# C82: the generators of block and transaction contexts

Block numbers, time stamps and numbers of blob hashes that the conformance tests use meet what was demanded of them, whatever the variables are bound to,
in whatever order the calls came and the maps are iterated, and whatever the random numbers are.
-/

namespace Tosca

open Tosca.Go Tosca.Model.Go Tosca.Model.Gen Tosca.Spec.Gen Tosca.Proofs.GenContext
open Tosca.Spec.Solver (uint64)

variable {σ : Type}

/-- The generator of block contexts after calls, in this order. -/
def blockGenerator (calls : List BlockCall) : BlockGenerator := calls.foldl BlockCall.apply {}

/-- The generator of transaction contexts after calls, in this order. -/
def blobGenerator (calls : List (Variable × Bool)) : BlobGenerator := calls.foldl (fun g c => g.require c.1 c.2) {}

/-- Every block context that is generated meets all that was demanded, up to two exceptions: a variable that is to be one of the 256 blocks before the
current one may be the current block if it was also called to have the offset 0; a variable that is to be none of them may be one of them if it is free and
the block number is between 1 and 255. -/
theorem C82_block (src : Source σ) (oV : List (Variable × Int) → List (Variable × Int)) (oR : List (Variable × Bool) → List (Variable × Bool))
    (hV : ∀ l, (oV l).Perm l) (hR : ∀ l, (oR l).Perm l) (calls : List BlockCall) (hp : ∀ c ∈ calls, Spec.Gen.BlockCall.Proper c)
    (a a' : Assignment) (s s' : σ) (n time : Nat) (h : (blockGenerator calls).generate src oV oR a s = some (n, time, a', s')) :
    Extends a' a ∧ n < 2 ^ 64 ∧
    (∀ l u, .revisions l u ∈ calls → l ≤ revisionOf n ∧ revisionOf n ≤ u) ∧
    (∀ v o, .offset v o ∈ calls → ∃ x, a' v = some x ∧ (x.toNat : Int) + o = n) ∧
    (∀ v, .recent v true ∈ calls → ∃ x, a' v = some x ∧ (Recent n x ∨ x.toNat = n ∧ .offset v 0 ∈ calls)) ∧
    (∀ v, .recent v false ∈ calls → ∃ x, a' v = some x ∧ (Recent n x → a v = none ∧ (∀ o, .offset v o ∉ calls) ∧ 1 ≤ n ∧ n < 256)) ∧
    (n < 6000 → revisionOf n * 1000 ≤ time ∧ time < revisionOf n * 1000 + 1000) := by
  have hinv : Inv calls (blockGenerator calls) := inv_all calls [] {} hp (.inr stored_start)
  unfold BlockGenerator.generate at h
  rcases hinv with ⟨hu, _⟩ | hg
  · rw [hu] at h; simp at h
  rw [hg.sat] at h
  simp only [Bool.false_eq_true, if_false, Option.bind_eq_some_iff, Option.map_eq_some_iff] at h
  obtain ⟨⟨n1, s1⟩, h1, a1, h2, ⟨a2, s2⟩, h3, h4⟩ := h
  simp only [Prod.mk.injEq] at h2 h3 h4
  obtain ⟨rfl, rfl, rfl, _⟩ := h4
  obtain ⟨G, hG⟩ : ∃ G, G = blockGenerator calls := ⟨_, rfl⟩
  rw [← hG] at hg h1 h2 h3
  have hvm : ∀ v o, (v, o) ∈ oV G.value ↔ .offset v o ∈ calls := fun v o => by rw [(hV _).mem_iff, hg.offsets]
  have hrm : ∀ v o, (v, o) ∈ oR G.range ↔ .recent v o ∈ calls := fun v o => by rw [(hR _).mem_iff, hg.ranges]
  have hvp : ∀ c ∈ oV G.value, -2 ^ 63 < c.2 ∧ c.2 < 2 ^ 63 := fun c hc => hp _ ((hvm c.1 c.2).1 hc)
  have hvn : ((oV G.value).map (·.1)).Nodup := (((hV _).map (·.1)).nodup_iff).2 hg.offsetsOnce
  have hrn : ((oR G.range).map (·.1)).Nodup := (((hR _).map (·.1)).nodup_iff).2 hg.rangesOnce
  obtain ⟨b1, b2, b3, b4⟩ := blockNumber_spec hg hvp h1
  obtain ⟨o1, o2, o3⟩ := bindOffsets_spec b1 hvp hvn h2
  have hfree : ∀ v, a v = none → a1 v = none ∨ ∃ o x, (v, o) ∈ oV G.value ∧ a1 v = some x ∧ (x.toNat : Int) + o = n1 := fun v hv => by
    by_cases hm : v ∈ (oV G.value).map (·.1)
    · obtain ⟨⟨w, o⟩, hc, rfl⟩ := List.mem_map.1 hm
      obtain ⟨x, hx, h5⟩ := o3 w o hc
      rcases h5 with h5 | h5
      · simp only at hv; rw [hv] at h5; cases h5
      · exact .inr ⟨o, x, hc, hx, h5⟩
    · exact .inl (by rw [o2 v hm, hv])
  obtain ⟨r1, r2, r3⟩ := bindRanges_spec b1 hrn (fun v hm hv => (b4 v hm).1 (by
    cases ha : a v with
    | none => rfl
    | some x => rw [o1 v x ha] at hv; cases hv)) h3
  refine ⟨extends_trans o1 r1, b1, b2, fun v o hm => ?_, fun v hm => ?_, fun v hm => ?_, fun hn => timeStamp_spec hn _⟩
  · obtain ⟨x, hx, h5⟩ := o3 v o ((hvm v o).2 hm)
    refine ⟨x, r1 v x hx, ?_⟩
    rcases h5 with h5 | h5
    · exact b3 v o x ((hvm v o).2 hm) h5
    · exact h5
  · obtain ⟨x, hx, h5⟩ := r3 v true ((hrm v true).2 hm)
    refine ⟨x, hx, ?_⟩
    rcases h5 with ⟨h6, h7⟩ | ⟨_, h7, _⟩
    · have h7 := isInRange_true h7
      cases ha : a v with
      | some y =>
        have := o1 v y ha
        rw [h6] at this; cases this
        exact .inl ⟨(b4 v ((hrm v true).2 hm)).2 x ha, h7.2⟩
      | none =>
        rcases hfree v ha with h8 | ⟨o, y, hc, hy, h8⟩
        · rw [h6] at h8; cases h8
        · rw [h6] at hy; cases hy
          by_cases ho : o = 0
          · subst ho; exact .inr ⟨by omega, (hvm v 0).1 hc⟩
          · exact .inl ⟨by omega, h7.2⟩
    · exact .inl (h7 rfl)
  · obtain ⟨x, hx, h5⟩ := r3 v false ((hrm v false).2 hm)
    refine ⟨x, hx, fun hrec => ?_⟩
    rcases h5 with ⟨_, h7⟩ | ⟨h6, _, h7⟩
    · exact absurd hrec (isInRange_false b1 h7)
    · refine ⟨?_, fun o ho => ?_, ?_⟩
      · cases ha : a v with
        | none => rfl
        | some y => rw [o1 v y ha] at h6; cases h6
      · obtain ⟨y, hy, _⟩ := o3 v o ((hvm v o).2 ho)
        rw [hy] at h6; cases h6
      · by_cases hc : 256 ≤ n1 ∨ n1 = 0
        · exact absurd hrec (h7 rfl hc)
        · omega

/-- Without the exceptions the block context meets the constraints of all calls. -/
theorem C82_block_meets (src : Source σ) (oV : List (Variable × Int) → List (Variable × Int)) (oR : List (Variable × Bool) → List (Variable × Bool))
    (hV : ∀ l, (oV l).Perm l) (hR : ∀ l, (oR l).Perm l) (calls : List BlockCall) (hp : ∀ c ∈ calls, Spec.Gen.BlockCall.Proper c)
    (a a' : Assignment) (s s' : σ) (n time : Nat) (h : (blockGenerator calls).generate src oV oR a s = some (n, time, a', s'))
    (h0 : ∀ v, .recent v true ∈ calls → .offset v 0 ∉ calls) (hn : 256 ≤ n ∨ ∀ v, .recent v false ∈ calls → (a v).isSome ∨ ∃ o, .offset v o ∈ calls) :
    Extends a' a ∧ BlockMeets calls n time a' := by
  obtain ⟨c1, c2, c3, c4, c5, c6, c7⟩ := C82_block src oV oR hV hR calls hp a a' s s' n time h
  refine ⟨c1, c2, c3, c4, fun v hm => ?_, fun v hm => ?_, c7⟩
  · obtain ⟨x, hx, h5⟩ := c5 v hm
    exact ⟨x, hx, h5.resolve_right fun h6 => h0 v hm h6.2⟩
  · obtain ⟨x, hx, h5⟩ := c6 v hm
    refine ⟨x, hx, fun hrec => ?_⟩
    obtain ⟨d1, d2, d3, d4⟩ := h5 hrec
    rcases hn with hn | hn
    · omega
    · rcases hn v hm with h6 | ⟨o, h6⟩
      · rw [d1] at h6; cases h6
      · exact d2 o h6

/-- If only revisions are demanded: an error if and only if no block is of a revision within all bounds; otherwise every block of such a revision can be
generated. -/
theorem C82_revisions (calls : List BlockCall) (hp : ∀ c ∈ calls, Spec.Gen.BlockCall.Proper c) (hc : ∀ c ∈ calls, ∃ l u, c = .revisions l u) (a : Assignment) :
    (∀ (src : Source σ) (s : σ), (blockGenerator calls).generate src id id a s = none ↔
      ¬ ∃ n < 2 ^ 64, ∀ l u, .revisions l u ∈ calls → l ≤ revisionOf n ∧ revisionOf n ≤ u) ∧
    ∀ n < 2 ^ 64, (∀ l u, .revisions l u ∈ calls → l ≤ revisionOf n ∧ revisionOf n ≤ u) →
      ∃ (src : Source Unit) (time : Nat), (blockGenerator calls).generate src id id a () = some (n, time, a, ()) := by
  have hinv : Inv calls (blockGenerator calls) := inv_all calls [] {} hp (.inr stored_start)
  obtain ⟨G, hG⟩ : ∃ G, G = blockGenerator calls := ⟨_, rfl⟩
  rw [← hG] at hinv ⊢
  rcases hinv with ⟨hu, hno⟩ | hg
  · refine ⟨fun src s => ⟨fun _ => hno hc, fun _ => ?_⟩, fun n hn hm => absurd ⟨n, hn, hm⟩ (hno hc)⟩
    unfold BlockGenerator.generate; rw [hu]; rfl
  · have hv : G.value = [] := List.eq_nil_iff_forall_not_mem.2 fun c hm => by
      obtain ⟨l, u, e⟩ := hc _ ((hg.offsets c.1 c.2).1 hm); cases e
    have hr : G.range = [] := List.eq_nil_iff_forall_not_mem.2 fun c hm => by
      obtain ⟨l, u, e⟩ := hc _ ((hg.ranges c.1 c.2).1 hm); cases e
    have hgen : ∀ {τ : Type} (src : Source τ) (s : τ), G.generate src id id a s =
        match Model.Solver.generate uint64 (intervalsOf uint64 0 (2 ^ 64 - 1) (startClauses G)) (src.solver s).1 with
        | .value x => some (x.toNat, timeStamp x.toNat (src.solver (src.solver s).2).1, a, (src.solver (src.solver s).2).2)
        | _ => none := fun src s => by
      have hb : blockNumber src G [] [] a s =
          match Model.Solver.generate uint64 (intervalsOf uint64 0 (2 ^ 64 - 1) (startClauses G)) (src.solver s).1 with
          | .value x => some (x.toNat, (src.solver s).2)
          | _ => none := by
        unfold blockNumber intervalsOf startClauses
        cases G.solver <;> rfl
      unfold BlockGenerator.generate
      rw [hg.sat, hv, hr]
      simp only [id_eq, hb]
      cases Model.Solver.generate uint64 (intervalsOf uint64 0 (2 ^ 64 - 1) (startClauses G)) (src.solver s).1 <;> rfl
    obtain ⟨q1, q2, q3, q4⟩ := C77_interval_generate uint64 known64 (.inl rfl) 0 (2 ^ 64 - 1) ((has64 _).2 (by omega)) ((has64 _).2 (by omega))
      (startClauses G) (startClauses_typed hg)
    have hsol : ∀ n : Nat, n < 2 ^ 64 → (Spec.Solver.Solution 0 (2 ^ 64 - 1) (startClauses G) n ↔ ∀ l u, .revisions l u ∈ calls → l ≤ revisionOf n ∧ revisionOf n ≤ u) :=
      fun n hn => by
        rw [← startClauses_holds hg hn]
        unfold Spec.Solver.Solution
        constructor
        · exact fun h => h.2.2
        · exact fun h => ⟨by omega, by omega, h⟩
    have hex : (∃ x, Spec.Solver.Solution 0 (2 ^ 64 - 1) (startClauses G) x) ↔ ∃ n < 2 ^ 64, ∀ l u, .revisions l u ∈ calls → l ≤ revisionOf n ∧ revisionOf n ≤ u := by
      constructor
      · rintro ⟨x, hx⟩
        obtain ⟨n, rfl⟩ : ∃ n : Nat, x = n := ⟨x.toNat, by have := hx.1; omega⟩
        have hn : n < 2 ^ 64 := by have := hx.2.1; omega
        exact ⟨n, hn, (hsol n hn).1 hx⟩
      · rintro ⟨n, hn, hm⟩
        exact ⟨n, (hsol n hn).2 hm⟩
    refine ⟨fun src s => ?_, fun n hn hm => ?_⟩
    · rw [hgen, ← hex, ← q1 (src.solver s).1]
      cases hd : Model.Solver.generate uint64 (intervalsOf uint64 0 (2 ^ 64 - 1) (startClauses G)) (src.solver s).1 with
      | unsatisfiable => simp
      | value x => simp
      | internalError => exact absurd hd (q4 _)
    · obtain ⟨r, hr⟩ := q3 n ((hsol n hn).2 hm)
      refine ⟨⟨fun _ s => (0, s), fun s => (0, s), fun s => (0, s), fun _ s => ([], s), fun s => (0, s), fun s => (r, s)⟩, timeStamp n r, ?_⟩
      rw [hgen]
      simp only [hr, Int.toNat_natCast]

/-- The second exception is real: at every block between 1 and 255, a free variable that is to be none of the 256 blocks before can be bound to any value of
64 bits, the blocks before included. -/
theorem C82_early (n x : Nat) (hn : 1 ≤ n ∧ n < 256) (hx : x < 2 ^ 64) (v : Variable) (a : Assignment) (ha : a v = none) :
    ∃ (src : Source Nat) (time : Nat) (s : Nat),
      (blockGenerator [.revisions 0 0, .recent v false]).generate src id id a 0 = some (n, time, a.set v (BitVec.ofNat 256 x), s) := by
  obtain ⟨r1, h1⟩ := (C77_interval_generate uint64 known64 (.inl rfl) 0 (2 ^ 64 - 1) ((has64 _).2 (by omega)) ((has64 _).2 (by omega))
    [.atLeast 0, .atMost 999] (by
      intro c hc
      simp only [List.mem_cons, List.not_mem_nil, or_false] at hc
      rcases hc with rfl | rfl
      · exact (has64 _).2 (by omega)
      · exact (has64 _).2 (by omega))).2.2.1 n ⟨by omega, by omega, by
      intro c hc
      simp only [List.mem_cons, List.not_mem_nil, or_false] at hc
      rcases hc with rfl | rfl <;> simp only [Spec.Solver.Clause.Holds] <;> omega⟩
  have hw : Model.Solver.wrap uint64 ((n : Int) - 256) = 2 ^ 64 + n - 256 := by
    unfold Model.Solver.wrap uint64; simp only [Bool.false_eq_true, if_false]; omega
  obtain ⟨r2, h2⟩ := (C77_interval_generate uint64 known64 (.inl rfl) 0 (2 ^ 64 - 1) ((has64 _).2 (by omega)) ((has64 _).2 (by omega))
    [.outside (2 ^ 64 + n - 256) (n - 1)] (by
      intro c hc
      simp only [List.mem_cons, List.not_mem_nil, or_false] at hc
      subst hc
      exact ⟨(has64 _).2 (by omega), (has64 _).2 (by omega)⟩)).2.2.1 x ⟨by omega, by omega, by
      intro c hc
      simp only [List.mem_cons, List.not_mem_nil, or_false] at hc
      subst hc
      simp only [Spec.Solver.Clause.Holds]; omega⟩
  refine ⟨⟨fun _ s => (0, s), fun s => (0, s), fun s => (0, s), fun _ s => ([], s), fun s => (0, s), fun s => (if s = 0 then r1 else r2, s + 1)⟩, timeStamp n r2, 3, ?_⟩
  have hg : blockGenerator [.revisions 0 0, .recent v false] = { solver := some ⟨0, 999⟩, range := [(v, false)] } := rfl
  rw [hg]
  unfold BlockGenerator.generate blockNumber
  change Model.Solver.generate uint64 ([Spec.Solver.Clause.atLeast 0, .atMost 999].foldl (Model.Solver.add uint64) (Model.Solver.newInterval 0 (2 ^ 64 - 1))) r1 = _ at h1
  change Model.Solver.generate uint64 (Model.Solver.exclude uint64 (Model.Solver.newInterval 0 (2 ^ 64 - 1)) (2 ^ 64 + n - 256) (n - 1)) r2 = _ at h2
  have hw1 : Model.Solver.wrap uint64 ((n : Int) - 1) = n - 1 := wrap64_of (by omega)
  simp only [Bool.false_eq_true, if_false, id_eq, valueClauses, rangeClauses, ha, bindOffsets, Option.bind_some, List.append_nil, Option.map_some, if_true, h1,
    Int.toNat_natCast, bindRanges, hw, hw1, Nat.zero_add]
  have e : BitVec.ofInt 256 (x : Int) = BitVec.ofNat 256 x := BitVec.ofInt_natCast 256 x
  simp at h2 ⊢
  simp [h2, e]

/-- The generator of transaction contexts: a result keeps what is bound and meets the constraints, unless a variable that is to be present and one that is
to be absent are bound to the same value, or one that is to be absent is bound to 0 and one that is to be present is free. -/
theorem C82_blobs (src : Source σ) (o : List (Variable × Bool) → List (Variable × Bool)) (ho : ∀ l, (o l).Perm l) (calls : List (Variable × Bool))
    (a a' : Assignment) (s s' : σ) (count : Nat) (h : (blobGenerator calls).generate src o a s = some (count, a', s')) :
    Extends a' a ∧ count < 2 ^ 64 ∧
    (BlobsMeet calls count a' ∨ ∃ u v, (u, true) ∈ calls ∧ (v, false) ∈ calls ∧ (a v).isSome ∧ (a u = a v ∨ a u = none ∧ a v = some 0)) := by
  have hinv := blobs_all calls [] {} ⟨rfl, by simp, by simp⟩
  change Contradicts calls ∧ (blobGenerator calls).unsatisfiable = true ∨ BlobsStored calls (blobGenerator calls) at hinv
  obtain ⟨G, hG⟩ : ∃ G, G = blobGenerator calls := ⟨_, rfl⟩
  rw [← hG] at hinv h
  unfold BlobGenerator.generate at h
  rcases hinv with ⟨_, hu⟩ | hg
  · rw [hu] at h; simp at h
  rw [hg.sat] at h
  simp only [Bool.false_eq_true, if_false, Option.bind_eq_some_iff] at h
  obtain ⟨⟨max, min⟩, h1, h⟩ := h
  simp only at h
  have hm : ∀ v b, (v, b) ∈ o G.indices ↔ (v, b) ∈ calls := fun v b => by rw [(ho _).mem_iff, hg.same]
  have hn : ((o G.indices).map (·.1)).Nodup := (((ho _).map (·.1)).nodup_iff).2 hg.once
  obtain ⟨i1, i2, i3, i4, i5⟩ := blobBounds_spec h1
  simp only at i1 i2 i3 i4 i5
  split at h
  · cases h
  rename_i hne
  simp only [not_or] at hne
  simp only [Option.map_eq_some_iff, Prod.mk.injEq] at h
  obtain ⟨⟨a2, s2⟩, h2, h3, h4⟩ := h
  simp only at h2 h3 h4
  obtain ⟨rfl, rfl⟩ := h4
  rw [h3] at h2
  by_cases hmin : min = 0
  · subst hmin
    simp only [ne_eq, not_true_eq_false, if_false] at h3
    have hcount : count = 0 := by omega
    subst hcount
    rcases i3 with i3 | ⟨v, x, hv, hx, hx0⟩
    · omega
    have hx0 : x = 0 := BitVec.eq_of_toNat_eq (by simpa using hx0)
    subst hx0
    have hvm := (hm v false).1 hv
    by_cases hex : ∃ u, (u, true) ∈ calls
    · obtain ⟨u, hu⟩ := hex
      cases hau : a u with
      | some y =>
        have hy := i4 u y ((hm u true).2 hu) hau
        have hy : y = 0 := BitVec.eq_of_toNat_eq (by simp; omega)
        subst hy
        refine ⟨?_, by omega, .inr ⟨u, v, hu, hvm, by simp [hx], .inl (by rw [hau, hx])⟩⟩
        exact bindBlobs_extends h2
      | none =>
        refine ⟨bindBlobs_extends h2, by omega, .inr ⟨u, v, hu, hvm, by simp [hx], .inr ⟨hau, hx⟩⟩⟩
    · obtain ⟨a3, s3, h5, j1, j2, j3⟩ := bindBlobs_spec (src := src) (count := 0) (by omega) (a := a) (s := s) hn (fun w hw => absurd ⟨w, (hm w true).1 hw⟩ hex)
      rw [h5] at h2
      simp only [Option.some.injEq, Prod.mk.injEq] at h2
      obtain ⟨rfl, _⟩ := h2
      refine ⟨j1, by omega, .inl fun c hc => ?_⟩
      obtain ⟨w, p⟩ := c
      have hp : p = false := by
        cases p
        · rfl
        · exact absurd ⟨w, hc⟩ hex
      subst hp
      obtain ⟨y, hy, _⟩ := j3 w false ((hm w false).2 hc)
      exact ⟨y, hy, by simp⟩
  · rw [if_pos hmin] at h3
    subst h3
    obtain ⟨a3, s3, h5, j1, j2, j3⟩ := bindBlobs_spec (src := src) (count := max + 1) (by omega) (a := a) (s := s) hn (fun w _ _ => by omega)
    rw [h5] at h2
    simp only [Option.some.injEq, Prod.mk.injEq] at h2
    obtain ⟨rfl, _⟩ := h2
    refine ⟨j1, by omega, ?_⟩
    by_cases htie : ∃ u v x, (u, true) ∈ calls ∧ (v, false) ∈ calls ∧ a u = some x ∧ a v = some x
    · obtain ⟨u, v, x, hu, hv, e1, e2⟩ := htie
      exact .inr ⟨u, v, hu, hv, by simp [e2], .inl (by rw [e1, e2])⟩
    · refine .inl fun c hc => ?_
      obtain ⟨w, p⟩ := c
      obtain ⟨y, hy, h6⟩ := j3 w p ((hm w p).2 hc)
      refine ⟨y, hy, ?_⟩
      rcases h6 with h6 | h6
      · cases p with
        | true =>
          have := i4 w y ((hm w true).2 hc) h6
          simp only [iff_true]; omega
        | false =>
          simp only [Bool.false_eq_true, iff_false]
          rcases i5 w y ((hm w false).2 hc) h6 with h7 | h7
          · intro hlt
            have hmax : y.toNat = max := by omega
            rcases i2 with i2 | ⟨u, x, hu, hx, hxm⟩
            · omega
            · have : x = y := BitVec.eq_of_toNat_eq (by omega)
              subst this
              exact htie ⟨u, w, x, (hm u true).1 hu, hc, hx, h6⟩
          · omega
      · exact h6

/-- Whenever some number of blob hashes meets the constraints together with what is bound, the generator succeeds, for all random numbers, and its result
meets them. -/
theorem C82_blobs_complete (src : Source σ) (o : List (Variable × Bool) → List (Variable × Bool)) (ho : ∀ l, (o l).Perm l) (calls : List (Variable × Bool))
    (a : Assignment) (s : σ) (hsat : ∃ count < 2 ^ 64, ∃ a'', Extends a'' a ∧ BlobsMeet calls count a'') :
    ∃ count a' s', (blobGenerator calls).generate src o a s = some (count, a', s') ∧ Extends a' a ∧ count < 2 ^ 64 ∧ BlobsMeet calls count a' := by
  obtain ⟨N, hN, a'', hext, hmeet⟩ := hsat
  have key : ∀ v b x, (v, b) ∈ calls → a v = some x → (x.toNat < N ↔ b = true) := fun v b x hc hx => by
    obtain ⟨y, hy, h⟩ := hmeet _ hc
    rw [hext v x hx] at hy; cases hy
    exact h
  have hres : ∃ count a' s', (blobGenerator calls).generate src o a s = some (count, a', s') := by
    have hinv := blobs_all calls [] {} ⟨rfl, by simp, by simp⟩
    change Contradicts calls ∧ (blobGenerator calls).unsatisfiable = true ∨ BlobsStored calls (blobGenerator calls) at hinv
    rcases hinv with ⟨⟨v, c1, c2⟩, _⟩ | hg
    · obtain ⟨x, hx, h1⟩ := hmeet _ c1
      obtain ⟨y, hy, h2⟩ := hmeet _ c2
      simp only at hx hy
      rw [hx] at hy; cases hy
      have := h2.1 (h1.2 rfl)
      cases this
    · obtain ⟨G, hG⟩ : ∃ G, G = blobGenerator calls := ⟨_, rfl⟩
      rw [← hG] at hg ⊢
      have hm : ∀ v b, (v, b) ∈ o G.indices ↔ (v, b) ∈ calls := fun v b => by rw [(ho _).mem_iff, hg.same]
      have hn : ((o G.indices).map (·.1)).Nodup := (((ho _).map (·.1)).nodup_iff).2 hg.once
      obtain ⟨⟨max, min⟩, hb⟩ := blobBounds_some (a := a) (l := o G.indices) (b := (0, 2 ^ 64 - 1)) (fun v x hv hx => by
        have := (key v true x ((hm v true).1 hv) hx).2 rfl; omega)
      obtain ⟨i1, i2, i3, i4, i5⟩ := blobBounds_spec hb
      simp only at i1 i2 i3 i4 i5
      have hmax : max = 0 ∨ max < N := i2.imp_right fun ⟨v, x, hv, hx, e⟩ => by
        have := (key v true x ((hm v true).1 hv) hx).2 rfl; omega
      have hminN : min = 2 ^ 64 - 1 ∨ N ≤ min := i3.imp_right fun ⟨v, x, hv, hx, e⟩ => by
        have := mt (key v false x ((hm v false).1 hv) hx).1 (by simp); omega
      unfold BlobGenerator.generate
      rw [hg.sat]
      simp only [Bool.false_eq_true, if_false, hb, Option.bind_some]
      rw [if_neg (by omega)]
      obtain ⟨a3, s3, h5, _⟩ := bindBlobs_spec (src := src) (count := if min ≠ 0 then max + 1 else max) (by split <;> omega) (a := a) (s := s) hn (fun w hw hwn => by
        obtain ⟨y, hy, h⟩ := hmeet _ ((hm w true).1 hw)
        have := h.2 rfl
        split <;> omega)
      rw [h5]
      exact ⟨_, _, _, rfl⟩
  obtain ⟨count, a', s', hres⟩ := hres
  obtain ⟨c1, c2, c3⟩ := C82_blobs src o ho calls a a' s s' count hres
  refine ⟨count, a', s', hres, c1, c2, ?_⟩
  rcases c3 with c3 | ⟨u, v, hu, hv, hs, hc⟩
  · exact c3
  · exfalso
    obtain ⟨y, hy⟩ := Option.isSome_iff_exists.1 hs
    have hyN := mt (key v false y hv hy).1 (by simp)
    rcases hc with hc | ⟨hc, h0⟩
    · rw [hy] at hc
      exact hyN ((key u true y hu hc).2 rfl)
    · rw [hy] at h0; cases h0
      obtain ⟨x, hx, h⟩ := hmeet _ hu
      have := h.2 rfl
      have : ((0 : U256).toNat) = 0 := rfl
      omega

/-- The exceptions are real: a value bound to a variable that is to be present and to one that is to be absent is accepted. -/
theorem C82_blobs_tie (src : Source σ) (u v : Variable) (huv : u ≠ v) (x : U256) (hx : x.toNat < 2 ^ 64 - 1) (a : Assignment) (hu : a u = some x) (hv : a v = some x) (s : σ) :
    (∃ r, (blobGenerator [(u, true), (v, false)]).generate src id a s = some r) ∧
    ∀ count a', Extends a' a → ¬ BlobsMeet [(u, true), (v, false)] count a' := by
  refine ⟨?_, fun count a' he hm => ?_⟩
  · have hg : blobGenerator [(u, true), (v, false)] = { indices := [(u, true), (v, false)] } := by
      simp [blobGenerator, BlobGenerator.require, huv]
    rw [hg]
    have h0 : ¬ x.toNat > 0 → x.toNat = 0 := fun h => by omega
    have hb : blobBounds a [(u, true), (v, false)] (0, 2 ^ 64 - 1) = some (x.toNat, x.toNat) := by
      simp only [blobBounds, hu, hv, if_true]
      rw [if_neg (by omega)]
      simp only [Bool.false_eq_true, if_false]
      rw [if_pos (show x.toNat < 2 ^ 64 ∧ x.toNat < 2 ^ 64 - 1 by omega)]
      split
      · rfl
      · rw [h0 (by assumption)]
    unfold BlobGenerator.generate
    simp only [Bool.false_eq_true, if_false, id_eq, hb, Option.bind_some]
    rw [if_neg (by omega)]
    simp only [bindBlobs, hu, hv]
    exact ⟨_, rfl⟩
  · obtain ⟨y, hy, h1⟩ := hm (u, true) (by simp)
    obtain ⟨z, hz, h2⟩ := hm (v, false) (by simp)
    simp only at hy hz
    rw [he u x hu] at hy; cases hy
    rw [he v x hv] at hz; cases hz
    have := h2.1 (h1.2 rfl)
    cases this

/-! Concrete cases. -/

/-- Calls that leave the blocks of London and Paris. -/
def someBlockCalls : List BlockCall := [.revisions 1 3, .offset "x" 5, .revisions 2 5, .recent "y" true, .recent "z" false]

example : ∀ c ∈ someBlockCalls, Spec.Gen.BlockCall.Proper c := by
  intro c hc
  simp only [someBlockCalls, List.mem_cons, List.not_mem_nil, or_false] at hc
  rcases hc with rfl | rfl | rfl | rfl | rfl <;> simp [Spec.Gen.BlockCall.Proper, KnownRevision]

/-- A source of zeros. -/
def zeros : Source Unit := ⟨fun _ s => (0, s), fun s => (0, s), fun s => (0, s), fun _ s => ([], s), fun s => (0, s), fun s => (someRnd, s)⟩

example : ((blockGenerator someBlockCalls).generate zeros id id (fun v => if v = "y" then some 2500 else none) ()).map
    (fun r => (r.1, r.2.1, r.2.2.1 "x", r.2.2.1 "y", r.2.2.1 "z")) = some (2504, 2003, some 2499, some 2500, some 3) := by decide +kernel
example : ((blockGenerator [.revisions 2 1]).generate zeros id id (fun _ => none) ()).isNone = true := by decide +kernel
example : ((blockGenerator [.revisions 2 2, .revisions 3 99]).generate zeros id id (fun _ => none) ()).isNone = true := by decide +kernel
example : ∃ count < 2 ^ 64, ∃ a'', Extends a'' (fun v => if v = "x" then some 3 else none) ∧ BlobsMeet [("x", true), ("y", false)] count a'' :=
  ⟨4, by omega, fun v => if v = "x" then some 3 else some 9, fun v x h => by
    by_cases e : v = "x"
    · simp_all
    · simp [e] at h, by
    intro c hc
    simp only [List.mem_cons, List.not_mem_nil, or_false] at hc
    rcases hc with rfl | rfl
    · exact ⟨3, by simp, by decide⟩
    · exact ⟨9, by simp, by decide⟩⟩
example : ((blobGenerator [("x", true), ("y", false), ("z", true)]).generate zeros id (fun v => if v = "x" then some 3 else none) ()).map
    (fun r => (r.1, r.2.1 "x", r.2.1 "y", r.2.1 "z")) = some (4, some 3, some 7, some 3) := by decide +kernel

end Tosca

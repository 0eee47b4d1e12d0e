import Verif.Proofs.GenCode
import Verif.Proofs.GenTransient
import Verif.Props.Solver

/-!
# C80: the test generators produce what their constraints say
-/

namespace Tosca

open Tosca.Go Tosca.Model.Go Tosca.Model.Gen Tosca.Spec Tosca.Spec.Go Tosca.Spec.Gen Tosca.Proofs.Gen

namespace Proofs.Gen

variable {σ : Type}

theorem bindOps_ok (a : Assignment) : ∀ (l : List (Variable × Byte)) (ops : List ConstOp) (vars : List (Variable × Byte)),
    bindOps a l = some (ops, vars) →
    (∀ c ∈ l, (∃ p, a c.1 = some p ∧ (⟨(p.toNat : Nat), c.2⟩ : ConstOp) ∈ ops) ∨ c ∈ vars) ∧ ∀ c ∈ vars, a c.1 = none ∧ c ∈ l := by
  intro l
  induction l with
  | nil =>
    intro ops vars h
    simp only [bindOps, Option.some.injEq, Prod.mk.injEq] at h
    obtain ⟨rfl, rfl⟩ := h
    exact ⟨fun c hc => by simp at hc, fun c hc => by simp at hc⟩
  | cons c rest ih =>
    obtain ⟨v, op⟩ := c
    intro ops vars h
    unfold bindOps at h
    cases hv : a v with
    | some p =>
      rw [hv] at h
      dsimp only at h
      split at h
      · cases h
      · obtain ⟨⟨o, w⟩, h1, h2⟩ := Option.map_eq_some_iff.1 h
        simp only [Prod.mk.injEq] at h2
        obtain ⟨rfl, rfl⟩ := h2
        obtain ⟨g1, g2⟩ := ih _ _ h1
        refine ⟨fun c hc => ?_, fun c hc => ⟨(g2 c hc).1, List.mem_cons_of_mem _ (g2 c hc).2⟩⟩
        rcases List.mem_cons.1 hc with rfl | hc
        · exact .inl ⟨p, hv, by simp⟩
        · rcases g1 c hc with ⟨q, q1, q2⟩ | g
          · exact .inl ⟨q, q1, List.mem_cons_of_mem _ q2⟩
          · exact .inr g
    | none =>
      rw [hv] at h
      dsimp only at h
      obtain ⟨⟨o, w⟩, h1, h2⟩ := Option.map_eq_some_iff.1 h
      simp only [Prod.mk.injEq] at h2
      obtain ⟨rfl, rfl⟩ := h2
      obtain ⟨g1, g2⟩ := ih _ _ h1
      refine ⟨fun c hc => ?_, fun c hc => ?_⟩
      · rcases List.mem_cons.1 hc with rfl | hc
        · exact .inr (by simp)
        · rcases g1 c hc with g | g
          · exact .inl g
          · exact .inr (List.mem_cons_of_mem _ g)
      · rcases List.mem_cons.1 hc with rfl | hc
        · exact ⟨hv, by simp⟩
        · exact ⟨(g2 c hc).1, List.mem_cons_of_mem _ (g2 c hc).2⟩

theorem minSize_pos (g : CodeGenerator) (ops : List ConstOp) (vars : List (Variable × Byte))
    (h : vars.length + g.isCode.length + g.isData.length ≠ 0) : 0 < minSize g ops vars := by
  unfold minSize
  extract_lets m0 m1 m2 m3
  have h2 : 0 ≤ m2 := by show 0 ≤ max _ _; omega
  have h3 : vars.length ≠ 0 → 0 < m2 := by
    intro hv
    have : (vars.map (·.2) ++ ops.map (·.op)).dedup ≠ [] := by
      rw [ne_eq, List.dedup_eq_nil]
      intro h
      rw [List.append_eq_nil_iff, List.map_eq_nil_iff] at h
      exact hv (by rw [h.1]; rfl)
    have := List.length_pos_iff.2 this
    show 0 < max _ _
    omega
  have h4 : 0 ≤ m3 := by show 0 ≤ ite _ _ _; split <;> omega
  have h5 : vars.length ≠ 0 ∨ g.isCode.length ≠ 0 → 0 < m3 := by
    intro h
    show 0 < ite _ _ _
    split
    · omega
    · rename_i hn
      rcases h with h | h
      · exact h3 h
      · omega
  split <;> omega

/-- What is written meets the constraints. -/
theorem code_meets {src : Source σ} (hs : SourceOk src) {size : Nat} {sorted : List ConstOp} {ops : List ConstOp} {s s' : σ} {code : List Byte}
    (hsort : sorted.Perm ops) (h : build src size (size + 1) 0 sorted [] s = some (code, s')) :
    code.length = size ∧ (∀ c ∈ ops, OpAt code c.pos c.op) ∧ ¬ Bad size ops := by
  obtain ⟨_, h2, h3⟩ := build_ok hs size _ _ _ _ _ _ _ (by simp) h
  obtain ⟨p1, p2⟩ := h3 .zero
  have at_ : ∀ c ∈ ops, OpAt code c.pos c.op := fun c hc => (p1 c (hsort.mem_iff.2 hc)).1
  refine ⟨h2, at_, ?_⟩
  rintro (⟨c, hc, d, hd, e1, e2⟩ | ⟨c, hc, e⟩)
  · obtain ⟨n, n1, n2, n3, n4⟩ := at_ c hc
    obtain ⟨m, m1, m2, m3, m4⟩ := at_ d hd
    have hb := boundary_gap code m n m3 n3
    have hx : nxt code m = m + width d.op := by
      unfold nxt; rw [List.getD_eq_getElem?_getD, m4, Option.getD_some, width_eq]
    omega
  · obtain ⟨n, n1, n2, _⟩ := at_ c hc
    omega

theorem data_at {code : List Byte} {p : Int} {op : Byte} (h : OpAt code p op) {q : Nat} (h1 : p < q) (h2 : (q : Int) < p + (width op : Int)) :
    PushData code q := by
  obtain ⟨n, rfl, n2, n3, n4⟩ := h
  have hw : 0x60 ≤ op.toNat ∧ op.toNat ≤ 0x7f := by
    unfold width at h2
    split at h2
    · assumption
    · omega
  unfold width at h2
  rw [if_pos hw] at h2
  refine ⟨n, op.toNat - 0x5f, n3, n2, ?_, by omega, by omega⟩
  unfold byteAt
  rw [List.getD_eq_getElem?_getD, n4, Option.getD_some]
  unfold decode
  rw [if_pos (by omega)]

end Proofs.Gen

open Proofs.Gen

/-- **C80** What the generator of code produces meets all constraints: the operations that are fixed, those at variables, the variables that point to
instructions and to data, whatever the random numbers are; the code is no longer than 24576 bytes, and no variable is bound anew but those that are to point
to code or data. -/
theorem C80_code {σ : Type} {src : Source σ} (hs : SourceOk src) (g : CodeGenerator) (hsize : ∀ n, g.codeSize = some n → n < 2 ^ 63) (a a' : Assignment) (s s' : σ) (code : List Byte)
    (h : g.generate src a s = some (code, a', s')) :
    CodeMeets g code a' ∧ (g.codeSize = none → code.length ≤ 24576) ∧ (∀ n, g.codeSize = some n → code.length = n) ∧
      (∀ v, v ∉ g.isCode → v ∉ g.isData → (a v).isSome ∨ v ∉ g.varOps.map (·.1) → a' v = a v) := by
  unfold CodeGenerator.generate at h
  obtain ⟨⟨bound, vars⟩, hb, h⟩ := Option.bind_eq_some_iff.1 h
  obtain ⟨⟨size, s1⟩, hz, h⟩ := Option.bind_eq_some_iff.1 h
  obtain ⟨t, ht, h⟩ := Option.bind_eq_some_iff.1 h
  obtain ⟨⟨code', s2⟩, hw, h⟩ := Option.map_eq_some_iff.1 h
  simp only [Prod.mk.injEq] at h
  obtain ⟨rfl, h', _⟩ := h
  dsimp only at hz ht hw
  obtain ⟨b1, b2⟩ := bindOps_ok a _ _ _ hb
  unfold chooseSize at hz
  have z1 : vars.length + g.isCode.length + g.isData.length ≠ 0 → 0 < size := by
    intro hv
    have := minSize_pos g (g.constOps ++ bound) vars hv
    split at hz
    · split at hz
      · cases hz
      · simp only [Option.some.injEq, Prod.mk.injEq] at hz; omega
    · simp only [Option.some.injEq, Prod.mk.injEq] at hz
      obtain ⟨hz, _⟩ := hz
      split at hz <;> omega
  have z2 : (g.codeSize = none → size ≤ 24576) ∧ (∀ n, g.codeSize = some n → size = n) := by
    split at hz
    · rename_i n hn
      split at hz
      · cases hz
      · simp only [Option.some.injEq, Prod.mk.injEq] at hz
        refine ⟨fun h => (by rw [hn] at h; cases h), fun m hm => ?_⟩
        rw [hn] at hm; cases hm; omega
    · rename_i hn
      simp only [Option.some.injEq, Prod.mk.injEq] at hz
      obtain ⟨hz, _⟩ := hz
      refine ⟨fun _ => ?_, fun m hm => (by rw [hn] at hm; cases hm)⟩
      split at hz <;> omega
  have z3 : size < 2 ^ 256 := by
    cases hc : g.codeSize with
    | none => have := z2.1 hc; omega
    | some n => have := z2.2 n hc; have := hsize n hc; omega
  clear hz
  -- the solver
  have solver :
      (g.constOps ++ bound) ⊆ t.ops ∧ (∀ v ∈ g.isData, SatData size t v) ∧
      (Bad size t.ops ∨ (∀ c ∈ g.varOps, SatOp t c.1 c.2) ∧ ∀ v ∈ g.isCode, SatCode t v) ∧
      (∀ v, v ∉ g.isCode → v ∉ g.isData → (a v).isSome ∨ v ∉ g.varOps.map (·.1) → t.assignment v = a v) := by
    unfold solveAll at ht
    split at ht
    · rename_i hne
      have h0 := z1 hne
      obtain ⟨t2, ht2, ht3⟩ := Option.bind_eq_some_iff.1 ht
      obtain ⟨t1, ht1, ht2⟩ := Option.bind_eq_some_iff.1 ht2
      obtain ⟨x1, x2, x3, _, x5⟩ := solveVarOps_ok hs h0 z3 _ _ _ _ (inv_new (g.constOps ++ bound) a s1) (fun u op h => by cases h) ht1
      obtain ⟨y1, y2, y3, y4, y5, y6⟩ := solveIsCode_ok hs h0 z3 _ _ _ x1 ht2
      obtain ⟨w1, w2, w3, w4, w5, w6⟩ := solveIsData_ok hs h0 z3 _ _ _ y1 ht3
      have x5' : ∀ v, (a v).isSome ∨ v ∉ g.varOps.map (·.1) → t1.assignment v = a v := by
        intro v hv
        refine x5 v fun hm => ?_
        obtain ⟨c, hc, rfl⟩ := List.mem_map.1 hm
        rcases hv with hv | hv
        · rw [(b2 c hc).1] at hv; cases hv
        · exact hv (List.mem_map.2 ⟨c, (b2 c hc).2, rfl⟩)
      refine ⟨fun c hc => w2 (y2 (x2 hc)), w3, ?_, fun v v1 v2 v3 => ?_⟩
      · by_cases hbad : Bad size t.ops
        · exact .inl hbad
        rcases w5 with w5 | ⟨w5, w7⟩
        · exact .inl w5
        rcases y5 with y5 | y5
        · exact .inl (y5.mono w2)
        refine .inr ⟨fun c hc => w5 _ _ (y5 _ _ ?_), fun v hv => w7 _ (y3 v hv)⟩
        rcases b1 c hc with ⟨p, p1, p2⟩ | hc
        · exact ⟨p, by rw [x5' _ (.inl (by rw [p1]; rfl))]; exact p1, x2 (List.mem_append_right _ p2)⟩
        · exact x3 c hc
      · rw [w6 v v2, y6 v v1, x5' v v3]
    · rename_i hne
      simp only [Option.some.injEq] at ht
      subst ht
      have hne : vars.length + g.isCode.length + g.isData.length = 0 := Decidable.not_not.1 hne
      have e1 : vars = [] := List.length_eq_zero_iff.1 (by omega)
      have e2 : g.isCode = [] := List.length_eq_zero_iff.1 (by omega)
      have e3 : g.isData = [] := List.length_eq_zero_iff.1 (by omega)
      refine ⟨fun _ h => h, fun v hv => by rw [e3] at hv; simp at hv, .inr ⟨fun c hc => ?_, fun v hv => by rw [e2] at hv; simp at hv⟩, fun _ _ _ _ => rfl⟩
      rcases b1 c hc with ⟨p, p1, p2⟩ | hc
      · exact ⟨p, p1, List.mem_append_right _ p2⟩
      · rw [e1] at hc; simp at hc
  obtain ⟨q1, q2, q3, q4⟩ := solver
  -- once the code is written
  have done : code'.length = size → (∀ c ∈ t.ops, OpAt code' c.pos c.op) → ¬ Bad size t.ops →
      CodeMeets g code' a' ∧ (g.codeSize = none → code'.length ≤ 24576) ∧ (∀ n, g.codeSize = some n → code'.length = n) ∧
      (∀ v, v ∉ g.isCode → v ∉ g.isData → (a v).isSome ∨ v ∉ g.varOps.map (·.1) → a' v = a v) := by
    intro hl hat hbad
    subst h'
    rcases q3 with q3 | ⟨q3, q5⟩
    · exact absurd q3 hbad
    refine ⟨⟨fun c hc => hat c (q1 (List.mem_append_left _ hc)), fun c hc => ?_, fun v hv => ?_, fun v hv => ?_⟩,
      fun h => by rw [hl]; exact z2.1 h, fun n h => by rw [hl]; exact z2.2 n h, q4⟩
    · obtain ⟨p, p1, p2⟩ := q3 c hc
      exact ⟨p, p1, hat _ p2⟩
    · obtain ⟨p, p1, c, hc, p2⟩ := q5 v hv
      obtain ⟨n, n1, n2, n3, _⟩ := hat c hc
      have e : n = p.toNat := by omega
      subst e
      exact ⟨p, p1, n2, n3, fun hd => Proofs.Ct.not_boundary hd n3⟩
    · obtain ⟨p, p1, p2, c, hc, p3, p4⟩ := q2 v hv
      have hd := data_at (hat c hc) p3 p4
      exact ⟨p, p1, by omega, Proofs.Ct.not_boundary hd, hd⟩
  unfold writeCode at hw
  by_cases hops : t.ops.length = 0
  · rw [if_pos hops] at hw
    have e := List.length_eq_zero_iff.1 hops
    have hl := hs.read size t.rnd
    rw [Option.some.inj hw] at hl
    refine done hl (fun c hc => by rw [e] at hc; simp at hc) ?_
    rintro (⟨c, hc, _⟩ | ⟨c, hc, _⟩) <;> (rw [e] at hc; simp at hc)
  · rw [if_neg hops] at hw
    dsimp only at hw
    split at hw
    · cases hw
    · obtain ⟨r1, r2, r3⟩ := code_meets hs (List.perm_insertionSort _ _) hw
      exact done r1 r2 r3

/-- **C80** What the generator of storage produces meets the constraints: the status of a slot, what is warm and what is cold, whatever the random numbers
are; no variable that is bound is bound anew. -/
theorem C80_storage {σ : Type} (src : Source σ) (fuel : Nat) (g : StorageGenerator) (a a' : Assignment) (s s' : σ) (t : GenStorage)
    (hapart : Apart g a) (h : g.generate src fuel a s = some (t, a', s')) :
    StorageMeets g t a' ∧ ∀ v x, a v = some x → a' v = some x := by
  unfold StorageGenerator.generate at h
  split at h
  · cases h
  split at h
  · cases h
  obtain ⟨t1, h1, h⟩ := Option.bind_eq_some_iff.1 h
  obtain ⟨t2, h2, h⟩ := Option.bind_eq_some_iff.1 h
  obtain ⟨t3, h3, h⟩ := Option.map_eq_some_iff.1 h
  simp only [Prod.mk.injEq] at h
  obtain ⟨rfl, rfl, _⟩ := h
  let keys := g.cfg.map (·.key) ++ g.warmCold.map (·.1)
  have g0 : Good keys a ({ assignment := a, used := (keys.filterMap a).contains, rnd := s } : StorageRun σ) :=
    ⟨fun _ _ h => h, fun v hv k hk => by
      show (keys.filterMap a).contains k = true
      rw [List.contains_iff_mem]
      exact List.mem_filterMap.2 ⟨v, hv, hk⟩⟩
  have key1 : ∀ c ∈ g.cfg, c.key ∈ keys := fun c hc => List.mem_append_left _ (List.mem_map.2 ⟨c, hc, rfl⟩)
  have key2 : ∀ c ∈ g.warmCold, c.1 ∈ keys := fun c hc => List.mem_append_right _ (List.mem_map.2 ⟨c, hc, rfl⟩)
  obtain ⟨a1, b1⟩ := forEach_inv (fun done t => Good keys a t ∧ Configured g.cfg done t) g.cfg [] _ _ (fun _ h => h)
    ⟨g0, fun c hc => by simp at hc, fun _ => rfl⟩
    (fun c hc done t t' hp hs => placeConfig_ok hc (key1 c hc) (fun hk => hapart _ (List.mem_append.1 hk) (List.mem_map.2 ⟨c, hc, rfl⟩)) hp hs) h1
  rw [List.nil_append] at b1
  obtain ⟨a2, b2⟩ := forEach_inv (fun done t => Good keys a t ∧ Warmed g.cfg g.warmCold done t) g.warmCold [] _ _ (fun _ h => h)
    ⟨a1, b1.holds, fun c hc => by simp at hc, fun k hk => by rw [b1.cold] at hk; cases hk⟩
    (fun c hc done t t' hp hs => placeWarm_ok hc (key2 c hc) hp hs) h2
  rw [List.nil_append] at b2
  obtain ⟨e1, e2⟩ := randomEntries_ok _ _ _ h3
  dsimp only at e1 e2
  refine ⟨⟨fun c hc hd => ?_, fun v hv => ?_, fun v hv hu => ?_⟩, fun v x hx => by rw [e1]; exact a2.grows v x hx⟩
  · obtain ⟨k, v, k1, k2, k3, k4⟩ := b2.holds c hc
    obtain ⟨o1, o2, _⟩ := e2 k (a2.used _ (key1 c hc) k k1)
    refine ⟨k, v, by rw [e1]; exact k1, by rw [e1]; exact k2, ?_⟩
    rcases k4 with k4 | ⟨d, hd1, hd2, hd3⟩
    · unfold original current at *
      rw [o1, o2]; exact k4
    · exact absurd (hd d hd1 (by rw [e1, hd3, k1])) hd2
  · obtain ⟨k, k1, k2⟩ := b2.bound _ hv
    obtain ⟨_, _, o3⟩ := e2 k (a2.used _ (key2 _ hv) k k1)
    exact ⟨k, by rw [e1]; exact k1, by rw [o3]; exact k2 rfl⟩
  · obtain ⟨k, k1, k2⟩ := b2.bound _ hv
    obtain ⟨_, _, o3⟩ := e2 k (a2.used _ (key2 _ hv) k k1)
    refine ⟨k, by rw [e1]; exact k1, ?_⟩
    rw [o3]
    cases hw : t2.storage.warm k with
    | false => rfl
    | true =>
      obtain ⟨u, u1, u2⟩ := b2.only k hw
      exact absurd (by rw [e1, u2, k1]) (hu u u1)

/-- **C80** What the generator of transient storage produces after any calls of `BindToNonZero` (`true`) and `BindToZero` (`false`): the locations that are to
be zero are, the others are not unless the source of random numbers gives a zero; no variable that is bound is bound anew. -/
theorem C80_transient {σ : Type} (src : Source σ) (fuel : Nat) (calls : List (Variable × Bool)) (a a' : Assignment) (s s' : σ) (t : U256 → U256)
    (h : (calls.foldl (fun g c => g.require c.1 c.2) ({} : TransientGenerator)).generate src fuel a s = some (t, a', s')) :
    (∀ c ∈ calls, ∃ k, a' c.1 = some k ∧ (c.2 = false → t k = 0) ∧ (c.2 = true → t k = 0 → ∃ r, (src.word r).1 = 0)) ∧
    ((∀ r, (src.word r).1 ≠ 0) → TransientMeets calls t a') ∧ ∀ v x, a v = some x → a' v = some x := by
  obtain ⟨_, _, q3, _⟩ := require_ok calls {}
  generalize calls.foldl (fun g c => g.require c.1 c.2) ({} : TransientGenerator) = g at h q3
  unfold TransientGenerator.generate at h
  split at h
  · cases h
  rename_i hun
  have q := q3 (by simpa using hun)
  obtain ⟨t1, h1, h⟩ := Option.bind_eq_some_iff.1 h
  obtain ⟨t2, h2, h⟩ := Option.map_eq_some_iff.1 h
  simp only [Prod.mk.injEq] at h
  obtain ⟨rfl, rfl, _⟩ := h
  have inv := forEach_inv (fun done t => (∀ d ∈ done, d ∈ g.constraints) ∧ Transients src a g.constraints done t) g.constraints [] _ _ (fun _ h => h)
    ⟨fun d hd => by simp at hd, fun _ _ h => h, fun c hc k hk => by
      show ((g.constraints.map (·.1)).filterMap a).contains k = true
      rw [List.contains_iff_mem]
      exact List.mem_filterMap.2 ⟨c.1, List.mem_map.2 ⟨c, hc, rfl⟩, hk⟩, fun c hc => by simp at hc, fun k hk => absurd rfl hk⟩
    (fun c hc done t t' hp hs => ⟨fun d hd => by
      rcases List.mem_append.1 hd with hd | hd
      · exact hp.1 d hd
      · rw [List.mem_singleton] at hd; rw [hd]; exact hc, placeTransient_ok hc hp.1 hp.2 hs⟩) h1
  rw [List.nil_append] at inv
  obtain ⟨_, inv⟩ := inv
  obtain ⟨e1, e2⟩ := randomTransient_ok _ _ _ _ h2
  have all : ∀ c ∈ calls, ∃ k, t2.assignment c.1 = some k ∧ (c.2 = false → t2.storage k = 0) ∧ (c.2 = true → t2.storage k = 0 → ∃ r, (src.word r).1 = 0) := by
    intro c hc
    obtain ⟨k, k1, k2, k3⟩ := inv.holds c (q c hc)
    have := e2 k (inv.used c (q c hc) k k1)
    exact ⟨k, by rw [e1]; exact k1, by rw [this]; exact k2, by rw [this]; exact k3⟩
  refine ⟨all, fun hz v b hv => ?_, fun v x hx => by rw [e1]; exact inv.grows v x hx⟩
  obtain ⟨k, k1, k2, k3⟩ := all _ hv
  refine ⟨k, k1, ?_⟩
  cases b with
  | false => simp [k2 rfl]
  | true =>
    simp only [iff_true]
    intro hk
    obtain ⟨r, hr⟩ := k3 rfl hk
    exact hz r hr

/-- **C80** The generator of the stack, with any constraints on its size: what it produces meets the constraints; and it fails only if a variable is not bound,
a position is negative, two constraints are for the same position, or no size meets the constraints on the size and has all the positions. -/
theorem C80_stack {σ : Type} (src : Source σ) (cs : List Spec.Solver.Clause) (hc : ∀ c ∈ cs, ∀ x y, c ≠ .outside x y) (ht : ∀ c ∈ cs, c.Typed Spec.Solver.int64)
    (values : List (Int × U256)) (vars : List (Int × Variable)) (hv : ∀ p ∈ values.map (·.1) ++ vars.map (·.1), -2 ^ 63 ≤ p ∧ p < 2 ^ 63 - 1) (a : Assignment) (s : σ) :
    (∀ stack s', StackGenerator.generate src ⟨rangeOf 0 1024 cs, values, vars⟩ a s = some (stack, s') →
      StackMeets ⟨rangeOf 0 1024 cs, values, vars⟩ stack a ∧ Spec.Solver.Solution 0 1024 cs stack.length) ∧
    (StackGenerator.generate src ⟨rangeOf 0 1024 cs, values, vars⟩ a s = none ↔
      (∃ c ∈ vars, a c.2 = none) ∨ (∃ p ∈ values.map (·.1) ++ vars.map (·.1), p < 0) ∨ ¬ (values.map (·.1) ++ vars.map (·.1)).Nodup ∨
      ¬ ∃ n, Spec.Solver.Solution 0 1024 cs n ∧ ∀ p ∈ values.map (·.1) ++ vars.map (·.1), p < n) := by
  obtain ⟨b1, b2⟩ := bindValues_ok a vars
  unfold StackGenerator.generate
  dsimp only
  cases hb : bindValues a vars with
  | none =>
    refine ⟨fun stack s' h => (by cases h), ?_⟩
    exact ⟨fun _ => .inl (b1.1 hb), fun _ => rfl⟩
  | some l =>
    obtain ⟨l1, l2⟩ := b2 l hb
    have hnb : ¬ ∃ c ∈ vars, a c.2 = none := fun h => by rw [b1.2 h] at hb; cases hb
    have hpos : (values ++ l).map (·.1) = values.map (·.1) ++ vars.map (·.1) := by rw [List.map_append, l1]
    rw [← hpos] at hv ⊢
    rw [Option.bind_some]
    generalize hall : values ++ l = all at *
    -- the solver of the size
    have hm : ∀ p, maxPosition all ≤ p ↔ -1 ≤ p ∧ ∀ c ∈ all, c.1 ≤ p := maxPosition_ok all (-1)
    have hmax : -1 ≤ maxPosition all ∧ maxPosition all < 2 ^ 63 - 1 := by
      refine ⟨((hm _).1 (Int.le_refl _)).1, ?_⟩
      have := (hm (2 ^ 63 - 2)).2 ⟨by omega, fun c hc => by have := (hv c.1 (List.mem_map.2 ⟨c, hc, rfl⟩)).2; omega⟩
      omega
    have hlow : (rangeOf 0 1024 cs).lower (maxPosition all + 1) = rangeOf 0 1024 (cs ++ [.atLeast (maxPosition all + 1)]) := by
      unfold rangeOf; rw [List.foldl_append]; rfl
    rw [hlow]
    obtain ⟨r1, r2, _⟩ := C77_range_generate Spec.Solver.int64 (.inr (.inr (.inr rfl))) (.inr rfl) 0 1024 (by constructor <;> decide) (by constructor <;> decide)
      (cs ++ [.atLeast (maxPosition all + 1)]) (fun c hc' x y => by
        rcases List.mem_append.1 hc' with h | h
        · exact hc c h x y
        · rw [List.mem_singleton] at h; rw [h]; simp)
      (fun c hc' => by
        rcases List.mem_append.1 hc' with h | h
        · exact ht c h
        · rw [List.mem_singleton] at h; rw [h]
          show Spec.Solver.int64.Has _
          constructor
          · show -(2 ^ 63 : Int) ≤ _; omega
          · show _ ≤ (2 ^ 63 : Int) - 1; omega)
    have hsol : ∀ x, Spec.Solver.Solution 0 1024 (cs ++ [.atLeast (maxPosition all + 1)]) x ↔ Spec.Solver.Solution 0 1024 cs x ∧ ∀ c ∈ all, c.1 < x := by
      intro x
      unfold Spec.Solver.Solution
      constructor
      · rintro ⟨x1, x2, x3⟩
        refine ⟨⟨x1, x2, fun c hc => x3 c (List.mem_append_left _ hc)⟩, fun c hc => ?_⟩
        have h1 : maxPosition all + 1 ≤ x := x3 (.atLeast (maxPosition all + 1)) (List.mem_append_right _ (by simp))
        have := ((hm (maxPosition all)).1 (Int.le_refl _)).2 c hc
        omega
      · rintro ⟨⟨x1, x2, x3⟩, x4⟩
        refine ⟨x1, x2, fun c hc => ?_⟩
        rcases List.mem_append.1 hc with h | h
        · exact x3 c h
        · rw [List.mem_singleton] at h; rw [h]
          show maxPosition all + 1 ≤ x
          have := (hm (x - 1)).2 ⟨by omega, fun c hc => by have := x4 c hc; omega⟩
          omega
    cases hg : (rangeOf 0 1024 (cs ++ [.atLeast (maxPosition all + 1)])).generate Spec.Solver.int64 (src.solver s).1 with
    | none =>
      refine ⟨fun stack s' h => (by cases h), fun _ => .inr (.inr (.inr ?_)), fun _ => rfl⟩
      rintro ⟨n, n1, n2⟩
      exact (r1 _).1 hg ⟨n, (hsol n).2 ⟨n1, fun c hc => n2 c.1 (List.mem_map.2 ⟨c, hc, rfl⟩)⟩⟩
    | some size =>
      obtain ⟨z1, z2⟩ := (hsol size).1 (r2 _ _ hg)
      rw [Option.bind_some]
      have hsz : ((List.replicate size.toNat (none : Option U256)).length : Int) = size := by
        rw [List.length_replicate]; have := z1.1; omega
      obtain ⟨v1, v2⟩ := applyValues_ok all (List.replicate size.toNat none) (fun c hc => by rw [hsz]; exact z2 c hc)
      refine ⟨fun stack s' h => ?_, ?_⟩
      · obtain ⟨slots, h1, h2⟩ := Option.map_eq_some_iff.1 h
        obtain ⟨w1, _, w3⟩ := v1 slots h1
        obtain ⟨f1, f2⟩ := fillSlots_ok (src := src) slots (src.solver s).2
        rw [h2] at f1 f2
        dsimp only at f1 f2
        refine ⟨⟨fun c hc => ?_, fun c hc => ?_⟩, ?_⟩
        · obtain ⟨p1, p2⟩ := w3 c (by rw [← hall]; exact List.mem_append_left _ hc)
          exact ⟨p1, f2 _ _ p2⟩
        · obtain ⟨x, x1, x2⟩ := l2 c hc
          obtain ⟨p1, p2⟩ := w3 (c.1, x) (by rw [← hall]; exact List.mem_append_right _ x2)
          exact ⟨p1, x, x1, f2 _ _ p2⟩
        · rw [f1, w1, hsz]; exact z1
      · rw [Option.map_eq_none_iff, ← Option.not_isSome_iff_eq_none, v2]
        constructor
        · intro h
          by_cases hn : (all.map (·.1)).Nodup
          · right; left
            apply Classical.byContradiction
            intro hne
            refine h ⟨fun c hc => ?_, hn⟩
            have h0 : 0 ≤ c.1 := by
              apply Classical.byContradiction
              intro h0
              exact hne ⟨c.1, List.mem_map.2 ⟨c, hc, rfl⟩, by omega⟩
            refine ⟨h0, ?_⟩
            have := z2 c hc
            rw [List.getElem?_replicate, if_pos (by omega)]
          · exact .inr (.inr (.inl hn))
        · rintro (h | ⟨p, hp, h⟩ | h | h)
          · exact absurd h hnb
          · rintro ⟨h1, _⟩
            obtain ⟨c, hc, rfl⟩ := List.mem_map.1 hp
            have := (h1 c hc).1
            omega
          · exact fun hh => h hh.2
          · exfalso
            refine h ⟨size, z1, fun p hp => ?_⟩
            obtain ⟨c, hc, rfl⟩ := List.mem_map.1 hp
            exact z2 c hc

/-- **C80** The generator of the self-destruction flag: it fails exactly if both are asked for, and gives what is asked for. -/
theorem C80_selfdestruct (must mustNot coin : Bool) :
    (selfDestructed must mustNot coin = none ↔ must = true ∧ mustNot = true) ∧
    ∀ b, selfDestructed must mustNot coin = some b → (must = true → b = true) ∧ (mustNot = true → b = false) ∧ (must = false → mustNot = false → b = coin) := by
  cases must <;> cases mustNot <;> cases coin <;> decide

/-! ### Concrete cases -/

namespace Proofs.Gen

/-- A source that counts. -/
def counting : Source Nat where
  intn n s := (s % n, s + 1)
  int s := (BitVec.ofNat 8 (s * 37), s + 1)
  exp s := (s % 7, s + 1)
  read n s := ((List.range n).map fun i => BitVec.ofNat 8 (i + s), s + n)
  word s := (BitVec.ofNat 256 (s * 11 + 1), s + 1)
  solver s := (⟨s % 2 ^ 64, fun n => s % n, Nat.mod_lt _ (by decide), fun n h _ => Nat.mod_lt _ h⟩, s + 1)

theorem counting_ok : SourceOk counting :=
  ⟨fun n s h => Nat.mod_lt _ h, fun n s => by simp [counting]⟩

/-- A JUMPDEST at position 5, a PUSH2 at `x`, an instruction at `y`, data at `z`. -/
def someCode : CodeGenerator := { constOps := [⟨5, 0x5b⟩], varOps := [("x", 0x61)], isCode := ["y"], isData := ["z"], codeSize := some 12 }

/-- The code is generated. -/
example : ((someCode.generate counting (fun _ => none) 3).map fun r => (r.1, r.2.1 "x", r.2.1 "y", r.2.1 "z")) =
    some ([3, 40, 77, 95, 5, 0x5b, 0x61, 11, 12, 13, 14, 15], some 6, some 4, some 7) := by decide +kernel

/-- A limit of the generator: a variable that is bound and is to point to an instruction is bound anew when its position is free. -/
example : ((someCode.generate counting (fun v => if v = "y" then some 3 else none) 3).map fun r => r.2.1 "y") = some (some 4) := by decide +kernel

/-- A limit of the generator: two equal constraints at one position, which any code with that operation meets, are taken for a conflict. -/
example : (CodeGenerator.generate counting { constOps := [⟨5, 0x5b⟩, ⟨5, 0x5b⟩], codeSize := some 12 } (fun _ => none) 3).isNone = true := by decide +kernel

/-- A limit of the generator: the size it takes for a code with an operation at position 0 need not be positive. -/
example : minSize { constOps := [⟨5, 0x5b⟩, ⟨6, 0x5b⟩] } [⟨5, 0x5b⟩, ⟨6, 0x5b⟩] [] = 6 := by decide +kernel

/-- Two slots, one of them warm. -/
def twoSlots : StorageGenerator := { cfg := [⟨.assigned, "k", "v"⟩, ⟨.deleted, "l", "w"⟩], warmCold := [("k", true), ("l", false)] }

example : Apart twoSlots (fun _ => none) ∧
    ((twoSlots.generate counting 10 (fun _ => none) 3).map fun r => (r.2.1 "k", r.2.1 "l", r.2.1 "v", r.2.1 "w")) = some (some 34, some 78, some 45, some 0) := by
  refine ⟨?_, by decide +kernel⟩
  rintro v hv hn
  simp [twoSlots] at hv hn
  rcases hn with rfl | rfl <;> simp at hv

/-- A limit of the generator: two variables of the same slot, one to be warm, one to be cold, are not taken for a conflict. -/
example : ((StorageGenerator.generate counting 10 { warmCold := [("k", true), ("l", false)] } (fun _ => some 7) 3).map fun r => r.1.warm 7) = some true := by
  decide +kernel

/-- A limit of the generator: two configurations of one slot are not taken for a conflict when there is another one between them. -/
example : ((StorageGenerator.generate counting 10 { cfg := [⟨.assigned, "k", "v"⟩, ⟨.assigned, "l", "w"⟩, ⟨.deleted, "k", "x"⟩] } (fun _ => none) 3).map fun r =>
    decide (storageStatus (original r.1 34) (current r.1 34) ((r.2.1 "v").getD 0) = .assigned)) = some false := by
  decide +kernel

example : ((([("k", true), ("l", false), ("k", true)] : List (Variable × Bool)).foldl (fun g c => g.require c.1 c.2) ({} : TransientGenerator)).generate counting 10
    (fun v => if v = "l" then some 9 else none) 3).map (fun r => (r.2.1 "k", r.1 34, r.1 9)) = some (some 34, 45, 0) := by decide +kernel

/-- A limit of the generator: a location that is to be zero is in conflict with a variable that is not bound if its key is zero. -/
example : ((([("k", true), ("l", false)] : List (Variable × Bool)).foldl (fun g c => g.require c.1 c.2) ({} : TransientGenerator)).generate counting 10
    (fun v => if v = "k" then some 0 else none) 3).isNone = true := by decide +kernel

example : (StackGenerator.generate counting ⟨rangeOf 0 1024 [.atMost 6], [(0, 5), (3, 8)], [(1, "v")]⟩ (fun _ => some 7) 3).isSome = true := by decide +kernel

end Proofs.Gen

end Tosca

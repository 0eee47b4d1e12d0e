import Verif.Proofs.GenStorage

/-!
# The generators of transient storage and of the stack
-/

namespace Tosca.Proofs.Gen

open Tosca.Go Tosca.Model.Go Tosca.Model.Gen Tosca.Spec Tosca.Spec.Gen

variable {σ : Type}

/-- The source may give a zero. -/
def ZeroWord (src : Source σ) : Prop := ∃ s, (src.word s).1 = 0

/-- What holds after the constraints of `done`. -/
structure Transients (src : Source σ) (a : Assignment) (all done : List (Variable × Bool)) (t : TransientRun σ) : Prop where
  grows : ∀ v x, a v = some x → t.assignment v = some x
  used : ∀ c ∈ all, ∀ k, t.assignment c.1 = some k → t.used k = true
  holds : ∀ c ∈ done, ∃ k, t.assignment c.1 = some k ∧ (c.2 = false → t.storage k = 0) ∧ (c.2 = true → t.storage k = 0 → ZeroWord src)
  only : ∀ k, t.storage k ≠ 0 → ∃ u, (u, true) ∈ all ∧ t.assignment u = some k

theorem unusedTransientKey_ok {src : Source σ} {fuel : Nat} {t : TransientRun σ} {k : U256} {t' : TransientRun σ}
    (h : unusedTransientKey src fuel t = some (k, t')) :
    t.used k = false ∧ t'.storage = t.storage ∧ t'.assignment = t.assignment ∧ (∀ x, t'.used x = true ↔ x = k ∨ t.used x = true) := by
  unfold unusedTransientKey at h
  obtain ⟨⟨k', s⟩, hq, h⟩ := Option.map_eq_some_iff.1 h
  simp only [Prod.mk.injEq] at h
  obtain ⟨rfl, rfl⟩ := h
  refine ⟨by simpa using draw_ok _ _ _ _ hq, rfl, rfl, fun x => ?_⟩
  by_cases e : x = k' <;> simp [e]

theorem placeTransient_ok {src : Source σ} {fuel : Nat} {a : Assignment} {all : List (Variable × Bool)} {c : Variable × Bool} (hc : c ∈ all)
    {done : List (Variable × Bool)} (hdone : ∀ d ∈ done, d ∈ all) {t t' : TransientRun σ} (hg : Transients src a all done t)
    (h : placeTransient src fuel all c t = some t') : Transients src a all (done ++ [c]) t' := by
  unfold placeTransient at h
  dsimp only at h
  obtain ⟨⟨k, t1⟩, h1, h⟩ := Option.map_eq_some_iff.1 h
  dsimp only at h
  -- the key
  have key : t1.storage = t.storage ∧ t1.assignment = t.assignment ∧ (∀ x, t1.used x = true ↔ x = k ∨ t.used x = true) ∧
      (t.assignment c.1 = some k ∨ t.assignment c.1 = none) ∧ (∀ d ∈ all, t.assignment d.1 = some k → d.2 = c.2) := by
    cases hk : t.assignment c.1 with
    | some k0 =>
      rw [hk] at h1
      dsimp only at h1
      split at h1
      · cases h1
      · rename_i hn
        simp only [Option.some.injEq, Prod.mk.injEq] at h1
        obtain ⟨rfl, rfl⟩ := h1
        refine ⟨rfl, rfl, fun x => ?_, .inl rfl, fun d hd hdk => ?_⟩
        · by_cases e : x = k0 <;> simp [e]
        · apply Classical.byContradiction
          intro hne
          apply hn
          rw [List.any_eq_true]
          exact ⟨d, hd, by rw [hdk]; simp [Ne.symm hne]⟩
    | none =>
      rw [hk] at h1
      obtain ⟨u1, u2, u3, u4⟩ := unusedTransientKey_ok h1
      refine ⟨u2, u3, u4, .inr rfl, fun d hd hdk => ?_⟩
      have := hg.used d hd k hdk
      rw [u1] at this; cases this
  obtain ⟨k1, k2, k3, k4, k5⟩ := key
  have hset : t'.assignment = t.assignment.set c.1 k ∧ t'.used = t1.used ∧ (c.2 = false → t'.storage = t.storage) ∧
      (c.2 = true → ∃ s, ∀ y, t'.storage y = if y = k then (src.word s).1 else t.storage y) := by
    subst h
    rw [← k2]
    cases hb : c.2 with
    | false => exact ⟨rfl, rfl, fun _ => k1, fun h => (by cases h)⟩
    | true => exact ⟨rfl, rfl, fun h => (by cases h), fun _ => ⟨t1.rnd, fun y => by rw [← k1]; rfl⟩⟩
  obtain ⟨s1, s2, s3, s4⟩ := hset
  have hown : t'.assignment c.1 = some k := by rw [s1, set_get, if_pos (show c.1 = c.1 from rfl)]
  have grow : ∀ u x, t.assignment u = some x → t'.assignment u = some x := by
    intro u x hx
    rw [s1, set_get]
    by_cases e : u = c.1
    · rw [if_pos e]
      rw [e] at hx
      rcases k4 with k4 | k4 <;> rw [k4] at hx
      · exact hx
      · cases hx
    · rw [if_neg e]; exact hx
  refine ⟨fun v x hx => grow v x (hg.grows v x hx), fun d hd x hx => ?_, fun d hdm => ?_, fun x hx => ?_⟩
  · rw [s2]
    refine (k3 x).2 ?_
    rw [s1, set_get] at hx
    split at hx
    · cases hx; exact .inl rfl
    · exact .inr (hg.used d hd x hx)
  · rcases List.mem_append.1 hdm with hdm | hdm
    · obtain ⟨k', e1, e2, e3⟩ := hg.holds d hdm
      refine ⟨k', grow _ _ e1, fun hb => ?_, fun hb hz => ?_⟩
      · cases hb2 : c.2 with
        | false => rw [s3 hb2]; exact e2 hb
        | true =>
          obtain ⟨s, hs⟩ := s4 hb2
          rw [hs]
          split
          · rename_i e
            have := k5 d (hdone d hdm) (by rw [← e]; exact e1)
            rw [hb, hb2] at this; cases this
          · exact e2 hb
      · cases hb2 : c.2 with
        | false => rw [s3 hb2] at hz; exact e3 hb hz
        | true =>
          obtain ⟨s, hs⟩ := s4 hb2
          rw [hs] at hz
          split at hz
          · exact ⟨s, hz⟩
          · exact e3 hb hz
    · rw [List.mem_singleton] at hdm
      subst hdm
      refine ⟨k, hown, fun hb => ?_, fun hb hz => ?_⟩
      · rw [s3 hb]
        apply Classical.byContradiction
        intro hz
        obtain ⟨u, hu, hk⟩ := hg.only k hz
        have := k5 _ hu hk
        rw [hb] at this; cases this
      · obtain ⟨s, hs⟩ := s4 hb
        rw [hs, if_pos (show k = k from rfl)] at hz
        exact ⟨s, hz⟩
  · cases hb2 : c.2 with
    | false =>
      rw [s3 hb2] at hx
      obtain ⟨u, hu, hk⟩ := hg.only x hx
      exact ⟨u, hu, grow _ _ hk⟩
    | true =>
      obtain ⟨s, hs⟩ := s4 hb2
      rw [hs] at hx
      split at hx
      · rename_i e
        exact ⟨c.1, by rw [← hb2]; exact hc, by rw [e]; exact hown⟩
      · obtain ⟨u, hu, hk⟩ := hg.only x hx
        exact ⟨u, hu, grow _ _ hk⟩

theorem randomTransient_ok {src : Source σ} {fuel : Nat} : ∀ (n i : Nat) (t t' : TransientRun σ), randomTransient src fuel n i t = some t' →
    t'.assignment = t.assignment ∧ ∀ k, t.used k = true → t'.storage k = t.storage k := by
  intro n
  induction n with
  | zero => intro i t t' h; simp [randomTransient] at h
  | succ n ih =>
    intro i t t' h
    unfold randomTransient at h
    dsimp only at h
    split at h
    · obtain ⟨⟨k, t1⟩, h1, h⟩ := Option.bind_eq_some_iff.1 h
      obtain ⟨u1, u2, u3, u4⟩ := unusedTransientKey_ok h1
      dsimp only at h u1 u2 u3 u4
      obtain ⟨g1, g2⟩ := ih _ _ _ h
      refine ⟨by rw [g1]; exact u3, fun k' hk' => ?_⟩
      have hne : k' ≠ k := by rintro rfl; rw [u1] at hk'; cases hk'
      rw [g2 k' ((u4 k').2 (.inr hk'))]
      show (if k' = k then _ else t1.storage k') = _
      rw [if_neg hne, u2]
    · simp only [Option.some.injEq] at h
      subst h
      exact ⟨rfl, fun _ _ => rfl⟩

/-- The calls are kept. -/
theorem require_ok : ∀ (calls : List (Variable × Bool)) (g : TransientGenerator),
    (∀ c ∈ g.constraints, c ∈ (calls.foldl (fun g c => g.require c.1 c.2) g).constraints) ∧
    (g.unsatisfiable = true → (calls.foldl (fun g c => g.require c.1 c.2) g).unsatisfiable = true) ∧
    ((calls.foldl (fun g c => g.require c.1 c.2) g).unsatisfiable = false → ∀ c ∈ calls, c ∈ (calls.foldl (fun g c => g.require c.1 c.2) g).constraints) ∧
    ∀ c ∈ (calls.foldl (fun g c => g.require c.1 c.2) g).constraints, c ∈ g.constraints ∨ c ∈ calls := by
  intro calls
  induction calls with
  | nil => intro g; exact ⟨fun _ h => h, fun h => h, fun _ c h => by simp at h, fun c h => .inl h⟩
  | cons c rest ih =>
    intro g
    have one : (∀ d ∈ g.constraints, d ∈ (g.require c.1 c.2).constraints) ∧ (g.unsatisfiable = true → (g.require c.1 c.2).unsatisfiable = true) ∧
        ((g.require c.1 c.2).unsatisfiable = false → c ∈ (g.require c.1 c.2).constraints) ∧
        ∀ d ∈ (g.require c.1 c.2).constraints, d ∈ g.constraints ∨ d = c := by
      unfold TransientGenerator.require
      cases hf : g.constraints.find? (fun d => d.1 = c.1) with
      | some d =>
        have hm := List.mem_of_find?_eq_some hf
        have he : d.1 = c.1 := by simpa using List.find?_some hf
        dsimp only
        split
        · rename_i e
          exact ⟨fun _ h => h, fun h => h, fun _ => by rw [show c = d from Prod.ext he.symm e.symm]; exact hm, fun _ h => .inl h⟩
        · exact ⟨fun _ h => h, fun _ => rfl, fun h => (by cases h), fun _ h => .inl h⟩
      | none =>
        refine ⟨fun d hd => List.mem_append_left _ hd, fun h => h, fun _ => List.mem_append_right _ (by simp), fun d hd => ?_⟩
        rcases List.mem_append.1 hd with h | h
        · exact .inl h
        · exact .inr (by simpa using h)
    obtain ⟨o1, o2, o3, o4⟩ := one
    obtain ⟨i1, i2, i3, i4⟩ := ih (g.require c.1 c.2)
    refine ⟨fun d hd => i1 d (o1 d hd), fun h => i2 (o2 h), fun h d hd => ?_, fun d hd => ?_⟩
    · rcases List.mem_cons.1 hd with rfl | hd
      · refine i1 _ (o3 ?_)
        cases hu : (g.require d.1 d.2).unsatisfiable with
        | false => rfl
        | true => have := i2 hu; simp only [List.foldl_cons] at h; rw [h] at this; cases this
      · exact i3 h d hd
    · rcases i4 d hd with h | h
      · rcases o4 d h with h | h
        · exact .inl h
        · exact .inr (by rw [h]; simp)
      · exact .inr (List.mem_cons_of_mem _ h)

/-! ### The stack -/

theorem bindValues_ok (a : Assignment) : ∀ (l : List (Int × Variable)),
    (bindValues a l = none ↔ ∃ c ∈ l, a c.2 = none) ∧
    ∀ r, bindValues a l = some r → r.map (·.1) = l.map (·.1) ∧ ∀ c ∈ l, ∃ x, a c.2 = some x ∧ (c.1, x) ∈ r := by
  intro l
  induction l with
  | nil =>
    refine ⟨by simp [bindValues], fun r h => ?_⟩
    simp only [bindValues, Option.some.injEq] at h
    subst h
    exact ⟨rfl, fun c hc => by simp at hc⟩
  | cons c rest ih =>
    obtain ⟨pos, v⟩ := c
    unfold bindValues
    cases hv : a v with
    | none => exact ⟨by simp [hv], fun r h => by cases h⟩
    | some x =>
      refine ⟨?_, fun r h => ?_⟩
      · dsimp only
        rw [Option.map_eq_none_iff, ih.1]
        simp [hv]
      · dsimp only at h
        obtain ⟨l, h1, rfl⟩ := Option.map_eq_some_iff.1 h
        obtain ⟨g1, g2⟩ := ih.2 _ h1
        refine ⟨by simp [g1], fun c hc => ?_⟩
        rcases List.mem_cons.1 hc with rfl | hc
        · exact ⟨x, hv, by simp⟩
        · obtain ⟨y, y1, y2⟩ := g2 c hc
          exact ⟨y, y1, List.mem_cons_of_mem _ y2⟩

theorem maxPosition_ok : ∀ (l : List (Int × U256)) (m p : Int),
    l.foldl (fun m c => if c.1 > m then c.1 else m) m ≤ p ↔ m ≤ p ∧ ∀ c ∈ l, c.1 ≤ p
  | [], m, p => by simp
  | c :: l, m, p => by
    rw [List.foldl_cons, maxPosition_ok l]
    simp only [List.mem_cons, forall_eq_or_imp]
    split <;> constructor <;> rintro ⟨h1, h2⟩ <;> (try obtain ⟨h2, h3⟩ := h2) <;> refine ⟨by omega, ?_⟩ <;> first | exact ⟨by omega, ‹_›⟩ | assumption

theorem applyValues_ok : ∀ (l : List (Int × U256)) (slots : List (Option U256)), (∀ c ∈ l, c.1 < slots.length) →
    (∀ r, applyValues l slots = some r → r.length = slots.length ∧ (∀ (i : Nat) (x : U256), slots[i]? = some (some x) → r[i]? = some (some x)) ∧
      ∀ c ∈ l, 0 ≤ c.1 ∧ r[c.1.toNat]? = some (some c.2)) ∧
    ((applyValues l slots).isSome ↔ (∀ c ∈ l, 0 ≤ c.1 ∧ slots[c.1.toNat]? = some none) ∧ (l.map (·.1)).Nodup) := by
  intro l
  induction l with
  | nil =>
    intro slots _
    refine ⟨fun r h => ?_, by simp [applyValues]⟩
    simp only [applyValues, Option.some.injEq] at h
    subst h
    exact ⟨rfl, fun _ _ h => h, fun c hc => by simp at hc⟩
  | cons c rest ih =>
    obtain ⟨pos, v⟩ := c
    intro slots hlen
    have hp : pos < slots.length := hlen (pos, v) (by simp)
    unfold applyValues
    by_cases hneg : pos < 0
    · rw [if_pos hneg]
      refine ⟨fun r h => (by cases h), ?_⟩
      constructor
      · intro h; cases h
      · rintro ⟨h, _⟩
        have := (h (pos, v) (by simp)).1
        dsimp only at this
        omega
    · rw [if_neg hneg]
      have hlt : pos.toNat < slots.length := by omega
      have hget : slots[pos.toNat]? = some slots[pos.toNat] := List.getElem?_eq_getElem hlt
      cases hs : slots[pos.toNat] with
      | some y =>
        rw [hget, hs]
        refine ⟨fun r h => (by cases h), ?_⟩
        constructor
        · intro h; cases h
        · rintro ⟨h, _⟩
          have := (h (pos, v) (by simp)).2
          dsimp only at this
          rw [hget, hs] at this; cases this
      | none =>
        rw [hget, hs]
        dsimp only
        obtain ⟨i1, i2⟩ := ih (slots.set pos.toNat (some v)) (fun c hc => by rw [List.length_set]; exact hlen c (List.mem_cons_of_mem _ hc))
        refine ⟨fun r h => ?_, ?_⟩
        · obtain ⟨g1, g2, g3⟩ := i1 r h
          refine ⟨by rw [g1, List.length_set], fun i x hx => g2 i x ?_, fun c hc => ?_⟩
          · rw [List.getElem?_set]
            split
            · rename_i e; rw [← e, hget, hs] at hx; cases hx
            · exact hx
          · rcases List.mem_cons.1 hc with rfl | hc
            · exact ⟨by omega, g2 _ _ (by rw [List.getElem?_set, if_pos rfl, if_pos hlt])⟩
            · exact g3 c hc
        · rw [i2]
          constructor
          · rintro ⟨h1, h2⟩
            have hne : ∀ c ∈ rest, c.1.toNat ≠ pos.toNat ∧ slots[c.1.toNat]? = some none := by
              intro c hc
              have := (h1 c hc).2
              rw [List.getElem?_set] at this
              split at this
              · simp at this
              · rename_i e; exact ⟨fun h => e h.symm, this⟩
            refine ⟨fun c hc => ?_, List.nodup_cons.2 ⟨fun hm => ?_, h2⟩⟩
            · rcases List.mem_cons.1 hc with rfl | hc
              · exact ⟨by omega, by rw [hget, hs]⟩
              · exact ⟨(h1 c hc).1, (hne c hc).2⟩
            · obtain ⟨c, hc, e⟩ := List.mem_map.1 hm
              exact (hne c hc).1 (by rw [e])
          · rintro ⟨h1, h2⟩
            obtain ⟨n1, n2⟩ := List.nodup_cons.1 h2
            refine ⟨fun c hc => ?_, n2⟩
            obtain ⟨g1, g2⟩ := h1 c (List.mem_cons_of_mem _ hc)
            refine ⟨g1, ?_⟩
            rw [List.getElem?_set]
            split
            · rename_i e
              exfalso
              refine n1 (List.mem_map.2 ⟨c, hc, ?_⟩)
              dsimp only
              omega
            · exact g2

theorem fillSlots_ok {src : Source σ} : ∀ (l : List (Option U256)) (s : σ), (fillSlots src l s).1.length = l.length ∧
    ∀ (i : Nat) (x : U256), l[i]? = some (some x) → (fillSlots src l s).1[i]? = some x
  | [], s => ⟨rfl, fun i x h => by simp at h⟩
  | some v :: rest, s => by
    obtain ⟨h1, h2⟩ := fillSlots_ok (src := src) rest s
    refine ⟨by simp [fillSlots, h1], fun i x h => ?_⟩
    cases i with
    | zero => simpa [fillSlots] using h
    | succ i => simpa [fillSlots] using h2 i x (by simpa using h)
  | none :: rest, s => by
    obtain ⟨h1, h2⟩ := fillSlots_ok (src := src) rest (src.word s).2
    refine ⟨by simp [fillSlots, h1], fun i x h => ?_⟩
    cases i with
    | zero => simp at h
    | succ i => simpa [fillSlots] using h2 i x (by simpa using h)

end Tosca.Proofs.Gen

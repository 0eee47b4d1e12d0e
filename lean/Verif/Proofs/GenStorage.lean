import Verif.Spec.GoGen

/-!
# The generators of storage and transient storage
-/

namespace Tosca.Proofs.Gen

open Tosca.Go Tosca.Model.Go Tosca.Model.Gen Tosca.Spec Tosca.Spec.Gen

variable {σ : Type}

theorem forEach_inv {α β : Type} {step : α → β → Option β} (P : List α → β → Prop) {all : List α} : ∀ (l done : List α) (t t' : β),
    (∀ c ∈ l, c ∈ all) → P done t → (∀ c ∈ all, ∀ done t t', P done t → step c t = some t' → P (done ++ [c]) t') →
    forEach step l t = some t' → P (done ++ l) t' := by
  intro l
  induction l with
  | nil =>
    intro done t t' _ hp _ h
    simp only [forEach, Option.some.injEq] at h
    subst h; simpa using hp
  | cons c rest ih =>
    intro done t t' hm hp hs h
    obtain ⟨t1, h1, h2⟩ := Option.bind_eq_some_iff.1 h
    have := ih (done ++ [c]) t1 t' (fun d hd => hm d (List.mem_cons_of_mem _ hd)) (hs c (hm c (List.mem_cons_self ..)) done t t1 hp h1) hs h2
    simpa using this

theorem draw_ok {src : Source σ} {ok : U256 → Bool} : ∀ (n : Nat) (s : σ) (x : U256) (s' : σ), drawUntil src ok n s = some (x, s') → ok x = true
  | 0, s, x, s', h => by simp [drawUntil] at h
  | n + 1, s, x, s', h => by
    unfold drawUntil at h
    dsimp only at h
    split at h
    · rename_i hk
      simp only [Option.some.injEq, Prod.mk.injEq] at h
      obtain ⟨rfl, _⟩ := h
      exact hk
    · exact draw_ok n _ x s' h

theorem butNot_ok {src : Source σ} {n : Nat} {l : List U256} {s : σ} {r : U256 × σ} (h : butNot src n l s = some r) : r.1 ∉ l := by
  have := draw_ok _ _ _ _ h
  simpa using this

/-- The values that are picked give the configuration. -/
theorem pickValues_ok {src : Source σ} {n : Nat} {config : StorageStatus} {x : U256} {s : σ} {r : (U256 × U256) × σ}
    (hz : newValueMustBeZero config = true → x = 0) (hn : newValueMustNotBeZero config = true → x ≠ 0)
    (h : pickValues src n config x s = some r) : storageStatus r.1.1 r.1.2 x = config := by
  unfold pickValues at h
  cases config <;> simp only [newValueMustBeZero, newValueMustNotBeZero] at hz hn <;> simp only [] at h <;>
    (try simp at hz) <;> (try simp at hn)
  case added => cases h; simp [storageStatus, Ne.symm hn]
  case deletedRestored => cases h; simp [storageStatus, hn, Ne.symm hn]
  case deletedAdded =>
    obtain ⟨q, hq, rfl⟩ := Option.map_eq_some_iff.1 h
    have := butNot_ok hq
    simp at this
    simp [storageStatus, Ne.symm hn, this, Ne.symm this.2]
  case deleted =>
    obtain ⟨q, hq, rfl⟩ := Option.map_eq_some_iff.1 h
    have := butNot_ok hq
    simp at this
    simp [storageStatus, hz, this]
  case modified =>
    obtain ⟨q, hq, rfl⟩ := Option.map_eq_some_iff.1 h
    have := butNot_ok hq
    simp at this
    simp [storageStatus, hn, this]
  case addedDeleted =>
    obtain ⟨q, hq, rfl⟩ := Option.map_eq_some_iff.1 h
    have := butNot_ok hq
    simp at this
    simp [storageStatus, hz, this, Ne.symm this]
  case modifiedDeleted =>
    obtain ⟨q, hq, h⟩ := Option.bind_eq_some_iff.1 h
    obtain ⟨q', hq', rfl⟩ := Option.map_eq_some_iff.1 h
    have h1 := butNot_ok hq
    have h2 := butNot_ok hq'
    simp at h1 h2
    simp [storageStatus, hz, h1, h2, Ne.symm h2.2]
  case modifiedRestored =>
    obtain ⟨q, hq, rfl⟩ := Option.map_eq_some_iff.1 h
    have h1 := butNot_ok hq
    simp at h1
    simp [storageStatus, hn, h1, Ne.symm h1.2]
  case assigned =>
    obtain ⟨q, hq, h⟩ := Option.bind_eq_some_iff.1 h
    obtain ⟨q', hq', rfl⟩ := Option.map_eq_some_iff.1 h
    have h1 := butNot_ok hq
    have h2 := butNot_ok hq'
    simp at h1 h2
    simp [storageStatus, hn, h1, h2, Ne.symm h2.2.1, Ne.symm h1.2]

theorem set_get {a : Assignment} {v u : Variable} {x : U256} : a.set v x u = if u = v then some x else a u := rfl

/-- What holds while storage is generated: `keys` are the variables of keys. -/
structure Good (keys : List Variable) (a : Assignment) (t : StorageRun σ) : Prop where
  grows : ∀ v x, a v = some x → t.assignment v = some x
  used : ∀ v ∈ keys, ∀ k, t.assignment v = some k → t.used k = true

theorem unusedKey_ok {src : Source σ} {fuel : Nat} {t : StorageRun σ} {k : U256} {t' : StorageRun σ} (h : unusedKey src fuel t = some (k, t')) :
    t.used k = false ∧ t'.storage = t.storage ∧ t'.assignment = t.assignment ∧ (∀ x, t'.used x = true ↔ x = k ∨ t.used x = true) := by
  unfold unusedKey at h
  obtain ⟨⟨k', s⟩, hq, h⟩ := Option.map_eq_some_iff.1 h
  simp only [Prod.mk.injEq] at h
  obtain ⟨rfl, rfl⟩ := h
  refine ⟨by simpa using draw_ok _ _ _ _ hq, rfl, rfl, fun x => ?_⟩
  by_cases e : x = k' <;> simp [e]

theorem getKey_ok {src : Source σ} {fuel : Nat} {v : Variable} {keys : List Variable} {a : Assignment} {t t' : StorageRun σ} {k : U256}
    (hg : Good keys a t) (h : getKey src fuel v t = some (k, t')) :
    Good keys a t' ∧ t'.assignment v = some k ∧ t'.storage = t.storage ∧ (∀ u x, t.assignment u = some x → t'.assignment u = some x) := by
  unfold getKey at h
  cases hk : t.assignment v with
  | some k0 =>
    rw [hk] at h
    simp only [Option.some.injEq, Prod.mk.injEq] at h
    obtain ⟨rfl, rfl⟩ := h
    exact ⟨hg, hk, rfl, fun _ _ h => h⟩
  | none =>
    rw [hk] at h
    obtain ⟨⟨k1, t1⟩, hq, h⟩ := Option.map_eq_some_iff.1 h
    simp only [Prod.mk.injEq] at h
    obtain ⟨rfl, rfl⟩ := h
    obtain ⟨_, u2, u3, u4⟩ := unusedKey_ok hq
    have grow : ∀ u x, t.assignment u = some x → (t1.assignment.set v k1) u = some x := by
      intro u x hx
      rw [set_get, u3]
      by_cases e : u = v
      · rw [e, hk] at hx; cases hx
      · rw [if_neg e]; exact hx
    refine ⟨⟨fun u x hx => grow u x (hg.grows u x hx), fun u hu k' hk' => ?_⟩, by show t1.assignment.set v k1 v = _; rw [set_get, if_pos (show v = v from rfl)], u2, grow⟩
    refine (u4 k').2 ?_
    change (t1.assignment.set v k1) u = some k' at hk'
    rw [set_get, u3] at hk'
    split at hk'
    · cases hk'; exact .inl rfl
    · exact .inr (hg.used u hu k' hk')

theorem pickNewValue_ok {src : Source σ} {fuel : Nat} {c : StorageConfig} {keys : List Variable} {a : Assignment} {t t' : StorageRun σ} {x : U256}
    (hg : Good keys a t) (hv : c.newValue ∈ keys → (a c.newValue).isSome) (h : pickNewValue src fuel c t = some (x, t')) :
    Good keys a t' ∧ t'.assignment c.newValue = some x ∧ t'.storage = t.storage ∧ (∀ u y, t.assignment u = some y → t'.assignment u = some y) ∧
    (newValueMustBeZero c.config = true → x = 0) ∧ (newValueMustNotBeZero c.config = true → x ≠ 0) := by
  unfold pickNewValue at h
  cases hk : t.assignment c.newValue with
  | some y =>
    rw [hk] at h
    dsimp only at h
    split at h
    · cases h
    · rename_i hn
      simp only [Option.some.injEq, Prod.mk.injEq] at h
      obtain ⟨rfl, rfl⟩ := h
      exact ⟨hg, hk, rfl, fun _ _ h => h, fun hz => Classical.byContradiction fun hy => hn (.inr ⟨hy, hz⟩), fun hz hy => hn (.inl ⟨hy, hz⟩)⟩
  | none =>
    rw [hk] at h
    dsimp only at h
    obtain ⟨⟨y, s⟩, hq, h⟩ := Option.map_eq_some_iff.1 h
    simp only [Prod.mk.injEq] at h
    obtain ⟨rfl, rfl⟩ := h
    have grow : ∀ u z, t.assignment u = some z → (t.assignment.set c.newValue y) u = some z := by
      intro u z hz
      rw [set_get]
      by_cases e : u = c.newValue
      · rw [e, hk] at hz; cases hz
      · rw [if_neg e]; exact hz
    refine ⟨⟨fun u z hz => grow u z (hg.grows u z hz), fun u hu k' hk' => ?_⟩, by show t.assignment.set c.newValue y c.newValue = _; rw [set_get, if_pos (show c.newValue = c.newValue from rfl)], rfl, grow, fun hz => ?_, fun hz => ?_⟩
    · change (t.assignment.set c.newValue y) u = some k' at hk'
      rw [set_get] at hk'
      split at hk'
      · rename_i e
        obtain ⟨z, hz⟩ := Option.isSome_iff_exists.1 (hv (e ▸ hu))
        rw [hg.grows _ _ hz] at hk; cases hk
      · exact hg.used u hu k' hk'
    · rw [if_pos hz] at hq
      simp only [Option.some.injEq, Prod.mk.injEq] at hq
      exact hq.1.symm
    · have hnz : newValueMustBeZero c.config = false := by
        revert hz; cases c.config <;> decide
      rw [hnz, if_neg (by simp), if_pos hz] at hq
      have := butNot_ok hq
      simpa using this

/-- What holds after the configurations of `done`. -/
structure Configured (cfg : List StorageConfig) (done : List StorageConfig) (t : StorageRun σ) : Prop where
  holds : ∀ c ∈ done, ∃ k v, t.assignment c.key = some k ∧ t.assignment c.newValue = some v ∧ (t.storage.original k).isSome ∧
    (storageStatus (original t.storage k) (current t.storage k) v = c.config ∨ ∃ d ∈ cfg, d ≠ c ∧ t.assignment d.key = some k)
  cold : ∀ k, t.storage.warm k = false

theorem placeConfig_ok {src : Source σ} {fuel : Nat} {keys : List Variable} {a : Assignment} {cfg : List StorageConfig}
    {c : StorageConfig} (hc : c ∈ cfg) (hkey : c.key ∈ keys) (hv : c.newValue ∈ keys → (a c.newValue).isSome)
    {done : List StorageConfig} {t t' : StorageRun σ} (hg : Good keys a t ∧ Configured cfg done t) (h : placeConfig src fuel c t = some t') :
    Good keys a t' ∧ Configured cfg (done ++ [c]) t' := by
  obtain ⟨hg, hd⟩ := hg
  unfold placeConfig at h
  obtain ⟨⟨k, t1⟩, h1, h⟩ := Option.bind_eq_some_iff.1 h
  obtain ⟨⟨v, t2⟩, h2, h⟩ := Option.bind_eq_some_iff.1 h
  obtain ⟨⟨q, s⟩, h3, rfl⟩ := Option.map_eq_some_iff.1 h
  obtain ⟨a1, a2, a3, a4⟩ := getKey_ok hg h1
  obtain ⟨b1, b2, b3, b4, b5, b6⟩ := pickNewValue_ok a1 hv h2
  have hst := pickValues_ok b5 b6 h3
  dsimp only at hst
  refine ⟨⟨b1.grows, b1.used⟩, fun d hdm => ?_, fun x => ?_⟩
  · rcases List.mem_append.1 hdm with hdm | hdm
    · obtain ⟨k', v', e1, e2, e3, e4⟩ := hd.holds d hdm
      refine ⟨k', v', b4 _ _ (a4 _ _ e1), b4 _ _ (a4 _ _ e2), ?_, ?_⟩
      · show ((if k' = k then some q.1 else t2.storage.original k')).isSome = true
        split
        · rfl
        · rw [b3, a3]; exact e3
      · by_cases e : k' = k
        · by_cases ed : d = c
          · subst ed
            have hk : k' = k := e
            have hv' : v' = v := by
              have := b4 _ _ (a4 _ _ e2); rw [b2] at this; exact (Option.some.inj this).symm
            left
            rw [hk, hv']
            simpa [original, current, GenStorage.setOriginal, GenStorage.setCurrent] using hst
          · exact .inr ⟨c, hc, fun h => ed h.symm, by rw [e]; exact b4 _ _ a2⟩
        · rcases e4 with e4 | ⟨d', hd', e4, e5⟩
          · left
            simpa [original, current, GenStorage.setOriginal, GenStorage.setCurrent, e, b3, a3] using e4
          · exact .inr ⟨d', hd', e4, b4 _ _ (a4 _ _ e5)⟩
    · rw [List.mem_singleton] at hdm
      subst hdm
      refine ⟨k, v, b4 _ _ a2, b2, ?_, .inl ?_⟩
      · simp [GenStorage.setOriginal, GenStorage.setCurrent]
      · simpa [original, current, GenStorage.setOriginal, GenStorage.setCurrent] using hst
  · show t2.storage.warm x = false
    rw [b3, a3]; exact hd.cold x

/-- What holds after the warm/cold constraints of `done`. -/
structure Warmed (cfg : List StorageConfig) (all done : List (Variable × Bool)) (t : StorageRun σ) : Prop where
  holds : ∀ c ∈ cfg, ∃ k v, t.assignment c.key = some k ∧ t.assignment c.newValue = some v ∧ (t.storage.original k).isSome ∧
    (storageStatus (original t.storage k) (current t.storage k) v = c.config ∨ ∃ d ∈ cfg, d ≠ c ∧ t.assignment d.key = some k)
  bound : ∀ c ∈ done, ∃ k, t.assignment c.1 = some k ∧ (c.2 = true → t.storage.warm k = true)
  only : ∀ k, t.storage.warm k = true → ∃ u, (u, true) ∈ all ∧ t.assignment u = some k

theorem placeWarm_ok {src : Source σ} {fuel : Nat} {keys : List Variable} {a : Assignment} {cfg : List StorageConfig} {all : List (Variable × Bool)}
    {c : Variable × Bool} (hc : c ∈ all) (hkey : c.1 ∈ keys)
    {done : List (Variable × Bool)} {t t' : StorageRun σ} (hg : Good keys a t ∧ Warmed cfg all done t) (h : placeWarm src fuel c t = some t') :
    Good keys a t' ∧ Warmed cfg all (done ++ [c]) t' := by
  obtain ⟨hg, hd⟩ := hg
  unfold placeWarm at h
  obtain ⟨⟨k, t1⟩, h1, h⟩ := Option.map_eq_some_iff.1 h
  obtain ⟨a1, a2, a3, a4⟩ := getKey_ok hg h1
  dsimp only at h
  -- the slot is there
  obtain ⟨t2, ht2, c1, c2, c3, c4⟩ : ∃ t2 : StorageRun σ, { t2 with storage := t2.storage.setWarm k c.2 } = t' ∧ t2.assignment = t1.assignment ∧ t2.used = t1.used ∧
      t2.storage.warm = t1.storage.warm ∧ ∀ k', (t1.storage.original k').isSome → t2.storage.original k' = t1.storage.original k' ∧ t2.storage.current k' = t1.storage.current k' := by
    refine ⟨_, h, ?_⟩
    split
    · exact ⟨rfl, rfl, rfl, fun _ _ => ⟨rfl, rfl⟩⟩
    · rename_i hn
      refine ⟨rfl, rfl, rfl, fun k' hk' => ?_⟩
      have : k' ≠ k := by rintro rfl; exact hn hk'
      simp [GenStorage.setOriginal, GenStorage.setCurrent, this]
  have w1 : (t2.storage.setWarm k c.2).original = t2.storage.original := by unfold GenStorage.setWarm; split <;> rfl
  have w2 : (t2.storage.setWarm k c.2).current = t2.storage.current := by unfold GenStorage.setWarm; split <;> rfl
  have w3 : ∀ k', (t2.storage.setWarm k c.2).warm k' = true ↔ (c.2 = true ∧ k' = k) ∨ t2.storage.warm k' = true := by
    intro k'
    unfold GenStorage.setWarm
    cases c.2 with
    | false => simp
    | true => by_cases e : k' = k <;> simp [e]
  subst ht2
  refine ⟨⟨fun v x hx => by show t2.assignment v = _; rw [c1]; exact a1.grows v x hx, fun v hv k' hk' => ?_⟩, fun d hdm => ?_, fun d hdm => ?_, fun k' hk' => ?_⟩
  · change t2.assignment v = some k' at hk'
    show t2.used k' = true
    rw [c1] at hk'; rw [c2]; exact a1.used v hv k' hk'
  · obtain ⟨k', v, e1, e2, e3, e4⟩ := hd.holds d hdm
    rw [← a3] at e3 e4
    obtain ⟨f1, f2⟩ := c4 k' e3
    refine ⟨k', v, by show t2.assignment _ = _; rw [c1]; exact a4 _ _ e1, by show t2.assignment _ = _; rw [c1]; exact a4 _ _ e2, ?_, ?_⟩
    · show ((t2.storage.setWarm k c.2).original k').isSome = true
      rw [w1, f1]; exact e3
    · rcases e4 with e4 | ⟨d', hd', e4, e5⟩
      · left
        show storageStatus (original (t2.storage.setWarm k c.2) k') (current (t2.storage.setWarm k c.2) k') v = _
        unfold original current at *
        rw [w1, w2, f1, f2]; exact e4
      · exact .inr ⟨d', hd', e4, by show t2.assignment _ = _; rw [c1]; exact a4 _ _ e5⟩
  · rcases List.mem_append.1 hdm with hdm | hdm
    · obtain ⟨k', e1, e2⟩ := hd.bound d hdm
      exact ⟨k', by show t2.assignment _ = _; rw [c1]; exact a4 _ _ e1, fun h => (w3 k').2 (.inr (by rw [c3, a3]; exact e2 h))⟩
    · rw [List.mem_singleton] at hdm
      subst hdm
      exact ⟨k, by show t2.assignment _ = _; rw [c1]; exact a2, fun h => (w3 k).2 (.inl ⟨h, rfl⟩)⟩
  · rcases (w3 k').1 hk' with ⟨e1, rfl⟩ | e
    · exact ⟨c.1, by rw [← e1]; exact hc, by show t2.assignment _ = _; rw [c1]; exact a2⟩
    · rw [c3, a3] at e
      obtain ⟨u, hu, e⟩ := hd.only k' e
      exact ⟨u, hu, by show t2.assignment _ = _; rw [c1]; exact a4 _ _ e⟩

/-- Random entries leave the keys in use alone. -/
theorem randomEntries_ok {src : Source σ} {fuel : Nat} : ∀ (n : Nat) (t t' : StorageRun σ), randomEntries src fuel n t = some t' →
    t'.assignment = t.assignment ∧ ∀ k, t.used k = true →
      t'.storage.original k = t.storage.original k ∧ t'.storage.current k = t.storage.current k ∧ t'.storage.warm k = t.storage.warm k := by
  intro n
  induction n with
  | zero =>
    intro t t' h
    simp only [randomEntries, Option.some.injEq] at h
    subst h
    exact ⟨rfl, fun _ _ => ⟨rfl, rfl, rfl⟩⟩
  | succ n ih =>
    intro t t' h
    unfold randomEntries at h
    obtain ⟨⟨k, t1⟩, h1, h⟩ := Option.bind_eq_some_iff.1 h
    obtain ⟨u1, u2, u3, u4⟩ := unusedKey_ok h1
    dsimp only at h
    obtain ⟨g1, g2⟩ := ih _ _ h
    refine ⟨by rw [g1]; exact u3, fun k' hk' => ?_⟩
    have hne : k' ≠ k := by rintro rfl; rw [u1] at hk'; cases hk'
    obtain ⟨e1, e2, e3⟩ := g2 k' ((u4 k').2 (.inr hk'))
    rw [e1, e2, e3]
    rw [← u2]
    refine ⟨?_, ?_, ?_⟩ <;> unfold GenStorage.setWarm <;> split <;> simp [GenStorage.setOriginal, GenStorage.setCurrent, hne]

end Tosca.Proofs.Gen

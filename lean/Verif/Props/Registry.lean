import Verif.Spec.GoRegistry
import Mathlib.Data.List.Perm.Basic
import Mathlib.Data.List.Induction

/-!
# C86: registries
-/

namespace Tosca

open Tosca.Model.Registry Tosca.Model.Compare Tosca.Spec.Registry

variable {F I C : Type} {lower : String → String}

theorem registry_entry_append (m : GoMap String F) (k j : String) (f : F) (h : entry m k = none) :
    entry (m ++ [(k, f)]) j = if j = k then some f else entry m j := by
  unfold entry at h ⊢
  rw [List.find?_append]
  by_cases hj : j = k
  · subst hj
    rw [if_pos rfl, Option.map_eq_none_iff.mp h]
    simp
  · rw [if_neg hj, List.find?_cons_of_neg (by simpa using fun h => hj h.symm)]
    simp

theorem registry_entry_iff (m : GoMap String F) (k : String) : entry m k = none ↔ k ∉ m.map (·.1) := by
  unfold entry
  rw [Option.map_eq_none_iff, List.find?_eq_none]
  constructor
  · intro h hk
    obtain ⟨e, he, hek⟩ := List.mem_map.mp hk
    exact h e he (by simpa using hek)
  · intro h e he hek
    exact h (List.mem_map.mpr ⟨e, he, by simpa using hek⟩)

theorem registry_after (calls : Calls F) (call : String × Option F) : after lower (calls ++ [call]) = (register lower (after lower calls) call.1 call.2).2 := by
  simp [after, List.foldl_append]

theorem registry_lookup (calls : Calls F) (k : String) :
    entry (after lower calls) k = (calls.filterMap fun c => if lower c.1 = k then c.2 else none).head? := by
  induction calls using List.reverseRecOn with
  | nil => rfl
  | append_singleton calls call ih =>
    obtain ⟨name, factory⟩ := call
    rw [registry_after, List.filterMap_append, List.head?_append, ← ih]
    unfold register
    cases factory with
    | none => simp
    | some f =>
      simp only
      cases h : entry (after lower calls) (lower name) with
      | some g =>
        simp only [Option.isSome_some, if_true]
        by_cases hk : lower name = k
        · rw [← hk, h]; rfl
        · simp [hk]
      | none =>
        simp only [Option.isSome_none, Bool.false_eq_true, if_false]
        rw [registry_entry_append _ _ _ _ h]
        by_cases hk : lower name = k
        · rw [← hk, if_pos rfl, h]; simp
        · rw [if_neg (fun e => hk e.symm)]; simp [hk]

/-- After whatever calls, from however many threads, a name stands for the factory first registered under it, in whatever case: no
registration replaces another one, and none is lost. -/
theorem C86_lookup (calls : Calls F) (name : String) : getFactory lower (after lower calls) name = registered lower calls name :=
  registry_lookup calls (lower name)

/-- A registration is accepted exactly if there is a factory and the name stands for nothing yet. -/
theorem C86_answer (calls : Calls F) (name : String) (factory : Option F) :
    answer lower calls (name, factory) = true ↔ factory ≠ none ∧ registered lower calls name = none := by
  rw [← C86_lookup]
  unfold answer register getFactory
  cases factory with
  | none => simp
  | some f => cases h : entry (after lower calls) (lower name) <;> simp [h]

/-- What a name stands for stays, whatever is registered later; so does what is absent, until it is registered. -/
theorem C86_stays (calls more : Calls F) (name : String) {f : F} (h : getFactory lower (after lower calls) name = some f) :
    getFactory lower (after lower (calls ++ more)) name = some f := by
  rw [C86_lookup] at h ⊢
  unfold registered at h ⊢
  rw [List.filterMap_append, List.head?_append, h]
  rfl

/-- The list of all has each name in lower case once, with what it stands for, and nothing else. -/
theorem C86_all (calls : Calls F) :
    ((getAll (after lower calls)).map (·.1)).Nodup ∧
    ∀ k f, (k, f) ∈ getAll (after lower calls) ↔ (∃ name, lower name = k ∧ getFactory lower (after lower calls) name = some f) := by
  have hn : ((after lower calls).map (·.1)).Nodup ∧ ∀ e ∈ after lower calls, ∃ name, lower name = e.1 := by
    induction calls using List.reverseRecOn with
    | nil => exact ⟨List.nodup_nil, fun _ h => (by cases h)⟩
    | append_singleton calls call ih =>
      obtain ⟨name, factory⟩ := call
      rw [registry_after]
      unfold register
      cases factory with
      | none => exact ih
      | some f =>
        simp only
        cases h : entry (after lower calls) (lower name) with
        | some g => simpa using ih
        | none =>
          have hk := (registry_entry_iff _ _).mp h
          simp only [Option.isSome_none, Bool.false_eq_true, if_false]
          refine ⟨?_, ?_⟩
          · rw [List.map_append, List.nodup_append]
            exact ⟨ih.1, by simp, fun a ha b hb => by rw [show b = lower name by simpa using hb]; exact fun e => hk (e ▸ ha)⟩
          · intro e he
            rcases List.mem_append.mp he with he | he
            · exact ih.2 e he
            · exact ⟨name, by rw [List.mem_singleton.mp he]⟩
  refine ⟨hn.1, fun k f => ?_⟩
  show (k, f) ∈ after lower calls ↔ _
  have find : ∀ (m : GoMap String F), (m.map (·.1)).Nodup → ((k, f) ∈ m ↔ entry m k = some f) := by
    intro m
    induction m with
    | nil => intro _; simp [entry]
    | cons e m ih =>
      intro hm
      rw [List.map_cons, List.nodup_cons] at hm
      have ih' := ih hm.2
      unfold entry at ih' ⊢
      by_cases he : e.1 = k
      · rw [List.find?_cons_of_pos (by simpa using he)]
        constructor
        · intro h
          rcases List.mem_cons.mp h with h | h
          · rw [← h]; rfl
          · exact absurd (List.mem_map.mpr ⟨(k, f), h, he.symm⟩) hm.1
        · intro h
          have : e.2 = f := by simpa using h
          rw [← this, ← he]; exact List.mem_cons_self
      · rw [List.find?_cons_of_neg (by simpa using he), ← ih']
        constructor
        · intro h
          rcases List.mem_cons.mp h with h | h
          · exact absurd (by rw [← h]) he
          · exact h
        · exact List.mem_cons_of_mem _
  rw [find _ hn.1]
  constructor
  · intro h
    obtain ⟨name, hl⟩ := hn.2 (k, f) ((find _ hn.1).mpr h)
    exact ⟨name, hl, by unfold getFactory; rw [hl]; exact h⟩
  · rintro ⟨name, hl, h⟩
    unfold getFactory at h
    rw [hl] at h; exact h

/-- A new interpreter is what the factory the name stands for makes of the configuration, of nil if there is none; two configurations, a
name that stands for nothing, and an error of the factory are errors. -/
theorem C86_new (calls : Calls (Option C → Option I)) (name : String) (config : List (Option C)) (i : I) :
    newInterpreter lower (after lower calls) name config = .ok i ↔
      config.length ≤ 1 ∧ ∃ f, registered lower calls name = some f ∧ f (config.head?.getD none) = some i := by
  rw [← C86_lookup]
  unfold newInterpreter
  by_cases hc : config.length > 1
  · rw [if_pos hc]
    exact ⟨fun h => (by cases h), fun h => absurd h.1 (by omega)⟩
  · rw [if_neg hc]
    cases h : getFactory lower (after lower calls) name with
    | none => simp
    | some f =>
      simp only
      cases hf : f (config.head?.getD none) with
      | none => simp [hf]
      | some j =>
        simp only [Except.ok.injEq, Option.some.injEq, exists_eq_left', hf]
        exact ⟨fun h => ⟨by omega, h⟩, fun h => h.2⟩

/-- An interpreter registered as such is what its name gives, for every configuration, until the end. -/
theorem C86_instance (calls more : Calls (Option C → Option I)) (name : String) (impl : I)
    (h : answer lower calls (name, some (always impl)) = true) (config : Option C) :
    newInterpreter lower (after lower (calls ++ [(name, some (always impl))] ++ more)) name [config] = .ok impl ∧
    getInterpreter lower (after lower (calls ++ [(name, some (always impl))] ++ more)) name = some impl := by
  have hr := ((C86_answer calls name _).mp h).2
  have hn : ∀ c : Option C, newInterpreter lower (after lower (calls ++ [(name, some (always impl))] ++ more)) name [c] = .ok impl := by
    intro c
    rw [C86_new]
    refine ⟨by simp, always impl, ?_, rfl⟩
    rw [← C86_lookup]
    apply C86_stays
    rw [C86_lookup]
    unfold registered at hr ⊢
    rw [List.filterMap_append, List.head?_append, hr]
    simp
  refine ⟨hn config, ?_⟩
  unfold getInterpreter
  rw [hn none]

/-- The experimental configurations, by name: whether super instructions are used, whether the SHA3 cache is, the size of the code cache
(zero: the default, negative: none), and the runner. -/
theorem C86_names : experimental.map (fun c => (c.1, c.2.withSuperInstructions, c.2.withShaCache, c.2.cacheSize, c.2.mode)) = [
    ("lfvm-stats", false, true, 0, .stats),
    ("lfvm-logging", false, true, 0, .logging),
    ("lfvm-no-sha-cache", false, false, 0, .plain),
    ("lfvm-no-sha-cache-stats", false, false, 0, .stats),
    ("lfvm-no-sha-cache-logging", false, false, 0, .logging),
    ("lfvm-si", true, true, 0, .plain),
    ("lfvm-si-stats", true, true, 0, .stats),
    ("lfvm-si-logging", true, true, 0, .logging),
    ("lfvm-si-no-sha-cache", true, false, 0, .plain),
    ("lfvm-si-no-sha-cache-stats", true, false, 0, .stats),
    ("lfvm-si-no-sha-cache-logging", true, false, 0, .logging),
    ("lfvm-no-code-cache", false, false, -1, .plain)] := by
  decide +kernel

theorem registry_configs (vm : Config → F) : ∀ (configs : List (String × Config)) (calls : Calls F), (configs.map (·.1)).Nodup →
    (∀ c ∈ configs, lower c.1 = c.1) → (∀ c ∈ configs, registered lower calls c.1 = none) →
    registerConfigs lower vm (after lower calls) configs = (true, after lower (calls ++ configs.map fun c => (c.1, some (vm c.2)))) := by
  intro configs
  induction configs with
  | nil => intro calls _ _ _; simp [registerConfigs]
  | cons c configs ih =>
    intro calls hn hl hf
    obtain ⟨name, config⟩ := c
    rw [List.map_cons, List.nodup_cons] at hn
    have h1 : (register lower (after lower calls) name (some (vm config))).1 = true :=
      (C86_answer calls name _).mpr ⟨by simp, hf _ List.mem_cons_self⟩
    have h2 := (registry_after (lower := lower) calls (name, some (vm config))).symm
    rw [registerConfigs]
    rcases hr : register lower (after lower calls) name (some (vm config)) with ⟨b, reg⟩
    rw [hr] at h1 h2
    subst h1
    subst h2
    simp only
    rw [ih (calls ++ [(name, some (vm config))]) hn.2 (fun c hc => hl c (List.mem_cons_of_mem _ hc)) ?_]
    · simp
    · intro c hc
      have h3 := hf c (List.mem_cons_of_mem _ hc)
      have hne : name ≠ c.1 := fun e => hn.1 (List.mem_map.mpr ⟨c, hc, e.symm⟩)
      unfold registered at h3 ⊢
      rw [List.filterMap_append, List.head?_append, h3, hl c (List.mem_cons_of_mem _ hc)]
      have h0 : lower name = name := hl _ List.mem_cons_self
      simp [h0, hne]

/-- In whatever order the experimental configurations are registered, if none of their names is taken all are registered, each name with
its own configuration; what was registered before stays. -/
theorem C86_experimental (hl : ∀ c ∈ experimental, lower c.1 = c.1) (vm : Config → F) (calls : Calls F) (hfree : ∀ c ∈ experimental, registered lower calls c.1 = none)
    (configs : List (String × Config)) (hp : configs.Perm experimental) :
    ∃ reg, registerConfigs lower vm (after lower calls) configs = (true, reg) ∧
      (∀ c ∈ experimental, getFactory lower reg c.1 = some (vm c.2)) ∧
      ∀ name f, getFactory lower (after lower calls) name = some f → getFactory lower reg name = some f := by
  have hnd : (experimental.map (·.1)).Nodup := by decide +kernel
  have hnd' : (configs.map (·.1)).Nodup := (hp.map (·.1)).nodup_iff.mpr hnd
  refine ⟨_, registry_configs vm configs calls hnd' (fun c hc => hl c (hp.mem_iff.mp hc)) (fun c hc => hfree c (hp.mem_iff.mp hc)), ?_, fun name f h => C86_stays _ _ _ h⟩
  intro c hc
  rw [C86_lookup]
  have h3 := hfree c hc
  unfold registered at h3 ⊢
  rw [List.filterMap_append, List.head?_append, h3, hl c hc]
  have hmem := hp.mem_iff.mpr hc
  have key : ∀ (cs : List (String × Config)), (cs.map (·.1)).Nodup → (∀ d ∈ cs, lower d.1 = d.1) → c ∈ cs →
      ((cs.map fun d => (d.1, some (vm d.2))).filterMap fun d => if lower d.1 = c.1 then d.2 else none).head? = some (vm c.2) := by
    intro cs
    induction cs with
    | nil => intro _ _ h; cases h
    | cons d cs ih =>
      intro hn hlc hm
      rw [List.map_cons, List.nodup_cons] at hn
      have hd := hlc d List.mem_cons_self
      rw [List.map_cons, List.filterMap_cons]
      simp only [hd]
      by_cases e : d.1 = c.1
      · have : d = c := by
          rcases List.mem_cons.mp hm with h | h
          · exact h.symm
          · exact absurd (List.mem_map.mpr ⟨c, h, e.symm⟩) hn.1
        subst this
        simp
      · rcases List.mem_cons.mp hm with h | h
        · exact absurd (by rw [h]) e
        · simpa [e] using ih hn.2 (fun d hd => hlc d (List.mem_cons_of_mem _ hd)) h
  rw [key configs hnd' (fun d hd => hl d (hp.mem_iff.mp hd)) hmem]
  rfl

/-- Registering them twice is an error. -/
theorem C86_twice (vm : Config → F) (calls : Calls F) (configs : List (String × Config)) (hne : configs ≠ [])
    (htaken : ∀ c ∈ configs, registered lower calls c.1 ≠ none) : registerConfigs lower vm (after lower calls) configs = (false, after lower calls) := by
  cases configs with
  | nil => exact absurd rfl hne
  | cons c configs =>
    have h := htaken c List.mem_cons_self
    rw [← C86_lookup] at h
    unfold getFactory at h
    rw [registerConfigs]
    unfold register
    cases h2 : entry (after lower calls) (lower c.1) with
    | none => exact absurd h2 h
    | some f => simp [h2]

/-! ## Examples -/

/-- Registrations in several cases, one of them nil: the first one counts. -/
example : getFactory String.toLower (after String.toLower [("geth", none), ("Geth", some 1), ("GETH", some 2), ("lfvm", some 3)]) "gEth" = some 1 := by
  decide +kernel

/-- The names of the configurations are in lower case, and free in a registry with a few others. -/
example : (∀ c ∈ experimental, String.toLower c.1 = c.1) ∧
    ∀ c ∈ experimental, registered String.toLower [("lfvm", some 1), ("evmzero", some 2)] c.1 = none := by
  decide +kernel

/-- The interpreter of a name in another case, with a configuration and without. -/
example : (newInterpreter String.toLower (after String.toLower [("A", some fun c : Option Nat => c)]) "a" [some 5]).toOption = some 5 ∧
    (newInterpreter String.toLower (after String.toLower [("A", some fun c : Option Nat => c)]) "a" []).toOption = none := by
  decide +kernel

end Tosca

import Verif.Spec.GoGenAccounts
import Verif.Proofs.GenStorage

/-!
# The generator of accounts: its phases
-/

namespace Tosca.Proofs.GenAccounts

open Tosca.Go Tosca.Model.Go Tosca.Model.Gen Tosca.Spec Tosca.Spec.Gen

variable {σ : Type}

/-- Where a loop fails. -/
theorem forEach_fail {α β : Type} {step : α → β → Option β} (P : List α → β → Prop) {all : List α} : ∀ (l done : List α) (t : β),
    (∀ c ∈ l, c ∈ all) → P done t → (∀ c ∈ all, ∀ done t t', P done t → step c t = some t' → P (done ++ [c]) t') →
    forEach step l t = none → ∃ c done' t1, c ∈ all ∧ done'.length + 1 ≤ done.length + l.length ∧ P done' t1 ∧ step c t1 = none := by
  intro l
  induction l with
  | nil => intro done t _ _ _ h; cases h
  | cons c rest ih =>
    intro done t hm hp hs h
    cases h1 : step c t with
    | none => exact ⟨c, done, t, hm c (List.mem_cons_self ..), by simp, hp, h1⟩
    | some t1 =>
      have h2 : forEach step rest t1 = none := by
        have : forEach step (c :: rest) t = (step c t).bind (forEach step rest) := rfl
        rw [this, h1] at h; exact h
      obtain ⟨c', d', t', q1, q2, q3, q4⟩ := ih (done ++ [c]) t1 (fun d hd => hm d (List.mem_cons_of_mem _ hd))
        (hs c (hm c (List.mem_cons_self ..)) done t t1 hp h1) hs h2
      refine ⟨c', d', t', q1, ?_, q3, q4⟩
      simp only [List.length_append, List.length_cons, List.length_nil] at q2 ⊢
      omega

/-- What holds of the variables: none of those bound before has changed, a new one has an address of its own. -/
structure Names (V : List Variable) (a : Assignment) (used : List Address) (asn : Assignment) : Prop where
  grows : ∀ v x, a v = some x → asn v = some x
  fresh : ∀ v ∈ V, ∀ x, addressOf asn v = some x → addressOf a v = some x ∨ x ∈ used
  apart : ∀ v ∈ V, ∀ u ∈ V, ∀ x, addressOf asn v = some x → addressOf asn u = some x → v = u ∨ ((a v).isSome ∧ (a u).isSome)

/-- More variables are bound. -/
def Grows (a b : Assignment) : Prop := ∀ v x, addressOf a v = some x → addressOf b v = some x

theorem draw_fresh {src : Source σ} {used : List Address} : ∀ (n : Nat) (s : σ) (x : Address) (s' : σ), drawAddress src used n s = some (x, s') →
    x ∉ used ∧ ∃ r, (randomAddress src r).1 = x
  | 0, s, x, s', h => by simp [drawAddress] at h
  | n + 1, s, x, s', h => by
    unfold drawAddress at h
    dsimp only at h
    split at h
    · rename_i hk
      simp only [Option.some.injEq, Prod.mk.injEq] at h
      obtain ⟨rfl, _⟩ := h
      exact ⟨hk, s, rfl⟩
    · exact draw_fresh n _ x s' h

theorem unused_ok {src : Source σ} {fuel : Nat} {t t' : AccountsRun σ} {x : Address} (h : unusedAddress src fuel t = some (x, t')) :
    x ∉ t.used ∧ (∃ r, (randomAddress src r).1 = x) ∧ t'.accounts = t.accounts ∧ t'.assignment = t.assignment ∧ t'.used = x :: t.used := by
  unfold unusedAddress at h
  obtain ⟨⟨y, s⟩, hq, h⟩ := Option.map_eq_some_iff.1 h
  simp only [Prod.mk.injEq] at h
  obtain ⟨rfl, rfl⟩ := h
  obtain ⟨h1, h2⟩ := draw_fresh _ _ _ _ hq
  exact ⟨h1, h2, rfl, rfl, rfl⟩

theorem addressOf_set {a : Assignment} {v u : Variable} {x : U256} : addressOf (a.set v x) u = if u = v then some (newAddress x) else addressOf a u := by
  unfold addressOf Assignment.set
  by_cases e : u = v
  · rw [if_pos e, if_pos e]; rfl
  · rw [if_neg e, if_neg e]

theorem newAddress_word (x : Address) : newAddress (x.setWidth 256) = x := by
  unfold newAddress
  apply BitVec.eq_of_toNat_eq
  simp only [BitVec.toNat_setWidth]
  have := x.isLt
  omega

/-- The address of a variable. -/
theorem get_ok {src : Source σ} {fuel : Nat} {g : AccountsGenerator} {a : Assignment} (hmiss : Misses src g a) {v : Variable}
    (hv : v ∈ AccountsGenerator.variables g) {t t' : AccountsRun σ} {x : Address} (hn : Names (AccountsGenerator.variables g) a t.used t.assignment)
    (h : getAddress src fuel v t = some (x, t')) :
    Names (AccountsGenerator.variables g) a t'.used t'.assignment ∧ addressOf t'.assignment v = some x ∧ t'.accounts = t.accounts ∧
    Grows t.assignment t'.assignment ∧ t'.used.length ≤ t.used.length + 1 ∧ (∀ y ∈ t.used, y ∈ t'.used) := by
  unfold getAddress at h
  cases hk : t.assignment v with
  | some k =>
    rw [hk] at h
    simp only [Option.some.injEq, Prod.mk.injEq] at h
    obtain ⟨rfl, rfl⟩ := h
    exact ⟨hn, by unfold addressOf; rw [hk]; rfl, rfl, fun _ _ h => h, by omega, fun _ h => h⟩
  | none =>
    rw [hk] at h
    obtain ⟨⟨y, t1⟩, hq, h⟩ := Option.map_eq_some_iff.1 h
    simp only [Prod.mk.injEq] at h
    obtain ⟨rfl, rfl⟩ := h
    obtain ⟨u1, ⟨r, u2⟩, u3, u4, u5⟩ := unused_ok hq
    have hnone : addressOf t.assignment v = none := by unfold addressOf; rw [hk]; rfl
    have hget : ∀ u, addressOf (t1.assignment.set v (y.setWidth 256)) u = if u = v then some y else addressOf t.assignment u := by
      intro u; rw [addressOf_set, newAddress_word, u4]
    have old : ∀ u ∈ AccountsGenerator.variables g, addressOf t.assignment u ≠ some y := by
      intro u hu he
      rcases hn.fresh u hu y he with h | h
      · exact hmiss u hu y h r u2
      · exact u1 h
    refine ⟨⟨?_, ?_, ?_⟩, ?_, u3, ?_, ?_, ?_⟩
    · intro u z hz
      have := hn.grows u z hz
      show t1.assignment.set v (y.setWidth 256) u = some z
      rw [Gen.set_get, u4]
      by_cases e : u = v
      · rw [e, hk] at this; cases this
      · rw [if_neg e]; exact this
    · intro u hu z hz
      change addressOf (t1.assignment.set v (y.setWidth 256)) u = some z at hz
      rw [hget] at hz
      show _ ∨ z ∈ t1.used
      rw [u5]
      split at hz
      · cases hz; exact .inr (List.mem_cons_self ..)
      · rcases hn.fresh u hu z hz with h | h
        · exact .inl h
        · exact .inr (List.mem_cons_of_mem _ h)
    · intro w hw u hu z h1 h2
      change addressOf (t1.assignment.set v (y.setWidth 256)) w = some z at h1
      change addressOf (t1.assignment.set v (y.setWidth 256)) u = some z at h2
      rw [hget] at h1 h2
      split at h1
      · rename_i e1
        split at h2
        · rename_i e2; left; rw [e1, e2]
        · cases h1; exact absurd h2 (old u hu)
      · split at h2
        · cases h2; exact absurd h1 (old w hw)
        · exact hn.apart w hw u hu z h1 h2
    · show addressOf (t1.assignment.set v (y.setWidth 256)) v = some y
      rw [hget, if_pos (show v = v from rfl)]
    · intro u z hz
      show addressOf (t1.assignment.set v (y.setWidth 256)) u = some z
      rw [hget]
      by_cases e : u = v
      · rw [e, hnone] at hz; cases hz
      · rw [if_neg e]; exact hz
    · show t1.used.length ≤ _
      rw [u5]; simp
    · intro z hz
      show z ∈ t1.used
      rw [u5]; exact List.mem_cons_of_mem _ hz

theorem get_some {src : Source σ} {fuel n : Nat} (hp : Productive src fuel n) {t : AccountsRun σ} (hl : t.used.length ≤ n) (v : Variable) :
    getAddress src fuel v t ≠ none := by
  unfold getAddress
  cases t.assignment v with
  | some k => simp
  | none =>
    have := hp t.used t.rnd hl
    unfold unusedAddress
    obtain ⟨q, hq⟩ := Option.isSome_iff_exists.1 this
    simp [hq]

/-- Two variables of one account stand for the same account whatever else is bound. -/
theorem same_anywhere {V : List Variable} {a asn a' : Assignment} {used : List Address} (hn : Names V a used asn) (he : ∀ v x, a v = some x → a' v = some x)
    {v u : Variable} (hv : v ∈ V) (hu : u ∈ V) {x y z : Address} (h1 : addressOf asn v = some x) (h2 : addressOf asn u = some x)
    (hy : addressOf a' v = some y) (hz : addressOf a' u = some z) : y = z := by
  rcases hn.apart v hv u hu x h1 h2 with rfl | ⟨q1, q2⟩
  · rw [hy] at hz; exact Option.some.inj hz
  · obtain ⟨p, hp⟩ := Option.isSome_iff_exists.1 q1
    obtain ⟨q, hq⟩ := Option.isSome_iff_exists.1 q2
    have e1 := hn.grows v p hp
    have e2 := hn.grows u q hq
    have f1 := he v p hp
    have f2 := he u q hq
    unfold addressOf at h1 h2 hy hz
    rw [e1] at h1; rw [e2] at h2; rw [f1] at hy; rw [f2] at hz
    rw [← Option.some.inj hy, ← Option.some.inj hz]
    exact Option.some.inj (h1.trans h2.symm)

/-! ### The constraints on emptiness -/

/-- What holds after some constraints on emptiness. -/
structure Classified (g : AccountsGenerator) (a : Assignment) (base : Nat) (done : List (Variable × Bool)) (t : AccountsRun σ × List Address × List Address) : Prop where
  names : Names (AccountsGenerator.variables g) a t.1.used t.1.assignment
  length : t.1.used.length ≤ base + done.length
  accounts : t.1.accounts = {}
  done : ∀ c ∈ done, ∃ x, addressOf t.1.assignment c.1 = some x ∧ (c.2 = true → x ∈ t.2.1) ∧ (c.2 = false → x ∈ t.2.2)
  empty : ∀ x ∈ t.2.1, ∃ v, (v, true) ∈ g.emptyAccounts ∧ addressOf t.1.assignment v = some x
  nonEmpty : ∀ x ∈ t.2.2, ∃ v, (v, false) ∈ g.emptyAccounts ∧ addressOf t.1.assignment v = some x
  disjoint : ∀ x ∈ t.2.1, x ∉ t.2.2

theorem mem_empty {g : AccountsGenerator} {c : Variable × Bool} (h : c ∈ g.emptyAccounts) : c.1 ∈ AccountsGenerator.variables g := by
  unfold AccountsGenerator.variables; simp only [List.mem_append, List.mem_map]; exact .inl (.inl (.inl ⟨c, h, rfl⟩))
theorem mem_warm {g : AccountsGenerator} {c : Variable × Bool} (h : c ∈ g.warmCold) : c.1 ∈ AccountsGenerator.variables g := by
  unfold AccountsGenerator.variables; simp only [List.mem_append, List.mem_map]; exact .inl (.inl (.inr ⟨c, h, rfl⟩))
theorem mem_min {g : AccountsGenerator} {c : Variable × U256} (h : c ∈ g.minBalance) : c.1 ∈ AccountsGenerator.variables g := by
  unfold AccountsGenerator.variables; simp only [List.mem_append, List.mem_map]; exact .inl (.inr ⟨c, h, rfl⟩)
theorem mem_max {g : AccountsGenerator} {c : Variable × U256} (h : c ∈ g.maxBalance) : c.1 ∈ AccountsGenerator.variables g := by
  unfold AccountsGenerator.variables; simp only [List.mem_append, List.mem_map]; exact .inr ⟨c, h, rfl⟩

theorem classify_step {src : Source σ} {fuel : Nat} {g : AccountsGenerator} {a : Assignment} (hmiss : Misses src g a) {base : Nat} {c : Variable × Bool}
    (hc : c ∈ g.emptyAccounts) {done : List (Variable × Bool)} {t t' : AccountsRun σ × List Address × List Address} (hp : Classified g a base done t)
    (h : classify src fuel c t = some t') : Classified g a base (done ++ [c]) t' := by
  unfold classify at h
  obtain ⟨⟨x, r⟩, hq, h⟩ := Option.bind_eq_some_iff.1 h
  obtain ⟨q1, q2, q3, q4, q5, _⟩ := get_ok hmiss (mem_empty hc) hp.names hq
  dsimp only at h
  obtain ⟨v, b⟩ := c
  have hlen : r.used.length ≤ base + (done ++ [(v, b)]).length := by
    have := hp.length; simp only [List.length_append, List.length_cons, List.length_nil]; omega
  cases b with
  | true =>
    rw [if_pos (show ((v, true) : Variable × Bool).2 = true from rfl)] at h
    split at h
    · cases h
    rename_i hx
    cases h
    refine ⟨q1, hlen, q3.trans hp.accounts, ?_, ?_, ?_, ?_⟩
    · intro c hc
      rcases List.mem_append.1 hc with hc | hc
      · obtain ⟨y, y1, y2, y3⟩ := hp.done c hc
        exact ⟨y, q4 _ _ y1, fun e => List.mem_insert_of_mem (y2 e), y3⟩
      · simp only [List.mem_singleton] at hc
        subst hc
        exact ⟨x, q2, fun _ => List.mem_insert_self, fun e => by cases e⟩
    · intro y hy
      rcases List.mem_insert_iff.1 hy with rfl | hy
      · exact ⟨v, hc, q2⟩
      · obtain ⟨u, u1, u2⟩ := hp.empty y hy; exact ⟨u, u1, q4 _ _ u2⟩
    · intro y hy; obtain ⟨u, u1, u2⟩ := hp.nonEmpty y hy; exact ⟨u, u1, q4 _ _ u2⟩
    · intro y hy
      rcases List.mem_insert_iff.1 hy with rfl | hy
      · exact hx
      · exact hp.disjoint y hy
  | false =>
    rw [if_neg (show ¬ ((v, false) : Variable × Bool).2 = true by simp)] at h
    split at h
    · cases h
    rename_i hx
    cases h
    refine ⟨q1, hlen, q3.trans hp.accounts, ?_, ?_, ?_, ?_⟩
    · intro c hc
      rcases List.mem_append.1 hc with hc | hc
      · obtain ⟨y, y1, y2, y3⟩ := hp.done c hc
        exact ⟨y, q4 _ _ y1, y2, fun e => List.mem_insert_of_mem (y3 e)⟩
      · simp only [List.mem_singleton] at hc
        subst hc
        exact ⟨x, q2, fun e => (by cases e), fun _ => List.mem_insert_self⟩
    · intro y hy; obtain ⟨u, u1, u2⟩ := hp.empty y hy; exact ⟨u, u1, q4 _ _ u2⟩
    · intro y hy
      rcases List.mem_insert_iff.1 hy with rfl | hy
      · exact ⟨v, hc, q2⟩
      · obtain ⟨u, u1, u2⟩ := hp.nonEmpty y hy; exact ⟨u, u1, q4 _ _ u2⟩
    · intro y hy hy'
      rcases List.mem_insert_iff.1 hy' with rfl | hy'
      · exact hx hy
      · exact hp.disjoint y hy hy'

/-- A solution: accounts and an assignment that extends the one given. -/
def Solvable (g : AccountsGenerator) (a : Assignment) : Prop :=
  ∃ (t : GenAccounts) (a' : Assignment), (∀ v x, a v = some x → a' v = some x) ∧ AccountsMeet g t a'

theorem classify_none {src : Source σ} {fuel n : Nat} {g : AccountsGenerator} {a : Assignment} (hmiss : Misses src g a) (hprod : Productive src fuel n) {base : Nat}
    {c : Variable × Bool} (hc : c ∈ g.emptyAccounts) {done : List (Variable × Bool)} {t : AccountsRun σ × List Address × List Address}
    (hp : Classified g a base done t) (hl : base + done.length ≤ n) (h : classify src fuel c t = none) : ¬ Solvable g a := by
  rintro ⟨tt, a', he, hm⟩
  unfold classify at h
  cases hq : getAddress src fuel c.1 t.1 with
  | none => exact get_some hprod (le_trans hp.length hl) _ hq
  | some q =>
    obtain ⟨x, r⟩ := q
    obtain ⟨q1, q2, q3, q4, q5, _⟩ := get_ok hmiss (mem_empty hc) hp.names hq
    rw [hq] at h
    obtain ⟨v, b⟩ := c
    have clash : ∀ u w, (u, true) ∈ g.emptyAccounts → (w, false) ∈ g.emptyAccounts → addressOf r.assignment u = some x → addressOf r.assignment w = some x → False := by
      intro u w hu hw e1 e2
      obtain ⟨y, y1, y2⟩ := hm.empty u hu
      obtain ⟨z, z1, z2⟩ := hm.nonEmpty w hw
      have := same_anywhere q1 he (mem_empty hu) (mem_empty hw) e1 e2 y1 z1
      subst this; exact z2 y2
    cases b with
    | true =>
      simp only [Option.bind_some, if_true] at h
      split at h
      · rename_i hx
        obtain ⟨w, w1, w2⟩ := hp.nonEmpty x hx
        exact clash v w hc w1 q2 (q4 _ _ w2)
      · cases h
    | false =>
      simp only [Option.bind_some, Bool.false_eq_true, if_false] at h
      split at h
      · rename_i hx
        obtain ⟨w, w1, w2⟩ := hp.empty x hx
        exact clash w v w1 hc (q4 _ _ w2) q2
      · cases h

theorem makeEmpty_ok {x : Address} : ∀ (l : List Address) (t : GenAccounts),
    ((l.foldl makeEmpty t).account x = if x ∈ l then some (0, []) else t.account x) ∧ (l.foldl makeEmpty t).warm = t.warm := by
  intro l
  induction l with
  | nil => intro t; simp
  | cons y l ih =>
    intro t
    obtain ⟨h1, h2⟩ := ih (makeEmpty t y)
    refine ⟨?_, h2.trans rfl⟩
    rw [List.foldl_cons, h1]
    by_cases hx : x ∈ l
    · simp [hx]
    · by_cases e : x = y
      · subst e
        simp [hx, makeEmpty, GenAccounts.setCode, GenAccounts.setBalance, GenAccounts.balance]
      · simp [hx, e, makeEmpty, GenAccounts.setCode, GenAccounts.setBalance]

theorem makeNonEmpty_ok {coin : Address → Nat} {x : Address} : ∀ (l : List Address) (t : GenAccounts),
    (x ∉ l → (l.foldl (makeNonEmpty coin) t).account x = t.account x) ∧
    (x ∈ l ∨ ¬ (t.balance x = 0 ∧ t.code x = []) → ¬ ((l.foldl (makeNonEmpty coin) t).balance x = 0 ∧ (l.foldl (makeNonEmpty coin) t).code x = [])) ∧
    (l.foldl (makeNonEmpty coin) t).warm = t.warm := by
  intro l
  induction l with
  | nil => intro t; simp
  | cons y l ih =>
    intro t
    obtain ⟨h1, h2, h3⟩ := ih (makeNonEmpty coin t y)
    have other : x ≠ y → (makeNonEmpty coin t y).account x = t.account x := by
      intro e
      unfold makeNonEmpty
      split <;> simp [GenAccounts.setBalance, GenAccounts.setCode, e]
    have own : ¬ ((makeNonEmpty coin t y).balance y = 0 ∧ (makeNonEmpty coin t y).code y = []) := by
      unfold makeNonEmpty
      split <;> simp [GenAccounts.setBalance, GenAccounts.setCode, GenAccounts.balance, GenAccounts.code]
    refine ⟨?_, ?_, ?_⟩
    · intro hx
      simp only [List.mem_cons, not_or] at hx
      rw [List.foldl_cons, h1 hx.2, other hx.1]
    · intro hx
      rw [List.foldl_cons]
      refine h2 ?_
      by_cases e : x = y
      · subst e; exact .inr own
      · rcases hx with hx | hx
        · rcases List.mem_cons.1 hx with hx | hx
          · exact absurd hx e
          · exact .inl hx
        · right
          unfold GenAccounts.balance GenAccounts.code at hx ⊢
          rw [other e]; exact hx
    · rw [List.foldl_cons, h3]
      unfold makeNonEmpty
      split <;> rfl

/-! ### Warm and cold -/

/-- What holds after some constraints on warm and cold. -/
structure Warmed (g : AccountsGenerator) (a : Assignment) (base : Nat) (t0 : AccountsRun σ) (done : List (Variable × Bool)) (t : AccountsRun σ) : Prop where
  names : Names (AccountsGenerator.variables g) a t.used t.assignment
  length : t.used.length ≤ base + done.length
  account : t.accounts.account = t0.accounts.account
  grows : Grows t0.assignment t.assignment
  done : ∀ c ∈ done, ∃ x, addressOf t.assignment c.1 = some x ∧ (c.2 = true → t.accounts.warm x = true)
  warm : ∀ x, t.accounts.warm x = true → ∃ v, (v, true) ∈ g.warmCold ∧ addressOf t.assignment v = some x

theorem warm_step {src : Source σ} {fuel : Nat} {g : AccountsGenerator} {a : Assignment} (hmiss : Misses src g a) {base : Nat} {t0 : AccountsRun σ} {c : Variable × Bool}
    (hc : c ∈ g.warmCold) {done : List (Variable × Bool)} {t t' : AccountsRun σ} (hp : Warmed g a base t0 done t)
    (h : placeWarmAccount src fuel c t = some t') : Warmed g a base t0 (done ++ [c]) t' := by
  unfold placeWarmAccount at h
  obtain ⟨⟨x, r⟩, hq, h⟩ := Option.map_eq_some_iff.1 h
  obtain ⟨q1, q2, q3, q4, q5, _⟩ := get_ok hmiss (mem_warm hc) hp.names hq
  dsimp only at h
  obtain ⟨v, b⟩ := c
  have hlen : r.used.length ≤ base + (done ++ [(v, b)]).length := by
    have := hp.length; simp only [List.length_append, List.length_cons, List.length_nil]; omega
  have hgr : Grows t0.assignment r.assignment := fun u y hy => q4 _ _ (hp.grows u y hy)
  cases b with
  | true =>
    rw [if_pos (show ((v, true) : Variable × Bool).2 = true from rfl)] at h
    subst h
    have hw : ∀ y, (r.accounts.setWarm x).warm y = true ↔ y = x ∨ t.accounts.warm y = true := by
      intro y
      show (if y = x then true else r.accounts.warm y) = true ↔ _
      rw [q3]
      by_cases e : y = x <;> simp [e]
    refine ⟨q1, hlen, by show r.accounts.account = _; rw [q3]; exact hp.account, hgr, ?_, ?_⟩
    · intro c hc
      rcases List.mem_append.1 hc with hc | hc
      · obtain ⟨y, y1, y2⟩ := hp.done c hc
        exact ⟨y, q4 _ _ y1, fun e => (hw y).2 (.inr (y2 e))⟩
      · simp only [List.mem_singleton] at hc
        subst hc
        exact ⟨x, q2, fun _ => (hw x).2 (.inl rfl)⟩
    · intro y hy
      rcases (hw y).1 hy with rfl | hy
      · exact ⟨v, hc, q2⟩
      · obtain ⟨u, u1, u2⟩ := hp.warm y hy; exact ⟨u, u1, q4 _ _ u2⟩
  | false =>
    rw [if_neg (show ¬ ((v, false) : Variable × Bool).2 = true by simp)] at h
    subst h
    refine ⟨q1, hlen, by rw [q3]; exact hp.account, hgr, ?_, ?_⟩
    · intro c hc
      rcases List.mem_append.1 hc with hc | hc
      · obtain ⟨y, y1, y2⟩ := hp.done c hc
        exact ⟨y, q4 _ _ y1, fun e => by rw [q3]; exact y2 e⟩
      · simp only [List.mem_singleton] at hc
        subst hc
        exact ⟨x, q2, fun e => by cases e⟩
    · intro y hy
      rw [q3] at hy
      obtain ⟨u, u1, u2⟩ := hp.warm y hy; exact ⟨u, u1, q4 _ _ u2⟩

theorem warm_none {src : Source σ} {fuel n : Nat} (hprod : Productive src fuel n) {c : Variable × Bool} {t : AccountsRun σ} (hl : t.used.length ≤ n)
    (h : placeWarmAccount src fuel c t = none) : False := by
  unfold placeWarmAccount at h
  exact get_some hprod hl _ (Option.map_eq_none_iff.1 h)

/-! ### Balances -/

/-- What holds after some lower bounds. -/
structure Lowered (g : AccountsGenerator) (a : Assignment) (base : Nat) (t0 : AccountsRun σ) (done : List (Variable × U256)) (t : AccountsRun σ × Bounds) : Prop where
  names : Names (AccountsGenerator.variables g) a t.1.used t.1.assignment
  length : t.1.used.length ≤ base + done.length
  accounts : t.1.accounts = t0.accounts
  grows : Grows t0.assignment t.1.assignment
  done : ∀ c ∈ done, ∃ x, addressOf t.1.assignment c.1 = some x ∧ c.2.toNat ≤ ((t.2.at_ x).getD 0).toNat
  bound : ∀ x m, t.2.at_ x = some m → ∃ v, (v, m) ∈ g.minBalance ∧ addressOf t.1.assignment v = some x
  keys : ∀ x, x ∈ t.2.keys ↔ (t.2.at_ x).isSome

theorem set_at {b : Bounds} {x y : Address} {m : U256} : (b.set x m).at_ y = if y = x then some m else b.at_ y := rfl

theorem set_keys {b : Bounds} {x : Address} {m : U256} (h : ∀ y, y ∈ b.keys ↔ (b.at_ y).isSome) (y : Address) :
    y ∈ (b.set x m).keys ↔ ((b.set x m).at_ y).isSome := by
  rw [set_at]
  show y ∈ b.keys.insert x ↔ _
  rw [List.mem_insert_iff]
  by_cases e : y = x
  · simp [e]
  · simp [e, h]

theorem lower_step {src : Source σ} {fuel : Nat} {g : AccountsGenerator} {a : Assignment} (hmiss : Misses src g a) {base : Nat} {t0 : AccountsRun σ} {c : Variable × U256}
    (hc : c ∈ g.minBalance) {done : List (Variable × U256)} {t t' : AccountsRun σ × Bounds} (hp : Lowered g a base t0 done t)
    (h : lowerStep src fuel c t = some t') : Lowered g a base t0 (done ++ [c]) t' := by
  unfold lowerStep at h
  obtain ⟨⟨x, r⟩, hq, h⟩ := Option.map_eq_some_iff.1 h
  obtain ⟨q1, q2, q3, q4, q5, _⟩ := get_ok hmiss (mem_min hc) hp.names hq
  dsimp only at h
  subst h
  have hlen : r.used.length ≤ base + (done ++ [c]).length := by
    have := hp.length; simp only [List.length_append, List.length_cons, List.length_nil]; omega
  have hgr : Grows t0.assignment r.assignment := fun u y hy => q4 _ _ (hp.grows u y hy)
  by_cases hlt : (t.2.at_ x).getD 0 < c.2
  · rw [if_pos hlt]
    refine ⟨q1, hlen, q3.trans hp.accounts, hgr, ?_, ?_, set_keys hp.keys⟩
    · intro d hd
      rcases List.mem_append.1 hd with hd | hd
      · obtain ⟨y, y1, y2⟩ := hp.done d hd
        refine ⟨y, q4 _ _ y1, le_trans y2 ?_⟩
        rw [set_at]
        by_cases e : y = x
        · rw [if_pos e, e]; exact Nat.le_of_lt hlt
        · rw [if_neg e]
      · simp only [List.mem_singleton] at hd
        subst hd
        refine ⟨x, q2, ?_⟩
        rw [set_at, if_pos (show x = x from rfl)]; exact Nat.le_refl _
    · intro y m hy
      rw [set_at] at hy
      split at hy
      · rename_i e; cases hy; exact ⟨c.1, hc, e ▸ q2⟩
      · obtain ⟨u, u1, u2⟩ := hp.bound y m hy; exact ⟨u, u1, q4 _ _ u2⟩
  · rw [if_neg hlt]
    refine ⟨q1, hlen, q3.trans hp.accounts, hgr, ?_, ?_, hp.keys⟩
    · intro d hd
      rcases List.mem_append.1 hd with hd | hd
      · obtain ⟨y, y1, y2⟩ := hp.done d hd; exact ⟨y, q4 _ _ y1, y2⟩
      · simp only [List.mem_singleton] at hd
        subst hd
        exact ⟨x, q2, Nat.le_of_not_lt hlt⟩
    · intro y m hy; obtain ⟨u, u1, u2⟩ := hp.bound y m hy; exact ⟨u, u1, q4 _ _ u2⟩

/-- What holds after some upper bounds. -/
structure Uppered (g : AccountsGenerator) (a : Assignment) (base : Nat) (t0 : AccountsRun σ) (done : List (Variable × U256)) (t : AccountsRun σ × Bounds) : Prop where
  names : Names (AccountsGenerator.variables g) a t.1.used t.1.assignment
  length : t.1.used.length ≤ base + done.length
  accounts : t.1.accounts = t0.accounts
  grows : Grows t0.assignment t.1.assignment
  done : ∀ c ∈ done, ∃ x m, addressOf t.1.assignment c.1 = some x ∧ t.2.at_ x = some m ∧ m.toNat ≤ c.2.toNat
  bound : ∀ x m, t.2.at_ x = some m → ∃ v, (v, m) ∈ g.maxBalance ∧ addressOf t.1.assignment v = some x
  keys : ∀ x, x ∈ t.2.keys ↔ (t.2.at_ x).isSome

theorem upper_step {src : Source σ} {fuel : Nat} {g : AccountsGenerator} {a : Assignment} (hmiss : Misses src g a) {base : Nat} {t0 : AccountsRun σ} {c : Variable × U256}
    (hc : c ∈ g.maxBalance) {done : List (Variable × U256)} {t t' : AccountsRun σ × Bounds} (hp : Uppered g a base t0 done t)
    (h : upperStep src fuel c t = some t') : Uppered g a base t0 (done ++ [c]) t' := by
  unfold upperStep at h
  obtain ⟨⟨x, r⟩, hq, h⟩ := Option.map_eq_some_iff.1 h
  obtain ⟨q1, q2, q3, q4, q5, _⟩ := get_ok hmiss (mem_max hc) hp.names hq
  dsimp only at h
  have hlen : r.used.length ≤ base + (done ++ [c]).length := by
    have := hp.length; simp only [List.length_append, List.length_cons, List.length_nil]; omega
  have hgr : Grows t0.assignment r.assignment := fun u y hy => q4 _ _ (hp.grows u y hy)
  have put : (∀ m, t.2.at_ x = some m → c.2.toNat ≤ m.toNat) → Uppered g a base t0 (done ++ [c]) (r, t.2.set x c.2) := by
    intro hless
    refine ⟨q1, hlen, q3.trans hp.accounts, hgr, ?_, ?_, set_keys hp.keys⟩
    · intro d hd
      rcases List.mem_append.1 hd with hd | hd
      · obtain ⟨y, m, y1, y2, y3⟩ := hp.done d hd
        by_cases e : y = x
        · exact ⟨y, c.2, q4 _ _ y1, by rw [set_at, if_pos e], le_trans (hless m (e ▸ y2)) y3⟩
        · exact ⟨y, m, q4 _ _ y1, by rw [set_at, if_neg e]; exact y2, y3⟩
      · simp only [List.mem_singleton] at hd
        subst hd
        exact ⟨x, d.2, q2, by rw [set_at, if_pos (show x = x from rfl)], Nat.le_refl _⟩
    · intro y m hy
      rw [set_at] at hy
      split at hy
      · rename_i e; cases hy; exact ⟨c.1, hc, e ▸ q2⟩
      · obtain ⟨u, u1, u2⟩ := hp.bound y m hy; exact ⟨u, u1, q4 _ _ u2⟩
  cases hat : t.2.at_ x with
  | none =>
    rw [hat] at h; subst h
    exact put fun m hm => by rw [hat] at hm; cases hm
  | some current =>
    rw [hat] at h; subst h
    dsimp only
    by_cases hlt : c.2 < current
    · rw [if_pos hlt]
      exact put fun m hm => by rw [hat] at hm; cases hm; exact Nat.le_of_lt hlt
    · rw [if_neg hlt]
      refine ⟨q1, hlen, q3.trans hp.accounts, hgr, ?_, ?_, hp.keys⟩
      · intro d hd
        rcases List.mem_append.1 hd with hd | hd
        · obtain ⟨y, m, y1, y2, y3⟩ := hp.done d hd; exact ⟨y, m, q4 _ _ y1, y2, y3⟩
        · simp only [List.mem_singleton] at hd
          subst hd
          exact ⟨x, current, q2, hat, Nat.le_of_not_lt hlt⟩
      · intro y m hy; obtain ⟨u, u1, u2⟩ := hp.bound y m hy; exact ⟨u, u1, q4 _ _ u2⟩

theorem lower_none {src : Source σ} {fuel n : Nat} (hprod : Productive src fuel n) {c : Variable × U256} {t : AccountsRun σ × Bounds} (hl : t.1.used.length ≤ n)
    (h : lowerStep src fuel c t = none) : False := by
  unfold lowerStep at h
  exact get_some hprod hl _ (Option.map_eq_none_iff.1 h)

theorem upper_none {src : Source σ} {fuel n : Nat} (hprod : Productive src fuel n) {c : Variable × U256} {t : AccountsRun σ × Bounds} (hl : t.1.used.length ≤ n)
    (h : upperStep src fuel c t = none) : False := by
  unfold upperStep at h
  exact get_some hprod hl _ (Option.map_eq_none_iff.1 h)

theorem empties_at {x : Address} : ∀ (l : List Address) (b : Bounds), (∀ y, y ∈ b.keys ↔ (b.at_ y).isSome) →
    ((l.foldl (fun b x => b.set x 0) b).at_ x = if x ∈ l then some 0 else b.at_ x) ∧
    (x ∈ (l.foldl (fun b x => b.set x 0) b).keys ↔ ((l.foldl (fun b x => b.set x 0) b).at_ x).isSome) := by
  intro l
  induction l with
  | nil => intro b hb; simp [hb]
  | cons y l ih =>
    intro b hb
    obtain ⟨h1, h2⟩ := ih (b.set y 0) (set_keys hb)
    refine ⟨?_, h2⟩
    rw [List.foldl_cons, h1, set_at]
    by_cases hx : x ∈ l
    · simp [hx]
    · by_cases e : x = y <;> simp [hx, e]

theorem between_ok {src : Source σ} {l u : U256} {s : σ} (h : l.toNat ≤ u.toNat) :
    l.toNat ≤ (randBetween src l u s).1.toNat ∧ (randBetween src l u s).1.toNat ≤ u.toNat := by
  unfold randBetween
  dsimp only
  have hl := l.isLt
  have hu := u.isLt
  by_cases hr : u - l + 1 = 0
  · rw [if_pos hr]; simpa using h
  · rw [if_neg hr]
    have hsub : (u - l).toNat = u.toNat - l.toNat := by
      rw [BitVec.toNat_sub]; omega
    have hr' : (u - l + 1).toNat = u.toNat - l.toNat + 1 := by
      have hne : (u - l + 1).toNat ≠ 0 := fun e => hr (BitVec.eq_of_toNat_eq (by rw [e]; rfl))
      rw [BitVec.toNat_add, hsub, show (1 : U256).toNat = 1 from rfl] at hne ⊢
      omega
    have hx := Nat.mod_lt (src.word s).1.toNat (y := (u - l + 1).toNat) (by omega)
    rw [BitVec.toNat_add, BitVec.toNat_umod]
    generalize (src.word s).1.toNat % (u - l + 1).toNat = m at hx ⊢
    omega

/-- What holds after some balances. -/
structure Balanced (lower upper : Bounds) (t0 : AccountsRun σ) (done : List Address) (t : AccountsRun σ) : Prop where
  used : t.used = t0.used
  assignment : t.assignment = t0.assignment
  warm : t.accounts.warm = t0.accounts.warm
  code : ∀ x, t.accounts.code x = t0.accounts.code x
  placed : ∀ x ∈ done, (t.accounts.account x).isSome ∧ ((lower.at_ x).getD 0).toNat ≤ (t.accounts.balance x).toNat ∧
    (t.accounts.balance x).toNat ≤ ((upper.at_ x).getD (BitVec.allOnes 256)).toNat
  other : ∀ x, x ∉ done → t.accounts.account x = t0.accounts.account x

theorem balance_step {src : Source σ} {lower upper : Bounds} {t0 : AccountsRun σ} {x : Address} {done : List Address} {t t' : AccountsRun σ}
    (hp : Balanced lower upper t0 done t) (h : placeBalance src lower upper x t = some t') : Balanced lower upper t0 (done ++ [x]) t' := by
  unfold placeBalance at h
  dsimp only at h
  split at h
  · cases h
  rename_i hn
  cases h
  have hb := between_ok (src := src) (s := t.rnd) (Nat.le_of_not_lt hn)
  refine ⟨hp.used, hp.assignment, hp.warm, ?_, ?_, ?_⟩
  · intro y
    rw [← hp.code y]
    simp only [GenAccounts.setBalance, GenAccounts.code]
    by_cases e : y = x
    · simp [e]
    · simp [e]
  · intro y hy
    by_cases e : y = x
    · subst e
      simp only [GenAccounts.setBalance, GenAccounts.balance, if_true, Option.isSome_some, Option.getD_some]
      exact ⟨trivial, hb⟩
    · have hy' : y ∈ done := by
        rcases List.mem_append.1 hy with hy | hy
        · exact hy
        · simp only [List.mem_singleton] at hy; exact absurd hy e
      have := hp.placed y hy'
      simp only [GenAccounts.setBalance, GenAccounts.balance, if_neg e] at this ⊢
      exact this
  · intro y hy
    simp only [List.mem_append, List.mem_singleton, not_or] at hy
    simp only [GenAccounts.setBalance, if_neg hy.2]
    exact hp.other y hy.1

/-! ### The rest -/

theorem randomAccount_ok {src : Source σ} {x y : Address} {t : GenAccounts} {s : σ} (h : x ≠ y) :
    (randomAccount src y t s).1.account x = t.account x ∧ (randomAccount src y t s).1.warm x = t.warm x := by
  unfold randomAccount
  dsimp only
  by_cases h1 : (src.intn 2 (src.word s).2).1 = 1
  · simp only [h1, if_true]
    split <;> simp [GenAccounts.setWarm, GenAccounts.setCode, GenAccounts.setBalance, h]
  · simp only [h1, if_false]
    split <;> simp [GenAccounts.setWarm, GenAccounts.setBalance, h]

/-- Random entries touch none of the accounts in use. -/
theorem random_ok {src : Source σ} {fuel : Nat} : ∀ (n : Nat) (t t' : AccountsRun σ), randomAccounts src fuel n t = some t' →
    t'.assignment = t.assignment ∧
    ∀ x, (x ∈ t.used ∨ ∀ s, (randomAddress src s).1 ≠ x) → t'.accounts.account x = t.accounts.account x ∧ t'.accounts.warm x = t.accounts.warm x := by
  intro n
  induction n with
  | zero => intro t t' h; cases h; exact ⟨rfl, fun _ _ => ⟨rfl, rfl⟩⟩
  | succ n ih =>
    intro t t' h
    unfold randomAccounts at h
    obtain ⟨⟨y, t1⟩, hq, h⟩ := Option.bind_eq_some_iff.1 h
    obtain ⟨u1, ⟨r, u2⟩, u3, u4, u5⟩ := unused_ok hq
    obtain ⟨i1, i2⟩ := ih _ _ h
    refine ⟨i1.trans u4, fun x hx => ?_⟩
    have hne : x ≠ y := by
      rintro rfl
      rcases hx with hx | hx
      · exact u1 hx
      · exact hx r u2
    obtain ⟨j1, j2⟩ := i2 x (hx.imp (fun h => by show x ∈ t1.used; rw [u5]; exact List.mem_cons_of_mem _ h) id)
    rw [j1, j2]
    have := randomAccount_ok (src := src) (t := t1.accounts) (s := t1.rnd) hne
    rw [u3] at this
    rw [u3]
    exact this

theorem random_some {src : Source σ} {fuel N : Nat} (hprod : Productive src fuel N) : ∀ (n : Nat) (t : AccountsRun σ), t.used.length + n ≤ N →
    randomAccounts src fuel n t ≠ none := by
  intro n
  induction n with
  | zero => intro t _ h; cases h
  | succ n ih =>
    intro t hl h
    unfold randomAccounts at h
    cases hq : unusedAddress src fuel t with
    | none =>
      have := hprod t.used t.rnd (by omega)
      unfold unusedAddress at hq
      rw [Option.map_eq_none_iff.1 hq] at this
      cases this
    | some q =>
      obtain ⟨y, t1⟩ := q
      obtain ⟨_, _, _, _, u5⟩ := unused_ok hq
      rw [hq] at h
      exact ih _ (by show t1.used.length + n ≤ N; rw [u5, List.length_cons]; omega) h

theorem own_ok {src : Source σ} (hs : SourceOk src) (self : Address) (t : AccountsRun σ) :
    (ownAccount src self t).assignment = t.assignment ∧ (ownAccount src self t).accounts.warm = t.accounts.warm ∧
    (∀ x, x ≠ self → (ownAccount src self t).accounts.account x = t.accounts.account x) ∧
    ((t.accounts.account self).isSome → (ownAccount src self t).accounts.balance self = t.accounts.balance self) ∧
    ((ownAccount src self t).accounts.code self).length = 42 := by
  unfold ownAccount
  dsimp only
  refine ⟨?_, ?_, ?_, ?_, ?_⟩
  · split <;> rfl
  · split <;> rfl
  · intro x hx
    split <;> simp [GenAccounts.setCode, GenAccounts.setBalance, hx]
  · intro h
    rw [if_pos h]
    simp [GenAccounts.setCode, GenAccounts.balance]
  · simp [GenAccounts.setCode, GenAccounts.code, hs.read]

end Tosca.Proofs.GenAccounts

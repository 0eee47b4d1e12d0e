import Verif.Proofs.GenAccounts
import Verif.Props.Gen
import Mathlib.Data.List.Perm.Subperm

/-!
# C81: the generator of accounts
-/

namespace Tosca

open Tosca.Go Tosca.Model.Go Tosca.Model.Gen Tosca.Spec Tosca.Spec.Gen Tosca.Proofs.GenAccounts

variable {σ : Type}

namespace Proofs.GenAccounts

theorem names_start (V : List Variable) (a : Assignment) (used : List Address) : Names V a used a := by
  refine ⟨fun _ _ h => h, fun _ _ _ h => .inl h, fun v _ u _ x h1 h2 => .inr ⟨?_, ?_⟩⟩
  · unfold addressOf at h1
    cases h : a v with
    | none => rw [h] at h1; cases h1
    | some y => rfl
  · unfold addressOf at h2
    cases h : a u with
    | none => rw [h] at h2; cases h2
    | some y => rfl

/-- The addresses in use at first (accounts.go:161-167). -/
def usedAtFirst (g : AccountsGenerator) (a : Assignment) (self : Address) : List Address :=
  self :: ((g.warmCold.map (·.1)).filterMap a).map newAddress

theorem used_length (g : AccountsGenerator) (a : Assignment) (self : Address) : (usedAtFirst g a self).length ≤ 1 + g.warmCold.length := by
  unfold usedAtFirst
  have := List.length_filterMap_le a (g.warmCold.map (·.1))
  simp only [List.length_cons, List.length_map] at this ⊢
  omega

theorem classified_start (g : AccountsGenerator) (a : Assignment) (s : σ) (self : Address) :
    Classified g a (usedAtFirst g a self).length [] (({ assignment := a, used := usedAtFirst g a self, rnd := s } : AccountsRun σ), [], []) :=
  ⟨names_start _ _ _, by simp, rfl, fun _ h => (by cases h), fun _ h => (by cases h), fun _ h => (by cases h), fun _ h => (by cases h)⟩

/-- The bounds of a balance are in conflict only if the constraints are. -/
theorem balance_none {src : Source σ} {g : AccountsGenerator} {a : Assignment} {b1 b2 b3 : Nat} {d1 : List (Variable × Bool)} {d2 d3 : List (Variable × U256)}
    {t1 : AccountsRun σ × List Address × List Address} {t0 t0' : AccountsRun σ} {t2 t3 : AccountsRun σ × Bounds}
    (h1 : Classified g a b1 d1 t1) (g1 : Grows t1.1.assignment t3.1.assignment) (h2 : Lowered g a b2 t0 d2 t2) (g2 : Grows t2.1.assignment t3.1.assignment)
    (h3 : Uppered g a b3 t0' d3 t3) {x : Address} {t : AccountsRun σ}
    (h : placeBalance src t2.2 (t1.2.1.foldl (fun b x => b.set x 0) t3.2) x t = none) : ¬ Solvable g a := by
  rintro ⟨tt, a', he, hm⟩
  unfold placeBalance at h
  dsimp only at h
  split at h
  swap
  · cases h
  rename_i hlt
  have hlt : _ < _ := hlt
  rw [(empties_at (x := x) t1.2.1 t3.2 h3.keys).1] at hlt
  cases hl : t2.2.at_ x with
  | none =>
    rw [hl] at hlt
    have : ((0 : U256)).toNat = 0 := rfl
    have h' : BitVec.toNat _ < (0 : U256).toNat := hlt
    omega
  | some l =>
    rw [hl] at hlt
    obtain ⟨v, v1, v2⟩ := h2.bound x l hl
    obtain ⟨y, y1, y2⟩ := hm.atLeast v l v1
    by_cases hx : x ∈ t1.2.1
    · rw [if_pos hx] at hlt
      obtain ⟨u, u1, u2⟩ := h1.empty x hx
      obtain ⟨z, z1, z2, _⟩ := hm.empty u u1
      have := same_anywhere h3.names he (mem_min v1) (mem_empty u1) (g2 _ _ v2) (g1 _ _ u2) y1 z1
      subst this
      rw [z2] at y2
      have h' : (0 : U256).toNat < l.toNat := hlt
      have : ((0 : U256)).toNat = 0 := rfl
      omega
    · rw [if_neg hx] at hlt
      cases hu : t3.2.at_ x with
      | none =>
        rw [hu] at hlt
        have h' : (BitVec.allOnes 256).toNat < l.toNat := hlt
        have := l.isLt
        rw [BitVec.toNat_allOnes] at h'
        omega
      | some m =>
        rw [hu] at hlt
        obtain ⟨u, u1, u2⟩ := h3.bound x m hu
        obtain ⟨z, z1, z2⟩ := hm.atMost u m u1
        have := same_anywhere h3.names he (mem_min v1) (mem_max u1) (g2 _ _ v2) u2 y1 z1
        subst this
        have h' : m.toNat < l.toNat := hlt
        omega

end Proofs.GenAccounts

/-- C81.  The accounts that are generated meet the constraints, except where they fall under the cases that `Sheltered` excludes: a bounded balance
lies within its bounds, accounts are empty, not empty, warm and cold as asked for; the account that executes the code has code; variables that were
bound keep their values. -/
theorem C81_accounts {src : Source σ} (hs : SourceOk src) (fuel : Nat) {order : List Address → List Address} (ho : ∀ l, (order l).Perm l) (coin : Address → Nat)
    (g : AccountsGenerator) (a a' : Assignment) (s s' : σ) (self : Address) (t : GenAccounts) (hmiss : Misses src g a)
    (h : g.generate src fuel order coin a s self = some (t, a', s')) :
    (Sheltered g self a' → AccountsMeet g t a') ∧ (∀ v x, a v = some x → a' v = some x) ∧ (t.code self).length = 42 := by
  unfold AccountsGenerator.generate at h
  split at h
  · cases h
  split at h
  · cases h
  obtain ⟨⟨t1, E, N⟩, h1, h⟩ := Option.bind_eq_some_iff.1 h
  dsimp only at h
  obtain ⟨t2, h2, h⟩ := Option.bind_eq_some_iff.1 h
  obtain ⟨⟨t3, lower⟩, h3, h⟩ := Option.bind_eq_some_iff.1 h
  dsimp only at h
  obtain ⟨⟨t4, upper⟩, h4, h⟩ := Option.bind_eq_some_iff.1 h
  dsimp only at h
  obtain ⟨t5, h5, h⟩ := Option.bind_eq_some_iff.1 h
  obtain ⟨t6, h6, h⟩ := Option.map_eq_some_iff.1 h
  simp only [Prod.mk.injEq] at h
  obtain ⟨rfl, rfl, _⟩ := h
  have p1 := Proofs.Gen.forEach_inv (Classified g a (usedAtFirst g a self).length) g.emptyAccounts [] _ _ (fun _ h => h) (classified_start g a s self)
    (fun c hc done t t' => classify_step hmiss hc) h1
  rw [List.nil_append] at p1
  obtain ⟨acc, hacc⟩ : ∃ acc, acc = (order N).foldl (makeNonEmpty coin) ((order E).foldl makeEmpty t1.accounts) := ⟨_, rfl⟩
  rw [← hacc] at h2
  have hwarm0 : acc.warm = fun _ => false := by
    rw [hacc, (makeNonEmpty_ok (x := 0) _ _).2.2, (makeEmpty_ok (x := 0) _ _).2]
    have := p1.accounts
    dsimp only at this
    rw [this]
  have hempty0 : ∀ x ∈ E, acc.account x = some (0, []) := by
    intro x hx
    have hn : x ∉ order N := fun hh => p1.disjoint x hx ((ho N).mem_iff.1 hh)
    rw [hacc, (makeNonEmpty_ok _ _).1 hn, (makeEmpty_ok _ _).1, if_pos ((ho E).mem_iff.2 hx)]
  have hnon0 : ∀ x ∈ N, ¬ (acc.balance x = 0 ∧ acc.code x = []) := by
    intro x hx
    rw [hacc]
    exact (makeNonEmpty_ok _ _).2.1 (.inl ((ho N).mem_iff.2 hx))
  have start2 : Warmed g a t1.used.length { t1 with accounts := acc } [] { t1 with accounts := acc } :=
    ⟨p1.names, by simp, rfl, fun _ _ h => h, fun _ h => (by cases h), fun x hx => (by change acc.warm x = true at hx; rw [hwarm0] at hx; cases hx)⟩
  have p2 := Proofs.Gen.forEach_inv (Warmed g a t1.used.length { t1 with accounts := acc }) g.warmCold [] _ _ (fun _ h => h) start2
    (fun c hc done t t' => warm_step hmiss hc) h2
  rw [List.nil_append] at p2
  have p3 := Proofs.Gen.forEach_inv (Lowered g a t2.used.length t2) g.minBalance [] (t2, {}) _ (fun _ h => h)
    ⟨p2.names, by simp, rfl, fun _ _ h => h, fun _ h => (by cases h), fun x m hm => (by cases hm), fun x => by simp⟩
    (fun c hc done t t' => lower_step hmiss hc) h3
  rw [List.nil_append] at p3
  have p4 := Proofs.Gen.forEach_inv (Uppered g a t3.used.length t3) g.maxBalance [] (t3, {}) _ (fun _ h => h)
    ⟨p3.names, by simp, rfl, fun _ _ h => h, fun _ h => (by cases h), fun x m hm => (by cases hm), fun x => by simp⟩
    (fun c hc done t t' => upper_step hmiss hc) h4
  rw [List.nil_append] at p4
  obtain ⟨up, hup⟩ : ∃ up, up = E.foldl (fun b x => b.set x 0) upper := ⟨_, rfl⟩
  rw [← hup] at h5
  have hupat : ∀ x, up.at_ x = if x ∈ E then some 0 else upper.at_ x := fun x => by rw [hup]; exact (empties_at E upper p4.keys).1
  have hupkeys : ∀ x, x ∈ up.keys ↔ (up.at_ x).isSome := fun x => by rw [hup]; exact (empties_at E upper p4.keys).2
  have p5 := Proofs.Gen.forEach_inv (Balanced lower up t4) _ [] t4 _ (fun _ h => h)
    ⟨rfl, rfl, rfl, fun _ => rfl, fun _ h => (by cases h), fun _ _ => rfl⟩ (fun c _ done t t' => balance_step) h5
  rw [List.nil_append] at p5
  have hkeys : ∀ x, x ∈ order (lower.keys ++ up.keys.filter (fun x => decide (x ∉ lower.keys))) ↔ (lower.at_ x).isSome ∨ (up.at_ x).isSome := by
    intro x
    rw [(ho _).mem_iff, List.mem_append, List.mem_filter, hupkeys, decide_eq_true_iff]
    have pk : x ∈ lower.keys ↔ (lower.at_ x).isSome = true := p3.keys x
    rw [pk]
    constructor
    · rintro (h | ⟨h, _⟩)
      · exact .inl h
      · exact .inr h
    · rintro (h | h)
      · exact .inl h
      · by_cases hh : (lower.at_ x).isSome = true
        · exact .inl hh
        · exact .inr ⟨h, hh⟩
  obtain ⟨q1, q2⟩ := random_ok _ _ _ h6
  obtain ⟨o1, o2, o3, o4, o5⟩ := own_ok hs self t6
  have hasn : t6.assignment = t4.assignment := q1.trans p5.assignment
  rw [o1, hasn]
  -- the accounts that variables stand for are not touched by random entries
  have safe : ∀ v ∈ AccountsGenerator.variables g, ∀ x, addressOf t4.assignment v = some x →
      t6.accounts.account x = t5.accounts.account x ∧ t6.accounts.warm x = t5.accounts.warm x := by
    intro v hv x hx
    refine q2 x ?_
    rcases p4.names.fresh v hv x hx with h | h
    · exact .inr (hmiss v hv x h)
    · exact .inl (by show x ∈ t5.used; rw [p5.used]; exact h)
  have g14 : Grows t1.assignment t4.assignment := fun v x hx => p4.grows _ _ (p3.grows _ _ (p2.grows _ _ hx))
  have hacc4 : t4.accounts.account = acc.account := by
    have e4 : t4.accounts = t3.accounts := p4.accounts
    have e3 : t3.accounts = t2.accounts := p3.accounts
    rw [e4, e3]; exact p2.account
  have balance_own : ∀ x, (t6.accounts.account x).isSome → (ownAccount src self t6).accounts.balance x = t6.accounts.balance x := by
    intro x hx
    by_cases e : x = self
    · subst e; exact o4 hx
    · unfold GenAccounts.balance; rw [o3 x e]
  refine ⟨fun sh => ⟨?_, ?_, ?_, ?_, ?_, ?_⟩, p4.names.grows, o5⟩
  · intro v hv
    obtain ⟨x, x1, x2, _⟩ := p1.done _ hv
    have x2 := x2 rfl
    have x1 := g14 _ _ x1
    have hne : x ≠ self := fun e => sh.empty v hv (e ▸ x1)
    obtain ⟨s1, _⟩ := safe v (mem_empty hv) x x1
    have hin := (hkeys x).2 (.inr (by rw [hupat, if_pos x2]; rfl))
    obtain ⟨_, _, b3⟩ := p5.placed x hin
    refine ⟨x, x1, ?_, ?_⟩
    · unfold GenAccounts.balance at b3 ⊢
      rw [o3 x hne, s1]
      rw [hupat, if_pos x2] at b3
      exact BitVec.eq_of_toNat_eq (Nat.le_zero.1 b3)
    · have c1 := p5.code x
      unfold GenAccounts.code at c1 ⊢
      rw [o3 x hne, s1, c1, hacc4, hempty0 x x2]
      rfl
  · intro v hv
    obtain ⟨x, x1, _, x2⟩ := p1.done _ hv
    have x2 := x2 rfl
    have x1 := g14 _ _ x1
    refine ⟨x, x1, ?_⟩
    by_cases e : x = self
    · rintro ⟨_, hc⟩
      rw [e] at hc
      rw [hc] at o5; cases o5
    obtain ⟨s1, _⟩ := safe v (mem_empty hv) x x1
    rcases sh.nonEmpty v hv with ⟨c, c1, c2, c3⟩ | hno
    · obtain ⟨y, y1, y2⟩ := p3.done c c1
      have y1 := p4.grows _ _ y1

      rw [c2, x1] at y1
      cases y1
      have hpos : 0 < c.2.toNat := Nat.pos_of_ne_zero fun e => c3 (BitVec.eq_of_toNat_eq e)
      have hin := (hkeys x).2 (.inl (by
        cases hl : lower.at_ x with
        | some _ => rfl
        | none =>
          dsimp only at y2
          rw [hl] at y2
          have : ((none : Option U256).getD 0).toNat = 0 := rfl
          omega))
      obtain ⟨_, b2, _⟩ := p5.placed x hin
      rintro ⟨hb, _⟩
      unfold GenAccounts.balance at b2 hb
      rw [o3 x e, s1] at hb
      rw [hb] at b2
      have : (0 : U256).toNat = 0 := rfl
      dsimp only at y2
      omega
    · have hout : x ∉ order (lower.keys ++ up.keys.filter (fun x => decide (x ∉ lower.keys))) := by
        rw [hkeys]
        rintro (hl | hl)
        · obtain ⟨m, hm⟩ := Option.isSome_iff_exists.1 hl
          obtain ⟨u, u1, u2⟩ := p3.bound x m hm
          refine hno (u, m) (.inl u1) ?_
          rw [p4.grows _ _ u2, x1]
        · have hxE : x ∉ E := fun hh => p1.disjoint x hh x2
          rw [hupat, if_neg hxE] at hl
          obtain ⟨m, hm⟩ := Option.isSome_iff_exists.1 hl
          obtain ⟨u, u1, u2⟩ := p4.bound x m hm
          refine hno (u, m) (.inr u1) ?_
          rw [u2, x1]
      have := hnon0 x x2
      unfold GenAccounts.balance GenAccounts.code at this ⊢
      rw [o3 x e, s1, p5.other x hout, hacc4]
      exact this
  · intro v m hv
    obtain ⟨x, x1, x2⟩ := p3.done _ hv
    have x1 := p4.grows _ _ x1
    refine ⟨x, x1, ?_⟩
    cases hl : lower.at_ x with
    | none =>
      dsimp only at x2
      rw [hl] at x2
      exact le_trans x2 (Nat.zero_le _)
    | some l =>
      obtain ⟨b1, b2, _⟩ := p5.placed x ((hkeys x).2 (.inl (by rw [hl]; rfl)))
      obtain ⟨s1, _⟩ := safe v (mem_min hv) x x1
      rw [balance_own x (by rw [s1]; exact b1)]
      unfold GenAccounts.balance at b2 ⊢
      rw [s1]
      exact le_trans x2 b2
  · intro v m hv
    obtain ⟨x, l, x1, x2, x3⟩ := p4.done _ hv
    refine ⟨x, x1, ?_⟩
    have hsome : ∃ k, up.at_ x = some k ∧ k.toNat ≤ m.toNat := by
      rw [hupat]
      by_cases e : x ∈ E
      · exact ⟨0, if_pos e, Nat.zero_le _⟩
      · exact ⟨l, by rw [if_neg e]; exact x2, x3⟩
    obtain ⟨k, k1, k2⟩ := hsome
    obtain ⟨b1, _, b2⟩ := p5.placed x ((hkeys x).2 (.inr (by rw [k1]; rfl)))
    obtain ⟨s1, _⟩ := safe v (mem_max hv) x x1
    rw [balance_own x (by rw [s1]; exact b1)]
    unfold GenAccounts.balance at b2 ⊢
    rw [s1]
    rw [k1] at b2
    exact le_trans b2 k2
  · intro v hv
    obtain ⟨x, x1, x2⟩ := p2.done _ hv
    have x1' : addressOf t4.assignment v = some x := p4.grows _ _ (p3.grows _ _ x1)
    refine ⟨x, x1', ?_⟩
    obtain ⟨_, s2⟩ := safe v (mem_warm hv) x x1'
    have e4 : t4.accounts = t3.accounts := p4.accounts
    have e3 : t3.accounts = t2.accounts := p3.accounts
    rw [o2, s2, p5.warm, e4, e3]
    exact x2 rfl
  · intro v hv
    obtain ⟨x, x1, _⟩ := p2.done _ hv
    have x1' : addressOf t4.assignment v = some x := p4.grows _ _ (p3.grows _ _ x1)
    refine ⟨x, x1', ?_⟩
    obtain ⟨_, s2⟩ := safe v (mem_warm hv) x x1'
    have e4 : t4.accounts = t3.accounts := p4.accounts
    have e3 : t3.accounts = t2.accounts := p3.accounts
    rw [o2, s2, p5.warm, e4, e3]
    cases hw : t2.accounts.warm x with
    | false => rfl
    | true =>
      obtain ⟨u, u1, u2⟩ := p2.warm x hw
      refine absurd ?_ (sh.cold u v u1 hv)
      rw [x1', p4.grows _ _ (p3.grows _ _ u2)]

namespace Proofs.GenAccounts

theorem conflict_some {α : Type} {bad : α → α → Bool} : ∀ (l : List α), conflict bad l = true → ∃ x ∈ l, ∃ y ∈ l, bad x y = true
  | [], h => by cases h
  | [_], h => by cases h
  | x :: y :: rest, h => by
    unfold conflict at h
    rw [Bool.or_eq_true] at h
    rcases h with h | h
    · exact ⟨x, by simp, y, by simp, h⟩
    · obtain ⟨p, hp, q, hq, hb⟩ := conflict_some (y :: rest) h
      exact ⟨p, List.mem_cons_of_mem _ hp, q, List.mem_cons_of_mem _ hq, hb⟩

theorem bind_none {α β : Type} {o : Option α} {f : α → Option β} (h : o.bind f = none) : o = none ∨ ∃ x, o = some x ∧ f x = none := by
  cases o with
  | none => exact .inl rfl
  | some x => exact .inr ⟨x, rfl, h⟩

end Proofs.GenAccounts

/-- C81.  The generator of accounts reports a conflict only if there is one: no accounts and no assignment that extends the given one meet the constraints.  The source
of random numbers has to find addresses that are not in use. -/
theorem C81_accounts_conflict {src : Source σ} (hs : SourceOk src) (fuel : Nat) {order : List Address → List Address} (coin : Address → Nat)
    (g : AccountsGenerator) (a : Assignment) (s : σ) (self : Address) (hmiss : Misses src g a)
    (hprod : Productive src fuel (g.emptyAccounts.length + 2 * g.warmCold.length + g.minBalance.length + g.maxBalance.length + 5))
    (h : g.generate src fuel order coin a s self = none) :
    ¬ ∃ (t : GenAccounts) (a' : Assignment), (∀ v x, a v = some x → a' v = some x) ∧ AccountsMeet g t a' := by
  show ¬ Solvable g a
  unfold AccountsGenerator.generate at h
  split at h
  · rename_i hc
    obtain ⟨x, hx, y, hy, hb⟩ := conflict_some _ hc
    simp only [Bool.and_eq_true, decide_eq_true_eq] at hb
    obtain ⟨v, b⟩ := x
    obtain ⟨u, b'⟩ := y
    obtain ⟨rfl, hb⟩ := hb
    rintro ⟨tt, a', he, hm⟩
    have clash : (v, true) ∈ g.emptyAccounts → (v, false) ∈ g.emptyAccounts → False := by
      intro k1 k2
      obtain ⟨y, y1, y2⟩ := hm.empty v k1
      obtain ⟨z, z1, z2⟩ := hm.nonEmpty v k2
      rw [y1] at z1; cases z1; exact z2 y2
    cases b <;> cases b' <;> simp at hb
    · exact clash hy hx
    · exact clash hx hy
  split at h
  · rename_i hc
    obtain ⟨x, hx, y, hy, hb⟩ := conflict_some _ hc
    simp only [Bool.and_eq_true, decide_eq_true_eq] at hb
    obtain ⟨v, b⟩ := x
    obtain ⟨u, b'⟩ := y
    obtain ⟨rfl, hb⟩ := hb
    rintro ⟨tt, a', he, hm⟩
    have clash : (v, true) ∈ g.warmCold → (v, false) ∈ g.warmCold → False := by
      intro k1 k2
      obtain ⟨y, y1, y2⟩ := hm.warm v k1
      obtain ⟨z, z1, z2⟩ := hm.cold v k2
      rw [y1] at z1; cases z1; rw [y2] at z2; cases z2
    cases b <;> cases b' <;> simp at hb
    · exact clash hy hx
    · exact clash hx hy
  have hbase := used_length g a self
  rcases bind_none h with h | ⟨⟨t1, E, N⟩, h1, h⟩
  · obtain ⟨c, d, t, hc, hl, hp, hn⟩ := forEach_fail (Classified g a (usedAtFirst g a self).length) g.emptyAccounts [] _ (fun _ h => h) (classified_start g a s self)
      (fun c hc done t t' => classify_step hmiss hc) h
    simp only [List.length_nil] at hl
    exact classify_none hmiss hprod hc hp (by omega) hn
  have p1 := Proofs.Gen.forEach_inv (Classified g a (usedAtFirst g a self).length) g.emptyAccounts [] _ _ (fun _ h => h) (classified_start g a s self)
    (fun c hc done t t' => classify_step hmiss hc) h1
  rw [List.nil_append] at p1
  have l1 := p1.length
  dsimp only at h l1
  obtain ⟨acc, hacc⟩ : ∃ acc, acc = (order N).foldl (makeNonEmpty coin) ((order E).foldl makeEmpty t1.accounts) := ⟨_, rfl⟩
  rw [← hacc] at h
  have hwarm0 : acc.warm = fun _ => false := by
    rw [hacc, (makeNonEmpty_ok (x := 0) _ _).2.2, (makeEmpty_ok (x := 0) _ _).2]
    have := p1.accounts
    dsimp only at this
    rw [this]
  have start2 : Warmed g a t1.used.length { t1 with accounts := acc } [] { t1 with accounts := acc } :=
    ⟨p1.names, by simp, rfl, fun _ _ h => h, fun _ h => (by cases h), fun x hx => (by change acc.warm x = true at hx; rw [hwarm0] at hx; cases hx)⟩
  rcases bind_none h with h | ⟨t2, h2, h⟩
  · obtain ⟨c, d, t, hc, hl, hp, hn⟩ := forEach_fail (Warmed g a t1.used.length { t1 with accounts := acc }) g.warmCold [] _ (fun _ h => h) start2
      (fun c hc done t t' => warm_step hmiss hc) h
    simp only [List.length_nil] at hl
    have := hp.length
    exact (warm_none hprod (by omega) hn).elim
  have p2 := Proofs.Gen.forEach_inv (Warmed g a t1.used.length { t1 with accounts := acc }) g.warmCold [] _ _ (fun _ h => h) start2
    (fun c hc done t t' => warm_step hmiss hc) h2
  rw [List.nil_append] at p2
  have l2 := p2.length
  have start3 : Lowered g a t2.used.length t2 [] (t2, {}) :=
    ⟨p2.names, by simp, rfl, fun _ _ h => h, fun _ h => (by cases h), fun x m hm => (by cases hm), fun x => by simp⟩
  rcases bind_none h with h | ⟨⟨t3, lower⟩, h3, h⟩
  · obtain ⟨c, d, t, hc, hl, hp, hn⟩ := forEach_fail (Lowered g a t2.used.length t2) g.minBalance [] _ (fun _ h => h) start3
      (fun c hc done t t' => lower_step hmiss hc) h
    simp only [List.length_nil] at hl
    have := hp.length
    exact (lower_none hprod (by omega) hn).elim
  have p3 := Proofs.Gen.forEach_inv (Lowered g a t2.used.length t2) g.minBalance [] _ _ (fun _ h => h) start3
    (fun c hc done t t' => lower_step hmiss hc) h3
  rw [List.nil_append] at p3
  have l3 := p3.length
  dsimp only at h l3
  have start4 : Uppered g a t3.used.length t3 [] (t3, {}) :=
    ⟨p3.names, by simp, rfl, fun _ _ h => h, fun _ h => (by cases h), fun x m hm => (by cases hm), fun x => by simp⟩
  rcases bind_none h with h | ⟨⟨t4, upper⟩, h4, h⟩
  · obtain ⟨c, d, t, hc, hl, hp, hn⟩ := forEach_fail (Uppered g a t3.used.length t3) g.maxBalance [] _ (fun _ h => h) start4
      (fun c hc done t t' => upper_step hmiss hc) h
    simp only [List.length_nil] at hl
    have := hp.length
    exact (upper_none hprod (by omega) hn).elim
  have p4 := Proofs.Gen.forEach_inv (Uppered g a t3.used.length t3) g.maxBalance [] _ _ (fun _ h => h) start4
    (fun c hc done t t' => upper_step hmiss hc) h4
  rw [List.nil_append] at p4
  have l4 := p4.length
  dsimp only at h l4
  obtain ⟨keys, hkeys⟩ : ∃ keys : List Address, keys = order (lower.keys ++ (E.foldl (fun b x => b.set x 0) upper).keys.filter (fun x => decide (x ∉ lower.keys))) := ⟨_, rfl⟩
  rw [← hkeys] at h
  have start5 : Balanced lower (E.foldl (fun b x => b.set x 0) upper) t4 [] t4 := ⟨rfl, rfl, rfl, fun _ => rfl, fun _ h => (by cases h), fun _ _ => rfl⟩
  rcases bind_none h with h | ⟨t5, h5, h⟩
  · obtain ⟨c, d, t, _, _, _, hn⟩ := forEach_fail (Balanced lower (E.foldl (fun b x => b.set x 0) upper) t4) keys [] _ (fun _ h => h) start5
      (fun c _ done t t' => balance_step) h
    exact balance_none p1 (fun v x hx => p4.grows _ _ (p3.grows _ _ (p2.grows _ _ hx))) p3 p4.grows p4 hn
  have p5 := Proofs.Gen.forEach_inv (Balanced lower (E.foldl (fun b x => b.set x 0) upper) t4) keys [] _ _ (fun _ h => h) start5
    (fun c _ done t t' => balance_step) h5
  have l5 : t5.used = t4.used := p5.used
  have hn := hs.intn 5 t5.rnd (by omega)
  have e5 : t5.used.length = t4.used.length := by rw [l5]
  have hfin : t5.used.length + (src.intn 5 t5.rnd).1 ≤ g.emptyAccounts.length + 2 * g.warmCold.length + g.minBalance.length + g.maxBalance.length + 5 := by
    omega
  exact (random_some hprod _ { t5 with rnd := (src.intn 5 t5.rnd).2 } hfin (Option.map_eq_none_iff.1 h)).elim

namespace Proofs.GenAccounts

open Proofs.Gen (counting)

/-- Two accounts, one of them that executes the code; empty, funded and warm accounts. -/
def someAccounts : AccountsGenerator :=
  { emptyAccounts := [("e", true), ("f", false)], minBalance := [("m", 100)], maxBalance := [("m", 200), ("e", 7)], warmCold := [("e", false), ("m", true)] }

/-- A source whose addresses consist of twenty equal bytes, the next one each time. -/
def repeating : Source Nat := { counting with read := fun n s => (List.replicate n (BitVec.ofNat 8 (s + 1)), s + 1) }

theorem repeating_ok : SourceOk repeating := ⟨fun n s h => Nat.mod_lt _ h, fun n s => by simp [repeating]⟩

theorem repeating_address (s : Nat) :
    (randomAddress repeating s).1.toNat = (s + 1) % 256 * 5731378969925109483151705226338364782964441345 ∧ (randomAddress repeating s).2 = s + 1 := by
  refine ⟨?_, rfl⟩
  have e : (BitVec.ofNat 8 (s + 1)).toNat = (s + 1) % 256 := by rw [BitVec.toNat_ofNat]
  have h : (s + 1) % 256 < 256 := Nat.mod_lt _ (by decide)
  unfold randomAddress repeating
  simp only [List.replicate, List.foldl_cons, List.foldl_nil, BitVec.toNat_ofNat]
  generalize (s + 1) % 2 ^ 8 = k at e h ⊢
  omega

theorem repeating_all {used : List Address} : ∀ (n s : Nat), drawAddress repeating used n s = none → ∀ i, i < n → (randomAddress repeating (s + i)).1 ∈ used
  | 0, _, _, _, hi => absurd hi (Nat.not_lt_zero _)
  | n + 1, s, h, i, hi => by
    unfold drawAddress at h
    dsimp only at h
    split at h
    · cases h
    rename_i hx
    rw [(repeating_address s).2] at h
    cases i with
    | zero => exact Decidable.not_not.1 hx
    | succ i =>
      have := repeating_all n (s + 1) h i (by omega)
      rw [show s + 1 + i = s + (i + 1) by omega] at this
      exact this

theorem repeating_productive : Productive repeating 20 14 := by
  intro used s hl
  cases h : drawAddress repeating used 20 s with
  | some _ => rfl
  | none =>
    exfalso
    have all := repeating_all 20 s h
    have nd : ((List.range 20).map fun i => (randomAddress repeating (s + i)).1).Nodup := by
      rw [List.nodup_map_iff_inj_on List.nodup_range]
      intro i hi j hj e
      have e := congrArg BitVec.toNat e
      rw [(repeating_address _).1, (repeating_address _).1] at e
      simp only [List.mem_range] at hi hj
      omega
    have sub : ((List.range 20).map fun i => (randomAddress repeating (s + i)).1) ⊆ used := by
      intro x hx
      obtain ⟨i, hi, rfl⟩ := List.mem_map.1 hx
      exact all i (List.mem_range.1 hi)
    have := (nd.subperm sub).length_le
    simp at this
    omega

theorem repeating_misses : Misses repeating someAccounts (fun v => if v = "m" then some 9 else none) := by
  intro v _ x hx s e
  unfold addressOf at hx
  dsimp only at hx
  split at hx
  · cases hx
    have e := congrArg BitVec.toNat e
    rw [(repeating_address s).1, show (newAddress 9).toNat = 9 by decide] at e
    omega
  · cases hx

/-- Accounts that meet the constraints are generated, with a variable that was bound before. -/
example : ((someAccounts.generate repeating 20 id (fun _ => 1) (fun v => if v = "m" then some 9 else none) 3 5).map fun r =>
    (decide (r.2.1 "m" = some 9), decide (100 ≤ r.1.balance 9 ∧ r.1.balance 9 ≤ 200), r.1.warm 9)) = some (true, true, true) := by
  decide +kernel

/-- They meet the hypotheses of C81_accounts. -/
example (r : GenAccounts × Assignment × Nat) (h : someAccounts.generate repeating 20 id (fun _ => 1) (fun v => if v = "m" then some 9 else none) 3 5 = some r) :
    Sheltered someAccounts 5 r.2.1 ∧ AccountsMeet someAccounts r.1 r.2.1 := by
  have e : ((someAccounts.generate repeating 20 id (fun _ => 1) (fun v => if v = "m" then some 9 else none) 3 5).map fun r =>
      (addressOf r.2.1 "e", addressOf r.2.1 "f", addressOf r.2.1 "m")) = some (some 22925515879700437932606820905353459131857765380, some 28656894849625547415758526131691823914822206725, some 9) := by decide +kernel
  rw [h] at e
  simp only [Option.map_some, Option.some.injEq, Prod.mk.injEq] at e
  obtain ⟨e1, e2, e3⟩ := e
  have sh : Sheltered someAccounts 5 r.2.1 := by
    refine ⟨?_, ?_, ?_⟩
    · intro v hv
      simp [someAccounts] at hv
      subst hv; rw [e1]; decide
    · intro v hv
      simp [someAccounts] at hv
      subst hv
      right
      intro c hc
      simp [someAccounts] at hc
      rcases hc with rfl | rfl | rfl
      · rw [e2, e3]; decide
      · rw [e2, e3]; decide
      · rw [e1, e2]; decide
    · intro u v hu hv
      simp [someAccounts] at hu hv
      subst hu; subst hv; rw [e1, e3]; decide
  exact ⟨sh, (C81_accounts repeating_ok 20 (order := id) (fun _ => List.Perm.refl _) _ someAccounts _ _ 3 _ 5 _ repeating_misses h).1 sh⟩

/-- A real conflict: an account with at least 100 that has to be empty. -/
example : (AccountsGenerator.generate repeating 20 id (fun _ => 1) { emptyAccounts := [("e", true)], minBalance := [("m", 100)] } (fun _ => some 9) 3 5).isNone = true := by
  decide +kernel

/-- A limit of the generator: the account that executes the code gets code although it must be empty. -/
example : ((AccountsGenerator.generate counting 10 id (fun _ => 1) { emptyAccounts := [("e", true)] } (fun _ => some 5) 3 5).map fun r => (r.1.code 5).length) = some 42 := by
  decide +kernel

/-- A limit of the generator: an account that must not be empty is empty as its balance is at most 10. -/
example : ((AccountsGenerator.generate counting 10 id (fun _ => 0) { emptyAccounts := [("f", false)], maxBalance := [("f", 0)] } (fun _ => some 7) 3 5).map fun r => r.1.isEmpty 7) =
    some true := by decide +kernel

/-- A limit of the generator: a lower bound of zero makes the balance zero. -/
example : ((AccountsGenerator.generate counting 10 id (fun _ => 0) { maxBalance := [("f", BitVec.allOnes 256)] } (fun _ => some 7) 3 5).map fun r => r.1.balance 7) =
    some 0 := by decide +kernel

end Proofs.GenAccounts

end Tosca

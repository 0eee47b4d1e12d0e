import Verif.Model.LfvmHash
import Verif.Proofs.Lru

/-!
# The cache for hashes of the long-form EVM
-/

namespace Tosca.Proofs.Lfvm.Hash

open Tosca.Model.Lfvm.Hash
open Tosca.Proofs.Lru (nodup_inj)

variable {K H : Type} [DecidableEq K]

set_option linter.unusedSectionVars false

/-- The doubly linked list from head to tail. -/
structure Links (c : Cache K H) (order : List Nat) : Prop where
  head : c.head = order[0]?
  tail : c.tail = order[order.length - 1]?
  pred : ∀ i x, order[i]? = some x → (c.entries x).pred = if i = 0 then none else order[i - 1]?
  succ : ∀ i x, order[i]? = some x → (c.entries x).succ = order[i + 1]?

theorem upd_entries (c : Cache K H) (i : Nat) (f : Entry K H → Entry K H) (x : Nat) :
    (c.upd i f).entries x = if x = i then f (c.entries x) else c.entries x := rfl

/-- What list operations leave as it is. -/
structure Same (c c' : Cache K H) : Prop where
  capacity : c'.capacity = c.capacity
  index : c'.index = c.index
  nextFree : c'.nextFree = c.nextFree
  key : ∀ x, (c'.entries x).key = (c.entries x).key
  hash : ∀ x, (c'.entries x).hash = (c.entries x).hash

theorem Same.trans {a b c : Cache K H} (h : Same a b) (h' : Same b c) : Same a c :=
  ⟨h'.1.trans h.1, h'.2.trans h.2, h'.3.trans h.3, fun x => (h'.4 x).trans (h.4 x), fun x => (h'.5 x).trans (h.5 x)⟩

theorem pushFront_ok {c : Cache K H} {order : List Nat} {e : Nat} (h : Links c order) (h0 : order ≠ []) (hn : order.Nodup) (he : e ∉ order) :
    ∃ c', c.pushFront e = some c' ∧ Links c' (e :: order) ∧ Same c c' := by
  obtain ⟨a, l, rfl⟩ : ∃ a l, order = a :: l := by
    cases order with
    | nil => exact absurd rfl h0
    | cons a l => exact ⟨a, l, rfl⟩
  have hh : c.head = some a := h.head
  have hea : e ≠ a := fun hc => he (by rw [hc]; exact List.mem_cons_self ..)
  unfold Cache.pushFront
  dsimp only
  rw [show ((c.upd e fun n => { n with pred := none }).upd e fun n => { n with succ := (c.upd e fun n => { n with pred := none }).head }).head = some a from hh]
  dsimp only [Option.bind]
  refine ⟨_, rfl, ⟨rfl, ?_, ?_, ?_⟩, ⟨rfl, rfl, rfl, ?_, ?_⟩⟩
  · show c.tail = _
    rw [h.tail]
    simp
  · intro i x hx
    cases i with
    | zero =>
      rw [List.getElem?_cons_zero] at hx
      injection hx with hx
      subst hx
      simp only [upd_entries, if_neg hea, if_true]
    | succ i =>
      rw [List.getElem?_cons_succ] at hx
      have hxe : x ≠ e := fun hc => he (by rw [← hc]; exact List.mem_of_getElem? hx)
      rw [if_neg (by omega)]
      simp only [upd_entries, if_neg hxe, Nat.add_sub_cancel]
      by_cases hxa : x = a
      · have : i = 0 := nodup_inj hn hx (by rw [hxa]; rfl)
        subst this
        rw [if_pos hxa]
        rfl
      · rw [if_neg hxa, h.pred i x hx]
        have : i ≠ 0 := by
          rintro rfl
          rw [List.getElem?_cons_zero] at hx
          injection hx with hx
          exact hxa hx.symm
        rw [if_neg this]
        obtain ⟨i, rfl⟩ := Nat.exists_eq_succ_of_ne_zero this
        rfl
  · intro i x hx
    cases i with
    | zero =>
      rw [List.getElem?_cons_zero] at hx
      injection hx with hx
      subst hx
      simp only [upd_entries, if_neg hea, if_true]
      exact hh
    | succ i =>
      rw [List.getElem?_cons_succ] at hx
      have hxe : x ≠ e := fun hc => he (by rw [← hc]; exact List.mem_of_getElem? hx)
      rw [List.getElem?_cons_succ, ← h.succ i x hx]
      simp only [upd_entries, if_neg hxe]
      split <;> rfl
  · intro x; simp only [upd_entries]; repeat' (first | rfl | split)
  · intro x; simp only [upd_entries]; repeat' (first | rfl | split)

theorem eraseIdx_last (l : List Nat) (i : Nat) : (l.eraseIdx (l.length - 1))[i]? = if i < l.length - 1 then l[i]? else none := by
  rw [List.getElem?_eraseIdx]
  split
  · rfl
  · exact List.getElem?_eq_none (by omega)

/-- The state after an entry was taken out of the list. -/
theorem unlink_ok {c c1 : Cache K H} {order : List Nat} {j e p : Nat} (h : Links c order) (hn : order.Nodup) (he : order[j]? = some e) (hj : 0 < j)
    (hp : order[j - 1]? = some p) (ehead : c1.head = c.head)
    (etail : c1.tail = if order[j + 1]? = none then some p else c.tail)
    (esu : ∀ x, x ≠ e → (c1.entries x).succ = if x = p then order[j + 1]? else (c.entries x).succ)
    (epr : ∀ x, x ≠ e → (c1.entries x).pred = if some x = order[j + 1]? then some p else (c.entries x).pred) :
    Links c1 (order.eraseIdx j) := by
  have inj : ∀ {a b x}, order[a]? = some x → order[b]? = some x → a = b := fun h1 h2 => nodup_inj hn h1 h2
  have hjl : j < order.length := (List.getElem?_eq_some_iff.1 he).1
  have hlen : (order.eraseIdx j).length = order.length - 1 := List.length_eraseIdx_of_lt hjl
  refine ⟨?_, ?_, ?_, ?_⟩
  · rw [ehead, h.head, List.getElem?_eraseIdx, if_pos hj]
  · rw [etail, hlen, List.getElem?_eraseIdx, h.tail]
    by_cases hlast : j + 1 < order.length
    · rw [if_neg (by rw [List.getElem?_eq_getElem hlast]; exact fun h => by cases h), if_neg (by omega), show order.length - 1 - 1 + 1 = order.length - 1 by omega]
    · rw [if_pos (List.getElem?_eq_none (by omega)), if_pos (by omega), ← hp]
      congr 1; omega
  · intro i x hx
    rw [List.getElem?_eraseIdx] at hx
    split at hx
    · rename_i hij
      have hxe : x ≠ e := fun hc => by subst hc; have := inj hx he; omega
      rw [epr x hxe, if_neg (fun hc => by have := inj hx hc.symm; omega), h.pred i x hx, List.getElem?_eraseIdx, if_pos (show i - 1 < j by omega)]
    · rename_i hij
      have hxe : x ≠ e := fun hc => by subst hc; have := inj hx he; omega
      rw [epr x hxe, if_neg (show ¬ i = 0 by omega), List.getElem?_eraseIdx]
      by_cases h1 : i = j
      · subst h1
        rw [if_pos hx.symm, if_pos (by omega), hp]
      · rw [if_neg (fun hc => by have := inj hx hc.symm; omega), if_neg (by omega), h.pred (i + 1) x hx, if_neg (by omega)]
        congr 1; omega
  · intro i x hx
    rw [List.getElem?_eraseIdx] at hx
    split at hx
    · rename_i hij
      have hxe : x ≠ e := fun hc => by subst hc; have := inj hx he; omega
      rw [esu x hxe, List.getElem?_eraseIdx]
      by_cases h1 : i + 1 = j
      · subst h1
        rw [if_pos (by rw [Nat.add_sub_cancel] at hp; exact Option.some.inj (hx.symm.trans hp)), if_neg (by omega)]
      · rw [if_neg (fun hc => by subst hc; have := inj hx hp; omega), if_pos (by omega), h.succ i x hx]
    · rename_i hij
      have hxe : x ≠ e := fun hc => by subst hc; have := inj hx he; omega
      rw [esu x hxe, if_neg (fun hc => by subst hc; have := inj hx hp; omega), h.succ (i + 1) x hx, List.getElem?_eraseIdx, if_neg (by omega)]

/-- The representation invariant: `order` lists the entries in use from head to tail. -/
structure Inv (c : Cache K H) (order : List Nat) : Prop where
  cap : 2 ≤ c.capacity
  len : order.length = c.nextFree
  pos : 0 < c.nextFree
  room : c.nextFree ≤ c.capacity
  nodup : order.Nodup
  bound : ∀ x ∈ order, x < c.nextFree
  links : Links c order
  index : c.index.Perm (order.map fun x => ((c.entries x).key, x))
  keys : (order.map fun x => (c.entries x).key).Nodup

theorem find_some {c : Cache K H} {order : List Nat} (h : Inv c order) {k : K} {e : Nat} (hf : c.find k = some e) :
    ∃ j : Nat, order[j]? = some e ∧ (c.entries e).key = k := by
  unfold Cache.find at hf
  obtain ⟨⟨a, b⟩, hp, rfl⟩ := Option.map_eq_some_iff.1 hf
  have hm := List.mem_of_find?_eq_some hp
  have hk := List.find?_some hp
  simp only [decide_eq_true_eq] at hk
  rw [h.index.mem_iff, List.mem_map] at hm
  obtain ⟨x, hx, hxe⟩ := hm
  simp only [Prod.mk.injEq] at hxe
  obtain ⟨h1, rfl⟩ := hxe
  obtain ⟨j, hj⟩ := List.getElem?_of_mem hx
  exact ⟨j, hj, by rw [h1, hk]⟩

theorem find_none {c : Cache K H} {order : List Nat} (h : Inv c order) {k : K} (hf : c.find k = none) :
    ∀ e ∈ order, (c.entries e).key ≠ k := by
  intro e he hk
  unfold Cache.find at hf
  rw [Option.map_eq_none_iff, List.find?_eq_none] at hf
  have := hf ((c.entries e).key, e) (h.index.mem_iff.2 (List.mem_map.2 ⟨e, he, rfl⟩))
  simp [hk] at this

theorem keys_inj {c : Cache K H} {order : List Nat} (h : Inv c order) {x y : Nat} (hx : x ∈ order) (hy : y ∈ order)
    (hk : (c.entries x).key = (c.entries y).key) : x = y := List.inj_on_of_nodup_map h.keys hx hy hk

theorem Inv.reorder {c c' : Cache K H} {order order' : List Nat} (h : Inv c order) (s : Same c c') (l : Links c' order') (hp : order'.Perm order) :
    Inv c' order' where
  cap := by rw [s.capacity]; exact h.cap
  len := by rw [hp.length_eq, s.nextFree, h.len]
  pos := by rw [s.nextFree]; exact h.pos
  room := by rw [s.nextFree, s.capacity]; exact h.room
  nodup := hp.nodup_iff.2 h.nodup
  bound x hx := by rw [s.nextFree]; exact h.bound x (hp.mem_iff.1 hx)
  links := l
  index := by
    rw [s.index]
    simp only [s.key]
    exact h.index.trans (hp.symm.map _)
  keys := by
    simp only [s.key]
    exact (hp.map _).nodup_iff.2 h.keys

theorem not_mem_eraseIdx {l : List Nat} (hn : l.Nodup) {j e : Nat} (he : l[j]? = some e) : e ∉ l.eraseIdx j := by
  intro hm
  obtain ⟨i, hi⟩ := List.getElem?_of_mem hm
  rw [List.getElem?_eraseIdx] at hi
  split at hi
  · have := nodup_inj hn hi he; omega
  · have := nodup_inj hn hi he; omega

theorem touch_ok {c : Cache K H} {order : List Nat} (h : Inv c order) {j e : Nat} (he : order[j]? = some e) :
    ∃ c', c.touch e = some c' ∧ Inv c' (e :: order.eraseIdx j) ∧ Same c c' := by
  have hn := h.nodup
  have inj : ∀ {a b x}, order[a]? = some x → order[b]? = some x → a = b := fun h1 h2 => nodup_inj hn h1 h2
  have hjl : j < order.length := (List.getElem?_eq_some_iff.1 he).1
  by_cases hj : j = 0
  · subst hj
    refine ⟨c, ?_, ?_, ⟨rfl, rfl, rfl, fun _ => rfl, fun _ => rfl⟩⟩
    · unfold Cache.touch
      rw [if_pos (by rw [h.links.head, he])]
    · have := Lru.toFront_zero order e he
      unfold Lru.toFront at this
      rw [this]
      exact h
  · obtain ⟨p, hp⟩ : ∃ x, order[j - 1]? = some x := ⟨order[j - 1]'(by omega), List.getElem?_eq_getElem _⟩
    have hep : e ≠ p := fun hc => by subst hc; have := inj he hp; omega
    have hpred : (c.entries e).pred = some p := by rw [h.links.pred j e he, if_neg hj, hp]
    have hsucc : (c.entries e).succ = order[j + 1]? := h.links.succ j e he
    have fin : ∀ c1 : Cache K H, Links c1 (order.eraseIdx j) → Same c c1 →
        ∃ c', c1.pushFront e = some c' ∧ Inv c' (e :: order.eraseIdx j) ∧ Same c c' := by
      intro c1 hl hs
      obtain ⟨c', h1, h2, h3⟩ := pushFront_ok hl
        (by intro h0; have := congrArg List.length h0; rw [List.length_eraseIdx_of_lt hjl] at this; simp at this; omega)
        (hn.sublist (List.eraseIdx_sublist _ _)) (not_mem_eraseIdx hn he)
      exact ⟨c', h1, h.reorder (hs.trans h3) h2 (Lru.cons_eraseIdx_perm order j e he), hs.trans h3⟩
    unfold Cache.touch
    rw [if_neg (by rw [h.links.head]; intro hc; have := inj he hc.symm; omega), hpred]
    dsimp only [Option.bind]
    rw [show ((c.upd p fun n => { n with succ := (c.entries e).succ }).entries e) = c.entries e by rw [upd_entries, if_neg hep], hsucc]
    cases hs : order[j + 1]? with
    | some s =>
      have hps : p ≠ s := fun hc => by subst hc; have := inj hp hs; omega
      dsimp only
      refine fin _ (unlink_ok h.links hn he (by omega) hp rfl ?_ ?_ ?_) ⟨rfl, rfl, rfl, ?_, ?_⟩
      · rw [hs]; rw [if_neg (fun h => by cases h)]; rfl
      · intro x _
        simp only [upd_entries, hs]
        by_cases hxs : x = s
        · subst hxs; simp [Ne.symm hps]
        · by_cases hxp : x = p
          · subst hxp; simp [hxs]
          · simp [hxs, hxp]
      · intro x _
        simp only [upd_entries, hs, Option.some.injEq, hpred]
        by_cases hxs : x = s
        · subst hxs; simp
        · by_cases hxp : x = p
          · subst hxp; simp [hxs]
          · simp [hxs, hxp]
      · intro x; simp only [upd_entries]; repeat' (first | rfl | split)
      · intro x; simp only [upd_entries]; repeat' (first | rfl | split)
    | none =>
      dsimp only
      refine fin _ (unlink_ok h.links hn he (by omega) hp rfl ?_ ?_ ?_) ⟨rfl, rfl, rfl, ?_, ?_⟩
      · rw [hs, if_pos rfl]; exact hpred
      · intro x _
        simp only [upd_entries, hs]
        by_cases hxp : x = p
        · subst hxp; simp
        · simp [hxp]
      · intro x _
        simp only [upd_entries, hs]
        by_cases hxp : x = p
        · subst hxp; simp
        · simp [hxp]
      · intro x; simp only [upd_entries]; repeat' (first | rfl | split)
      · intro x; simp only [upd_entries]; repeat' (first | rfl | split)

/-- The entries that stay when another one is added. -/
def kept (c : Cache K H) (order : List Nat) : List Nat := if c.nextFree < c.capacity then order else order.eraseIdx (order.length - 1)

theorem kept_get (c : Cache K H) {order : List Nat} (h : Inv c order) (i : Nat) :
    (kept c order)[i]? = if i < c.capacity - 1 then order[i]? else none := by
  have := h.len
  have := h.room
  unfold kept
  split
  · by_cases hi : i < order.length
    · rw [if_pos (by omega)]
    · rw [List.getElem?_eq_none (by omega)]; split <;> rfl
  · rw [eraseIdx_last, show order.length - 1 = c.capacity - 1 by omega]

theorem add_ok {c : Cache K H} {order : List Nat} (h : Inv c order) {k : K} (v : H) (hf : c.find k = none) :
    ∃ c' e, c.add k v = some c' ∧ Inv c' (e :: kept c order) ∧ e ∉ kept c order ∧ c'.capacity = c.capacity ∧
      (c'.entries e).key = k ∧ (c'.entries e).hash = v ∧
      ∀ x, x ≠ e → (c'.entries x).key = (c.entries x).key ∧ (c'.entries x).hash = (c.entries x).hash := by
  have hnone := find_none h hf
  have hlen := h.len
  have hcap := h.cap
  have hroom := h.room
  have hpos := h.pos
  have hn := h.nodup
  have inj : ∀ {a b x}, order[a]? = some x → order[b]? = some x → a = b := fun h1 h2 => nodup_inj hn h1 h2
  -- what getFree does
  have free : ∃ e c1, c.getFree = some (e, c1) ∧ Links c1 (kept c order) ∧ e ∉ kept c order ∧ c1.capacity = c.capacity ∧
      c1.nextFree = (kept c order).length + 1 ∧ (∀ x ∈ kept c order, x < c1.nextFree) ∧ e < c1.nextFree ∧ c1.nextFree ≤ c.capacity ∧
      (∀ x, (c1.entries x).key = (c.entries x).key) ∧ (∀ x, (c1.entries x).hash = (c.entries x).hash) ∧
      c1.index.Perm ((kept c order).map fun x => ((c.entries x).key, x)) := by
    unfold Cache.getFree kept
    by_cases hfree : c.nextFree < c.capacity
    · rw [if_pos hfree, if_pos hfree]
      refine ⟨_, _, rfl, ⟨h.links.head, h.links.tail, h.links.pred, h.links.succ⟩, ?_, rfl, ?_, ?_, ?_, ?_, fun _ => rfl, fun _ => rfl, h.index⟩
      · intro hm
        have := h.bound _ hm
        omega
      · show c.nextFree + 1 = _; rw [hlen]
      · intro x hx
        have := h.bound x hx
        show x < c.nextFree + 1
        omega
      · show c.nextFree < c.nextFree + 1; omega
      · exact hfree
    · rw [if_neg hfree, if_neg hfree]
      obtain ⟨t, ht⟩ : ∃ x, order[order.length - 1]? = some x := ⟨order[order.length - 1]'(by omega), List.getElem?_eq_getElem _⟩
      obtain ⟨p, hp⟩ : ∃ x, order[order.length - 1 - 1]? = some x := ⟨order[order.length - 1 - 1]'(by omega), List.getElem?_eq_getElem _⟩
      have htp : t ≠ p := fun hc => by subst hc; have := inj ht hp; omega
      have hend : order[order.length - 1 + 1]? = none := List.getElem?_eq_none (by omega)
      have hpred : (c.entries t).pred = some p := by rw [h.links.pred _ t ht, if_neg (by omega), hp]
      rw [h.links.tail, ht]
      dsimp only [Option.bind]
      rw [hpred]
      dsimp only
      refine ⟨_, _, rfl, unlink_ok h.links hn ht (by omega) hp rfl ?_ ?_ ?_, not_mem_eraseIdx hn ht, rfl, ?_, ?_, ?_, ?_, ?_, ?_, ?_⟩
      · rw [hend, if_pos rfl]; rfl
      · intro x _
        simp only [upd_entries, hend]
        split <;> rfl
      · intro x _
        simp only [upd_entries, hend]
        simp only [reduceCtorEq, if_false]
        split <;> rfl
      · show c.nextFree = _
        rw [List.length_eraseIdx_of_lt (by omega)]
        omega
      · intro x hx
        exact h.bound x ((List.eraseIdx_sublist _ _).subset hx)
      · exact h.bound t (List.mem_of_getElem? ht)
      · exact hroom
      · intro x; simp only [upd_entries]; split <;> rfl
      · intro x; simp only [upd_entries]; split <;> rfl
      · have hkt : ((({ c with tail := some p } : Cache K H).upd p fun n => { n with succ := none }).entries t).key = (c.entries t).key := by
          simp only [upd_entries]; split <;> rfl
        rw [hkt]
        refine (h.index.filter _).trans ?_
        rw [List.filter_map, Lru.filter_eraseIdx order _ (order.length - 1) t ht]
        · simp
        · intro x hx hne
          simp only [Function.comp, ne_eq, decide_not, Bool.not_eq_eq_eq_not, Bool.not_true, decide_eq_false_iff_not]
          intro hc
          exact hne (keys_inj h hx (List.mem_of_getElem? ht) hc)
        · exact hn
  obtain ⟨e, c1, f1, f2, f3, f4, f5, f6, f7, f8, f9, f10, f11⟩ := free
  have hsub : ∀ x ∈ kept c order, x ∈ order := by
    unfold kept
    split
    · exact fun _ h => h
    · exact fun x hx => (List.eraseIdx_sublist _ _).subset hx
  have hkn : (kept c order).Nodup := by
    unfold kept
    split
    · exact hn
    · exact hn.sublist (List.eraseIdx_sublist _ _)
  have hlinks : Links ((c1.upd e fun n => { n with key := k }).upd e fun n => { n with hash := v }) (kept c order) := by
    refine ⟨f2.head, f2.tail, fun i x hx => ?_, fun i x hx => ?_⟩
    · have hxe : x ≠ e := fun hc => f3 (by rw [← hc]; exact List.mem_of_getElem? hx)
      rw [← f2.pred i x hx]
      simp only [upd_entries, if_neg hxe]
    · have hxe : x ≠ e := fun hc => f3 (by rw [← hc]; exact List.mem_of_getElem? hx)
      rw [← f2.succ i x hx]
      simp only [upd_entries, if_neg hxe]
  obtain ⟨c2, g1, g2, g3⟩ := pushFront_ok hlinks
    (by
      intro h0
      have h1 := kept_get c h 0
      rw [h0, if_pos (by omega)] at h1
      have : order[0]? = some (order[0]'(by omega)) := List.getElem?_eq_getElem _
      rw [this] at h1
      cases h1) hkn f3
  have hkey : ∀ x, x ≠ e → (c2.entries x).key = (c.entries x).key := by
    intro x hx
    rw [g3.key]
    simp only [upd_entries, if_neg hx]
    exact f9 x
  have hhash : ∀ x, x ≠ e → (c2.entries x).hash = (c.entries x).hash := by
    intro x hx
    rw [g3.hash]
    simp only [upd_entries, if_neg hx]
    exact f10 x
  have hek : (c2.entries e).key = k := by
    rw [g3.key]; simp only [upd_entries, if_true]
  have heh : (c2.entries e).hash = v := by
    rw [g3.hash]; simp only [upd_entries, if_true]
  refine ⟨{ c2 with index := (k, e) :: c2.index }, e, ?_, ?_, f3, ?_, hek, heh, fun x hx => ⟨hkey x hx, hhash x hx⟩⟩
  · unfold Cache.add
    rw [hf, f1]
    dsimp only [Option.bind]
    rw [g1]
  · have hmap : (kept c order).map (fun x => (c2.entries x).key) = (kept c order).map fun x => (c.entries x).key :=
      List.map_congr_left fun x hx => hkey x (fun hc => f3 (hc ▸ hx))
    refine ⟨?_, ?_, ?_, ?_, ?_, ?_, ⟨g2.head, g2.tail, g2.pred, g2.succ⟩, ?_, ?_⟩
    · show 2 ≤ c2.capacity
      rw [g3.capacity]; show 2 ≤ c1.capacity; omega
    · show _ = c2.nextFree
      rw [g3.nextFree]; show _ = c1.nextFree; rw [f5]; rfl
    · show 0 < c2.nextFree
      rw [g3.nextFree]; show 0 < c1.nextFree; omega
    · show c2.nextFree ≤ c2.capacity
      rw [g3.nextFree, g3.capacity]; show c1.nextFree ≤ c1.capacity; omega
    · exact List.nodup_cons.2 ⟨f3, hkn⟩
    · intro x hx
      show x < c2.nextFree
      rw [g3.nextFree]
      show x < c1.nextFree
      rcases List.mem_cons.1 hx with rfl | hx
      · exact f7
      · exact f6 x hx
    · show ((k, e) :: c2.index).Perm (((c2.entries e).key, e) :: (kept c order).map fun x => ((c2.entries x).key, x))
      rw [hek]
      apply List.Perm.cons
      rw [g3.index, List.map_congr_left (g := fun x => ((c.entries x).key, x)) (fun x hx => by rw [hkey x (fun hc => f3 (hc ▸ hx))])]
      exact f11
    · show ((c2.entries e).key :: (kept c order).map fun x => (c2.entries x).key).Nodup
      rw [hek, hmap, List.nodup_cons]
      constructor
      · intro hm
        obtain ⟨x, hx, hxk⟩ := List.mem_map.1 hm
        exact hnone x (hsub x hx) hxk
      · refine h.keys.sublist (List.Sublist.map _ ?_)
        unfold kept
        split
        · exact List.Sublist.refl _
        · exact List.eraseIdx_sublist _ _
  · show c2.capacity = _
    rw [g3.capacity]
    exact f4

theorem newCache_ok (capacity : Nat) (hash : K → H) (key0 : K) (hash0 : H) :
    ∃ c, newCache capacity hash key0 hash0 = some c ∧ Inv c [0] ∧ c.capacity = max 2 capacity ∧
      (c.entries 0).key = key0 ∧ (c.entries 0).hash = hash key0 := by
  have hc : 2 ≤ (if capacity < 2 then 2 else capacity) := by split <;> omega
  unfold newCache
  dsimp only
  unfold Cache.getFree
  rw [if_pos (by dsimp only; omega)]
  dsimp only [Option.bind]
  refine ⟨_, rfl, ⟨hc, rfl, Nat.one_pos, by show 1 ≤ _; exact Nat.le_trans (by decide) hc, List.nodup_singleton _, ?_, ⟨rfl, rfl, ?_, ?_⟩, ?_, ?_⟩, ?_, ?_, ?_⟩
  · intro x hx
    rw [List.mem_singleton.1 hx]
    exact Nat.one_pos
  · intro i x hx
    cases i with
    | zero => simp only [upd_entries]; split <;> rfl
    | succ i => cases hx
  · intro i x hx
    cases i with
    | zero => simp only [upd_entries]; split <;> rfl
    | succ i => cases hx
  · simp [upd_entries]
    rfl
  · simp
  · show (if capacity < 2 then 2 else capacity) = _
    split <;> omega
  · simp [upd_entries]
  · simp [upd_entries]

/-! ### Sequences of calls -/

/-- All cached hashes are right. -/
def Right (hash : K → H) (c : Cache K H) (order : List Nat) : Prop := ∀ x ∈ order, (c.entries x).hash = hash (c.entries x).key

/-- The contents, most recently used first. -/
def contents (c : Cache K H) (order : List Nat) : List (K × H) := order.map fun x => ((c.entries x).key, (c.entries x).hash)

theorem touch_right {hash : K → H} {c c' : Cache K H} {order : List Nat} {j e : Nat} (h : Right hash c order) (he : order[j]? = some e) (s : Same c c') :
    Right hash c' (e :: order.eraseIdx j) := by
  intro x hx
  rw [s.hash, s.key]
  refine h x ?_
  rcases List.mem_cons.1 hx with rfl | hx
  · exact List.mem_of_getElem? he
  · exact (List.eraseIdx_sublist _ _).subset hx

theorem kept_sub (c : Cache K H) (order : List Nat) : ∀ x ∈ kept c order, x ∈ order := by
  unfold kept
  split
  · exact fun _ h => h
  · exact fun x hx => (List.eraseIdx_sublist _ _).subset hx

theorem add_right {hash : K → H} {c c' : Cache K H} {order : List Nat} {e : Nat} {k : K} (h : Right hash c order) (he : e ∉ kept c order)
    (hk : (c'.entries e).key = k) (hh : (c'.entries e).hash = hash k)
    (hs : ∀ x, x ≠ e → (c'.entries x).key = (c.entries x).key ∧ (c'.entries x).hash = (c.entries x).hash) :
    Right hash c' (e :: kept c order) := by
  intro x hx
  rcases List.mem_cons.1 hx with rfl | hx
  · rw [hk, hh]
  · have := hs x (fun hc => he (hc ▸ hx))
    rw [this.1, this.2]
    exact h x (kept_sub c order x hx)

theorem lookup_find {c : Cache K H} {order : List Nat} (h : Inv c order) (k : K) :
    Spec.Lru.lookup (contents c order) k = (c.find k).map fun e => (c.entries e).hash := by
  unfold Spec.Lru.lookup contents
  cases hf : c.find k with
  | none =>
    have := find_none h hf
    rw [List.find?_eq_none.2]
    · rfl
    · intro x hx
      obtain ⟨y, hy, rfl⟩ := List.mem_map.1 hx
      simpa using this y hy
  | some e =>
    obtain ⟨j, hj, hk⟩ := find_some h hf
    have hm := List.mem_of_getElem? hj
    rw [Lru.find_nodup _ _ ((c.entries e).key, (c.entries e).hash)]
    · rfl
    · exact List.mem_map.2 ⟨e, hm, rfl⟩
    · simp [hk]
    · intro b hb hP
      obtain ⟨x, hx, rfl⟩ := List.mem_map.1 hb
      rw [keys_inj h hx hm (by rw [hk]; simpa using hP)]

theorem getHash_ok (hash : K → H) {c : Cache K H} {order : List Nat} (h : Inv c order) (hr : Right hash c order) (k : K) :
    ∃ c' order', c.getHash hash k = some (hash k, c') ∧ Inv c' order' ∧ Right hash c' order' ∧ c'.capacity = c.capacity ∧
      contents c' order' = (Spec.Lru.getOrInsert c.capacity (contents c order) k fun _ => hash k).2 := by
  have hl := lookup_find h k
  unfold Cache.getHash
  cases hf : c.find k with
  | some e =>
    obtain ⟨j, hj, hk⟩ := find_some h hf
    have hm := List.mem_of_getElem? hj
    obtain ⟨c', h1, h2, h3⟩ := touch_ok h hj
    dsimp only
    rw [h1]
    dsimp only [Option.bind]
    have hv : (c.entries e).hash = hash k := by rw [hr e hm, hk]
    refine ⟨c', _, ?_, h2, touch_right hr hj h3, h3.capacity, ?_⟩
    · rw [h3.hash, hv]
    · unfold Spec.Lru.getOrInsert Spec.Lru.get
      rw [hl, hf]
      dsimp only [Option.map]
      unfold contents
      rw [List.map_cons, h3.key, h3.hash, hk, hv]
      congr 1
      rw [List.filter_map, Lru.filter_eraseIdx order _ j e hj (by simp [hk]) (fun x hx hne => by
        simp only [Function.comp, ne_eq, decide_not, Bool.not_eq_eq_eq_not, Bool.not_true, decide_eq_false_iff_not]
        intro hc
        exact hne (keys_inj h hx hm (by rw [hk]; exact hc))) h.nodup]
      exact List.map_congr_left fun x _ => by rw [h3.key, h3.hash]
  | none =>
    obtain ⟨c', e, h1, h2, h3, h4, h5, h6, h7⟩ := add_ok h (hash k) hf
    dsimp only
    rw [h1]
    dsimp only [Option.bind]
    refine ⟨c', _, rfl, h2, add_right hr h3 h5 h6 h7, h4, ?_⟩
    unfold Spec.Lru.getOrInsert Spec.Lru.get
    rw [hl, hf]
    dsimp only [Option.map]
    unfold Spec.Lru.insertOrAssign
    rw [hl, hf]
    dsimp only [Option.map]
    have hcap := h.cap
    have hkeep : kept c order = order.take (c.capacity - 1) := by
      apply List.ext_getElem?
      intro i
      rw [kept_get c h, List.getElem?_take]
    unfold contents
    rw [List.map_cons, h5, h6, show c.capacity = (c.capacity - 1) + 1 by omega, List.take_succ_cons, ← List.map_take, ← hkeep]
    congr 1
    exact List.map_congr_left fun x hx => by
      have := h7 x (fun hc => h3 (hc ▸ hx))
      rw [this.1, this.2]

theorem getHashes_ok (hash : K → H) : ∀ (ks : List K) {c : Cache K H} {order : List Nat}, Inv c order → Right hash c order →
    ∃ c' order', c.getHashes hash ks = some (ks.map hash, c') ∧ Inv c' order' ∧ Right hash c' order' ∧ c'.capacity = c.capacity ∧
      contents c' order' = (Spec.Lru.run c.capacity (contents c order) (ks.map fun k => .getOrInsert k (hash k))).2 := by
  intro ks
  induction ks with
  | nil => intro c order h hr; exact ⟨c, order, rfl, h, hr, rfl, rfl⟩
  | cons k ks ih =>
    intro c order h hr
    obtain ⟨c1, o1, h1, h2, h3, h4, h5⟩ := getHash_ok hash h hr k
    obtain ⟨c2, o2, g1, g2, g3, g4, g5⟩ := ih h2 h3
    refine ⟨c2, o2, ?_, g2, g3, g4.trans h4, ?_⟩
    · unfold Cache.getHashes
      rw [h1]
      dsimp only [Option.bind]
      rw [g1]
      rfl
    · rw [g5, h5, h4]
      rfl

/-! ### Threads -/

/-- No thread waits while `n` or more actions of others happen. -/
def Prompt (n : Nat) (sched : List Nat) : Prop :=
  ∀ a b c i, sched = a ++ i :: (b ++ i :: c) → i ∉ b → b.length < n

theorem first_occurrence : ∀ {l : List Nat} {i : Nat}, i ∈ l → ∃ b c, l = b ++ i :: c ∧ i ∉ b := by
  intro l
  induction l with
  | nil => intro i h; cases h
  | cons a l ih =>
    intro i h
    by_cases ha : a = i
    · exact ⟨[], l, by rw [ha]; rfl, by simp⟩
    · obtain ⟨b, c, h1, h2⟩ := ih (List.mem_of_ne_of_mem (Ne.symm ha) h)
      refine ⟨a :: b, c, by rw [h1]; rfl, ?_⟩
      rw [List.mem_cons]
      rintro (h | h)
      · exact ha h.symm
      · exact h2 h

/-- What a thread will have returned in the end. -/
def Thread.keys (t : Thread K H) : List K :=
  t.done.reverse.map (·.1) ++ (match t.pending with | some (.read k _) => [k] | some (.insert k) => [k] | none => []) ++ t.todo

/-- A pending thread still finds its entry. -/
def Waits (c : Cache K H) (order : List Nat) (t : Thread K H) (age : Nat) : Prop :=
  ∀ k e, t.pending = some (.read k e) → ∃ pos : Nat, pos ≤ age ∧ order[pos]? = some e ∧ (c.entries e).key = k

/-- All results of a thread are right. -/
def Done (hash : K → H) (t : Thread K H) : Prop := ∀ x ∈ t.done, x.2 = hash x.1

theorem touch_waits {c c' : Cache K H} {order : List Nat} {j e : Nat} (he : order[j]? = some e) (s : Same c c') {t : Thread K H} {age : Nat}
    (h : Waits c order t age) : Waits c' (e :: order.eraseIdx j) t (age + 1) := by
  intro k x hp
  obtain ⟨pos, h1, h2, h3⟩ := h k x hp
  rw [s.key]
  by_cases hj : pos < j
  · refine ⟨pos + 1, by omega, ?_, h3⟩
    rw [List.getElem?_cons_succ, List.getElem?_eraseIdx, if_pos hj, h2]
  · by_cases hj' : pos = j
    · subst hj'
      refine ⟨0, by omega, ?_, h3⟩
      rw [List.getElem?_cons_zero, ← he, h2]
    · refine ⟨pos, by omega, ?_, h3⟩
      obtain ⟨pos, rfl⟩ : ∃ n, pos = n + 1 := ⟨pos - 1, by omega⟩
      rw [List.getElem?_cons_succ, List.getElem?_eraseIdx, if_neg (by omega), h2]

theorem add_waits {c c' : Cache K H} {order : List Nat} {e : Nat} (hi : Inv c order) (he : e ∉ kept c order)
    (hs : ∀ x, x ≠ e → (c'.entries x).key = (c.entries x).key ∧ (c'.entries x).hash = (c.entries x).hash) {t : Thread K H} {age : Nat}
    (hage : age + 1 < c.capacity) (h : Waits c order t age) : Waits c' (e :: kept c order) t (age + 1) := by
  intro k x hp
  obtain ⟨pos, h1, h2, h3⟩ := h k x hp
  have hk : (kept c order)[pos]? = some x := by rw [kept_get c hi, if_pos (by omega), h2]
  have hx : x ≠ e := fun hc => he (hc ▸ List.mem_of_getElem? hk)
  refine ⟨pos + 1, by omega, ?_, ?_⟩
  · rw [List.getElem?_cons_succ, hk]
  · rw [(hs x hx).1, h3]

theorem Waits.mono {c : Cache K H} {order : List Nat} {t : Thread K H} {a b : Nat} (h : Waits c order t a) (hab : a ≤ b) : Waits c order t b := by
  intro k e hp
  obtain ⟨pos, h1, h2⟩ := h k e hp
  exact ⟨pos, by omega, h2⟩

/-- One action. -/
theorem act_ok (hash : K → H) {c : Cache K H} {order : List Nat} (h : Inv c order) (hr : Right hash c order) {t : Thread K H} (hd : Done hash t)
    {age : Nat} (hw : Waits c order t age) :
    ∃ t' c' order', t.act hash c = some (t', c') ∧ Inv c' order' ∧ Right hash c' order' ∧ c'.capacity = c.capacity ∧ Done hash t' ∧
      Thread.keys t' = Thread.keys t ∧ Waits c' order' t' 0 ∧
      ∀ (u : Thread K H) (a : Nat), a + 1 < c.capacity → Waits c order u a → Waits c' order' u (a + 1) := by
  have step : ∀ (t' : Thread K H), (∀ k e, t'.pending = some (.read k e) → False) → Waits c order t' 0 := fun t' hh k e hp => (hh k e hp).elim
  unfold Thread.act
  cases hp : t.pending with
  | some p =>
    cases p with
    | read k e =>
      obtain ⟨pos, h1, h2, h3⟩ := hw k e hp
      refine ⟨_, c, order, rfl, h, hr, rfl, ?_, ?_, step _ (fun k e hc => by cases hc), fun u a _ hu => hu.mono (by omega)⟩
      · intro x hx
        rcases List.mem_cons.1 hx with rfl | hx
        · show (c.entries e).hash = hash k
          rw [hr e (List.mem_of_getElem? h2), h3]
        · exact hd x hx
      · unfold Thread.keys
        rw [hp]
        simp
    | insert k =>
      dsimp only
      cases hf : c.find k with
      | some e =>
        have ha : c.add k (hash k) = some c := by unfold Cache.add; rw [hf]
        rw [ha]
        dsimp only [Option.bind]
        refine ⟨_, c, order, rfl, h, hr, rfl, ?_, ?_, step _ (fun k e hc => by cases hc), fun u a _ hu => hu.mono (by omega)⟩
        · intro x hx
          rcases List.mem_cons.1 hx with rfl | hx
          · rfl
          · exact hd x hx
        · unfold Thread.keys
          rw [hp]
          simp
      | none =>
        obtain ⟨c', e, h1, h2, h3, h4, h5, h6, h7⟩ := add_ok h (hash k) hf
        rw [h1]
        dsimp only [Option.bind]
        refine ⟨_, c', _, rfl, h2, add_right hr h3 h5 h6 h7, h4, ?_, ?_, ?_, fun u a ha hu => add_waits h h3 h7 ha hu⟩
        · intro x hx
          rcases List.mem_cons.1 hx with rfl | hx
          · rfl
          · exact hd x hx
        · unfold Thread.keys
          rw [hp]
          simp
        · intro k e hc
          cases hc
  | none =>
    dsimp only
    cases ht : t.todo with
    | nil => exact ⟨t, c, order, rfl, h, hr, rfl, hd, rfl, (fun k e hc => by rw [hp] at hc; cases hc), fun u a _ hu => hu.mono (by omega)⟩
    | cons k rest =>
      dsimp only
      cases hf : c.find k with
      | some e =>
        obtain ⟨j, hj, hk⟩ := find_some h hf
        obtain ⟨c', h1, h2, h3⟩ := touch_ok h hj
        dsimp only
        rw [h1]
        dsimp only [Option.bind]
        refine ⟨_, c', _, rfl, h2, touch_right hr hj h3, h3.capacity, hd, ?_, ?_, fun u a _ hu => touch_waits hj h3 hu⟩
        · unfold Thread.keys
          rw [hp, ht]
          simp
        · intro k' e' hc
          injection hc with hc
          injection hc with hc1 hc2
          subst hc1; subst hc2
          exact ⟨0, Nat.le_refl _, rfl, by rw [h3.key, hk]⟩
      | none =>
        refine ⟨_, c, order, rfl, h, hr, rfl, hd, ?_, step _ (fun k e hc => by cases hc), fun u a _ hu => hu.mono (by omega)⟩
        unfold Thread.keys
        rw [hp, ht]
        simp

theorem runThreads_ok (hash : K → H) : ∀ (sched : List Nat) {ts : Nat → Thread K H} {c : Cache K H} {order : List Nat} (age : Nat → Nat),
    Inv c order → Right hash c order → (∀ i, Done hash (ts i)) → (∀ i, i ∈ sched → Waits c order (ts i) (age i)) → Prompt c.capacity sched →
    (∀ b d i, sched = b ++ i :: d → i ∉ b → (ts i).pending ≠ none → age i + b.length < c.capacity) →
    ∃ ts' c' order', runThreads hash ts c sched = some (ts', c') ∧ Inv c' order' ∧ Right hash c' order' ∧ (∀ i, Done hash (ts' i)) ∧
      ∀ i, Thread.keys (ts' i) = Thread.keys (ts i) := by
  intro sched
  induction sched with
  | nil => intro ts c order age h hr hd _ _ _; exact ⟨ts, c, order, rfl, h, hr, hd, fun _ => rfl⟩
  | cons i sched ih =>
    intro ts c order age h hr hd hw hp ha
    obtain ⟨t', c', order', h1, h2, h3, h4, h5, h6, h7, h8⟩ := act_ok hash h hr (hd i) (hw i (List.mem_cons_self ..))
    have hcap := h.cap
    obtain ⟨ts', c'', order'', g1, g2, g3, g4, g5⟩ := ih (ts := fun j => if j = i then t' else ts j) (c := c') (order := order')
      (fun j => if j = i then 0 else age j + 1) h2 h3
      (by intro j; split; exact h5; exact hd j)
      (by
        intro j hj
        split
        · exact h7
        · rename_i hji
          by_cases hpend : (ts j).pending = none
          · intro k e hc
            rw [hpend] at hc
            cases hc
          · obtain ⟨b, d, e1, e2⟩ := first_occurrence hj
            have := ha (i :: b) d j (by rw [e1]; rfl) (by rw [List.mem_cons]; rintro (h | h); exact hji h; exact e2 h) hpend
            rw [List.length_cons] at this
            exact h8 _ _ (by omega) (hw j (List.mem_cons_of_mem _ hj)))
      (by
        rw [h4]
        intro a b d j e1 e2
        exact hp (i :: a) b d j (by rw [e1]; rfl) e2)
      (by
        rw [h4]
        intro b d j e1 e2 hpend
        by_cases hji : j = i
        · rw [if_pos hji]
          subst hji
          have := hp [] b d j (by rw [e1]; rfl) e2
          omega
        · rw [if_neg hji] at hpend ⊢
          have := ha (i :: b) d j (by rw [e1]; rfl) (by rw [List.mem_cons]; rintro (h | h); exact hji h; exact e2 h) hpend
          rw [List.length_cons] at this
          omega)
    refine ⟨ts', c'', order'', ?_, g2, g3, g4, ?_⟩
    · unfold runThreads
      rw [h1]
      exact g1
    · intro j
      rw [g5 j]
      split
      · rename_i hji
        rw [hji, h6]
      · rfl

end Tosca.Proofs.Lfvm.Hash

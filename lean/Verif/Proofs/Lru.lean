import Verif.Model.Lru
import Verif.Spec.Lru
import Mathlib.Data.List.Nodup

/-!
# The pointer-based LRU cache refines the abstract LRU map
-/

namespace Tosca.Proofs.Lru

open Tosca.Model Tosca.Model.Lru

variable {K V : Type} [DecidableEq K]

set_option linter.unusedSectionVars false

/-- Representation invariant: `order` lists all nodes from head to tail, the first `k` are in
use.  Before the first insertion the `succ` of the last node is the address one past the
array (a dangling pointer that is never dereferenced). -/
structure Inv (c : Cache K V) (order : List Nat) (k : Nat) : Prop where
  cap2 : 2 ≤ c.cap
  len : order.length = c.cap
  nodup : order.Nodup
  bound : ∀ x ∈ order, x < c.cap
  head : c.head = order[0]?
  tail : c.tail = order[c.cap - 1]?
  pred : ∀ i x, order[i]? = some x → (c.entries x).pred = if i = 0 then none else order[i - 1]?
  succ : ∀ i x, order[i]? = some x →
    (c.entries x).succ = if i + 1 = c.cap ∧ k = 0 then some c.cap else order[i + 1]?
  used : k ≤ c.cap
  index : c.index.Perm ((order.take k).map fun x => ((c.entries x).key, x))
  keys : ((order.take k).map fun x => (c.entries x).key).Nodup

/-- The abstract contents. -/
def abs (c : Cache K V) (order : List Nat) (k : Nat) : List (K × V) :=
  (order.take k).map fun x => ((c.entries x).key, (c.entries x).value)

/-- The refinement relation. -/
def R (c : Cache K V) (l : List (K × V)) : Prop := ∃ order k, Inv c order k ∧ l = abs c order k

theorem nodup_inj {l : List Nat} (h : l.Nodup) {i j : Nat} {x : Nat} (hi : l[i]? = some x)
    (hj : l[j]? = some x) : i = j := by
  obtain ⟨hi', ei⟩ := List.getElem?_eq_some_iff.1 hi
  obtain ⟨hj', ej⟩ := List.getElem?_eq_some_iff.1 hj
  exact (List.getElem?_inj hi' h).1 (by rw [hi, hj])

theorem getElem?_range_lt {n i x : Nat} (h : (List.range n)[i]? = some x) : x = i ∧ i < n := by
  obtain ⟨h1, h2⟩ := List.getElem?_eq_some_iff.1 h
  simp at h1 h2
  omega

theorem clear_R (cap : Nat) (dk : K) (dv : V) (h : 2 ≤ cap) :
    ∃ c, clear cap dk dv = .ok c ∧ R c [] ∧ c.cap = cap := by
  unfold clear
  rw [if_neg (by omega)]
  refine ⟨_, rfl, ⟨List.range cap, 0, ?_, ?_⟩, rfl⟩
  · constructor
    · exact h
    · simp
    · exact List.nodup_range
    · intro x hx; simpa using hx
    · dsimp only; rw [List.getElem?_range (by omega)]
    · dsimp only; rw [List.getElem?_range (by omega)]
    · intro i x hx
      obtain ⟨rfl, hi⟩ := getElem?_range_lt hx
      dsimp only
      by_cases h0 : x = 0
      · simp [h0]
      · rw [if_pos (by omega), if_neg h0, List.getElem?_range (by omega)]
    · intro i x hx
      obtain ⟨rfl, hi⟩ := getElem?_range_lt hx
      dsimp only
      rw [if_pos hi]
      by_cases h1 : x + 1 = cap
      · rw [if_pos ⟨h1, rfl⟩, h1]
      · rw [if_neg (by simp [h1]), List.getElem?_range (by omega)]
    · dsimp only; omega
    · simp
    · simp
  · simp [abs]

/-- Moving position `j` to the front. -/
def toFront (order : List Nat) (j e : Nat) : List Nat := e :: order.eraseIdx j

theorem toFront_get (order : List Nat) (j e i : Nat) :
    (toFront order j e)[i]? = if i = 0 then some e else if i ≤ j then order[i - 1]? else order[i]? := by
  unfold toFront
  cases i with
  | zero => simp
  | succ i =>
    rw [List.getElem?_cons_succ, List.getElem?_eraseIdx]
    simp only [Nat.add_one_ne_zero, if_false, Nat.add_sub_cancel]
    by_cases h : i < j
    · rw [if_pos h, if_pos (by omega)]
    · rw [if_neg h, if_neg (by omega)]

theorem cons_eraseIdx_perm (l : List Nat) : ∀ (j e : Nat), l[j]? = some e →
    (e :: l.eraseIdx j).Perm l := by
  induction l with
  | nil => intro j e h; simp at h
  | cons a l ih =>
    intro j e h
    cases j with
    | zero => simp at h; subst h; exact List.Perm.refl _
    | succ j =>
      have := ih j e (by simpa using h)
      rw [List.eraseIdx_cons_succ]
      exact (List.Perm.swap a e _).trans (this.cons a)

theorem toFront_perm (order : List Nat) (j e : Nat) (h : order[j]? = some e) :
    (toFront order j e).Perm order := by
  exact cons_eraseIdx_perm order j e h

/-- The pointer surgery of `Touch` and `GetNewHead`: entry functions whose links describe the
reordered list. -/
theorem relink (order : List Nat) (j e : Nat) (hn : order.Nodup)
    (hj : 0 < j) (he : order[j]? = some e)
    (pr su pr' su' : Nat → Option Nat)
    (hpr : ∀ i x, order[i]? = some x → pr x = if i = 0 then none else order[i - 1]?)
    (hsu : ∀ i x, order[i]? = some x → i ≠ j → i + 1 ≠ j → su x = order[i + 1]?)
    (epr : ∀ x, pr' x = if some x = order[0]? then some e else if x = e then none
      else if some x = order[j + 1]? then order[j - 1]? else pr x)
    (esu : ∀ x, su' x = if x = e then order[0]? else if some x = order[j - 1]? then order[j + 1]?
      else su x) :
    (∀ i x, (toFront order j e)[i]? = some x →
      pr' x = if i = 0 then none else (toFront order j e)[i - 1]?) ∧
    (∀ i x, (toFront order j e)[i]? = some x → su' x = (toFront order j e)[i + 1]?) := by
  have inj : ∀ {a b x}, order[a]? = some x → order[b]? = some x → a = b := fun h h' => nodup_inj hn h h'
  have hjl : j < order.length := (List.getElem?_eq_some_iff.1 he).1
  constructor
  · intro i x hx
    rw [toFront_get] at hx
    rw [epr]
    by_cases h0 : i = 0
    · subst h0
      simp only [if_true, Option.some.injEq] at hx
      subst hx
      rw [if_neg, if_pos rfl, if_pos rfl]
      intro hc
      have := inj he hc.symm
      omega
    · rw [if_neg h0] at hx
      rw [if_neg h0, toFront_get]
      by_cases hij : i ≤ j
      · rw [if_pos hij] at hx
        -- x = order[i-1]
        by_cases h1 : i = 1
        · subst h1
          rw [if_pos (by simpa using hx.symm), if_pos rfl]
        · rw [if_neg (show ¬ i - 1 = 0 by omega), if_pos (show i - 1 ≤ j by omega)]
          rw [if_neg (fun hc => by have := inj hx hc.symm; omega)]
          rw [if_neg (fun hc => by subst hc; have := inj hx he; omega)]
          rw [if_neg (fun hc => by have := inj hx hc.symm; omega)]
          rw [hpr _ _ hx, if_neg (by omega)]
      · rw [if_neg hij] at hx
        rw [if_neg (fun hc => by have := inj hx hc.symm; omega)]
        rw [if_neg (fun hc => by subst hc; have := inj hx he; omega)]
        rw [if_neg (show ¬ i - 1 = 0 by omega)]
        by_cases h1 : i = j + 1
        · subst h1
          rw [if_pos hx.symm]
          simp
        · rw [if_neg (fun hc => by have := inj hx hc.symm; omega)]
          rw [hpr _ _ hx, if_neg h0, if_neg (by omega)]
  · intro i x hx
    rw [toFront_get] at hx
    rw [esu, toFront_get, if_neg (show ¬ i + 1 = 0 by omega)]
    by_cases h0 : i = 0
    · subst h0
      simp only [if_true, Option.some.injEq] at hx
      subst hx
      rw [if_pos rfl, if_pos (by omega)]
    · rw [if_neg h0] at hx
      by_cases hij : i ≤ j
      · rw [if_pos hij] at hx
        rw [if_neg (fun hc => by subst hc; have := inj hx he; omega)]
        by_cases h1 : i = j
        · subst h1
          rw [if_pos hx.symm, if_neg (by omega)]
        · rw [if_neg (fun hc => by have := inj hx hc.symm; omega), if_pos (by omega)]
          rw [hsu _ _ hx (by omega) (by omega)]
          congr 1; omega
      · rw [if_neg hij] at hx
        rw [if_neg (fun hc => by subst hc; have := inj hx he; omega)]
        rw [if_neg (fun hc => by have := inj hx hc.symm; omega), if_neg (by omega)]
        rw [hsu _ _ hx (by omega) (by omega)]

theorem deref_ok (c : Cache K V) (x : Nat) (h : x < c.cap) : deref c (some x) = .ok x := by
  simp [deref, h]

theorem upd_entries (c : Cache K V) (i : Nat) (f : Entry K V → Entry K V) (x : Nat) :
    (upd c i f).entries x = if x = i then f (c.entries x) else c.entries x := rfl

theorem take_toFront (order : List Nat) (j e k : Nat) (hk : j < k) :
    (toFront order j e).take k = toFront (order.take k) j e := by
  unfold toFront
  cases k with
  | zero => omega
  | succ k =>
    rw [List.take_succ_cons]
    congr 1
    apply List.ext_getElem?
    intro i
    rw [List.getElem?_take, List.getElem?_eraseIdx, List.getElem?_eraseIdx, List.getElem?_take,
      List.getElem?_take]
    by_cases h1 : i < k
    · rw [if_pos h1]
      by_cases h2 : i < j
      · rw [if_pos h2, if_pos h2, if_pos (by omega)]
      · rw [if_neg h2, if_neg h2, if_pos (by omega)]
    · rw [if_neg h1, if_neg (by omega), if_neg (by omega)]

/-- `linkAsHead` after a node was unlinked from position `j`. -/
theorem linkAsHead_ok (c c1 : Cache K V) (order : List Nat) (j e p : Nat)
    (hcap2 : 2 ≤ c.cap) (hlen : order.length = c.cap) (hnodup : order.Nodup)
    (hbound : ∀ x ∈ order, x < c.cap) (hhead : c.head = order[0]?)
    (htail : c.tail = order[c.cap - 1]?)
    (hpred : ∀ i x, order[i]? = some x → (c.entries x).pred = if i = 0 then none else order[i - 1]?)
    (hsucc : ∀ i x, order[i]? = some x → i ≠ j → i + 1 ≠ j → (c.entries x).succ = order[i + 1]?)
    (he : order[j]? = some e) (hj : 0 < j) (hp : order[j - 1]? = some p)
    (ecap : c1.cap = c.cap) (ehead : c1.head = c.head)
    (etail : c1.tail = (if j + 1 < c.cap then c.tail else some p))
    (ekv : ∀ x, (c1.entries x).key = (c.entries x).key ∧ (c1.entries x).value = (c.entries x).value)
    (esu : ∀ x, x ≠ e → (c1.entries x).succ = if x = p then order[j + 1]? else (c.entries x).succ)
    (epr : ∀ x, x ≠ e →
      (c1.entries x).pred = if some x = order[j + 1]? then some p else (c.entries x).pred) :
    ∃ c', linkAsHead c1 e = .ok c' ∧ c'.cap = c.cap ∧ c'.index = c1.index ∧
      (∀ x, (c'.entries x).key = (c.entries x).key ∧ (c'.entries x).value = (c.entries x).value) ∧
      c'.head = (toFront order j e)[0]? ∧ c'.tail = (toFront order j e)[c.cap - 1]? ∧
      (∀ i x, (toFront order j e)[i]? = some x →
        (c'.entries x).pred = if i = 0 then none else (toFront order j e)[i - 1]?) ∧
      (∀ i x, (toFront order j e)[i]? = some x →
        (c'.entries x).succ = (toFront order j e)[i + 1]?) := by
  have inj : ∀ {a b x}, order[a]? = some x → order[b]? = some x → a = b :=
    fun h1 h2 => nodup_inj hnodup h1 h2
  have hjl : j < order.length := (List.getElem?_eq_some_iff.1 he).1
  obtain ⟨hd, hhd⟩ : ∃ x, order[0]? = some x := ⟨order[0]'(by omega), List.getElem?_eq_getElem _⟩
  have bd : ∀ {i x}, order[i]? = some x → x < c.cap := fun hx => hbound _ (List.mem_of_getElem? hx)
  have hehd : e ≠ hd := fun hc => by subst hc; have := inj he hhd; omega
  have hhead1 : c1.head = some hd := by rw [ehead, hhead, hhd]
  have hlt : hd < c1.cap := by rw [ecap]; exact bd hhd
  have key : linkAsHead c1 e = .ok { (upd (upd (upd c1 e fun n => { n with pred := none }) e
      fun n => { n with succ := c1.head }) hd fun n => { n with pred := some e }) with
      head := some e } := by
    simp [linkAsHead, bind, Except.bind, deref, upd, hhead1, hlt, pure, Except.pure]
  refine ⟨_, key, ecap, rfl, ?_, ?_, ?_, ?_⟩
  · intro x
    dsimp only
    simp only [upd_entries]
    constructor
    · rw [← (ekv x).1]; repeat' (first | rfl | split)
    · rw [← (ekv x).2]; repeat' (first | rfl | split)
  · dsimp only
    rw [toFront_get, if_pos rfl]
  · show c1.tail = _
    rw [etail, toFront_get, if_neg (show ¬ c.cap - 1 = 0 by omega)]
    by_cases hlast : j + 1 < c.cap
    · rw [if_pos hlast, if_neg (show ¬ c.cap - 1 ≤ j by omega), htail]
    · rw [if_neg hlast, if_pos (show c.cap - 1 ≤ j by omega), ← hp]
      congr 1; omega
  · apply relink order j e hnodup hj he (fun x => (c.entries x).pred) (fun x => (c.entries x).succ)
      (fun x => (Entry.pred _)) (fun x => Entry.succ _) hpred hsucc
    · intro x
      simp only [upd_entries, hhd, hp, Option.some.injEq]
      by_cases hxh : x = hd
      · simp [hxh]
      · by_cases hxe : x = e
        · subst hxe; simp [hehd]
        · simp [hxh, hxe, epr]
    · intro x
      simp only [upd_entries, hp, Option.some.injEq, hhd]
      by_cases hxe : x = e
      · subst hxe
        simp only [hehd, if_true, if_false]
        exact hhead1
      · by_cases hxh : x = hd
        · subst hxh; simp [hxe, esu]
        · simp [hxh, hxe, esu]

theorem touch_ok (c : Cache K V) (order : List Nat) (k j e : Nat) (h : Inv c order k)
    (he : order[j]? = some e) (hj : 0 < j) (hjk : j < k) :
    ∃ c', touch c e = .ok c' ∧ c'.cap = c.cap ∧
      (∀ x, (c'.entries x).key = (c.entries x).key ∧ (c'.entries x).value = (c.entries x).value) ∧
      Inv c' (toFront order j e) k := by
  have inj : ∀ {a b x}, order[a]? = some x → order[b]? = some x → a = b :=
    fun h1 h2 => nodup_inj h.nodup h1 h2
  have hjl : j < order.length := (List.getElem?_eq_some_iff.1 he).1
  have hlen := h.len
  obtain ⟨hd, hhd⟩ : ∃ x, order[0]? = some x := ⟨order[0]'(by omega), List.getElem?_eq_getElem _⟩
  obtain ⟨p, hp⟩ : ∃ x, order[j - 1]? = some x := ⟨order[j - 1]'(by omega), List.getElem?_eq_getElem _⟩
  have bd : ∀ {i x}, order[i]? = some x → x < c.cap := fun hx => h.bound _ (List.mem_of_getElem? hx)
  have hehd : e ≠ hd := fun hc => by subst hc; have := inj he hhd; omega
  have hep : e ≠ p := fun hc => by subst hc; have := inj he hp; omega
  have hpred : (c.entries e).pred = some p := by rw [h.pred j e he, if_neg (by omega), hp]
  have hsucc : (c.entries e).succ = order[j + 1]? := by rw [h.succ j e he, if_neg (by omega)]
  have fin : ∀ c1 : Cache K V, c1.cap = c.cap → c1.index = c.index → c1.head = c.head →
      c1.tail = (if j + 1 < c.cap then c.tail else some p) →
      (∀ x, (c1.entries x).key = (c.entries x).key ∧ (c1.entries x).value = (c.entries x).value) →
      (∀ x, x ≠ e → (c1.entries x).succ = if x = p then order[j + 1]? else (c.entries x).succ) →
      (∀ x, x ≠ e →
        (c1.entries x).pred = if some x = order[j + 1]? then some p else (c.entries x).pred) →
      ∃ c', linkAsHead c1 e = .ok c' ∧ c'.cap = c.cap ∧
        (∀ x, (c'.entries x).key = (c.entries x).key ∧ (c'.entries x).value = (c.entries x).value) ∧
        Inv c' (toFront order j e) k := by
    intro c1 ecap eidx ehead etail ekv esu epr
    obtain ⟨c', h1, h2, h3, h4, h5, h6, h7, h8⟩ := linkAsHead_ok c c1 order j e p h.cap2 h.len h.nodup
      h.bound h.head h.tail h.pred
      (fun i x hx _ _ => by rw [h.succ i x hx, if_neg (by omega)]) he hj hp ecap ehead etail ekv esu epr
    refine ⟨c', h1, h2, h4, ?_⟩
    have hperm := toFront_perm order j e he
    have hpermk : ((toFront order j e).take k).Perm (order.take k) := by
      rw [take_toFront order j e k hjk]
      refine (toFront_perm _ j e ?_)
      rw [List.getElem?_take, if_pos hjk, he]
    have hkey : ∀ x, (c'.entries x).key = (c.entries x).key := fun x => (h4 x).1
    constructor
    · rw [h2]; exact h.cap2
    · rw [h2, hperm.length_eq, h.len]
    · exact hperm.nodup_iff.2 h.nodup
    · intro x hx
      rw [h2]
      exact h.bound x (hperm.mem_iff.1 hx)
    · exact h5
    · rw [h2]; exact h6
    · exact h7
    · intro i x hx
      rw [if_neg (by omega)]
      exact h8 i x hx
    · rw [h2]; exact h.used
    · rw [h3, eidx]
      simp only [hkey]
      exact h.index.trans (hpermk.symm.map _)
    · simp only [hkey]
      exact (hpermk.map _).nodup_iff.2 h.keys
  unfold touch
  rw [if_neg (by rw [h.head, hhd]; simpa using hehd), hpred, deref_ok _ _ (bd hp)]
  simp only [bind, Except.bind, upd_entries, if_neg hep, hsucc]
  by_cases hlast : j + 1 < c.cap
  · obtain ⟨s, hs⟩ : ∃ x, order[j + 1]? = some x := ⟨order[j + 1]'(by omega), List.getElem?_eq_getElem _⟩
    have hes : e ≠ s := fun hc => by subst hc; have := inj he hs; omega
    have hps : p ≠ s := fun hc => by subst hc; have := inj hp hs; omega
    simp only [hs]
    rw [deref_ok (upd c p _) s (by show s < c.cap; exact bd hs)]
    refine fin _ rfl rfl rfl ?_ ?_ ?_ ?_
    · rw [if_pos hlast]; rfl
    · intro x
      simp only [upd_entries]
      constructor <;> (repeat' (first | rfl | split))
    · intro x _
      simp only [upd_entries, hs]
      by_cases hxs : x = s
      · subst hxs; simp [Ne.symm hps]
      · by_cases hxp : x = p
        · subst hxp; simp [hxs]
        · simp [hxs, hxp]
    · intro x _
      simp only [upd_entries, hs, Option.some.injEq, hpred]
      by_cases hxs : x = s
      · subst hxs; simp
      · by_cases hxp : x = p
        · subst hxp; simp [hxs]
        · simp [hxs, hxp]
  · have hnone : order[j + 1]? = none := List.getElem?_eq_none (by omega)
    simp only [hnone]
    refine fin _ rfl rfl rfl ?_ ?_ ?_ ?_
    · rw [if_neg hlast]; exact hpred
    · intro x
      simp only [upd_entries]
      constructor <;> (repeat' (first | rfl | split))
    · intro x _
      simp only [upd_entries, hnone]
      by_cases hxp : x = p
      · subst hxp; simp
      · simp [hxp]
    · intro x _
      simp only [upd_entries, hnone]
      by_cases hxp : x = p
      · subst hxp; simp
      · simp [hxp]

/-- Finding a key through the index is finding it among the used nodes. -/
theorem find_spec (c : Cache K V) (order : List Nat) (k : Nat) (h : Inv c order k) (key : K) :
    (∀ e, find c key = some e → ∃ j, j < k ∧ order[j]? = some e ∧ (c.entries e).key = key) ∧
    (find c key = none → ∀ e ∈ order.take k, (c.entries e).key ≠ key) := by
  constructor
  · intro e hf
    unfold find at hf
    obtain ⟨⟨a, b⟩, hp, rfl⟩ := Option.map_eq_some_iff.1 hf
    have hm := List.mem_of_find?_eq_some hp
    have hk := List.find?_some hp
    simp only [decide_eq_true_eq] at hk
    rw [h.index.mem_iff, List.mem_map] at hm
    obtain ⟨x, hx, hxe⟩ := hm
    simp only [Prod.mk.injEq] at hxe
    obtain ⟨h1, rfl⟩ := hxe
    obtain ⟨j, hj⟩ := List.getElem?_of_mem hx
    rw [List.getElem?_take] at hj
    split at hj
    · exact ⟨j, by assumption, hj, by rw [h1, hk]⟩
    · simp at hj
  · intro hf e he hk
    unfold find at hf
    rw [Option.map_eq_none_iff, List.find?_eq_none] at hf
    have := hf ((c.entries e).key, e) (by
      rw [h.index.mem_iff, List.mem_map]; exact ⟨e, he, rfl⟩)
    simp [hk] at this

theorem lookup_none (c : Cache K V) (order : List Nat) (k : Nat) (key : K)
    (h : ∀ e ∈ order.take k, (c.entries e).key ≠ key) :
    Spec.Lru.lookup (abs c order k) key = none := by
  unfold Spec.Lru.lookup abs
  rw [Option.map_eq_none_iff, List.find?_eq_none]
  intro p hp
  obtain ⟨x, hx, rfl⟩ := List.mem_map.1 hp
  simpa using h x hx

theorem keys_inj (c : Cache K V) (order : List Nat) (k : Nat) (h : Inv c order k) {x y : Nat}
    (hx : x ∈ order.take k) (hy : y ∈ order.take k) (he : (c.entries x).key = (c.entries y).key) :
    x = y := by
  exact List.inj_on_of_nodup_map h.keys hx hy he

theorem mem_take {order : List Nat} {k j e : Nat} (h : order[j]? = some e) (hj : j < k) :
    e ∈ order.take k := by
  apply List.mem_of_getElem? (i := j)
  rw [List.getElem?_take, if_pos hj, h]

theorem find_nodup {α : Type} (l : List α) (P : α → Bool) (a : α) (ha : a ∈ l) (hp : P a = true)
    (hu : ∀ b ∈ l, P b = true → b = a) : l.find? P = some a := by
  induction l with
  | nil => simp at ha
  | cons b l ih =>
    by_cases hb : P b = true
    · rw [List.find?_cons_of_pos hb, hu b (by simp) hb]
    · rw [List.find?_cons_of_neg hb]
      refine ih ?_ (fun b hb => hu b (by simp [hb]))
      rcases List.mem_cons.1 ha with rfl | h
      · exact absurd hp hb
      · exact h

theorem lookup_some (c : Cache K V) (order : List Nat) (k : Nat) (h : Inv c order k) (e : Nat)
    (he : e ∈ order.take k) :
    Spec.Lru.lookup (abs c order k) (c.entries e).key = some (c.entries e).value := by
  unfold Spec.Lru.lookup abs
  rw [find_nodup _ _ ((c.entries e).key, (c.entries e).value)]
  · rfl
  · exact List.mem_map.2 ⟨e, he, rfl⟩
  · simp
  · intro b hb hP
    obtain ⟨x, hx, rfl⟩ := List.mem_map.1 hb
    rw [keys_inj c order k h hx he (by simpa using hP)]

theorem filter_eraseIdx (l : List Nat) (P : Nat → Bool) : ∀ (j e : Nat), l[j]? = some e →
    P e = false → (∀ x ∈ l, x ≠ e → P x = true) → l.Nodup → l.filter P = l.eraseIdx j := by
  induction l with
  | nil => intro j e h; simp at h
  | cons a l ih =>
    intro j e h he hx hn
    have hn' := List.nodup_cons.1 hn
    cases j with
    | zero =>
      simp at h; subst h
      rw [List.filter_cons_of_neg (by simp [he])]
      simp only [List.eraseIdx_cons_zero]
      rw [List.filter_eq_self]
      intro x hxl
      exact hx x (by simp [hxl]) (fun hc => by subst hc; exact hn'.1 hxl)
    | succ j =>
      have h' : l[j]? = some e := by simpa using h
      rw [List.filter_cons_of_pos, ih j e h' he (fun x hxl => hx x (by simp [hxl])) hn'.2]
      · simp
      · apply hx a (by simp)
        rintro rfl
        exact hn'.1 (List.mem_of_getElem? h')

theorem abs_toFront (c c' : Cache K V) (order : List Nat) (k j e : Nat) (h : Inv c order k)
    (he : order[j]? = some e) (hjk : j < k)
    (hkv : ∀ x, (c'.entries x).key = (c.entries x).key ∧ (c'.entries x).value = (c.entries x).value) :
    abs c' (toFront order j e) k = ((c.entries e).key, (c.entries e).value) ::
      (abs c order k).filter fun p => p.1 ≠ (c.entries e).key := by
  have hme := mem_take he hjk
  unfold abs
  rw [take_toFront order j e k hjk, toFront, List.map_cons, (hkv e).1, (hkv e).2]
  congr 1
  rw [List.filter_map]
  rw [filter_eraseIdx (order.take k) _ j e]
  · apply List.map_congr_left
    intro x _
    rw [(hkv x).1, (hkv x).2]
  · rw [List.getElem?_take, if_pos hjk, he]
  · simp
  · intro x hx hne
    simp only [Function.comp, ne_eq, decide_not, Bool.not_eq_eq_eq_not, Bool.not_true,
      decide_eq_false_iff_not]
    intro hc
    exact hne (keys_inj c order k h hx hme hc)
  · exact h.nodup.sublist (List.take_sublist _ _)

theorem toFront_zero (order : List Nat) (e : Nat) (h : order[0]? = some e) :
    toFront order 0 e = order := by
  unfold toFront
  cases order with
  | nil => simp at h
  | cons a l => simp at h; simp [h]

/-- `Get` refines the abstract `get`. -/
theorem get_R (c : Cache K V) (l : List (K × V)) (h : R c l) (key : K) :
    ∃ c', Lru.get c key = .ok ((Spec.Lru.get l key).1, c') ∧ R c' (Spec.Lru.get l key).2 ∧
      c'.cap = c.cap := by
  obtain ⟨order, k, hi, rfl⟩ := h
  obtain ⟨f1, f2⟩ := find_spec c order k hi key
  unfold Lru.get
  cases hf : find c key with
  | none =>
    have := lookup_none c order k key (f2 hf)
    refine ⟨c, ?_, ?_, rfl⟩
    · simp [Spec.Lru.get, this, pure, Except.pure]
    · simp only [Spec.Lru.get, this]; exact ⟨order, k, hi, rfl⟩
  | some e =>
    obtain ⟨j, hjk, hj, rfl⟩ := f1 e hf
    have hme := mem_take hj hjk
    have hlt : e < c.cap := hi.bound e (List.mem_of_getElem? hj)
    have hl := lookup_some c order k hi e hme
    have main : ∃ c', touch c e = .ok c' ∧ c'.cap = c.cap ∧
      (∀ x, (c'.entries x).key = (c.entries x).key ∧ (c'.entries x).value = (c.entries x).value) ∧
      Inv c' (toFront order j e) k := by
      by_cases h0 : j = 0
      · subst h0
        refine ⟨c, ?_, rfl, fun _ => ⟨rfl, rfl⟩, ?_⟩
        · unfold touch
          rw [if_pos (by rw [hi.head, hj])]
        · rw [toFront_zero _ _ hj]; exact hi
      · exact touch_ok c order k j e hi hj (by omega) hjk
    obtain ⟨c', h1, h2, h3, h4⟩ := main
    refine ⟨c', ?_, ?_, h2⟩
    · simp [bind, Except.bind, deref_ok c e hlt, h1, Spec.Lru.get, hl, pure, Except.pure, (h3 e).2]
    · simp only [Spec.Lru.get, hl]
      exact ⟨_, k, h4, (abs_toFront c c' order k j e hi hj hjk h3).symm⟩

theorem index_length (c : Cache K V) (order : List Nat) (k : Nat) (h : Inv c order k) :
    c.index.length = k := by
  rw [h.index.length_eq]
  have := h.used
  have := h.len
  simp; omega

/-- `GetNewHead` followed by the two assignments and the index insertion of `InsertOrAssign`. -/
theorem insertNew_ok (c : Cache K V) (order : List Nat) (k : Nat) (h : Inv c order k) (key : K)
    (v : V) (hf : find c key = none) :
    ∃ c' order' k', insertOrAssign c key v = .ok (v, c') ∧ Inv c' order' k' ∧
      abs c' order' k' = ((key, v) :: abs c order k).take c.cap ∧ c'.cap = c.cap := by
  have hnk := (find_spec c order k h key).2 hf
  have hlen := h.len
  have hcap2 := h.cap2
  have hused := h.used
  have inj : ∀ {a b x}, order[a]? = some x → order[b]? = some x → a = b :=
    fun h1 h2 => nodup_inj h.nodup h1 h2
  have bd : ∀ {i x}, order[i]? = some x → x < c.cap := fun hx => h.bound _ (List.mem_of_getElem? hx)
  obtain ⟨t, ht⟩ : ∃ x, order[c.cap - 1]? = some x :=
    ⟨order[c.cap - 1]'(by omega), List.getElem?_eq_getElem _⟩
  obtain ⟨p, hp⟩ : ∃ x, order[c.cap - 1 - 1]? = some x :=
    ⟨order[c.cap - 1 - 1]'(by omega), List.getElem?_eq_getElem _⟩
  have htp : t ≠ p := fun hc => by subst hc; have := inj ht hp; omega
  have htail : c.tail = some t := by rw [h.tail, ht]
  have htpred : (c.entries t).pred = some p := by
    rw [h.pred _ t ht, if_neg (by omega), hp]
  have hnone : order[c.cap - 1 + 1]? = none := List.getElem?_eq_none (by omega)
  -- the state before `linkAsHead`
  let c0 := upd c p fun n => { n with succ := none }
  let c1 : Cache K V := { evict c0 t with tail := some p }
  have hevict : (evict c0 t).entries = c0.entries ∧ (evict c0 t).cap = c.cap ∧
      (evict c0 t).head = c.head := by
    unfold evict; split <;> exact ⟨rfl, rfl, rfl⟩
  have hent : ∀ x, c1.entries x = if x = p then { c.entries x with succ := none } else c.entries x := by
    intro x
    show (evict c0 t).entries x = _
    rw [hevict.1]; rfl
  obtain ⟨c2, g1, g2, g3, g4, g5, g6, g7, g8⟩ := linkAsHead_ok c c1 order (c.cap - 1) t p h.cap2 h.len
      h.nodup h.bound h.head h.tail h.pred
      (fun i x hx h1 _ => by
        have := (List.getElem?_eq_some_iff.1 hx).1
        rw [h.succ i x hx, if_neg (by omega)])
      ht (by omega) hp hevict.2.1 hevict.2.2
      (by rw [if_neg (by omega)])
      (fun x => by rw [hent]; split <;> exact ⟨rfl, rfl⟩)
      (fun x _ => by rw [hent, hnone]; split <;> rfl)
      (fun x _ => by rw [hent, hnone]; simp; split <;> rfl)
  have hidx1 : c1.index = (evict c0 t).index := rfl
  let c3 := upd (upd c2 t fun n => { n with key := key }) t fun n => { n with value := v }
  have hres : insertOrAssign c key v = .ok (v, { c3 with index := (key, t) :: c2.index }) := by
    unfold insertOrAssign
    rw [hf]
    have hg : getNewHead c = .ok (t, c2) := by
      unfold getNewHead
      rw [htail, deref_ok c t (bd ht)]
      simp only [bind, Except.bind]
      rw [htpred, deref_ok c p (bd hp)]
      simp only
      have g1' := g1
      simp only [c1, c0] at g1'
      rw [g1']; rfl
    simp only [bind, Except.bind, hg]
    simp [pure, Except.pure, c3, upd]
  have hperm := toFront_perm order (c.cap - 1) t ht
  have hent3 : ∀ x, c3.entries x = if x = t then
      { c2.entries x with key := key, value := v } else c2.entries x := by
    intro x; simp only [c3, upd_entries]; split <;> rfl
  -- the first part of the new used prefix
  have hk' : (toFront order (c.cap - 1) t).take (min (k + 1) c.cap) = t :: order.take (min k (c.cap - 1)) := by
    unfold toFront
    rw [show min (k + 1) c.cap = min k (c.cap - 1) + 1 by omega, List.take_succ_cons]
    congr 1
    apply List.ext_getElem?
    intro i
    rw [List.getElem?_take, List.getElem?_eraseIdx, List.getElem?_take]
    by_cases h1 : i < min k (c.cap - 1)
    · rw [if_pos h1, if_pos h1, if_pos (by omega)]
    · rw [if_neg h1, if_neg h1]
  have htn : t ∉ order.take (min k (c.cap - 1)) := by
    intro hm
    obtain ⟨i, hi⟩ := List.getElem?_of_mem hm
    rw [List.getElem?_take] at hi
    split at hi
    · have := inj hi ht; omega
    · simp at hi
  have hsub : ∀ x ∈ order.take (min k (c.cap - 1)), x ∈ order.take k := by
    intro x hx
    obtain ⟨i, hi⟩ := List.getElem?_of_mem hx
    rw [List.getElem?_take] at hi
    split at hi
    · exact mem_take hi (by omega)
    · simp at hi
  have hkeyold : ∀ x ∈ order.take (min k (c.cap - 1)), (c3.entries x).key = (c.entries x).key ∧
      (c3.entries x).value = (c.entries x).value := by
    intro x hx
    have hxt : x ≠ t := by rintro rfl; exact htn hx
    rw [hent3, if_neg hxt]
    exact g4 x
  refine ⟨_, toFront order (c.cap - 1) t, min (k + 1) c.cap, hres, ?_, ?_, g2⟩
  · constructor
    · show 2 ≤ c2.cap; rw [g2]; exact h.cap2
    · show _ = c2.cap; rw [g2, hperm.length_eq, h.len]
    · exact hperm.nodup_iff.2 h.nodup
    · intro x hx
      show x < c2.cap
      rw [g2]
      exact h.bound x (hperm.mem_iff.1 hx)
    · exact g5
    · show c2.tail = _[c2.cap - 1]?
      rw [g2]; exact g6
    · intro i x hx
      show (c3.entries x).pred = _
      rw [← g7 i x hx, hent3]
      split <;> rfl
    · intro i x hx
      show (c3.entries x).succ = _
      rw [if_neg (by omega), ← g8 i x hx, hent3]
      split <;> rfl
    · show _ ≤ c2.cap; rw [g2]; omega
    · show ((key, t) :: c2.index).Perm _
      rw [hk', List.map_cons]
      show ((key, t) :: c2.index).Perm (((c3.entries t).key, t) :: (order.take (min k (c.cap - 1))).map
        fun x => ((c3.entries x).key, x))
      rw [show (c3.entries t).key = key by rw [hent3, if_pos rfl]]
      apply List.Perm.cons
      rw [List.map_congr_left (g := fun x => ((c.entries x).key, x))
        (fun x hx => by rw [(hkeyold x hx).1])]
      rw [g3, hidx1]
      have hil := index_length c order k h
      unfold evict
      by_cases hfull : c.cap ≤ k
      · rw [if_pos (show c0.index.length ≥ c0.cap by show c.index.length ≥ c.cap; omega)]
        show (c.index.filter fun p => p.1 ≠ (c0.entries t).key).Perm _
        have hkt : (c0.entries t).key = (c.entries t).key := by
          simp only [c0, upd_entries]; split <;> rfl
        rw [hkt]
        refine (h.index.filter _).trans ?_
        rw [List.filter_map]
        rw [filter_eraseIdx (order.take k) _ (c.cap - 1) t]
        · have : (order.take k).eraseIdx (c.cap - 1) = order.take (min k (c.cap - 1)) := by
            apply List.ext_getElem?
            intro i
            rw [List.getElem?_eraseIdx, List.getElem?_take, List.getElem?_take, List.getElem?_take]
            by_cases h1 : i < c.cap - 1
            · rw [if_pos h1, if_pos (by omega), if_pos (by omega)]
            · rw [if_neg h1, if_neg (by omega), if_neg (by omega)]
          rw [this]
        · rw [List.getElem?_take, if_pos (by omega), ht]
        · simp
        · intro x hx hne
          simp only [Function.comp, ne_eq, decide_not, Bool.not_eq_eq_eq_not, Bool.not_true,
            decide_eq_false_iff_not]
          intro hc
          exact hne (keys_inj c order k h hx (mem_take ht (by omega)) hc)
        · exact h.nodup.sublist (List.take_sublist _ _)
      · rw [if_neg (show ¬ c0.index.length ≥ c0.cap by show ¬ c.index.length ≥ c.cap; omega)]
        show c.index.Perm _
        rw [show min k (c.cap - 1) = k by omega]
        exact h.index
    · rw [hk', List.map_cons]
      show ((c3.entries t).key :: (order.take (min k (c.cap - 1))).map fun x => (c3.entries x).key).Nodup
      rw [show (c3.entries t).key = key by rw [hent3, if_pos rfl]]
      rw [List.map_congr_left (g := fun x => (c.entries x).key) (fun x hx => (hkeyold x hx).1)]
      rw [List.nodup_cons]
      constructor
      · intro hm
        obtain ⟨x, hx, hxk⟩ := List.mem_map.1 hm
        exact hnk x (hsub x hx) hxk
      · have : order.take (min k (c.cap - 1)) = (order.take k).take (c.cap - 1) := by
          rw [List.take_take, Nat.min_comm]
        rw [this, List.map_take]
        exact h.keys.sublist (List.take_sublist _ _)
  · show (_ : List (K × V)) = _
    unfold abs
    rw [hk', List.map_cons]
    show ((c3.entries t).key, (c3.entries t).value) :: (order.take (min k (c.cap - 1))).map
        (fun x => ((c3.entries x).key, (c3.entries x).value)) = _
    rw [show (c3.entries t).key = key by rw [hent3, if_pos rfl],
      show (c3.entries t).value = v by rw [hent3, if_pos rfl]]
    rw [List.map_congr_left (g := fun x => ((c.entries x).key, (c.entries x).value))
      (fun x hx => by rw [(hkeyold x hx).1, (hkeyold x hx).2])]
    rw [show c.cap = (c.cap - 1) + 1 by omega, List.take_succ_cons, ← List.map_take, List.take_take]
    simp [Nat.min_comm]

/-- `InsertOrAssign` refines the abstract operation and returns the stored value. -/
theorem insertOrAssign_R (c : Cache K V) (l : List (K × V)) (h : R c l) (key : K) (v : V) :
    ∃ c', insertOrAssign c key v = .ok (v, c') ∧ R c' (Spec.Lru.insertOrAssign c.cap l key v) ∧
      c'.cap = c.cap := by
  obtain ⟨order, k, hi, rfl⟩ := h
  obtain ⟨f1, f2⟩ := find_spec c order k hi key
  cases hf : find c key with
  | none =>
    obtain ⟨c', o', k', h1, h2, h3, h4⟩ := insertNew_ok c order k hi key v hf
    refine ⟨c', h1, ?_, h4⟩
    unfold Spec.Lru.insertOrAssign
    rw [lookup_none c order k key (f2 hf)]
    exact ⟨o', k', h2, h3.symm⟩
  | some e =>
    obtain ⟨j, hjk, hj, rfl⟩ := f1 e hf
    have hme := mem_take hj hjk
    have hlt : e < c.cap := hi.bound e (List.mem_of_getElem? hj)
    have hl := lookup_some c order k hi e hme
    refine ⟨upd c e fun n => { n with value := v }, ?_, ⟨order, k, ?_, ?_⟩, rfl⟩
    · unfold insertOrAssign
      rw [hf]
      simp [bind, Except.bind, deref_ok c e hlt, pure, Except.pure, upd]
    · have hk : ∀ x, ((upd c e fun n => { n with value := v }).entries x).key = (c.entries x).key := by
        intro x; rw [upd_entries]; split <;> rfl
      have hp : ∀ x, ((upd c e fun n => { n with value := v }).entries x).pred = (c.entries x).pred := by
        intro x; rw [upd_entries]; split <;> rfl
      have hs : ∀ x, ((upd c e fun n => { n with value := v }).entries x).succ = (c.entries x).succ := by
        intro x; rw [upd_entries]; split <;> rfl
      constructor
      · exact hi.cap2
      · exact hi.len
      · exact hi.nodup
      · exact hi.bound
      · exact hi.head
      · exact hi.tail
      · intro i x hx; rw [hp]; exact hi.pred i x hx
      · intro i x hx; rw [hs]; exact hi.succ i x hx
      · exact hi.used
      · simp only [hk]; exact hi.index
      · simp only [hk]; exact hi.keys
    · unfold Spec.Lru.insertOrAssign
      rw [hl]
      show (List.map _ (abs c order k)) = _
      unfold abs
      rw [List.map_map]
      apply List.map_congr_left
      intro x hx
      simp only [Function.comp, upd_entries]
      by_cases hxe : x = e
      · subst hxe; simp
      · rw [if_neg hxe, if_neg (fun hc => hxe (keys_inj c order k hi hx hme hc))]

/-- `GetOrInsert` refines the abstract operation. -/
theorem getOrInsert_R (c : Cache K V) (l : List (K × V)) (h : R c l) (key : K) (make : Unit → V) :
    ∃ c', getOrInsert c key make = .ok ((Spec.Lru.getOrInsert c.cap l key make).1, c') ∧
      R c' (Spec.Lru.getOrInsert c.cap l key make).2 ∧ c'.cap = c.cap := by
  obtain ⟨c1, h1, h2, h3⟩ := get_R c l h key
  unfold getOrInsert Spec.Lru.getOrInsert
  rw [h1]
  cases hg : Spec.Lru.get l key with
  | mk o l' =>
    rw [hg] at h2
    cases o with
    | some v => exact ⟨c1, rfl, h2, h3⟩
    | none =>
      obtain ⟨c2, g1, g2, g3⟩ := insertOrAssign_R c1 l' h2 key (make ())
      refine ⟨c2, ?_, ?_, by rw [g3, h3]⟩
      · simp [bind, Except.bind, g1]
      · rw [← h3]; exact g2

end Tosca.Proofs.Lru

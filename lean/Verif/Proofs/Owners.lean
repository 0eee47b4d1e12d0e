import Verif.Model.Owners
import Verif.Proofs.Lru

/-!
# Reference counts of code analyses
-/

namespace Tosca.Proofs.Owners

open Tosca.Model Tosca.Model.Owners Tosca.Proofs.Lru

variable {K V : Type} [DecidableEq K]

set_option linter.unusedSectionVars false

/-! ### Which node values the cache operations change -/

/-- Same capacity and node values. -/
def SameVals (c c' : Lru.Cache K V) : Prop := c'.cap = c.cap ∧ ∀ i, (c'.entries i).value = (c.entries i).value

theorem SameVals.trans {a b c : Lru.Cache K V} (h : SameVals a b) (h' : SameVals b c) : SameVals a c :=
  ⟨h'.1.trans h.1, fun i => (h'.2 i).trans (h.2 i)⟩

theorem sv_refl (c : Lru.Cache K V) : SameVals c c := ⟨rfl, fun _ => rfl⟩

theorem sv_upd (c : Lru.Cache K V) (i : Nat) (f : Lru.Entry K V → Lru.Entry K V) (hf : ∀ e, (f e).value = e.value) :
    SameVals c (Lru.upd c i f) := by
  refine ⟨rfl, fun j => ?_⟩
  show (if j = i then f (c.entries j) else c.entries j).value = _
  split
  · exact hf _
  · rfl

theorem sv_upd' {a c : Lru.Cache K V} {i : Nat} {f : Lru.Entry K V → Lru.Entry K V} (h : SameVals a c)
    (hf : ∀ e, (f e).value = e.value) : SameVals a (Lru.upd c i f) := h.trans (sv_upd c i f hf)

theorem sv_with {a c : Lru.Cache K V} (h : SameVals a c) (idx : List (K × Nat)) (hd tl : Option Nat) :
    SameVals a { cap := c.cap, entries := c.entries, index := idx, head := hd, tail := tl } := ⟨h.1, h.2⟩

theorem sv_link {c c' : Lru.Cache K V} {e : Nat} (h : Lru.linkAsHead c e = .ok c') : SameVals c c' := by
  unfold Lru.linkAsHead at h
  simp only [bind, Except.bind, pure, Except.pure] at h
  split at h
  · cases h
  · cases h
    refine sv_with ?_ _ _ _
    refine sv_upd' ?_ ?_
    · refine sv_upd' ?_ ?_
      · refine sv_upd' (sv_refl c) ?_
        intro e; rfl
      · intro e; rfl
    · intro e; rfl

theorem sv_touch {c c' : Lru.Cache K V} {e : Nat} (h : Lru.touch c e = .ok c') : SameVals c c' := by
  unfold Lru.touch at h
  split at h
  · cases h; exact sv_refl c
  · simp only [bind, Except.bind] at h
    split at h
    · cases h
    · split at h
      · split at h
        · cases h
        · refine SameVals.trans ?_ (sv_link h)
          refine sv_upd' ?_ ?_
          · refine sv_upd' (sv_refl c) ?_
            intro e; rfl
          · intro e; rfl
      · refine SameVals.trans ?_ (sv_link h)
        refine sv_with ?_ _ _ _
        refine sv_upd' (sv_refl c) ?_
        intro e; rfl

theorem sv_get {c c' : Lru.Cache K V} {k : K} {r : Option V} (h : Lru.get c k = .ok (r, c')) : SameVals c c' := by
  unfold Lru.get at h
  split at h
  · simp only [bind, Except.bind, pure, Except.pure] at h
    split at h
    · cases h
    · split at h
      · cases h
      · rename_i ht
        cases h
        exact sv_touch ht
  · cases h; exact sv_refl c

theorem sv_evict {a c : Lru.Cache K V} {t : Nat} (h : SameVals a c) : SameVals a (Lru.evict c t) := by
  unfold Lru.evict
  split
  · exact sv_with h _ _ _
  · exact h

theorem sv_newHead {c c' : Lru.Cache K V} {e : Nat} (h : Lru.getNewHead c = .ok (e, c')) :
    SameVals c c' ∧ Lru.deref c c.tail = .ok e := by
  unfold Lru.getNewHead at h
  simp only [bind, Except.bind, pure, Except.pure] at h
  split at h
  · cases h
  · rename_i t ht
    split at h
    · cases h
    · split at h
      · cases h
      · rename_i hl
        cases h
        refine ⟨SameVals.trans ?_ (sv_link hl), ht⟩
        refine sv_with ?_ _ _ _
        refine sv_evict ?_
        refine sv_upd' (sv_refl c) ?_
        intro e; rfl

theorem deref_lt {c : Lru.Cache K V} {p : Option Nat} {e : Nat} (h : Lru.deref c p = .ok e) : e < c.cap ∧ p = some e := by
  unfold Lru.deref at h
  split at h
  · cases h
  · split at h
    · cases h; exact ⟨by assumption, rfl⟩
    · cases h

theorem nodes_upd (c : Lru.Cache U256 (Option Nat)) (e : Nat) (v : Option Nat) {c' : Lru.Cache U256 (Option Nat)} (hcap : c'.cap = c.cap)
    (h : ∀ i, (c'.entries i).value = if i = e then v else (c.entries i).value) : nodes c' = (nodes c).set e v := by
  unfold nodes
  rw [hcap]
  refine List.ext_getElem? fun i => ?_
  rw [List.getElem?_set]
  by_cases hi : i < c.cap
  · simp only [List.getElem?_map, List.getElem?_range hi, Option.map_some, h, List.length_map, List.length_range]
    by_cases he : i = e
    · subst he; simp [hi]
    · rw [if_neg he, if_neg (Ne.symm he)]
  · simp only [List.getElem?_map, List.getElem?_eq_none (l := List.range c.cap) (i := i) (by simpa using hi), Option.map_none, List.length_map, List.length_range]
    split
    · rw [if_neg (by omega)]
    · rfl

theorem nodes_same {c c' : Lru.Cache U256 (Option Nat)} (h : SameVals c c') : nodes c' = nodes c := by
  unfold nodes; rw [h.1]; exact List.map_congr_left fun i _ => h.2 i

theorem nodes_insert {c c' : Lru.Cache U256 (Option Nat)} {k : U256} {v r : Option Nat}
    (h : Lru.insertOrAssign c k v = .ok (r, c')) :
    r = v ∧ ∃ e old, e < c.cap ∧ overwritten c k = .ok old ∧ (nodes c)[e]? = some old ∧ nodes c' = (nodes c).set e v := by
  have hnode : ∀ e, e < c.cap → (nodes c)[e]? = some (c.entries e).value := by
    intro e he
    unfold nodes
    rw [List.getElem?_map, List.getElem?_range he]; rfl
  unfold Lru.insertOrAssign at h
  unfold overwritten
  split at h
  · rename_i e hf
    simp only [bind, Except.bind, pure, Except.pure] at h ⊢
    rw [hf]
    dsimp only
    cases hd : Lru.deref c (some e) with
    | error x => rw [hd] at h; cases h
    | ok e' =>
      rw [hd] at h
      have := deref_lt hd
      cases h
      refine ⟨by simp [Lru.upd], e', _, this.1, rfl, hnode _ this.1, nodes_upd _ _ _ rfl fun i => ?_⟩
      show (if i = e' then _ else c.entries i).value = _
      split <;> rfl
  · rename_i hf
    simp only [bind, Except.bind, pure, Except.pure] at h ⊢
    rw [hf]
    dsimp only
    split at h
    · cases h
    · rename_i x hn
      obtain ⟨e, c1⟩ := x
      obtain ⟨hs, ht⟩ := sv_newHead hn
      cases h
      have hlt := (deref_lt ht).1
      rw [ht]
      refine ⟨by simp [Lru.upd], e, _, hlt, rfl, hnode _ hlt, nodes_upd _ _ _ hs.1 fun i => ?_⟩
      show (if i = e then _ else (if i = e then _ else c1.entries i)).value = _
      by_cases hi : i = e
      · subst hi; simp
      · simp only [if_neg hi]; exact hs.2 i

theorem get_node {c c' : Lru.Cache U256 (Option Nat)} {k : U256} {v : Option Nat}
    (h : Lru.get c k = .ok (some v, c')) : v ∈ nodes c := by
  rw [← nodes_same (sv_get h)]
  unfold Lru.get at h
  split at h
  · simp only [bind, Except.bind, pure, Except.pure] at h
    split at h
    · cases h
    · rename_i e hd
      split at h
      · cases h
      · rename_i ht
        cases h
        unfold nodes
        refine List.mem_map.2 ⟨e, List.mem_range.2 ?_, rfl⟩
        rw [(sv_touch ht).1]
        exact (deref_lt hd).1
  · cases h

/-! ### The heap -/

/-- The object at an address, alive or not. -/
def infoAt (h : Heap) (p : Nat) : Option ContractInfo := h[p]?.map (·.1)

theorem count_pos {h : Heap} {p : Nat} (hp : 0 < count h p) : ∃ info, h[p]? = some (info, count h p) := by
  unfold count at hp ⊢
  split at hp
  · rename_i info n hh
    exact ⟨info, hh⟩
  · exact absurd hp (Nat.lt_irrefl 0)

theorem look_ok {h : Heap} {p : Nat} (hp : 0 < count h p) : ∃ info, look h p = .ok info ∧ infoAt h p = some info := by
  obtain ⟨info, hi⟩ := count_pos hp
  refine ⟨info, ?_, by rw [infoAt, hi]; rfl⟩
  unfold look
  rw [hi]
  exact if_neg (Nat.ne_of_gt hp)

theorem look_iff {h : Heap} {p : Nat} : (∃ info, look h p = .ok info) ↔ 0 < count h p := by
  constructor
  · rintro ⟨info, hl⟩
    unfold look at hl
    unfold count
    split at hl
    · rename_i hh
      split at hl
      · cases hl
      · exact Nat.pos_of_ne_zero (by assumption)
    · cases hl
  · intro hp
    obtain ⟨info, hl, _⟩ := look_ok hp
    exact ⟨info, hl⟩

theorem count_set {h : Heap} {p n : Nat} {info : ContractInfo} (hp : p < h.length) (q : Nat) :
    count (h.set p (info, n)) q = if q = p then n else count h q := by
  unfold count
  rw [List.getElem?_set]
  by_cases hq : p = q
  · subst hq; simp [hp]
  · rw [if_neg hq, if_neg (Ne.symm hq)]

theorem infoAt_set {h : Heap} {p n : Nat} {info : ContractInfo} (hp : infoAt h p = some info) (q : Nat) :
    infoAt (h.set p (info, n)) q = infoAt h q := by
  unfold infoAt at hp ⊢
  rw [List.getElem?_set]
  by_cases hq : p = q
  · subst hq
    rw [if_pos rfl]
    split
    · exact hp.symm
    · rename_i hlt
      rw [List.getElem?_eq_none (by omega)] at hp
      cases hp
  · rw [if_neg hq]

theorem lt_of_count {h : Heap} {p : Nat} (hp : 0 < count h p) : p < h.length := by
  obtain ⟨info, hi⟩ := count_pos hp
  exact (List.getElem?_eq_some_iff.1 hi).1

theorem copy_ok {h : Heap} {p : Nat} (hp : 0 < count h p) : ∃ h', copy h p = .ok h' ∧
    (∀ q, count h' q = count h q + if q = p then 1 else 0) ∧ ∀ q, infoAt h' q = infoAt h q := by
  obtain ⟨info, hl, hi⟩ := look_ok hp
  refine ⟨h.set p (info, count h p + 1), ?_, fun q => ?_, fun q => infoAt_set hi q⟩
  · unfold copy; rw [hl]; rfl
  · rw [count_set (lt_of_count hp)]
    split
    · rename_i e; rw [e]
    · rfl

theorem drop_ok {h : Heap} {p : Nat} (hp : 0 < count h p) : ∃ h', drop h p = .ok h' ∧
    (∀ q, count h q = count h' q + if q = p then 1 else 0) ∧ ∀ q, infoAt h' q = infoAt h q := by
  obtain ⟨info, hl, hi⟩ := look_ok hp
  refine ⟨h.set p (info, count h p - 1), ?_, fun q => ?_, fun q => infoAt_set hi q⟩
  · unfold drop; rw [hl]; rfl
  · rw [count_set (lt_of_count hp)]
    split
    · rename_i e; rw [e]; omega
    · rfl

theorem dropOpt_ok {h : Heap} {o : Option Nat} (hp : ∀ p, o = some p → 0 < count h p) : ∃ h', dropOpt h o = .ok h' ∧
    (∀ q, count h q = count h' q + if o = some q then 1 else 0) ∧ ∀ q, infoAt h' q = infoAt h q := by
  cases o with
  | none => exact ⟨h, rfl, fun q => by simp, fun _ => rfl⟩
  | some p =>
    obtain ⟨h', h1, h2, h3⟩ := drop_ok (hp p rfl)
    refine ⟨h', h1, fun q => ?_, h3⟩
    rw [h2 q]
    by_cases hq : q = p
    · subst hq; simp
    · rw [if_neg hq, if_neg (fun he => hq (Option.some.inj he).symm)]

theorem count_make (h : Heap) (info : ContractInfo) (q : Nat) :
    count (make h info).2 q = count h q + if q = h.length then 1 else 0 := by
  unfold make count
  dsimp only
  rw [List.getElem?_append]
  by_cases hq : q < h.length
  · rw [if_pos hq, if_neg (by omega)]; rfl
  · rw [if_neg hq, List.getElem?_eq_none (l := h) (by omega)]
    by_cases he : q = h.length
    · subst he; simp
    · rw [if_neg he, List.getElem?_eq_none (by simp; omega)]

theorem infoAt_make (h : Heap) (info : ContractInfo) (q : Nat) :
    infoAt (make h info).2 q = if q = h.length then some info else infoAt h q := by
  unfold make infoAt
  dsimp only
  rw [List.getElem?_append]
  by_cases hq : q < h.length
  · rw [if_pos hq, if_neg (by omega)]
  · rw [if_neg hq, List.getElem?_eq_none (l := h) (i := q) (by omega)]
    by_cases he : q = h.length
    · subst he; simp
    · rw [if_neg he, List.getElem?_eq_none (by simp; omega)]

/-! ### The invariant -/

/-- The pointer a call owns. -/
def holds : Call → Option Nat
  | .inserting _ p => some p
  | .running p => some p
  | .ended => none

/-- The number of owners of an object. -/
def owners (s : State) (p : Nat) : Nat :=
  (nodes s.cache).countP (· = some p) + (s.calls.map holds).countP (· = some p)

theorem countP_set' {α : Type} (P : α → Bool) {l : List α} {i : Nat} {b : α} (h : l[i]? = some b) (a : α) :
    (l.set i a).countP P + (if P b then 1 else 0) = l.countP P + if P a then 1 else 0 := by
  obtain ⟨hi, rfl⟩ := List.getElem?_eq_some_iff.1 h
  rw [List.countP_set hi]
  have : (if P l[i] then 1 else 0) ≤ l.countP P := by
    split
    · rename_i hp
      exact List.countP_pos_iff.2 ⟨l[i], List.getElem_mem hi, hp⟩
    · exact Nat.zero_le _
  omega

structure Inv (codeOf : U256 → List Byte) (codes : List (List Byte)) (s : State) : Prop where
  ref : ∀ p, count s.heap p = owners s p
  cap : 2 ≤ s.cache.cap
  cached : ∃ l, R s.cache l ∧ ∀ h v, (h, v) ∈ l → ∃ p, v = some p ∧ infoAt s.heap p = some (computeContractInfo (codeOf h))
  len : s.calls.length = codes.length
  calls : ∀ (i : Nat) (cl : Call) (p : Nat), s.calls[i]? = some cl → holds cl = some p → ∃ code, codes[i]? = some code ∧ infoAt s.heap p = some (computeContractInfo code)
  ins : ∀ (i : Nat) (h : U256) (p : Nat), s.calls[i]? = some (.inserting h p) → codes[i]? = some (codeOf h)

theorem owner_call {s : State} {i : Nat} {cl : Call} {p : Nat} (h : s.calls[i]? = some cl) (hp : holds cl = some p) :
    0 < owners s p := by
  unfold owners
  have : 0 < (s.calls.map holds).countP (· = some p) :=
    List.countP_pos_iff.2 ⟨some p, List.mem_map.2 ⟨cl, List.mem_of_getElem? h, hp⟩, by simp⟩
  omega

theorem owner_node {s : State} {p : Nat} (h : some p ∈ nodes s.cache) : 0 < owners s p := by
  unfold owners
  have : 0 < (nodes s.cache).countP (· = some p) := List.countP_pos_iff.2 ⟨some p, h, by simp⟩
  omega

theorem owners_pos {s : State} {p : Nat} :
    0 < owners s p ↔ some p ∈ nodes s.cache ∨ ∃ (i : Nat) (cl : Call), s.calls[i]? = some cl ∧ holds cl = some p := by
  constructor
  · intro h
    unfold owners at h
    by_cases h1 : 0 < (nodes s.cache).countP (· = some p)
    · obtain ⟨a, ha, he⟩ := List.countP_pos_iff.1 h1
      rw [of_decide_eq_true he] at ha
      exact Or.inl ha
    · obtain ⟨a, ha, he⟩ := List.countP_pos_iff.1 (show 0 < (s.calls.map holds).countP (· = some p) by omega)
      rw [of_decide_eq_true he] at ha
      obtain ⟨cl, hm, hc⟩ := List.mem_map.1 ha
      obtain ⟨i, hi⟩ := List.getElem?_of_mem hm
      exact Or.inr ⟨i, cl, hi, hc⟩
  · rintro (h | ⟨i, cl, h1, h2⟩)
    · exact owner_node h
    · exact owner_call h1 h2

theorem mem_of_lookup {l : List (U256 × Option Nat)} {k : U256} {v : Option Nat}
    (h : Spec.Lru.lookup l k = some v) : (k, v) ∈ l := by
  unfold Spec.Lru.lookup at h
  cases hf : l.find? (fun p => p.1 = k) with
  | none => rw [hf] at h; cases h
  | some e =>
    rw [hf] at h
    have h1 := List.mem_of_find?_eq_some hf
    have h2 := List.find?_some hf
    obtain ⟨a, b⟩ := e
    cases h
    rw [← of_decide_eq_true h2]
    exact h1

theorem mem_get {l : List (U256 × Option Nat)} {k h : U256} {v : Option Nat} (hm : (h, v) ∈ (Spec.Lru.get l k).2) :
    (h, v) ∈ l := by
  unfold Spec.Lru.get at hm
  split at hm
  · rename_i v' hl
    rcases List.mem_cons.1 hm with he | he
    · cases he; exact mem_of_lookup hl
    · exact (List.mem_filter.1 he).1
  · exact hm

theorem get_fst {l : List (U256 × Option Nat)} {k : U256} {v : Option Nat} (h : (Spec.Lru.get l k).1 = some v) :
    (k, v) ∈ l := by
  unfold Spec.Lru.get at h
  split at h
  · rename_i v' hl
    cases h
    exact mem_of_lookup hl
  · cases h

theorem mem_insert {cap : Nat} {l : List (U256 × Option Nat)} {k h : U256} {v w : Option Nat}
    (hm : (h, v) ∈ Spec.Lru.insertOrAssign cap l k w) : (h, v) ∈ l ∨ (h = k ∧ v = w) := by
  unfold Spec.Lru.insertOrAssign at hm
  split at hm
  · obtain ⟨p, hp, he⟩ := List.mem_map.1 hm
    split at he
    · cases he; exact Or.inr ⟨rfl, rfl⟩
    · rw [← he]; exact Or.inl hp
  · rcases List.mem_cons.1 (List.mem_of_mem_take hm) with he | he
    · cases he; exact Or.inr ⟨rfl, rfl⟩
    · exact Or.inl he

/-- Only the calls that start the cache under the right hash. -/
def ActOk (codeOf : U256 → List Byte) : Action → Prop
  | .start (some h) code => codeOf h = code
  | _ => True

/-- The codes of the calls started by an action. -/
def startedOf : Action → List (List Byte)
  | .start _ code => [code]
  | _ => []

theorem getElem?_snoc {α : Type} {l : List α} {a b : α} {i : Nat} (h : (l ++ [a])[i]? = some b) :
    l[i]? = some b ∨ (i = l.length ∧ b = a) := by
  rw [List.getElem?_append] at h
  split at h
  · exact Or.inl h
  · rename_i hlt
    by_cases hi : i - l.length = 0
    · rw [hi] at h
      cases h
      exact Or.inr ⟨by omega, rfl⟩
    · rw [List.getElem?_eq_none (by simp; omega)] at h
      cases h

theorem snoc_left {α : Type} {l : List α} {a b : α} {i : Nat} (h : l[i]? = some b) : (l ++ [a])[i]? = some b := by
  rw [List.getElem?_append, if_pos (List.getElem?_eq_some_iff.1 h).1, h]

theorem snoc_last {α : Type} (l : List α) (a : α) {n : Nat} (h : n = l.length) : (l ++ [a])[n]? = some a := by
  subst h; simp

theorem getElem?_set' {α : Type} {l : List α} {a b : α} {i j : Nat} (h : (l.set i a)[j]? = some b) :
    (j ≠ i ∧ l[j]? = some b) ∨ (j = i ∧ b = a) := by
  rw [List.getElem?_set] at h
  by_cases hi : i = j
  · rw [if_pos hi] at h
    split at h
    · cases h; exact Or.inr ⟨hi.symm, rfl⟩
    · cases h
  · rw [if_neg hi] at h
    exact Or.inl ⟨Ne.symm hi, h⟩

theorem holders_snoc (l : List Call) (c : Call) (p q : Nat) (h : holds c = some p) :
    ((l ++ [c]).map holds).countP (· = some q) = (l.map holds).countP (· = some q) + if q = p then 1 else 0 := by
  rw [List.map_append, List.countP_append]
  simp only [List.map_cons, List.map_nil, h, List.countP_singleton]
  by_cases hq : q = p
  · subst hq; simp
  · simp [hq, Ne.symm hq]

/-- A call starts and owns `p`, whose count has grown by one. -/
theorem inv_start {codeOf : U256 → List Byte} {codes : List (List Byte)} {s : State} (hi : Inv codeOf codes s)
    {heap : Heap} {cache : Lru.Cache U256 (Option Nat)} {cl : Call} {p : Nat} {code : List Byte} (hcl : holds cl = some p)
    (hcount : ∀ q, count heap q = count s.heap q + if q = p then 1 else 0)
    (hinfo : ∀ q info, infoAt s.heap q = some info → infoAt heap q = some info)
    (hp : infoAt heap p = some (computeContractInfo code))
    (hins : ∀ h q, cl = .inserting h q → code = codeOf h)
    (hnodes : nodes cache = nodes s.cache) (hcap : cache.cap = s.cache.cap)
    (hR : ∃ l, R cache l ∧ ∀ h v, (h, v) ∈ l → ∃ p, v = some p ∧ infoAt s.heap p = some (computeContractInfo (codeOf h))) :
    Inv codeOf (codes ++ [code]) { heap := heap, cache := cache, calls := s.calls ++ [cl] } := by
  refine ⟨fun q => ?_, by rw [hcap]; exact hi.cap, ?_, by simp [hi.len], ?_, ?_⟩
  · rw [hcount, hi.ref]
    unfold owners
    dsimp only
    rw [hnodes, holders_snoc _ _ p q hcl]
    omega
  · obtain ⟨l, h1, h2⟩ := hR
    refine ⟨l, h1, fun h v hm => ?_⟩
    obtain ⟨p, e1, e2⟩ := h2 h v hm
    exact ⟨p, e1, hinfo _ _ e2⟩
  · intro i c q h1 h2
    rcases getElem?_snoc h1 with h | ⟨h, he⟩
    · obtain ⟨cd, e1, e2⟩ := hi.calls i c q h h2
      exact ⟨cd, snoc_left e1, hinfo _ _ e2⟩
    · subst he
      rw [hcl] at h2
      cases h2
      exact ⟨code, snoc_last _ _ (h.trans hi.len), hp⟩
  · intro i h q h1
    rcases getElem?_snoc h1 with h' | ⟨h', he⟩
    · exact snoc_left (hi.ins i h q h')
    · rw [← hins h q he.symm]
      exact snoc_last _ _ (h'.trans hi.len)

theorem exec_inv {codeOf : U256 → List Byte} {codes : List (List Byte)} {s : State} (hi : Inv codeOf codes s)
    (a : Action) (ha : ActOk codeOf a) : ∃ s', exec s a = .ok s' ∧ Inv codeOf (codes ++ startedOf a) s' := by
  obtain ⟨l, hR, hl⟩ := hi.cached
  cases a with
  | start hash code =>
    have hmk : ∀ q info, infoAt s.heap q = some info → infoAt (make s.heap (computeContractInfo code)).2 q = some info := by
      intro q info hq
      rw [infoAt_make]
      split
      · rename_i he
        subst he
        rw [infoAt, List.getElem?_eq_none (Nat.le_refl _)] at hq
        cases hq
      · exact hq
    have hnew : infoAt (make s.heap (computeContractInfo code)).2 s.heap.length = some (computeContractInfo code) := by
      rw [infoAt_make, if_pos rfl]
    cases hash with
    | none =>
      refine ⟨_, rfl, inv_start hi (cl := .running s.heap.length) rfl (count_make s.heap _) hmk hnew ?_ rfl rfl hi.cached⟩
      intro h q he; cases he
    | some h =>
      have hcode : codeOf h = code := ha
      obtain ⟨c', hg, hR', hcap⟩ := get_R s.cache l hR h
      have hsv := sv_get hg
      have hR'' : ∃ l, R c' l ∧ ∀ h v, (h, v) ∈ l → ∃ p, v = some p ∧ infoAt s.heap p = some (computeContractInfo (codeOf h)) :=
        ⟨_, hR', fun h v hm => hl h v (mem_get hm)⟩
      simp only [exec, bind, Except.bind, hg]
      cases hr : (Spec.Lru.get l h).1 with
      | none =>
        refine ⟨_, rfl, inv_start hi (cl := .inserting h s.heap.length) rfl (count_make s.heap _) hmk hnew ?_ (nodes_same hsv) hcap hR''⟩
        intro h' q he; cases he; exact hcode.symm
      | some v =>
        rw [hr] at hg
        obtain ⟨p, hv, hinf⟩ := hl h v (get_fst hr)
        subst hv
        have hpos : 0 < count s.heap p := by rw [hi.ref]; exact owner_node (get_node hg)
        obtain ⟨heap, hc, hcnt, hinfo⟩ := copy_ok hpos
        simp only [hc]
        refine ⟨_, rfl, inv_start hi (cl := .running p) rfl hcnt (fun q info hq => by rw [hinfo]; exact hq) ?_ ?_ (nodes_same hsv) hcap hR''⟩
        · rw [hinfo, hinf, hcode]
        · intro h' q he; cases he
  | insert i =>
    simp only [startedOf, List.append_nil, exec]
    split
    · rename_i h p hcall
      obtain ⟨c', hg, hR', hcap⟩ := insertOrAssign_R s.cache l hR h (some p)
      obtain ⟨_, e, old, he, hov, hold, hnodes⟩ := nodes_insert hg
      simp only [bind, Except.bind, hov, hg]
      obtain ⟨h1, hd, hdc, hdi⟩ := dropOpt_ok (h := s.heap) (o := old) (by
        intro q hq
        rw [hi.ref]
        exact owner_node (hq ▸ List.mem_of_getElem? hold))
      simp only [hd]
      have hcnt : ∀ q, owners s q + (if q = p then 1 else 0) = (nodes c').countP (· = some q) + (s.calls.map holds).countP (· = some q) + if old = some q then 1 else 0 := by
        intro q
        unfold owners
        rw [hnodes]
        have := countP_set' (· = some q) hold (some p)
        have e1 : (if decide (old = some q) = true then 1 else 0) = (if old = some q then 1 else 0) := by simp
        have e2 : (if decide (some p = some q) = true then 1 else 0) = (if q = p then 1 else 0) := by
          by_cases hq : q = p
          · subst hq; simp
          · simp [hq, Ne.symm hq]
        rw [e1, e2] at this
        omega
      have hpos : 0 < count h1 p := by
        have h2 := hdc p
        have h3 := hcnt p
        rw [hi.ref] at h2
        have h4 : 0 < (s.calls.map holds).countP (· = some p) :=
          List.countP_pos_iff.2 ⟨some p, List.mem_map.2 ⟨_, List.mem_of_getElem? hcall, rfl⟩, by simp⟩
        have h5 : 0 < (nodes c').countP (· = some p) := by
          refine List.countP_pos_iff.2 ⟨some p, ?_, by simp⟩
          rw [hnodes]
          exact List.mem_set (List.getElem?_eq_some_iff.1 hold).1 _
        rw [if_pos rfl] at h3
        omega
      obtain ⟨h2, hc, hcc, hci⟩ := copy_ok hpos
      simp only [hc]
      have hinfo : ∀ q, infoAt h2 q = infoAt s.heap q := fun q => (hci q).trans (hdi q)
      obtain ⟨code, hcode, hpi⟩ := hi.calls i _ p hcall rfl
      have hcodeOf := hi.ins i h p hcall
      refine ⟨_, rfl, fun q => ?_, by dsimp only; rw [hcap]; exact hi.cap, ?_, ?_, ?_, ?_⟩
      · dsimp only
        rw [hcc]
        have h2 := hdc q
        have h3 := hcnt q
        rw [hi.ref] at h2
        unfold owners at h2 h3 ⊢
        dsimp only
        have h4 : ((s.calls.set i (.running p)).map holds) = s.calls.map holds := by
          rw [List.map_set]
          refine List.ext_getElem? fun j => ?_
          rw [List.getElem?_set]
          split
          · rename_i hj
            subst hj
            rw [List.getElem?_map, hcall]
            rw [List.length_map, if_pos (List.getElem?_eq_some_iff.1 hcall).1]; rfl
          · rfl
        rw [h4]
        omega
      · refine ⟨_, hR', fun h' v hm => ?_⟩
        rcases mem_insert hm with hm | ⟨e1, e2⟩
        · obtain ⟨q, e1, e2⟩ := hl h' v hm
          exact ⟨q, e1, by rw [hinfo]; exact e2⟩
        · subst e1; subst e2
          refine ⟨p, rfl, ?_⟩
          rw [hinfo, hpi]
          rw [hcode] at hcodeOf
          cases hcodeOf
          rfl
      · simp [hi.len]
      · intro j c q hj hq
        rcases getElem?_set' hj with ⟨_, hj⟩ | ⟨hj, hb⟩
        · obtain ⟨cd, e1, e2⟩ := hi.calls j c q hj hq
          exact ⟨cd, e1, by rw [hinfo]; exact e2⟩
        · subst hj; subst hb; cases hq
          exact ⟨code, hcode, by rw [hinfo]; exact hpi⟩
      · intro j h' q hj
        rcases getElem?_set' hj with ⟨_, hj⟩ | ⟨_, hb⟩
        · exact hi.ins j h' q hj
        · cases hb
    · exact ⟨s, rfl, hi⟩
  | finish i =>
    simp only [startedOf, List.append_nil, exec]
    split
    · rename_i p hcall
      have hpos : 0 < count s.heap p := by rw [hi.ref]; exact owner_call hcall rfl
      obtain ⟨h1, hd, hdc, hinfo⟩ := drop_ok hpos
      simp only [bind, Except.bind, hd]
      refine ⟨_, rfl, fun q => ?_, hi.cap, ?_, ?_, ?_, ?_⟩
      · have h2 := hdc q
        rw [hi.ref] at h2
        unfold owners at h2 ⊢
        dsimp only
        have hc : (s.calls.map holds)[i]? = some (some p) := by rw [List.getElem?_map, hcall]; rfl
        have h3 := countP_set' (· = some q) hc (holds .ended)
        rw [← List.map_set] at h3
        have e1 : (if decide (holds .ended = some q) = true then 1 else 0) = 0 := by simp [holds]
        have e2 : (if decide (some p = some q) = true then 1 else 0) = (if q = p then 1 else 0) := by
          by_cases hq : q = p
          · subst hq; simp
          · simp [hq, Ne.symm hq]
        rw [e1, e2] at h3
        omega
      · refine ⟨l, hR, fun h' v hm => ?_⟩
        obtain ⟨q, e1, e2⟩ := hl h' v hm
        exact ⟨q, e1, by rw [hinfo]; exact e2⟩
      · simp [hi.len]
      · intro j c q hj hq
        rcases getElem?_set' hj with ⟨_, hj⟩ | ⟨hj, hb⟩
        · obtain ⟨cd, e1, e2⟩ := hi.calls j c q hj hq
          exact ⟨cd, e1, by rw [hinfo]; exact e2⟩
        · subst hb; cases hq
      · intro j h' q hj
        rcases getElem?_set' hj with ⟨_, hj⟩ | ⟨_, hb⟩
        · exact hi.ins j h' q hj
        · cases hb
    · exact ⟨s, rfl, hi⟩

theorem execAll_inv {codeOf : U256 → List Byte} : ∀ (as : List Action) {codes : List (List Byte)} {s : State}, Inv codeOf codes s →
    (∀ a ∈ as, ActOk codeOf a) → ∃ s', execAll s as = .ok s' ∧ Inv codeOf (codes ++ as.flatMap startedOf) s'
  | [], codes, s, hi, _ => ⟨s, rfl, by simpa using hi⟩
  | a :: as, codes, s, hi, ha => by
    obtain ⟨s1, h1, i1⟩ := exec_inv hi a (ha a (List.mem_cons_self ..))
    obtain ⟨s2, h2, i2⟩ := execAll_inv as i1 fun b hb => ha b (List.mem_cons_of_mem _ hb)
    refine ⟨s2, ?_, ?_⟩
    · simp only [execAll, bind, Except.bind, h1, h2]
    · rw [List.flatMap_cons, ← List.append_assoc]; exact i2

theorem init_inv (codeOf : U256 → List Byte) {c : Lru.Cache U256 (Option Nat)} {dk : U256} {cap : Nat} (hcap : 2 ≤ cap)
    (h : Lru.clear cap dk none = .ok c) : Inv codeOf [] { cache := c } := by
  obtain ⟨c', h1, hR, hc⟩ := clear_R cap dk (none : Option Nat) hcap
  rw [h] at h1
  cases h1
  refine ⟨fun p => ?_, by dsimp only; rw [hc]; exact hcap, ⟨[], hR, fun h v hm => (List.not_mem_nil hm).elim⟩, rfl, ?_, ?_⟩
  · unfold owners nodes
    unfold Lru.clear at h
    split at h
    · cases h
    · cases h
      dsimp only
      have : (List.map (fun i : Nat => (none : Option Nat)) (List.range cap)).countP (· = some p) = 0 := by
        rw [List.countP_eq_zero]
        intro a ha
        obtain ⟨_, _, rfl⟩ := List.mem_map.1 ha
        simp
      rw [this]
      simp [count]
  · intro i cl p h; simp at h
  · intro i h p hh; simp at hh

theorem dropAll_ok : ∀ (ps : List (Option Nat)) {h : Heap}, (∀ p, count h p = ps.countP (· = some p)) →
    ∃ h', dropAll h ps = .ok h' ∧ ∀ p, count h' p = 0
  | [], h, hc => ⟨h, rfl, fun p => by rw [hc]; rfl⟩
  | o :: ps, h, hc => by
    obtain ⟨h1, hd, hdc, _⟩ := dropOpt_ok (h := h) (o := o) (by
      intro p hp
      rw [hc, List.countP_cons, if_pos (by simpa using hp)]
      omega)
    obtain ⟨h2, he, hz⟩ := dropAll_ok ps (h := h1) (by
      intro p
      have e1 := hdc p
      rw [hc, List.countP_cons] at e1
      have e2 : (if decide (o = some p) = true then 1 else 0) = (if o = some p then 1 else 0) := by simp
      rw [e2] at e1
      omega)
    refine ⟨h2, ?_, hz⟩
    simp only [dropAll, bind, Except.bind, hd, he]

end Tosca.Proofs.Owners

import Verif.Proofs.StackPool

namespace Tosca.Proofs.StackPool

open Tosca.Model (M UB Stack)
open Tosca.Model.Pool
open Tosca.Spec.PoolView
open Tosca.Stacks (Op Out)
open Tosca.Spec.Stacks (Objects)

/-- A stack value holds a list of words. -/
structure Has (x : Stack) (l : List U256) : Prop where
  top : x.top = 1024 - (l.length : Int)
  le : l.length ≤ 1024
  get : ∀ i (h : i < l.length), x.buf (1024 - l.length + i) = l[i]

theorem Has.size {x : Stack} {l : List U256} (h : Has x l) : x.size = l.length := by
  have := h.le
  simp only [Stack.size, h.top, Tosca.Model.kStackSize]
  omega

theorem Has.words {x : Stack} {l : List U256} (h : Has x l) : words x = l := by
  have hle := h.le
  apply List.ext_getElem
  · simp [Spec.PoolView.words, h.top]; omega
  · intro n h1 h2
    simp only [Spec.PoolView.words, List.getElem_map, List.getElem_range]
    rw [← h.get n h2, h.top]
    congr 1
    omega

/-- An object, or its absence. -/
def Matches : Option Stack → Option (List U256) → Prop
  | none, none => True
  | some x, some l => Has x l
  | _, _ => False

/-- The state represents the abstract objects. -/
structure Rep (p : Pool) (o : Objects) : Prop where
  inv : ∃ fl L, Inv p fl L
  obj : ∀ s, Matches (value p s) (o s)

theorem value_none {p : Pool} {fl L : List Nat} (i : Inv p fl L) {s : Nat} : value p s = none ↔ s ∉ L := by
  constructor
  · intro h hs
    obtain ⟨_, _, _, _, _, _, hv⟩ := live_of_mem i hs
    rw [hv] at h; cases h
  · intro hs
    simp [value, (not_mem_of_none i).2 hs]

theorem value_some {p : Pool} {fl L : List Nat} (i : Inv p fl L) {s : Nat} {x : Stack} (h : value p s = some x) :
    s ∈ L ∧ ∃ k b, p.live s = some k ∧ p.handle s = .ok k ∧ p.blocks[k.block]? = some b ∧ p.block k.block = .ok b ∧
      x = { buf := b.data, top := k.top } := by
  have hs : s ∈ L := by
    refine Classical.byContradiction fun hs => ?_
    rw [(value_none i).2 hs] at h; cases h
  obtain ⟨k, b, h1, h2, h3, h4, h5⟩ := live_of_mem i hs
  rw [h5] at h; cases h
  exact ⟨hs, k, b, h1, h2, h3, h4, rfl⟩

theorem Rep.none {p : Pool} {o : Objects} (r : Rep p o) {s : Nat} (h : o s = none) :
    value p s = none ∧ p.live s = none ∧ p.handle s = .error .badPointer := by
  obtain ⟨fl, L, i⟩ := r.inv
  have hv : value p s = Option.none := by
    have := r.obj s
    rw [h] at this
    cases hv : value p s with
    | none => rfl
    | some x => rw [hv] at this; cases this
  have := (not_mem_of_none i).2 ((value_none i).1 hv)
  exact ⟨hv, this, by simp [Pool.handle, this]⟩

theorem Rep.some {p : Pool} {o : Objects} (r : Rep p o) {s : Nat} {l : List U256} (h : o s = some l) :
    ∃ x k b, value p s = some x ∧ Has x l ∧ p.live s = some k ∧ p.handle s = .ok k ∧ p.block k.block = .ok b ∧
      x = { buf := b.data, top := k.top } := by
  obtain ⟨fl, L, i⟩ := r.inv
  have hm := r.obj s
  rw [h] at hm
  cases hv : value p s with
  | none => rw [hv] at hm; cases hm
  | some x =>
    rw [hv] at hm
    obtain ⟨_, k, b, h1, h2, _, h4, h5⟩ := value_some i hv
    exact ⟨x, k, b, rfl, hm, h1, h2, h4, h5⟩

/-- Replacing the value of one object. -/
theorem Rep.update {p p' : Pool} {o : Objects} (r : Rep p o) (hi : ∃ fl L, Inv p' fl L) {s : Nat}
    {x : Option Stack} {l : Option (List U256)}
    (hv : value p' = fun t => if t = s then x else value p t) (hm : Matches x l) : Rep p' (o.put s l) where
  inv := hi
  obj := by
    intro t
    rw [hv]
    simp only [Spec.Stacks.Objects.put]
    by_cases ht : t = s
    · simp [ht, hm]
    · simp [ht]; exact r.obj t

theorem put_put (o : Objects) (s : Nat) (a b : Option (List U256)) : (o.put s a).put s b = o.put s b := by
  funext t; simp only [Spec.Stacks.Objects.put]; split <;> rfl

theorem put_self (o : Objects) {s : Nat} {a : Option (List U256)} (h : o s = a) : o.put s a = o := by
  funext t; simp only [Spec.Stacks.Objects.put]; split
  · next e => rw [e, h]
  · rfl

/-- An allowed action is executed. -/
theorem step {p : Pool} {o : Objects} (r : Rep p o) (a : Action) (ha : ∀ fl L, Inv p fl L → allowed L a) :
    ∃ p', p.exec a = .ok p' ∧ (∃ fl L, Inv p' fl L) ∧ valueAfter p a (value p') := by
  obtain ⟨fl, L, i⟩ := r.inv
  obtain ⟨p', fl', e, i', v, _⟩ := exec_allowed i a (ha fl L i)
  exact ⟨p', e, ⟨_, _, i'⟩, v⟩

theorem mem_of_value {p : Pool} {s : Nat} {x : Stack} (h : value p s = some x) : ∀ fl L, Inv p fl L → s ∈ L :=
  fun _ _ i => (value_some i h).1

theorem rep_empty : Rep {} (fun _ => none) where
  inv := ⟨_, _, inv_empty⟩
  obj := by intro s; simp [value, Matches]

theorem call_construct {p : Pool} {o : Objects} (r : Rep p o) {s : Nat} (h : o s = none) (fresh : Nat → U256) :
    ∃ p', p.exec (.construct s fresh) = .ok p' ∧ Rep p' (o.put s (some [])) := by
  obtain ⟨hv, _, _⟩ := r.none h
  obtain ⟨p', e, i', buf, v⟩ := step r (.construct s fresh) (fun fl L i => (value_none i).1 hv)
  exact ⟨p', e, r.update i' v ⟨rfl, by simp, by intro i h; cases h⟩⟩

theorem construct_twice {p : Pool} {o : Objects} (r : Rep p o) {s : Nat} (h : o s ≠ none) (fresh : Nat → U256) :
    p.exec (.construct s fresh) = .error .badPointer := by
  cases hl : o s with
  | none => exact absurd hl h
  | some l =>
    obtain ⟨x, k, b, _, _, h1, _⟩ := r.some hl
    simp [Pool.exec, h1]

theorem has_push {x : Stack} {l : List U256} (hx : Has x l) (hl : l.length < 1024) (v : U256) :
    Has { buf := fun j => if j = (x.top - 1).toNat then v else x.buf j, top := x.top - 1 } (v :: l) := by
  have ht := hx.top
  refine ⟨by simp [ht]; omega, by simp; omega, ?_⟩
  intro i hi
  cases i with
  | zero =>
    have : 1024 - (v :: l).length + 0 = (x.top - 1).toNat := by simp [ht]; omega
    simp only [this, if_true]
    rfl
  | succ i =>
    simp only [List.length_cons] at hi
    have hne : 1024 - (v :: l).length + (i + 1) ≠ (x.top - 1).toNat := by simp [ht]; omega
    simp only [hne, if_false]
    have := hx.get i (by omega)
    have e : 1024 - (v :: l).length + (i + 1) = 1024 - l.length + i := by simp; omega
    rw [e, this]
    rfl

theorem push_ok {p : Pool} {o : Objects} (r : Rep p o) {s : Nat} {l : List U256} (h : o s = some l) (hl : l.length < 1024)
    (v : U256) : ∃ p', p.push s v = .ok p' ∧ Rep p' (o.put s (some (v :: l))) := by
  obtain ⟨x, k, b, hv, hx, _, hk, _, hxe⟩ := r.some h
  have htop : k.top = x.top := by rw [hxe]
  obtain ⟨fl, L, i⟩ := r.inv
  obtain ⟨p1, f1, e1, i1, ⟨x1, hx1, v1⟩, _⟩ := exec_allowed i (.setTop s (k.top - 1)) (mem_of_value hv fl L i)
  rw [hv] at hx1; cases hx1
  have hv1 : value p1 s = some { x with top := k.top - 1 } := by rw [v1]; simp
  have ht := hx.top
  obtain ⟨p2, f2, e2, i2, ⟨x2, hx2, v2⟩, _⟩ := exec_allowed i1 (.write s (k.top - 1) v)
    ⟨mem_of_value hv1 _ _ i1, by omega, by omega⟩
  rw [hv1] at hx2; cases hx2
  refine ⟨p2, by simp only [Pool.push, hk, e1, bind, Except.bind]; exact e2, ?_⟩
  refine r.update ⟨_, _, i2⟩ (s := s) (x := some _) (l := some (v :: l)) ?_ (has_push hx hl v)
  rw [v2, v1]
  funext t
  by_cases hts : t = s
  · simp [hts, htop]
  · simp [hts]

theorem push_full {p : Pool} {o : Objects} (r : Rep p o) {s : Nat} {l : List U256} (h : o s = some l) (hl : ¬ l.length < 1024)
    (v : U256) : ∃ u, p.push s v = .error u := by
  obtain ⟨x, k, b, hv, hx, _, hk, _, hxe⟩ := r.some h
  have htop : k.top = x.top := by rw [hxe]
  have ht := hx.top
  have hle := hx.le
  obtain ⟨fl, L, i⟩ := r.inv
  obtain ⟨p1, f1, e1, i1, _⟩ := exec_allowed i (.setTop s (k.top - 1)) (mem_of_value hv fl L i)
  obtain ⟨u, hu⟩ := exec_not_allowed i1 (.write s (k.top - 1) v) (fun hh => by have := hh.2.1; omega)
  exact ⟨u, by simp only [Pool.push, hk, e1, bind, Except.bind]; exact hu⟩

theorem pushAll_ok : ∀ (vs : List U256) {p : Pool} {o : Objects} (_ : Rep p o) {s : Nat} {l : List U256} (_ : o s = some l),
    if l.length + vs.length ≤ 1024 then ∃ p', p.pushAll s vs = .ok p' ∧ Rep p' (o.put s (some (vs.reverse ++ l)))
    else ∃ u, p.pushAll s vs = .error u
  | [], p, o, r, s, l, h => by
    obtain ⟨x, k, b, hv, hx, _⟩ := r.some h
    rw [if_pos (by simpa using hx.le)]
    exact ⟨p, rfl, by simp only [List.reverse_nil, List.nil_append]; rw [put_self o h]; exact r⟩
  | v :: vs, p, o, r, s, l, h => by
    by_cases hl : l.length < 1024
    · obtain ⟨p1, e1, r1⟩ := push_ok r h hl v
      have ih := pushAll_ok vs r1 (s := s) (l := v :: l) (by simp [Spec.Stacks.Objects.put])
      rw [put_put] at ih
      have e : (v :: l).length + vs.length = l.length + (v :: vs).length := by simp; omega
      rw [e] at ih
      split at ih
      · next hc =>
        obtain ⟨p2, e2, r2⟩ := ih
        rw [if_pos hc]
        refine ⟨p2, by simp only [Pool.pushAll, e1, bind, Except.bind]; exact e2, by simpa using r2⟩
      · next hc =>
        obtain ⟨u, hu⟩ := ih
        rw [if_neg hc]
        exact ⟨u, by simp only [Pool.pushAll, e1, bind, Except.bind]; exact hu⟩
    · rw [if_neg (by simp; omega)]
      obtain ⟨u, hu⟩ := push_full r h hl v
      exact ⟨u, by simp only [Pool.pushAll, hu, bind, Except.bind]⟩

theorem execs_append (as bs : List Action) (p : Pool) :
    p.execs (as ++ bs) = (p.execs as >>= fun q => q.execs bs) := by
  induction as generalizing p with
  | nil => rfl
  | cons a as ih =>
    simp only [List.cons_append, Pool.execs, bind, Except.bind]
    cases p.exec a with
    | error u => rfl
    | ok q => exact ih q

/-- Copying the first `n` words. -/
theorem copyWords_ok {s src : Nat} (hne : s ≠ src) {p : Pool} {fl L : List Nat} (i : Inv p fl L)
    {x y : Stack} (hx : value p s = some x) (hy : value p src = some y) : ∀ n, ∃ p' fl',
    p.execs ((List.range n).map (.copyWord s src)) = .ok p' ∧ Inv p' fl' L ∧
      value p' = fun t => if t = s then some { x with buf := fun j => if j < n then y.buf j else x.buf j } else value p t
  | 0 => by
    refine ⟨p, fl, rfl, i, ?_⟩
    funext t
    by_cases ht : t = s
    · simp [ht, hx]
    · simp [ht]
  | n + 1 => by
    obtain ⟨p1, f1, e1, i1, v1⟩ := copyWords_ok hne i hx hy n
    have hs := mem_of_value hx fl L i
    have hsrc := mem_of_value hy fl L i
    obtain ⟨p2, f2, e2, i2, ⟨x2, y2, hx2, hy2, v2⟩, _⟩ := exec_allowed i1 (.copyWord s src n) ⟨hs, hsrc⟩
    refine ⟨p2, f2, ?_, i2, ?_⟩
    · rw [List.range_succ, List.map_append, execs_append, e1]
      simp only [List.map_cons, List.map_nil, Pool.execs, bind, Except.bind, e2]
    · rw [v1] at hx2 hy2
      simp only [if_true] at hx2
      cases hx2
      have : src ≠ s := fun h => hne h.symm
      simp only [this, if_false] at hy2
      rw [hy] at hy2; cases hy2
      rw [v2, v1]
      funext t
      by_cases ht : t = s
      · simp only [ht, if_true]
        congr 2
        funext j
        by_cases hj : j = n
        · simp [hj]
        · by_cases hj' : j < n
          · have : j < n + 1 := by omega
            simp [hj, hj', this]
          · have : ¬ j < n + 1 := by omega
            simp [hj, hj', this]
      · simp [ht]

theorem copy_ok {s src : Nat} (hne : s ≠ src) {p : Pool} {fl L : List Nat} (i : Inv p fl L)
    {x y : Stack} (hx : value p s = some x) (hy : value p src = some y) : ∃ p' fl',
    p.execs (copyActions s src) = .ok p' ∧ Inv p' fl' L ∧
      value p' = fun t => if t = s then
        some { buf := fun j => if j < 1024 then y.buf j else x.buf j, top := 1024 - (y.size : Int) } else value p t := by
  obtain ⟨p1, f1, e1, i1, v1⟩ := copyWords_ok hne i hx hy 1024
  have hs := mem_of_value hx fl L i
  have hsrc := mem_of_value hy fl L i
  have hne' : src ≠ s := fun h => hne h.symm
  obtain ⟨p2, f2, e2, i2, v2, _⟩ := exec_allowed i1 (.copyNext s src) ⟨hs, hsrc⟩
  have v2' : value p2 = value p1 := v2
  obtain ⟨p3, f3, e3, i3, ⟨x3, y3, hx3, hy3, v3⟩, _⟩ := exec_allowed i2 (.copyTop s src) ⟨hs, hsrc⟩
  rw [v2', v1] at hx3 hy3
  simp only [if_true] at hx3
  simp only [hne', if_false] at hy3
  cases hx3
  rw [hy] at hy3; cases hy3
  refine ⟨p3, f3, ?_, i3, ?_⟩
  · rw [copyActions, execs_append, e1]
    simp only [Pool.execs, bind, Except.bind, e2, e3]
  · rw [v3, v2', v1]
    funext t
    by_cases ht : t = s <;> simp [ht]

theorem has_copy {x y : Stack} {l : List U256} (h : Has y l) :
    Has { buf := fun j => if j < 1024 then y.buf j else x.buf j, top := 1024 - (y.size : Int) } l := by
  refine ⟨by rw [h.size], h.le, ?_⟩
  intro i hi
  have := h.le
  show (if 1024 - l.length + i < 1024 then _ else _) = _
  rw [if_pos (by omega)]
  exact h.get i hi

theorem rep_copy {p : Pool} {o : Objects} (r : Rep p o) {s src : Nat} (hne : s ≠ src) {l m : List U256} (hs : o s = some m)
    (h : o src = some l) : ∃ p', p.execs (copyActions s src) = .ok p' ∧ Rep p' (o.put s (some l)) := by
  obtain ⟨x, _, _, hx, _⟩ := r.some hs
  obtain ⟨y, _, _, hy, hl, _⟩ := r.some h
  obtain ⟨fl, L, i⟩ := r.inv
  obtain ⟨p', fl', e, i', v⟩ := copy_ok hne i hx hy
  exact ⟨p', e, r.update ⟨_, _, i'⟩ v (has_copy hl)⟩

theorem copy_missing {p : Pool} {o : Objects} (r : Rep p o) {s src : Nat} (h : o s = none ∨ o src = none) :
    ∃ u, p.execs (copyActions s src) = .error u := by
  obtain ⟨fl, L, i⟩ := r.inv
  obtain ⟨u, hu⟩ := exec_not_allowed i (.copyWord s src 0) (by
    rintro ⟨h1, h2⟩
    rcases h with h | h
    · exact (value_none i).1 (r.none h).1 h1
    · exact (value_none i).1 (r.none h).1 h2)
  refine ⟨u, ?_⟩
  rw [copyActions, List.range_succ_eq_map]
  simp only [List.map_cons, List.cons_append, Pool.execs, hu, bind, Except.bind]

theorem read_ok {p : Pool} {o : Objects} (r : Rep p o) {s : Nat} {l : List U256} (h : o s = some l) {k : Handle}
    (hk : p.handle s = .ok k) (i : Nat) :
    if hi : i < l.length then p.read s (k.top + i) = .ok l[i] else ∃ u, p.read s (k.top + i) = .error u := by
  obtain ⟨x, k', b, hv, hx, _, hk', hb, hxe⟩ := r.some h
  rw [hk] at hk'; cases hk'
  have ht : k.top = 1024 - (l.length : Int) := by have := hx.top; rw [hxe] at this; exact this
  have hle := hx.le
  by_cases hi : i < l.length
  · rw [dif_pos hi]
    simp only [Pool.read, hk, hb, bind, Except.bind]
    rw [if_pos (by omega)]
    have := hx.get i hi
    rw [hxe] at this
    have e : (k.top + i).toNat = 1024 - l.length + i := by omega
    rw [e]
    exact congrArg Except.ok this
  · rw [dif_neg hi]
    refine ⟨.stackOutOfBounds, ?_⟩
    simp only [Pool.read, hk, hb, bind, Except.bind]
    rw [if_neg (by omega)]

theorem has_pop {x : Stack} {v : U256} {l : List U256} (hx : Has x (v :: l)) : Has { x with top := x.top + 1 } l := by
  have ht := hx.top
  have hle := hx.le
  simp only [List.length_cons] at ht hle
  refine ⟨by show x.top + 1 = _; omega, by omega, ?_⟩
  intro i hi
  have := hx.get (i + 1) (by simp; omega)
  simp only [List.length_cons, List.getElem_cons_succ] at this
  have e : 1024 - (l.length + 1) + (i + 1) = 1024 - l.length + i := by omega
  rw [e] at this
  exact this

theorem has_set {x : Stack} {l : List U256} (hx : Has x l) {i : Nat} (_ : i < l.length) (v : U256) :
    Has { x with buf := fun j => if j = (x.top + i).toNat then v else x.buf j } (l.set i v) := by
  have ht := hx.top
  have hle := hx.le
  refine ⟨by simp [ht], by simpa using hle, ?_⟩
  intro n hn
  simp only [List.length_set] at hn ⊢
  rw [List.getElem_set]
  by_cases hni : i = n
  · rw [if_pos hni, if_pos (by omega)]
  · rw [if_neg hni, if_neg (by omega)]
    exact hx.get n hn

theorem equalFrom_ok {p : Pool} {o : Objects} (r : Rep p o) {s t : Nat} {l m : List U256} (hl : o s = some l) (hm : o t = some m)
    {h k : Handle} (hh : p.handle s = .ok h) (hk : p.handle t = .ok k) (hlen : l.length = m.length) :
    ∀ n i, i + n = l.length → p.equalFrom s t n (h.top + i) (k.top + i) = .ok (decide (l.drop i = m.drop i))
  | 0, i, e => by
    simp only [Pool.equalFrom]
    rw [List.drop_eq_nil_of_le (by omega), List.drop_eq_nil_of_le (by omega)]
    simp
  | n + 1, i, e => by
    have h1 := read_ok r hl hh i
    have h2 := read_ok r hm hk i
    rw [dif_pos (by omega)] at h1 h2
    have ih := equalFrom_ok r hl hm hh hk hlen n (i + 1) (by omega)
    simp only [Pool.equalFrom, h1, h2, bind, Except.bind]
    have hd : (l.drop i = m.drop i) = (l[i]'(by omega) = m[i]'(by omega) ∧ l.drop (i + 1) = m.drop (i + 1)) := by
      rw [List.drop_eq_getElem_cons (l := l) (by omega), List.drop_eq_getElem_cons (l := m) (by omega), List.cons.injEq]
    simp only [hd]
    by_cases hc : l[i]'(by omega) = m[i]'(by omega)
    · simp only [hc, if_true]
      have e1 : h.top + (i : Int) + 1 = h.top + ((i + 1 : Nat) : Int) := by omega
      have e2 : k.top + (i : Int) + 1 = k.top + ((i + 1 : Nat) : Int) := by omega
      rw [e1, e2, ih]
      simp
    · simp [hc, pure, Except.pure]

theorem handle_size {k : Handle} {b : Block} {l : List U256} (h : Has { buf := b.data, top := k.top } l) : k.size = l.length := by
  have := h.size
  simp only [Stack.size, Tosca.Model.kStackSize] at this
  simp only [Handle.size]
  omega

/-- One call does what the specification says, or is undefined when the specification does not allow it. -/
theorem call_refines {p : Pool} {o : Objects} (r : Rep p o) (fresh : Nat → U256) (op : Op) :
    match Spec.Stacks.apply o op with
    | some (out, o') => ∃ p', p.call fresh op = .ok (out, p') ∧ Rep p' o'
    | none => ∃ u, p.call fresh op = .error u := by
  cases op with
  | construct s =>
    simp only [Spec.Stacks.apply]
    by_cases h : o s = none
    · rw [if_pos h]
      obtain ⟨p', e, r'⟩ := call_construct r h fresh
      exact ⟨p', by simp only [Pool.call, e, bind, Except.bind]; rfl, r'⟩
    · rw [if_neg h]
      exact ⟨_, by simp only [Pool.call, construct_twice r h fresh, bind, Except.bind]; rfl⟩
  | constructFrom s l =>
    simp only [Spec.Stacks.apply]
    by_cases h : o s = none
    · obtain ⟨p', e, r'⟩ := call_construct r h fresh
      have hp := pushAll_ok l r' (s := s) (l := []) (by simp [Spec.Stacks.Objects.put])
      simp only [List.length_nil, Nat.zero_add, List.append_nil, put_put] at hp
      by_cases hl : l.length ≤ 1024
      · rw [if_pos hl] at hp
        rw [if_pos ⟨h, hl⟩]
        obtain ⟨p2, e2, r2⟩ := hp
        exact ⟨p2, by simp only [Pool.call, e, e2, bind, Except.bind]; rfl, r2⟩
      · rw [if_neg hl] at hp
        rw [if_neg (fun h => hl h.2)]
        obtain ⟨u, hu⟩ := hp
        exact ⟨u, by simp only [Pool.call, e, hu, bind, Except.bind]⟩
    · rw [if_neg (fun hh => h hh.1)]
      exact ⟨_, by simp only [Pool.call, construct_twice r h fresh, bind, Except.bind]; rfl⟩
  | copyConstruct s src =>
    simp only [Spec.Stacks.apply]
    cases h2 : o src with
    | none =>
      have : ∃ u, p.call fresh (.copyConstruct s src) = .error u :=
        ⟨_, by simp only [Pool.call, (r.none h2).2.2, bind, Except.bind]; rfl⟩
      cases o s <;> exact this
    | some l =>
      obtain ⟨_, k, _, _, _, _, hk, _⟩ := r.some h2
      cases h1 : o s with
      | none =>
        have hne : s ≠ src := by rintro rfl; rw [h1] at h2; cases h2
        obtain ⟨p', e, r'⟩ := call_construct r h1 fresh
        obtain ⟨p2, e2, r2⟩ := rep_copy r' hne (m := []) (l := l) (by simp [Spec.Stacks.Objects.put])
          (by simp [Spec.Stacks.Objects.put, Ne.symm hne, h2])
        rw [put_put] at r2
        exact ⟨p2, by simp only [Pool.call, hk, e, e2, bind, Except.bind]; rfl, r2⟩
      | some m =>
        exact ⟨_, by simp only [Pool.call, hk, construct_twice r (by rw [h1]; simp) fresh, bind, Except.bind]; rfl⟩
  | assign s src =>
    simp only [Spec.Stacks.apply]
    cases h1 : o s with
    | none => exact ⟨_, by simp only [Pool.call, (r.none h1).2.2, bind, Except.bind]; rfl⟩
    | some m =>
      obtain ⟨_, k, _, _, _, _, hk, _⟩ := r.some h1
      by_cases hne : s = src
      · subst hne
        rw [h1]
        refine ⟨p, by simp only [Pool.call, hk, bind, Except.bind, if_true]; rfl, ?_⟩
        rw [put_self o h1]; exact r
      · cases h2 : o src with
        | none =>
          obtain ⟨u, hu⟩ := copy_missing r (s := s) (.inr h2)
          exact ⟨u, by simp only [Pool.call, hk, bind, Except.bind]; rw [if_neg hne]; simp only [hu]⟩
        | some l =>
          obtain ⟨p2, e2, r2⟩ := rep_copy r hne h1 h2
          exact ⟨p2, by simp only [Pool.call, hk, bind, Except.bind]; rw [if_neg hne]; simp only [e2]; rfl, r2⟩
  | push s v =>
    simp only [Spec.Stacks.apply]
    cases h : o s with
    | none => exact ⟨_, by simp only [Pool.call, Pool.push, (r.none h).2.2, bind, Except.bind]; rfl⟩
    | some l =>
      by_cases hl : l.length < 1024
      · obtain ⟨p', e, r'⟩ := push_ok r h hl v
        simp only [if_pos hl]
        exact ⟨p', by simp only [Pool.call, e, bind, Except.bind]; rfl, r'⟩
      · obtain ⟨u, hu⟩ := push_full r h hl v
        simp only [if_neg hl]
        exact ⟨u, by simp only [Pool.call, hu, bind, Except.bind]⟩
  | pop s =>
    simp only [Spec.Stacks.apply]
    cases h : o s with
    | none => exact ⟨_, by simp only [Pool.call, (r.none h).2.2, bind, Except.bind]; rfl⟩
    | some l =>
      obtain ⟨x, k, b, hv, hx, _, hk, _, hxe⟩ := r.some h
      have hr := read_ok r h hk 0
      simp only [Int.ofNat_zero, Int.add_zero] at hr
      cases l with
      | nil =>
        simp only [List.length_nil, Nat.lt_irrefl, dite_false] at hr
        obtain ⟨u, hu⟩ := hr
        exact ⟨u, by simp only [Pool.call, hk, hu, bind, Except.bind]⟩
      | cons v l =>
        rw [dif_pos (by simp)] at hr
        obtain ⟨p', e, i', ⟨x', hx', v'⟩⟩ := step r (.setTop s (k.top + 1)) (mem_of_value hv)
        rw [hv] at hx'; cases hx'
        have htop : k.top = x.top := by rw [hxe]
        refine ⟨p', by simp only [Pool.call, hk, hr, e, bind, Except.bind]; rfl, ?_⟩
        rw [htop] at v'
        exact r.update i' v' (has_pop hx)
  | get s i =>
    simp only [Spec.Stacks.apply]
    cases h : o s with
    | none => exact ⟨_, by simp only [Pool.call, (r.none h).2.2, bind, Except.bind]; rfl⟩
    | some l =>
      obtain ⟨x, k, b, hv, hx, _, hk, _, hxe⟩ := r.some h
      have hr := read_ok r h hk i
      by_cases hi : i < l.length
      · simp only [dif_pos hi] at hr ⊢
        exact ⟨p, by simp only [Pool.call, hk, hr, bind, Except.bind]; rfl, r⟩
      · simp only [dif_neg hi] at hr ⊢
        obtain ⟨u, hu⟩ := hr
        exact ⟨u, by simp only [Pool.call, hk, hu, bind, Except.bind]⟩
  | set s i v =>
    simp only [Spec.Stacks.apply]
    cases h : o s with
    | none => exact ⟨_, by simp only [Pool.call, (r.none h).2.2, bind, Except.bind]; rfl⟩
    | some l =>
      obtain ⟨x, k, b, hv, hx, _, hk, _, hxe⟩ := r.some h
      have htop : k.top = x.top := by rw [hxe]
      have ht := hx.top
      have hle := hx.le
      by_cases hi : i < l.length
      · simp only [if_pos hi]
        obtain ⟨p', e, i', ⟨x', hx', v'⟩⟩ := step r (.write s (k.top + i) v)
          (fun fl L iv => ⟨mem_of_value hv fl L iv, by omega, by omega⟩)
        rw [hv] at hx'; cases hx'
        refine ⟨p', by simp only [Pool.call, hk, e, bind, Except.bind]; rfl, ?_⟩
        rw [htop] at v'
        exact r.update i' v' (has_set hx hi v)
      · simp only [if_neg hi]
        obtain ⟨fl, L, iv⟩ := r.inv
        obtain ⟨u, hu⟩ := exec_not_allowed iv (.write s (k.top + i) v) (fun hh => by have := hh.2.2; omega)
        exact ⟨u, by simp only [Pool.call, hk, hu, bind, Except.bind]⟩
  | size s =>
    simp only [Spec.Stacks.apply]
    cases h : o s with
    | none => exact ⟨_, by simp only [Pool.call, (r.none h).2.2, bind, Except.bind]; rfl⟩
    | some l =>
      obtain ⟨x, k, b, hv, hx, _, hk, _, hxe⟩ := r.some h
      refine ⟨p, ?_, r⟩
      simp only [Pool.call, hk, bind, Except.bind]
      rw [hxe] at hx
      rw [handle_size hx]; rfl
  | equal s t =>
    simp only [Spec.Stacks.apply]
    cases h1 : o s with
    | none => exact ⟨_, by simp only [Pool.call, (r.none h1).2.2, bind, Except.bind]; rfl⟩
    | some l =>
      obtain ⟨x, h, b, hv, hx, _, hh, _, hxe⟩ := r.some h1
      cases h2 : o t with
      | none => exact ⟨_, by simp only [Pool.call, hh, (r.none h2).2.2, bind, Except.bind]; rfl⟩
      | some m =>
        obtain ⟨y, k, c, hw, hy, _, hk, _, hye⟩ := r.some h2
        refine ⟨p, ?_, r⟩
        simp only [Pool.call, hh, hk, bind, Except.bind]
        rw [hxe] at hx
        rw [hye] at hy
        rw [handle_size hx, handle_size hy]
        by_cases hlen : l.length = m.length
        · rw [if_pos hlen]
          have := equalFrom_ok r h1 h2 hh hk hlen l.length 0 (by omega)
          simp only [Int.natCast_zero, Int.add_zero, List.drop_zero] at this
          rw [this]; rfl
        · rw [if_neg hlen]
          have : l ≠ m := fun e => hlen (by rw [e])
          simp [this, pure, Except.pure]
  | destroy s =>
    simp only [Spec.Stacks.apply]
    by_cases h : o s = none
    · rw [if_pos h]
      exact ⟨_, by simp only [Pool.call, Pool.exec, (r.none h).2.2, bind, Except.bind]; rfl⟩
    · rw [if_neg h]
      cases hl : o s with
      | none => exact absurd hl h
      | some l =>
        obtain ⟨x, k, b, hv, _⟩ := r.some hl
        obtain ⟨p', e, i', v'⟩ := step r (.destroy s) (mem_of_value hv)
        exact ⟨p', by simp only [Pool.call, e, bind, Except.bind]; rfl, r.update i' v' trivial⟩

/-- Sequences of calls. -/
theorem calls_refine : ∀ (ops : List Op) {p : Pool} {o : Objects} (_ : Rep p o) (fresh : Nat → Nat → U256) (n : Nat),
    match Spec.Stacks.run o ops with
    | some (outs, o') => ∃ p', p.calls fresh n ops = .ok (outs, p') ∧ Rep p' o'
    | none => ∃ u, p.calls fresh n ops = .error u
  | [], p, o, r, _, _ => ⟨p, rfl, r⟩
  | op :: ops, p, o, r, fresh, n => by
    have h1 := call_refines r (fresh n) op
    simp only [Spec.Stacks.run]
    cases ha : Spec.Stacks.apply o op with
    | none =>
      rw [ha] at h1
      obtain ⟨u, hu⟩ := h1
      exact ⟨u, by simp only [Pool.calls, hu, bind, Except.bind]⟩
    | some q =>
      obtain ⟨out, o1⟩ := q
      rw [ha] at h1
      obtain ⟨p1, e1, r1⟩ := h1
      have h2 := calls_refine ops r1 fresh (n + 1)
      cases hb : Spec.Stacks.run o1 ops with
      | none =>
        rw [hb] at h2
        obtain ⟨u, hu⟩ := h2
        simp only [hb]
        exact ⟨u, by simp only [Pool.calls, e1, hu, bind, Except.bind]⟩
      | some q2 =>
        obtain ⟨outs, o2⟩ := q2
        rw [hb] at h2
        obtain ⟨p2, e2, r2⟩ := h2
        simp only [hb]
        exact ⟨p2, by simp only [Pool.calls, e1, e2, bind, Except.bind]; rfl, r2⟩

end Tosca.Proofs.StackPool

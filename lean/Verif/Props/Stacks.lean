import Verif.Proofs.StackCalls
import Verif.Model.Vm

/-!
# C34 (storage of stacks is never shared) and C35 (stack objects are independent lists)

A history is any sequence of the atomic actions that stack objects perform, in any order and on any
objects, so that every interleaving of every number of threads is included.
-/

namespace Tosca.Props.Stacks

open Tosca.Model (M UB Stack)
open Tosca.Model.Pool
open Tosca.Spec.PoolView
open Tosca.Proofs.StackPool
open Tosca.Stacks (Op Out)
open Tosca.Spec.Stacks (Objects)

/-- **C34.** After every history, following the links from `free_list` ends after finitely many
distinct blocks; no block belongs to two existing stacks; no block of an existing stack is in the free list; and no
block is lost. -/
theorem C34_storage (acts : List Action) (p : Pool) (h : Pool.execs {} acts = .ok p) :
    ∃ free : List Nat, Linked p.blocks p.free free ∧ free.Nodup ∧
      (∀ s t d, owns p s d → owns p t d → s = t) ∧
      (∀ s d, owns p s d → d < p.blocks.length ∧ d ∉ free) ∧
      (∀ d, d < p.blocks.length → d ∈ free ∨ ∃ s, owns p s d) := by
  obtain ⟨fl, i, _⟩ := execs_inv h
  refine ⟨fl, i.chain, i.nodup, ?_, ?_, ?_⟩
  · rintro s t d ⟨h1, e1, b1⟩ ⟨h2, e2, b2⟩
    exact i.inj s t h1 h2 e1 e2 (b1.trans b2.symm)
  · rintro s d ⟨h1, e1, rfl⟩
    exact i.valid s h1 e1
  · intro d hd
    rcases i.cover d hd with h' | ⟨s, h1, e1, b1⟩
    · exact .inl h'
    · exact .inr ⟨s, h1, e1, b1⟩

/-- **C34.** Histories are free of undefined behaviour exactly when objects are constructed under new
names, only existing objects are used, and writes stay inside the storage of an object. -/
theorem C34_defined (acts : List Action) : (∃ p, Pool.execs {} acts = .ok p) ↔ allAllowed [] acts := by
  constructor
  · rintro ⟨p, h⟩
    exact execs_ok_allowed acts inv_empty h
  · intro h
    obtain ⟨p, _, e, _⟩ := execs_allowed acts inv_empty h
    exact ⟨p, e⟩

/-- **C34.** The number of blocks ever allocated is the largest number of stacks that existed at the
same time (stack.cc:62-64). -/
theorem C34_peak (acts : List Action) (p : Pool) (h : Pool.execs {} acts = .ok p) :
    p.blocks.length = peak [] acts := by
  obtain ⟨_, _, hl⟩ := execs_inv h
  exact hl

/-- A step of a history leaves every stack but its target as it is. -/
theorem frame_one {p p' : Pool} {fl L : List Nat} (i : Inv p fl L) {a : Action} (h : p.exec a = .ok p') {t : Nat}
    (ht : target a ≠ t) : (∃ fl', Inv p' fl' (aliveAfter L a)) ∧ value p' t = value p t := by
  have ha : allowed L a := by
    refine Classical.byContradiction fun ha => ?_
    obtain ⟨u, hu⟩ := exec_not_allowed i a ha
    rw [hu] at h; cases h
  obtain ⟨q, fl', e, i', v, _⟩ := exec_allowed i a ha
  rw [h] at e; cases e
  refine ⟨⟨fl', i'⟩, ?_⟩
  have ht' : t ≠ target a := fun h => ht h.symm
  cases a with
  | construct s fresh => obtain ⟨b, v⟩ := v; rw [v]; simp only [target] at ht'; simp [ht']
  | copyWord s src j => obtain ⟨x, y, _, _, v⟩ := v; rw [v]; simp only [target] at ht'; simp [ht']
  | copyNext s src =>
    have v : value p' = value p := v
    rw [v]
  | copyTop s src => obtain ⟨x, y, _, _, v⟩ := v; rw [v]; simp only [target] at ht'; simp [ht']
  | setTop s top => obtain ⟨x, _, v⟩ := v; rw [v]; simp only [target] at ht'; simp [ht']
  | write s q w => obtain ⟨x, _, v⟩ := v; rw [v]; simp only [target] at ht'; simp [ht']
  | destroy s =>
    have v : value p' = fun t => if t = s then none else value p t := v
    rw [v]; simp only [target] at ht'; simp [ht']

theorem frame_all : ∀ (acts : List Action) {p p' : Pool} {fl L : List Nat} (_ : Inv p fl L) (_ : p.execs acts = .ok p') {t : Nat},
    (∀ a ∈ acts, target a ≠ t) → value p' t = value p t
  | [], p, p', _, _, _, h, _, _ => by cases h; rfl
  | a :: as, p, p', fl, L, i, h, t, ht => by
    cases e : p.exec a with
    | error u => simp only [Pool.execs, e, bind, Except.bind] at h; cases h
    | ok q =>
      simp only [Pool.execs, e, bind, Except.bind] at h
      obtain ⟨⟨fl', i'⟩, hv⟩ := frame_one i e (ht a (by simp))
      rw [frame_all as i' h (fun b hb => ht b (by simp [hb])), hv]

/-- **C34, C35.** Whatever other stacks do, including being constructed, copied, assigned, modified
and destroyed, the words and the size of a stack stay as they are. -/
theorem C35_independent (before after : List Action) (p p' : Pool) (h : Pool.execs {} before = .ok p)
    (h' : p.execs after = .ok p') (t : Nat) (ht : ∀ a ∈ after, target a ≠ t) : value p' t = value p t := by
  obtain ⟨fl, i, _⟩ := execs_inv h
  exact frame_all after i h' ht

/-- Only the steps that target `s` matter for `s` while `src` is not modified. -/
theorem restrict {s src : Nat} : ∀ (acts : List Action) {p p' q : Pool} {fl L fl' L' : List Nat} (_ : Inv p fl L)
    (_ : Inv q fl' L') (_ : value p s = value q s) (_ : value p src = value q src) (_ : p.execs acts = .ok p')
    (_ : ∀ a ∈ acts, target a ≠ src)
    (_ : ∀ a ∈ acts, target a = s → (∃ i, a = .copyWord s src i) ∨ a = .copyNext s src ∨ a = .copyTop s src),
    ∃ q', q.execs (acts.filter fun a => target a = s) = .ok q' ∧ value p' s = value q' s ∧ value p' src = value q' src
  | [], p, p', q, fl, L, fl', L', _, _, h1, h2, h, _, _ => by
    cases h; exact ⟨q, rfl, h1, h2⟩
  | a :: as, p, p', q, fl, L, fl', L', ip, iq, h1, h2, h, hsrc, hs => by
    cases e : p.exec a with
    | error u => simp only [Pool.execs, e, bind, Except.bind] at h; cases h
    | ok p1 =>
      simp only [Pool.execs, e, bind, Except.bind] at h
      have hne : target a ≠ src := hsrc a (by simp)
      obtain ⟨⟨f1, i1⟩, hv⟩ := frame_one ip e hne
      by_cases ha : target a = s
      · have hal : allowed L a := by
          refine Classical.byContradiction fun ha => ?_
          obtain ⟨u, hu⟩ := exec_not_allowed ip a ha
          rw [hu] at e; cases e
        obtain ⟨p1', fp, ep, ip', vp, _⟩ := exec_allowed ip a hal
        rw [e] at ep; cases ep
        have hq : allowed L' a := by
          have k : ∀ t, value p t = value q t → t ∈ L → t ∈ L' := by
            intro t ht hm
            refine Classical.byContradiction fun hn => ?_
            rw [(value_none iq).2 hn] at ht
            exact (value_none ip).1 ht hm
          rcases hs a (by simp) ha with ⟨j, rfl⟩ | rfl | rfl
          · exact ⟨k s h1 hal.1, k src h2 hal.2⟩
          · exact ⟨k s h1 hal.1, k src h2 hal.2⟩
          · exact ⟨k s h1 hal.1, k src h2 hal.2⟩
        obtain ⟨q1, fq, eq, iq', vq, _⟩ := exec_allowed iq a hq
        obtain ⟨_, hvq⟩ := frame_one iq eq hne
        have h1' : value p1 s = value q1 s := by
          rcases hs a (by simp) ha with ⟨j, rfl⟩ | rfl | rfl
          · obtain ⟨x, y, hx, hy, vp⟩ := vp
            obtain ⟨x', y', hx', hy', vq⟩ := vq
            rw [h1, hx'] at hx; cases hx
            rw [h2, hy'] at hy; cases hy
            rw [vp, vq]; simp
          · have vp : value p1 = value p := vp
            have vq : value q1 = value q := vq
            rw [vp, vq, h1]
          · obtain ⟨x, y, hx, hy, vp⟩ := vp
            obtain ⟨x', y', hx', hy', vq⟩ := vq
            rw [h1, hx'] at hx; cases hx
            rw [h2, hy'] at hy; cases hy
            rw [vp, vq]; simp
        obtain ⟨q', e', r1, r2⟩ := restrict as ip' iq' h1' (by rw [hv, hvq, h2]) h
          (fun b hb => hsrc b (by simp [hb])) (fun b hb => hs b (by simp [hb]))
        refine ⟨q', ?_, r1, r2⟩
        rw [List.filter_cons_of_pos (by simpa using ha)]
        simp only [Pool.execs, eq, bind, Except.bind]
        exact e'
      · obtain ⟨_, hvs⟩ := frame_one ip e ha
        obtain ⟨q', e', r1, r2⟩ := restrict as i1 iq (by rw [hvs, h1]) (by rw [hv, h2]) h
          (fun b hb => hsrc b (by simp [hb])) (fun b hb => hs b (by simp [hb]))
        refine ⟨q', ?_, r1, r2⟩
        rw [List.filter_cons_of_neg (by simpa using ha)]
        exact e'

/-- **C35.** Copying (by construction or assignment) takes many steps, and other threads may do
anything to all other stacks in between: as long as the only steps on `s` are those of the copy and nobody modifies
the source meanwhile, `s` ends up with the words of the source, which is unchanged; the result is the copy that the
interpreter model uses (`Stack.copy`). -/
theorem C35_copy (before during : List Action) (p p' : Pool) (s src : Nat) (h : Pool.execs {} before = .ok p)
    (hne : s ≠ src) (x y : Stack) (hx : value p s = some x) (hy : value p src = some y)
    (h' : p.execs during = .ok p') (hs : (during.filter fun a => target a = s) = copyActions s src)
    (hsrc : ∀ a ∈ during, target a ≠ src) :
    value p' src = some y ∧ ∃ z, value p' s = some z ∧ z.top = y.copy.top ∧ (∀ i, i < 1024 → z.buf i = y.copy.buf i) ∧
      (0 ≤ y.top ∧ y.top ≤ 1024 → words z = words y) := by
  obtain ⟨fl, i, _⟩ := execs_inv h
  have hall : ∀ a ∈ during, target a = s → (∃ i, a = .copyWord s src i) ∨ a = .copyNext s src ∨ a = .copyTop s src := by
    intro a ha hta
    have : a ∈ copyActions s src := by
      rw [← hs]; exact List.mem_filter.2 ⟨ha, by simpa using hta⟩
    rw [copyActions] at this
    rcases List.mem_append.1 this with hm | hm
    · obtain ⟨j, _, rfl⟩ := List.mem_map.1 hm
      exact .inl ⟨j, rfl⟩
    · simp only [List.mem_cons, List.not_mem_nil, or_false] at hm
      exact .inr hm
  obtain ⟨q', e', r1, r2⟩ := restrict during i i rfl rfl h' hsrc hall
  rw [hs] at e'
  obtain ⟨q, f, e, _, v⟩ := copy_ok hne i hx hy
  rw [e'] at e; cases e
  have hz : value p' s = some { buf := fun j => if j < 1024 then y.buf j else x.buf j, top := 1024 - (y.size : Int) } := by
    rw [r1, v]; simp
  refine ⟨by rw [frame_all during i h' hsrc, hy], _, hz, rfl, ?_, ?_⟩
  · intro j hj
    simp [hj, Stack.copy]
  · intro hr
    have hsize : (1024 : Int) - (y.size : Int) = y.top := by
      simp only [Stack.size, Tosca.Model.kStackSize]
      omega
    unfold words
    simp only [hsize]
    apply List.map_congr_left
    intro n hn
    have : n < (1024 - y.top).toNat := by simpa using hn
    have hlt : y.top.toNat + n < 1024 := by omega
    simp [hlt]

/-- **C35.** For every sequence of calls on stack objects and every content of freshly allocated or
recycled memory, the calls return what independent lists of words would return and leave the objects with the words of those lists;
calls that are not allowed on the lists (missing object, push on 1024 words, pop or access beyond the size)
are undefined behaviour. -/
theorem C35_refines (fresh : Nat → Nat → U256) (ops : List Op) :
    match Spec.Stacks.run (fun _ => none) ops with
    | some (outs, o) => ∃ p, Pool.calls {} fresh 0 ops = .ok (outs, p) ∧ ∀ s, (value p s).map words = o s
    | none => ∃ u, Pool.calls {} fresh 0 ops = .error u := by
  have h := calls_refine ops rep_empty fresh 0
  cases e : Spec.Stacks.run (fun _ => none) ops with
  | none => rw [e] at h; exact h
  | some q =>
    obtain ⟨outs, o⟩ := q
    rw [e] at h
    obtain ⟨p, hp, r⟩ := h
    refine ⟨p, hp, fun s => ?_⟩
    have := r.obj s
    cases hv : value p s with
    | none =>
      rw [hv] at this
      cases ho : o s with
      | none => rfl
      | some l => rw [ho] at this; cases this
    | some x =>
      rw [hv] at this
      cases ho : o s with
      | none => rw [ho] at this; cases this
      | some l =>
        rw [ho] at this
        simp [Has.words this]

/-- The words of the objects a program leaves behind do not depend on what memory contained. -/
theorem C35_no_stale_words (fresh fresh' : Nat → Nat → U256) (ops : List Op) (outs outs' : List Out) (p p' : Pool)
    (h : Pool.calls {} fresh 0 ops = .ok (outs, p)) (h' : Pool.calls {} fresh' 0 ops = .ok (outs', p')) :
    outs = outs' ∧ ∀ s, (value p s).map words = (value p' s).map words := by
  have e := C35_refines fresh ops
  have e' := C35_refines fresh' ops
  cases hr : Spec.Stacks.run (fun _ => none) ops with
  | none =>
    rw [hr] at e
    obtain ⟨u, hu⟩ := e
    rw [hu] at h; cases h
  | some q =>
    obtain ⟨o, ob⟩ := q
    rw [hr] at e e'
    obtain ⟨q1, h1, w1⟩ := e
    obtain ⟨q2, h2, w2⟩ := e'
    rw [h] at h1; cases h1
    rw [h'] at h2; cases h2
    exact ⟨rfl, fun s => by rw [w1, w2]⟩

/-! ## Concrete cases -/

/-- Two stacks are built, one is copied and destroyed, its block is recycled. -/
def demoOps : List Op :=
  [.constructFrom 0 [5, 6], .copyConstruct 1 0, .push 1 7, .pop 0, .get 1 1, .destroy 0, .construct 2, .push 2 9,
   .assign 2 1, .equal 1 2, .set 2 0 8, .equal 1 2, .pop 1, .size 2, .size 1]

/-- The specification allows the calls and predicts their results. -/
theorem demo_outs : (Spec.Stacks.run (fun _ => none) demoOps).map (·.1) =
    some [.nothing, .nothing, .nothing, .word 6, .word 6, .nothing, .nothing, .nothing, .nothing, .flag true, .nothing,
      .flag false, .word 7, .number 3, .number 2] := by decide

/-- So the code returns these results, whatever memory contains. -/
example (fresh : Nat → Nat → U256) : ∃ p, Pool.calls {} fresh 0 demoOps =
    .ok ([.nothing, .nothing, .nothing, .word 6, .word 6, .nothing, .nothing, .nothing, .nothing, .flag true, .nothing,
      .flag false, .word 7, .number 3, .number 2], p) := by
  have h := C35_refines fresh demoOps
  have e := demo_outs
  cases hr : Spec.Stacks.run (fun _ => none) demoOps with
  | none => rw [hr] at e; cases e
  | some q =>
    obtain ⟨outs, o⟩ := q
    rw [hr] at e h
    cases e
    obtain ⟨p, hp, _⟩ := h
    exact ⟨p, hp⟩

/-- Popping an empty stack is undefined. -/
example : Spec.Stacks.run (fun _ => none) [.construct 0, .pop 0] = none := rfl

/-- A history in which a copy of stack 0 into stack 1 is interleaved with steps of another thread. -/
def demoBefore : List Action :=
  [.construct 0 (fun _ => 3), .setTop 0 1023, .write 0 1023 42, .construct 1 (fun _ => 4)]

def demoDuring : List Action :=
  .construct 2 (fun _ => 5) :: ((copyActions 1 0).take 500 ++ ([.write 2 7 1, .destroy 2, .construct 3 (fun _ => 6)] ++
    (copyActions 1 0).drop 500))

theorem copy_targets (s src : Nat) (a : Action) (ha : a ∈ copyActions s src) :
    target a = s ∧ ∀ L, s ∈ L → src ∈ L → allowed L a ∧ aliveAfter L a = L := by
  simp only [copyActions, List.mem_append, List.mem_map, List.mem_cons, List.not_mem_nil, or_false] at ha
  rcases ha with ⟨i, _, rfl⟩ | rfl | rfl <;> exact ⟨rfl, fun L h1 h2 => ⟨⟨h1, h2⟩, rfl⟩⟩

theorem demo_filter : (demoDuring.filter fun a => target a = 1) = copyActions 1 0 := by
  have h : ∀ a ∈ copyActions 1 0, decide (target a = 1) = true := by
    intro a ha
    simpa using (copy_targets 1 0 a ha).1
  have h1 : ((copyActions 1 0).take 500).filter (fun a => target a = 1) = (copyActions 1 0).take 500 :=
    List.filter_eq_self.2 fun a ha => h a (List.mem_of_mem_take ha)
  have h2 : ((copyActions 1 0).drop 500).filter (fun a => target a = 1) = (copyActions 1 0).drop 500 :=
    List.filter_eq_self.2 fun a ha => h a (List.mem_of_mem_drop ha)
  have h0 : ([.write 2 7 1, .destroy 2, .construct 3 (fun _ => 6)] : List Action).filter (fun a => target a = 1) = [] := by
    simp [target]
  rw [demoDuring, List.filter_cons_of_neg (by decide), List.filter_append, List.filter_append, h1, h2, h0, List.nil_append,
    List.take_append_drop]

theorem allAllowed_append : ∀ (as bs : List Action) (L : List Nat), (∀ a ∈ as, allowed L a ∧ aliveAfter L a = L) →
    allAllowed L bs → allAllowed L (as ++ bs)
  | [], _, _, _, h => h
  | a :: as, bs, L, ha, h => by
    obtain ⟨h1, h2⟩ := ha a (by simp)
    exact ⟨h1, by rw [h2]; exact allAllowed_append as bs L (fun b hb => ha b (by simp [hb])) h⟩

theorem demo_allowed_aux (xs ys : List Action) (hx : ∀ a ∈ xs, a ∈ copyActions 1 0) (hy : ∀ a ∈ ys, a ∈ copyActions 1 0) :
    allAllowed [1, 0] (.construct 2 (fun _ => 5) :: (xs ++ ([.write 2 7 1, .destroy 2, .construct 3 (fun _ => 6)] ++ ys))) := by
  have h := allAllowed_append ys [] [3, 1, 0]
    (fun a ha => (copy_targets 1 0 a (hy a ha)).2 _ (by simp) (by simp)) trivial
  rw [List.append_nil] at h
  refine ⟨by simp [allowed], allAllowed_append xs _ _
    (fun a ha => (copy_targets 1 0 a (hx a ha)).2 _ (by simp [aliveAfter]) (by simp [aliveAfter])) ?_⟩
  exact ⟨by simp [allowed, aliveAfter], by simp [allowed, aliveAfter], by simp [allowed, aliveAfter], h⟩

theorem demo_allowed : allAllowed [1, 0] demoDuring :=
  demo_allowed_aux _ _ (fun _ h => List.mem_of_mem_take h) (fun _ h => List.mem_of_mem_drop h)

/-- The interleaved copy runs, and stack 1 gets the word of stack 0. -/
example : ∃ p p' z, Pool.execs {} demoBefore = .ok p ∧ p.execs demoDuring = .ok p' ∧ value p' 1 = some z ∧ words z = [42] := by
  obtain ⟨p, fl, e, i, _⟩ := execs_allowed demoBefore inv_empty (by simp [demoBefore, allAllowed, allowed, aliveAfter])
  have e0 : Pool.execs {} demoBefore = .ok p := e
  have hv : value p 0 = some { buf := fun j => if j = 1023 then 42 else 3, top := 1023 } ∧
      value p 1 = some { buf := fun _ => 4, top := 1024 } := by
    cases e
    exact ⟨rfl, rfl⟩
  obtain ⟨p', fl', e', _⟩ := execs_allowed demoDuring i demo_allowed
  have hsrc : ∀ a ∈ demoDuring, target a ≠ 0 := by
    intro a ha
    simp only [demoDuring, List.mem_cons, List.mem_append] at ha
    rcases ha with rfl | ha | (rfl | rfl | rfl | ha) | ha
    · simp [target]
    · rw [(copy_targets 1 0 a (List.mem_of_mem_take ha)).1]; simp
    · simp [target]
    · simp [target]
    · simp [target]
    · cases ha
    · rw [(copy_targets 1 0 a (List.mem_of_mem_drop ha)).1]; simp
  obtain ⟨_, z, hz, _, _, hw⟩ := C35_copy demoBefore demoDuring p p' 1 0 e0 (by decide) _ _ hv.2 hv.1 e' demo_filter hsrc
  refine ⟨p, p', z, e0, e', hz, ?_⟩
  rw [hw (by decide)]
  decide

/-- Three stacks, never more than two at a time, take two blocks. -/
example : peak [] [.construct 0 (fun _ => 0), .construct 1 (fun _ => 0), .destroy 0, .construct 2 (fun _ => 0)] = 2 := by decide
example : allAllowed [] [.construct 0 (fun _ => 0), .construct 1 (fun _ => 0), .destroy 0, .construct 2 (fun _ => 0)] := by
  simp [allAllowed, allowed, aliveAfter]

end Tosca.Props.Stacks

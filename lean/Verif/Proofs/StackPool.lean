import Verif.Spec.PoolView
import Verif.Spec.Stacks

namespace Tosca.Proofs.StackPool

open Tosca.Model (M UB Stack)
open Tosca.Model.Pool
open Tosca.Spec.PoolView

theorem linked_mem {bs : List Block} {h : Option Nat} {fl : List Nat} (c : Linked bs h fl) :
    ∀ d ∈ fl, d < bs.length := by
  induction c with
  | done => intro d hd; cases hd
  | @link d b rest hb _ ih =>
    intro e he
    rcases List.mem_cons.1 he with rfl | he
    · exact (List.getElem?_eq_some_iff.1 hb).1
    · exact ih e he

theorem linked_set {bs : List Block} {h : Option Nat} {fl : List Nat} (c : Linked bs h fl) {e : Nat} (b' : Block) :
    e ∉ fl → Linked (bs.set e b') h fl := by
  induction c with
  | done => intro _; exact .done
  | @link d b rest hb _ ih =>
    intro he
    have hne : e ≠ d := fun h => he (by simp [h])
    exact .link (by rw [List.getElem?_set_ne hne]; exact hb) (ih (fun h => he (List.mem_cons_of_mem _ h)))

theorem linked_append {bs : List Block} {h : Option Nat} {fl : List Nat} (c : Linked bs h fl) (b' : Block) :
    Linked (bs ++ [b']) h fl := by
  induction c with
  | done => exact .done
  | @link d b rest hb _ ih =>
    refine .link ?_ ih
    have := (List.getElem?_eq_some_iff.1 hb).1
    rw [List.getElem?_append_left this]; exact hb

/-- The storage invariant, with the free list `fl` and the names `L` of the existing objects. -/
structure Inv (p : Pool) (fl L : List Nat) : Prop where
  chain : Linked p.blocks p.free fl
  nodup : fl.Nodup
  names : L.Nodup
  live : ∀ s, (∃ h, p.live s = some h) ↔ s ∈ L
  valid : ∀ s h, p.live s = some h → h.block < p.blocks.length ∧ h.block ∉ fl
  inj : ∀ s t h k, p.live s = some h → p.live t = some k → h.block = k.block → s = t
  total : p.blocks.length = fl.length + L.length
  cover : ∀ d, d < p.blocks.length → d ∈ fl ∨ ∃ s h, p.live s = some h ∧ h.block = d

theorem inv_empty : Inv {} [] [] where
  chain := .done
  nodup := List.nodup_nil
  names := List.nodup_nil
  live := by intro s; simp
  valid := by intro s h hs; cases hs
  inj := by intro s t h k hs; cases hs
  total := rfl
  cover := by intro d hd; cases hd

/-- Replacing the contents and link of a live block keeps the invariant. -/
theorem inv_setBlock {p : Pool} {fl L : List Nat} (i : Inv p fl L) {s : Nat} {h : Handle} (hs : p.live s = some h)
    (b : Block) : Inv { p with blocks := p.blocks.set h.block b } fl L where
  chain := linked_set i.chain b (i.valid s h hs).2
  nodup := i.nodup
  names := i.names
  live := i.live
  valid := by intro t k ht; simpa using i.valid t k ht
  inj := i.inj
  total := by simpa using i.total
  cover := by intro d hd; exact i.cover d (by simpa using hd)

/-- Moving the top of a live object keeps the invariant. -/
theorem inv_setTop {p : Pool} {fl L : List Nat} (i : Inv p fl L) {s : Nat} {h : Handle} (hs : p.live s = some h)
    (top : Int) : Inv (p.setLive s (some { h with top := top })) fl L where
  chain := i.chain
  nodup := i.nodup
  names := i.names
  live := by
    intro t
    by_cases hts : t = s
    · subst hts
      simp [Pool.setLive, (i.live t).1 ⟨h, hs⟩]
    · simpa [Pool.setLive, hts] using i.live t
  valid := by
    intro t k ht
    by_cases hts : t = s
    · subst hts
      simp [Pool.setLive] at ht
      subst ht
      exact i.valid t h hs
    · simp [Pool.setLive, hts] at ht
      exact i.valid t k ht
  inj := by
    intro t u k m ht hu hb
    by_cases hts : t = s <;> by_cases hus : u = s
    · rw [hts, hus]
    · subst hts
      simp [Pool.setLive, hus] at ht hu
      subst ht
      exact i.inj t u h m hs hu hb
    · subst hus
      simp [Pool.setLive, hts] at ht hu
      subst hu
      exact i.inj t u k h ht hs hb
    · simp [Pool.setLive, hts, hus] at ht hu
      exact i.inj t u k m ht hu hb
  total := i.total
  cover := by
    intro d hd
    rcases i.cover d hd with h' | ⟨t, k, ht, hb⟩
    · exact .inl h'
    · right
      by_cases hts : t = s
      · subst hts
        rw [hs] at ht; cases ht
        exact ⟨t, { h with top := top }, by simp [Pool.setLive], hb⟩
      · exact ⟨t, k, by simp [Pool.setLive, hts, ht], hb⟩

theorem handle_ok {p : Pool} {s : Nat} {h : Handle} (hs : p.live s = some h) : p.handle s = .ok h := by
  simp [Pool.handle, hs]

theorem handle_inv {p : Pool} {s : Nat} {h : Handle} (e : p.handle s = .ok h) : p.live s = some h := by
  unfold Pool.handle at e
  split at e
  · next k hk => cases e; exact hk
  · cases e

theorem block_ok {p : Pool} {fl L : List Nat} (i : Inv p fl L) {s : Nat} {h : Handle} (hs : p.live s = some h) :
    ∃ b, p.blocks[h.block]? = some b ∧ p.block h.block = .ok b := by
  obtain ⟨hl, _⟩ := i.valid s h hs
  refine ⟨p.blocks[h.block], List.getElem?_eq_getElem hl, ?_⟩
  simp [Pool.block, List.getElem?_eq_getElem hl]

theorem live_of_mem {p : Pool} {fl L : List Nat} (i : Inv p fl L) {s : Nat} (hs : s ∈ L) :
    ∃ h b, p.live s = some h ∧ p.handle s = .ok h ∧ p.blocks[h.block]? = some b ∧ p.block h.block = .ok b ∧
      value p s = some { buf := b.data, top := h.top } := by
  obtain ⟨h, hh⟩ := (i.live s).2 hs
  obtain ⟨b, hb, hb'⟩ := block_ok i hh
  exact ⟨h, b, hh, handle_ok hh, hb, hb', by simp [value, hh, hb]⟩

theorem not_mem_of_none {p : Pool} {fl L : List Nat} (i : Inv p fl L) {s : Nat} : p.live s = none ↔ s ∉ L := by
  rw [← i.live s]
  cases h : p.live s <;> simp

/-- Values of objects other than the owner of a changed block. -/
theorem value_setBlock {p : Pool} {fl L : List Nat} (i : Inv p fl L) {s : Nat} {h : Handle} (hs : p.live s = some h)
    (b : Block) (t : Nat) :
    value { p with blocks := p.blocks.set h.block b } t = if t = s then some { buf := b.data, top := h.top } else value p t := by
  by_cases hts : t = s
  · subst hts
    have hl := (i.valid t h hs).1
    simp [value, hs, hl]
  · simp only [hts, if_false]
    unfold value
    cases ht : p.live t with
    | none => simp
    | some k =>
      have hne : h.block ≠ k.block := fun e => hts (i.inj t s k h ht hs e.symm)
      simp [List.getElem?_set_ne hne]

theorem value_setTop {p : Pool} {s : Nat} {h : Handle} {b : Block} (hb : p.blocks[h.block]? = some b)
    (top : Int) (t : Nat) :
    value (p.setLive s (some { h with top := top })) t = if t = s then some { buf := b.data, top := top } else value p t := by
  by_cases hts : t = s
  · subst hts; simp [value, Pool.setLive, hb]
  · simp [value, Pool.setLive, hts]

/-- What an action does, in terms of values of objects. -/
def valueAfter (p : Pool) : Action → (Nat → Option Stack) → Prop
  | .construct s _, v => ∃ buf, v = fun t => if t = s then some { buf := buf, top := 1024 } else value p t
  | .copyWord s src i, v => ∃ x y, value p s = some x ∧ value p src = some y ∧
      v = fun t => if t = s then some { x with buf := fun j => if j = i then y.buf i else x.buf j } else value p t
  | .copyNext _ _, v => v = value p
  | .copyTop s src, v => ∃ x y, value p s = some x ∧ value p src = some y ∧
      v = fun t => if t = s then some { x with top := 1024 - (y.size : Int) } else value p t
  | .setTop s top, v => ∃ x, value p s = some x ∧ v = fun t => if t = s then some { x with top := top } else value p t
  | .write s q w, v => ∃ x, value p s = some x ∧
      v = fun t => if t = s then some { x with buf := fun j => if j = q.toNat then w else x.buf j } else value p t
  | .destroy s, v => v = fun t => if t = s then none else value p t

theorem exec_allowed {p : Pool} {fl L : List Nat} (i : Inv p fl L) (a : Action) (ha : allowed L a) :
    ∃ p' fl', p.exec a = .ok p' ∧ Inv p' fl' (aliveAfter L a) ∧ valueAfter p a (value p') ∧
      p'.blocks.length = max p.blocks.length (aliveAfter L a).length := by
  have hlen : L.length ≤ p.blocks.length := by have := i.total; omega
  cases a with
  | construct s fresh =>
    have hs : p.live s = none := (not_mem_of_none i).2 ha
    cases hf : p.free with
    | none =>
      have hfl : fl = [] := by
        have := i.chain; rw [hf] at this; cases this; rfl
      subst hfl
      refine ⟨_, [], by simp [Pool.exec, hs, Pool.getData, hf]; rfl, ?_, ?_, ?_⟩
      · constructor
        · simp [Pool.setLive]; exact .done
        · exact List.nodup_nil
        · exact List.nodup_cons.2 ⟨ha, i.names⟩
        · intro t
          by_cases hts : t = s
          · subst hts; simp [Pool.setLive, aliveAfter]
          · simpa [Pool.setLive, aliveAfter, hts] using i.live t
        · intro t k ht
          by_cases hts : t = s
          · subst hts; simp [Pool.setLive] at ht; subst ht; simp [Pool.setLive]
          · simp [Pool.setLive, hts] at ht
            have := (i.valid t k ht).1
            simp [Pool.setLive]; omega
        · intro t u k m ht hu hb
          by_cases hts : t = s <;> by_cases hus : u = s
          · rw [hts, hus]
          · subst hts
            simp [Pool.setLive, hus] at ht hu
            subst ht
            have := (i.valid u m hu).1
            simp at hb; omega
          · subst hus
            simp [Pool.setLive, hts] at ht hu
            subst hu
            have := (i.valid t k ht).1
            simp at hb; omega
          · simp [Pool.setLive, hts, hus] at ht hu
            exact i.inj t u k m ht hu hb
        · have := i.total
          simp [Pool.setLive, aliveAfter] at *; omega
        · intro d hd
          right
          simp [Pool.setLive] at hd
          by_cases hd' : d = p.blocks.length
          · exact ⟨s, _, by simp [Pool.setLive]; rfl, hd'.symm⟩
          · rcases i.cover d (by omega) with h' | ⟨t, k, ht, hb⟩
            · cases h'
            · have hts : t ≠ s := by rintro rfl; rw [hs] at ht; cases ht
              exact ⟨t, k, by simp [Pool.setLive, hts, ht], hb⟩
      · refine ⟨fresh, ?_⟩
        funext t
        by_cases hts : t = s
        · subst hts; simp [value, Pool.setLive]
        · simp only [hts, if_false]
          unfold value
          simp only [Pool.setLive, hts, if_false]
          cases ht : p.live t with
          | none => rfl
          | some k =>
            have := (i.valid t k ht).1
            simp [List.getElem?_append_left this]
      · have := i.total
        simp [Pool.setLive, aliveAfter] at *; omega
    | some d =>
      have hc := i.chain
      rw [hf] at hc
      cases hc with
      | @link _ b rest hb hrest =>
        have hnd := List.nodup_cons.1 i.nodup
        have hdl := (List.getElem?_eq_some_iff.1 hb).1
        refine ⟨_, rest, by simp [Pool.exec, hs, Pool.getData, hf, Pool.block, hb]; rfl, ?_, ?_, ?_⟩
        · constructor
          · exact hrest
          · exact hnd.2
          · exact List.nodup_cons.2 ⟨ha, i.names⟩
          · intro t
            by_cases hts : t = s
            · subst hts; simp [Pool.setLive, aliveAfter]
            · simpa [Pool.setLive, aliveAfter, hts] using i.live t
          · intro t k ht
            by_cases hts : t = s
            · subst hts; simp [Pool.setLive] at ht; subst ht
              exact ⟨hdl, hnd.1⟩
            · simp [Pool.setLive, hts] at ht
              have := i.valid t k ht
              exact ⟨this.1, fun h => this.2 (List.mem_cons_of_mem _ h)⟩
          · intro t u k m ht hu hb
            by_cases hts : t = s <;> by_cases hus : u = s
            · rw [hts, hus]
            · subst hts
              simp [Pool.setLive, hus] at ht hu
              subst ht
              have := (i.valid u m hu).2
              exact absurd (by simp at hb; simp [hb]) this
            · subst hus
              simp [Pool.setLive, hts] at ht hu
              subst hu
              have := (i.valid t k ht).2
              exact absurd (by simp at hb; simp [hb]) this
            · simp [Pool.setLive, hts, hus] at ht hu
              exact i.inj t u k m ht hu hb
          · have := i.total
            simp [Pool.setLive, aliveAfter] at *; omega
          · intro e he
            rcases i.cover e he with h' | ⟨t, k, ht, hb⟩
            · rcases List.mem_cons.1 h' with rfl | h'
              · right; exact ⟨s, _, by simp [Pool.setLive]; rfl, rfl⟩
              · exact .inl h'
            · right
              have hts : t ≠ s := by rintro rfl; rw [hs] at ht; cases ht
              exact ⟨t, k, by simp [Pool.setLive, hts, ht], hb⟩
        · refine ⟨b.data, ?_⟩
          funext t
          by_cases hts : t = s
          · subst hts; simp [value, Pool.setLive, hb]
          · simp [value, Pool.setLive, hts]
        · have := i.total
          simp [Pool.setLive, aliveAfter] at *; omega
  | copyWord s src j =>
    obtain ⟨h, b, hl, hh, hb, hb', hv⟩ := live_of_mem i ha.1
    obtain ⟨k, c, kl, kh, kb, kb', kv⟩ := live_of_mem i ha.2
    refine ⟨_, fl, by simp only [Pool.exec, hh, kh, hb', kb', bind, Except.bind]; rfl, inv_setBlock i hl _, ?_, ?_⟩
    · refine ⟨_, _, hv, kv, ?_⟩
      funext t; exact value_setBlock i hl _ t
    · simp [aliveAfter]; omega
  | copyNext s src =>
    obtain ⟨h, b, hl, hh, hb, hb', hv⟩ := live_of_mem i ha.1
    obtain ⟨k, c, kl, kh, kb, kb', kv⟩ := live_of_mem i ha.2
    refine ⟨_, fl, by simp only [Pool.exec, hh, kh, hb', kb', bind, Except.bind]; rfl, inv_setBlock i hl _, ?_, ?_⟩
    · show value _ = value p
      funext t
      rw [value_setBlock i hl _ t]
      by_cases hts : t = s
      · subst hts; simp [hv]
      · simp [hts]
    · simp [aliveAfter]; omega
  | copyTop s src =>
    obtain ⟨h, b, hl, hh, hb, hb', hv⟩ := live_of_mem i ha.1
    obtain ⟨k, c, kl, kh, kb, kb', kv⟩ := live_of_mem i ha.2
    refine ⟨_, fl, by simp only [Pool.exec, hh, kh, bind, Except.bind]; rfl, inv_setTop i hl _, ?_, ?_⟩
    · refine ⟨_, _, hv, kv, ?_⟩
      funext t
      rw [value_setTop hb]; rfl
    · simp [aliveAfter, Pool.setLive]; omega
  | setTop s top =>
    obtain ⟨h, b, hl, hh, hb, hb', hv⟩ := live_of_mem i ha
    refine ⟨_, fl, by simp only [Pool.exec, hh, bind, Except.bind]; rfl, inv_setTop i hl _, ?_, ?_⟩
    · refine ⟨_, hv, ?_⟩
      funext t
      rw [value_setTop hb]
    · simp [aliveAfter, Pool.setLive]; omega
  | write s q w =>
    obtain ⟨h, b, hl, hh, hb, hb', hv⟩ := live_of_mem i ha.1
    refine ⟨_, fl, by simp only [Pool.exec, hh, hb', bind, Except.bind]; rw [if_pos ha.2]; rfl, inv_setBlock i hl _, ?_, ?_⟩
    · refine ⟨_, hv, ?_⟩
      funext t; exact value_setBlock i hl _ t
    · simp [aliveAfter]; omega
  | destroy s =>
    obtain ⟨h, b, hl, hh, hb, hb', hv⟩ := live_of_mem i ha
    have hs : s ∈ L := ha
    obtain ⟨hbl, hbf⟩ := i.valid s h hl
    refine ⟨_, h.block :: fl, by simp only [Pool.exec, hh, Pool.release, hb', bind, Except.bind]; rfl, ?_, ?_, ?_⟩
    · constructor
      · refine .link (b := { b with next := p.free }) ?_ ?_
        · simp [Pool.setLive, hbl]
        · exact linked_set i.chain _ hbf
      · exact List.nodup_cons.2 ⟨hbf, i.nodup⟩
      · exact i.names.erase _
      · intro t
        by_cases hts : t = s
        · subst hts; simp [Pool.setLive, aliveAfter, i.names.mem_erase_iff]
        · simpa [Pool.setLive, aliveAfter, hts, i.names.mem_erase_iff] using i.live t
      · intro t k ht
        by_cases hts : t = s
        · subst hts; simp [Pool.setLive] at ht
        · simp [Pool.setLive, hts] at ht
          have h1 := i.valid t k ht
          refine ⟨by simpa [Pool.setLive] using h1.1, ?_⟩
          intro hm
          rcases List.mem_cons.1 hm with e | e
          · exact hts (i.inj t s k h ht hl e)
          · exact h1.2 e
      · intro t u k m ht hu hb
        by_cases hts : t = s
        · subst hts; simp [Pool.setLive] at ht
        · by_cases hus : u = s
          · subst hus; simp [Pool.setLive] at hu
          · simp [Pool.setLive, hts, hus] at ht hu
            exact i.inj t u k m ht hu hb
      · have h1 := i.total
        have h2 := List.length_erase_of_mem hs
        have h3 := List.length_pos_of_mem hs
        simp [Pool.setLive, aliveAfter] at *; omega
      · intro e he
        rcases i.cover e (by simpa [Pool.setLive] using he) with h' | ⟨t, k, ht, hb⟩
        · exact .inl (List.mem_cons_of_mem _ h')
        · by_cases hts : t = s
          · subst hts
            rw [hl] at ht; cases ht
            left; simp [hb]
          · right
            exact ⟨t, k, by simp [Pool.setLive, hts, ht], hb⟩
    · show value _ = _
      funext t
      by_cases hts : t = s
      · subst hts; simp [value, Pool.setLive]
      · simp only [hts, if_false]
        unfold value
        simp only [Pool.setLive, hts, if_false]
        cases ht : p.live t with
        | none => rfl
        | some k =>
          have hne : h.block ≠ k.block := fun e => hts (i.inj t s k h ht hl e.symm)
          simp [List.getElem?_set_ne hne]
    · have h2 := List.length_erase_of_mem hs
      simp [Pool.setLive, aliveAfter]; omega

/-- Actions that are not allowed are undefined behaviour. -/
theorem exec_not_allowed {p : Pool} {fl L : List Nat} (i : Inv p fl L) (a : Action) (ha : ¬ allowed L a) :
    ∃ u, p.exec a = .error u := by
  have miss : ∀ s, s ∉ L → p.handle s = .error .badPointer := by
    intro s hs
    simp [Pool.handle, (not_mem_of_none i).2 hs]
  have two : ∀ s t, ¬ (s ∈ L ∧ t ∈ L) → (p.handle s = .error .badPointer) ∨
      (∃ h, p.handle s = .ok h ∧ p.handle t = .error .badPointer) := by
    intro s t hst
    by_cases hs : s ∈ L
    · obtain ⟨h, _, _, hh, _⟩ := live_of_mem i hs
      exact .inr ⟨h, hh, miss t (fun ht => hst ⟨hs, ht⟩)⟩
    · exact .inl (miss s hs)
  cases a with
  | construct s fresh =>
    have : s ∈ L := Classical.not_not.1 ha
    obtain ⟨h, b, hl, _⟩ := live_of_mem i this
    exact ⟨_, by simp [Pool.exec, hl]; rfl⟩
  | copyWord s src j =>
    rcases two s src ha with h | ⟨k, h, h'⟩
    · exact ⟨_, by simp only [Pool.exec, h, bind, Except.bind]; rfl⟩
    · exact ⟨_, by simp only [Pool.exec, h, h', bind, Except.bind]; rfl⟩
  | copyNext s src =>
    rcases two s src ha with h | ⟨k, h, h'⟩
    · exact ⟨_, by simp only [Pool.exec, h, bind, Except.bind]; rfl⟩
    · exact ⟨_, by simp only [Pool.exec, h, h', bind, Except.bind]; rfl⟩
  | copyTop s src =>
    rcases two s src ha with h | ⟨k, h, h'⟩
    · exact ⟨_, by simp only [Pool.exec, h, bind, Except.bind]; rfl⟩
    · exact ⟨_, by simp only [Pool.exec, h, h', bind, Except.bind]; rfl⟩
  | setTop s top => exact ⟨_, by simp only [Pool.exec, miss s ha, bind, Except.bind]; rfl⟩
  | write s q w =>
    by_cases hs : s ∈ L
    · obtain ⟨h, b, hl, hh, hb, hb', hv⟩ := live_of_mem i hs
      have : ¬ (0 ≤ q ∧ q < 1024) := fun h => ha ⟨hs, h⟩
      exact ⟨_, by simp only [Pool.exec, hh, hb', bind, Except.bind]; rw [if_neg this]⟩
    · exact ⟨_, by simp only [Pool.exec, miss s hs, bind, Except.bind]; rfl⟩
  | destroy s => exact ⟨_, by simp only [Pool.exec, miss s ha, bind, Except.bind]; rfl⟩

theorem execs_allowed : ∀ (acts : List Action) {p : Pool} {fl L : List Nat}, Inv p fl L → allAllowed L acts →
    ∃ p' fl', p.execs acts = .ok p' ∧ Inv p' fl' (alive L acts) ∧
      p'.blocks.length = max p.blocks.length (peak L acts)
  | [], p, fl, L, i, _ => by
    refine ⟨p, fl, rfl, i, ?_⟩
    have := i.total
    simp [peak]; omega
  | a :: as, p, fl, L, i, ha => by
    obtain ⟨p1, fl1, e1, i1, _, l1⟩ := exec_allowed i a ha.1
    obtain ⟨p2, fl2, e2, i2, l2⟩ := execs_allowed as i1 ha.2
    refine ⟨p2, fl2, by simp only [Pool.execs, e1, bind, Except.bind]; exact e2, i2, ?_⟩
    have h0 := i.total
    have h1 : (aliveAfter L a).length ≤ peak (aliveAfter L a) as := by
      cases as with
      | nil => exact Nat.le_refl _
      | cons b bs => exact Nat.le_max_left _ _
    rw [l2, l1]
    show _ = max _ (max L.length _)
    omega

theorem execs_ok_allowed : ∀ (acts : List Action) {p p' : Pool} {fl L : List Nat}, Inv p fl L →
    p.execs acts = .ok p' → allAllowed L acts
  | [], _, _, _, _, _, _ => trivial
  | a :: as, p, p', fl, L, i, e => by
    by_cases ha : allowed L a
    · obtain ⟨p1, fl1, e1, i1, _, _⟩ := exec_allowed i a ha
      refine ⟨ha, execs_ok_allowed as i1 (p' := p') ?_⟩
      simpa only [Pool.execs, e1, bind, Except.bind] using e
    · obtain ⟨u, hu⟩ := exec_not_allowed i a ha
      simp only [Pool.execs, hu, bind, Except.bind] at e
      cases e

/-- The invariant holds after every history. -/
theorem execs_inv {acts : List Action} {p' : Pool} (e : Pool.execs {} acts = .ok p') :
    ∃ fl, Inv p' fl (alive [] acts) ∧ p'.blocks.length = peak [] acts := by
  obtain ⟨q, fl, e', i, hl⟩ := execs_allowed acts inv_empty (execs_ok_allowed acts inv_empty e)
  rw [e] at e'; cases e'
  exact ⟨fl, i, by simpa using hl⟩

end Tosca.Proofs.StackPool

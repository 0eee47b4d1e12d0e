import Verif.Proofs.CtOps6

/-!
# Rules of EXTCODECOPY, SLOAD, SSTORE and SELFDESTRUCT
-/

namespace Tosca.Proofs.Ct

open Tosca.Spec Tosca.Spec.Go Tosca.Go Tosca.Model.Go Tosca.Model.Ct Tosca.Proofs.Lfvm
open Tosca.Model.Lfvm (isUint64 uint64 ofU64 bytes20 bytes32 ofBytes20 setBytes)

variable {c d : S} {t : State World} {keccak : List Byte → U256} {x : Model.Ct.Fixed} {rev : Revision}

/-! ## Copying code -/

theorem slice_part (l : List Byte) (off n : Nat) : slice ((l.drop off).take n) 0 n = slice l off n := by
  apply List.ext_getElem
  · rw [slice_length, slice_length]
  · intro i h1 h2
    rw [slice_length] at h1
    rw [slice_get, slice_get]
    unfold byteAt
    rw [List.getD_eq_getElem?_getD, List.getD_eq_getElem?_getD, List.getElem?_take, if_pos (by omega), List.getElem?_drop, Nat.zero_add]

theorem slice_behind (l : List Byte) {off : Nat} (n : Nat) (h : l.length ≤ off) : slice [] 0 n = slice l off n := by
  apply List.ext_getElem
  · rw [slice_length, slice_length]
  · intro i h1 h2
    rw [slice_get, slice_get]
    unfold byteAt
    rw [List.getD_eq_getElem?_getD, List.getD_eq_getElem?_getD, List.getElem?_eq_none (Nat.zero_le _), List.getElem?_eq_none (by omega)]

theorem write_nil (M : Mem) (off : Nat) : M.write off [] = M := by
  refine Mem.ext rfl fun i => ?_
  show (if off ≤ i ∧ i < off + 0 then _ else _) = _
  rw [if_neg (by omega)]

/-- Paying in two steps, the first before memory has been looked at. -/
theorem touch_split {off n : U256} {g extra : Nat} {W : World} {K : State World → State World} (hg : (g : Int) ≤ d.gas) :
    Like (if (frameState d).gas < (memOf d.memory).growGas ((memOf d.memory).sizeAfter off.toNat n.toNat) then (frameState d).fail .outOfGas
      else (frameState { d with world := W }).touch off n (extra + g) K)
      ((frameState { d with gas := d.gas - (g : Int) }).touch off n extra fun s => K { s with host := W }) := by
  have e0 : (frameState d).gas = d.gas.toNat := rfl
  unfold State.touch State.charge
  show Like (if d.gas.toNat < (memOf d.memory).growGas ((memOf d.memory).sizeAfter off.toNat n.toNat) then _
    else if d.gas.toNat < (memOf d.memory).growGas ((memOf d.memory).sizeAfter off.toNat n.toNat) + (extra + g) then _ else _)
    (if (d.gas - (g : Int)).toNat < (memOf d.memory).growGas ((memOf d.memory).sizeAfter off.toNat n.toNat) + extra then _ else _)
  generalize hG : (memOf d.memory).growGas ((memOf d.memory).sizeAfter off.toNat n.toNat) = G
  by_cases hlt : d.gas.toNat < G + (extra + g)
  · rw [if_pos (show (d.gas - (g : Int)).toNat < G + extra by omega)]
    refine .inr ⟨?_, failed_fail _ _⟩
    split
    · exact failed_fail _ _
    · exact failed_fail _ _
  · rw [if_neg (by omega), if_neg hlt, if_neg (by omega)]
    refine .inl ?_
    show K { frameState d with gas := d.gas.toNat - ((memOf d.memory).growGas ((memOf d.memory).sizeAfter off.toNat n.toNat) + (extra + g)), mem := _, host := W } =
      K { frameState d with gas := (d.gas - (g : Int)).toNat - ((memOf d.memory).growGas ((memOf d.memory).sizeAfter off.toNat n.toNat) + extra), mem := _, host := W }
    rw [hG, show d.gas.toNat - (G + (extra + g)) = (d.gas - (g : Int)).toNat - (G + extra) by omega]
    rfl

theorem sounds_extcodecopyFor {ks : List Cond} {g : Nat} {mark : Bool}
    (H : ∀ x c a, 0 ≤ x.revision → Holds ks x c → param c 0 = some a → accCost x c.world (bytes20 a) = g ∧
      touched x c.world (bytes20 a) = if mark = true then c.world.markWarm (bytes20 a) else c.world) :
    Sounds keccak (rulesFor { op := 0x3c, staticGas := (g : Int), pops := 4, pushes := 0, conditions := ks, effect := extCodeCopyEffect mark }) := by
  have run : ∀ x c rev a p q n r, At x c rev 0x3c → c.stack = a :: p :: q :: n :: r → execInstrEip (testFrame keccak x c rev) .extcodecopy (frameState c) =
      if (frameState { moved c with stack := r }).gas < (memOf c.memory).growGas ((memOf c.memory).sizeAfter p.toNat n.toNat) then (frameState { moved c with stack := r }).fail .outOfGas
      else (frameState { moved c with stack := r, world := touched x c.world (bytes20 a) }).touch p n (3 * words n.toNat + accCost x c.world (bytes20 a)) fun s =>
        if n.toNat = 0 then s
        else if q.toNat < 2 ^ 64 then
          s.ask ((testFrame keccak x c rev).host.copyCode (bytes20 a) q.toNat n.toNat) fun bytes s =>
            { s with mem := s.mem.write p.toNat (slice bytes 0 n.toNat) }
        else { s with mem := s.mem.write p.toNat (slice [] 0 n.toNat) } := by
    intro x c rev a p q n r hat hst
    have h3 := hat.scope.stack
    have hlen : c.stack.length = r.length + 4 := by rw [hst]; rfl
    rw [exec_free hat (by decide) (I := .extcodecopy) (Nat.not_lt_zero _) (fun h => by cases h.1) rfl rfl (by show 4 ≤ _; omega) (by show _ + 0 ≤ 1024 + 4; omega)]
    show Spec.extcodecopy (testFrame keccak x c rev) (frameState (moved c)) = _
    unfold Spec.extcodecopy
    rw [pop4_eq (c := moved c) hst, l_bytes20, access_eq (d := { moved c with stack := r }) hat.rev]
    rfl
  refine sounds_rulesFor (I := .extcodecopy) rfl (by show 4 ≤ 4; omega) (by show 0 > 4 → _; omega) ?_ ?_
  · intro x c rev hat hk hlt
    have hlt' : c.gas < (g : Int) := hlt
    by_cases hs : c.stack.length < 4
    · exact exec_refused (.inr (.inr (.inl hs)))
    · obtain ⟨a, p, q, n, r, hst⟩ := stack4 (show 4 ≤ c.stack.length by omega)
      rw [run x c rev a p q n r hat hst, (H x c a hat.scope.revision.1 hk (param0 hst)).1]
      have h0 := hat.scope.gas.1
      split
      · exact failed_fail _ _
      · unfold State.touch State.charge
        rw [if_pos (by show c.gas.toNat < _ + (_ + g); omega)]
        exact failed_fail _ _
  · intro x c rev hat hk hgas hst4 _
    have hgas' : (g : Int) ≤ c.gas := hgas
    obtain ⟨a, p, q, n, r, hst⟩ := stack4 hst4
    obtain ⟨hA, hB⟩ := H x c a hat.scope.revision.1 hk (param0 hst)
    rw [run x c rev a p q n r hat hst, hA, hB]
    refine does_like (touch_split (d := { moved c with stack := r }) hgas') ?_
    obtain ⟨hok, hb⟩ := next_ok hat hgas'
    show Does (extCodeCopyEffect mark x (next c g)) ((frameState { next c g with stack := r }).touch p n (3 * words n.toNat) _)
    have hst' : (next c g).stack = a :: p :: q :: n :: r := hst
    have ew : (next c g).world = c.world := rfl
    rw [← ew]
    generalize next c g = c1 at *
    unfold extCodeCopyEffect
    simp only [pop_eq hst', pop_mk, Option.bind_eq_bind, Option.bind_some]
    have hok1 := ok_stack hok r
    have hb1 : Bounded { c1 with stack := r } := hb
    rcases hE : expansionCosts c1.memory p n with ⟨cost, o, s⟩
    refine does_mem_sum hok1 hb1 hE (fun hr => range_words (k := 3) hr (by omega) 3 rfl) ?_
    intro hr g' hle _ hok2
    have hcl := (c1.world.account (bytes20 a)).code.short
    obtain ⟨dd, e1, e2⟩ := copySource_ok hcl (offset := q) (size := s) (by rw [hr.size]; exact range_small hr)
    simp only [e1, Option.bind_some, e2]
    obtain ⟨m', h1, h2, h3⟩ := range_write hok1 hb1 hr (data := slice (c1.world.account (bytes20 a)).code.data q.toNat s.toNat) (by rw [slice_length, hr.size])
    simp only [h1, Option.bind_some]
    have fin : ∀ W : World, frameState { less { c1 with stack := r } g' with memory := m', world := W } =
        { frameState (less { c1 with stack := r } g') with
          mem := ((memOf c1.memory).expand p.toNat n.toNat).write p.toNat (slice (c1.world.account (bytes20 a)).code.data q.toNat n.toNat), host := W } := by
      intro W
      rw [hr.size] at h3
      rw [frame_mem (c := { less { c1 with stack := r } g' with world := W }) h3]
      rfl
    have ref : ∀ W : World, W.account (bytes20 a) = c1.world.account (bytes20 a) →
        (fun s : State World => if n.toNat = 0 then s
          else if q.toNat < 2 ^ 64 then
            s.ask ((testFrame keccak x c rev).host.copyCode (bytes20 a) q.toNat n.toNat) fun bytes s => { s with mem := s.mem.write p.toNat (slice bytes 0 n.toNat) }
          else { s with mem := s.mem.write p.toNat (slice [] 0 n.toNat) })
          { frameState (less { c1 with stack := r } g') with mem := (memOf c1.memory).expand p.toNat n.toNat, host := W } =
        { frameState (less { c1 with stack := r } g') with
          mem := ((memOf c1.memory).expand p.toNat n.toNat).write p.toNat (slice (c1.world.account (bytes20 a)).code.data q.toNat n.toNat), host := W } := by
      intro W hW
      dsimp only
      by_cases hn : n.toNat = 0
      · rw [if_pos hn, hn]
        have : slice (c1.world.account (bytes20 a)).code.data q.toNat 0 = [] := rfl
        rw [this, write_nil]
      · rw [if_neg hn]
        by_cases hq : q.toNat < 2 ^ 64
        · rw [if_pos hq]
          show ({ frameState (less { c1 with stack := r } g') with
            mem := ((memOf c1.memory).expand p.toNat n.toNat).write p.toNat (slice (((W.account (bytes20 a)).code.data.drop q.toNat).take n.toNat) 0 n.toNat), host := W } : State World) = _
          rw [slice_part, hW]
        · have hq' : (c1.world.account (bytes20 a)).code.data.length ≤ q.toNat := Nat.le_trans (Nat.le_of_lt hcl) (Nat.le_trans (by decide) (Nat.not_lt.1 hq))
          rw [if_neg hq, slice_behind (c1.world.account (bytes20 a)).code.data n.toNat hq']
    cases mark with
    | true =>
      refine does_next ⟨hok2.status, hok2.result, h2, hok2.gas, hok2.refund⟩ ?_
      exact (ref (c1.world.markWarm (bytes20 a)) rfl).trans (fin _).symm
    | false =>
      refine does_next ⟨hok2.status, hok2.result, h2, hok2.gas, hok2.refund⟩ ?_
      exact (ref c1.world rfl).trans (fin _).symm

theorem sounds_extcodecopy : Sounds keccak Model.Ct.extcodecopy := by
  unfold Model.Ct.extcodecopy
  refine sounds_append (sounds_append ?_ ?_) ?_
  · refine sounds_extcodecopyFor (g := 2600) ?_
    intro x c a h0 hk hp
    have hrev := check_revision.1 (hk (.revision 1 5) (by simp))
    exact touched_cold hrev.1 ((check_warm hp).2.1 (hk (.addressCold 0) (by simp)))
  · refine sounds_extcodecopyFor (g := 100) ?_
    intro x c a h0 hk hp
    have hrev := check_revision.1 (hk (.revision 1 5) (by simp))
    exact touched_warm hrev.1 ((check_warm hp).1.1 (hk (.addressWarm 0) (by simp)))
  · refine sounds_extcodecopyFor (g := 700) ?_
    intro x c a h0 hk hp
    exact touched_early h0 (hk (.revision 0 0) (by simp))

/-! ## Storage -/

theorem check_key {i : Nat} {k : U256} (h : param c i = some k) :
    ((Cond.storageWarm i).check x c = some true ↔ c.world.warmKeys k = true) ∧
    ((Cond.storageCold i).check x c = some true ↔ c.world.warmKeys k = false) := by
  unfold Cond.check
  dsimp only
  rw [h]
  simp

/-- The price of reading a slot and the world after. -/
def slotCost (x : Model.Ct.Fixed) (w : World) (k : U256) : Nat := if x.revision ≥ 1 then (if w.warmKeys k = true then 100 else 2100) else 800
def slotTouched (x : Model.Ct.Fixed) (w : World) (k : U256) : World := if x.revision ≥ 1 then w.markWarmKey k else w

theorem sounds_sloadFor {ks : List Cond} {g : Nat} {E : Effect}
    (H : ∀ x c k r, 0 ≤ x.revision → Holds ks x c → c.stack = k :: r → slotCost x c.world k = g ∧
      E x (next c g) = some { next c g with stack := c.world.getCurrent k :: r, world := slotTouched x c.world k }) :
    Sounds keccak (rulesFor { op := 0x54, staticGas := (g : Int), pops := 1, pushes := 1, conditions := ks, effect := E }) := by
  have run : ∀ x c rev k r, At x c rev 0x54 → c.stack = k :: r → execInstrEip (testFrame keccak x c rev) .sload (frameState c) =
      (frameState { moved c with stack := r, world := slotTouched x c.world k }).charge (slotCost x c.world k) fun s => s.push (s.host.getCurrent k) := by
    intro x c rev k r hat hst
    have h3 := hat.scope.stack
    have hlen : c.stack.length = r.length + 1 := by rw [hst]; rfl
    rw [exec_free hat (by decide) (I := .sload) (Nat.not_lt_zero _) (fun h => by cases h.1) rfl rfl (by show 1 ≤ _; omega) (by show _ + 1 ≤ 1024 + 1; omega)]
    show Spec.sload (testFrame keccak x c rev) (frameState (moved c)) = _
    unfold Spec.sload
    rw [pop1_eq (c := moved c) hst]
    unfold slotCost slotTouched
    dsimp only
    by_cases hb : x.revision ≥ 1
    · rw [if_pos (show (testFrame keccak x c rev).rev ≥ BERLIN from (berlin_iff hat.rev).2 hb), if_pos hb, if_pos hb]
      by_cases hw : c.world.warmKeys k = true
      · rw [if_pos hw]
        have : ((testFrame keccak x c rev).host.accessStorage x.account k c.world) = (.warm, c.world.markWarmKey k) := by
          show (if c.world.warmKeys k = true then AccessStatus.warm else .cold, _) = _
          rw [if_pos hw]
        show (frameState ({ moved c with stack := r } : S)).ask ((testFrame keccak x c rev).host.accessStorage x.account k) _ = _
        unfold State.ask
        simp only [show (frameState ({ moved c with stack := r } : S)).host = c.world from rfl, this]
        rfl
      · rw [if_neg hw]
        have : ((testFrame keccak x c rev).host.accessStorage x.account k c.world) = (.cold, c.world.markWarmKey k) := by
          show (if c.world.warmKeys k = true then AccessStatus.warm else .cold, _) = _
          rw [if_neg hw]
        show (frameState ({ moved c with stack := r } : S)).ask ((testFrame keccak x c rev).host.accessStorage x.account k) _ = _
        unfold State.ask
        simp only [show (frameState ({ moved c with stack := r } : S)).host = c.world from rfl, this]
        rfl
    · rw [if_neg (show ¬ (testFrame keccak x c rev).rev ≥ BERLIN from fun h => hb ((berlin_iff hat.rev).1 h)), if_neg hb, if_neg hb]
      rfl
  refine sounds_rulesFor (I := .sload) rfl (Nat.le_refl _) (by show 1 > 1 → _; omega) ?_ ?_
  · intro x c rev hat hk hlt
    have hlt' : c.gas < (g : Int) := hlt
    by_cases hs : c.stack.length < 1
    · exact exec_refused (.inr (.inr (.inl hs)))
    · obtain ⟨k, r, hst⟩ := stack1 (show 1 ≤ c.stack.length by omega)
      rw [run x c rev k r hat hst, (H x c k r hat.scope.revision.1 hk hst).1]
      exact charge_broke (d := { moved c with stack := r, world := slotTouched x c.world k }) hat.scope.gas.1 hlt' _
  · intro x c rev hat hk hgas hst1 _
    have hgas' : (g : Int) ≤ c.gas := hgas
    obtain ⟨k, r, hst⟩ := stack1 hst1
    obtain ⟨hA, hB⟩ := H x c k r hat.scope.revision.1 hk hst
    rw [run x c rev k r hat hst, hA, charge_eq (by exact hgas')]
    show Does (E x (next c g)) _
    rw [hB]
    have hok := (next_ok hat hgas').1
    refine does_next ⟨hok.status, hok.result, hok.memory, hok.gas, hok.refund⟩ ?_
    have : (slotTouched x c.world k).getCurrent k = c.world.getCurrent k := by unfold slotTouched; split <;> rfl
    show ({ frameState { next c g with stack := r, world := slotTouched x c.world k } with stack := (slotTouched x c.world k).getCurrent k :: r } : State World) = _
    rw [this]
    rfl

theorem sounds_sload : Sounds keccak Model.Ct.sload := by
  unfold Model.Ct.sload
  refine sounds_append (sounds_append ?_ ?_) ?_
  · refine sounds_sloadFor (g := 2100) ?_
    intro x c k r h0 hk hst
    have hrev := check_revision.1 (hk (.revision 1 5) (by simp))
    have hw := (check_key (param0 hst)).2.1 (hk (.storageCold 0) (by simp))
    unfold slotCost slotTouched
    rw [if_pos hrev.1, if_pos hrev.1, if_neg (by rw [hw]; simp)]
    refine ⟨rfl, ?_⟩
    simp only [pop_eq (c := next c _) hst, Option.bind_eq_bind, Option.bind_some]
    rfl
  · refine sounds_sloadFor (g := 100) ?_
    intro x c k r h0 hk hst
    have hrev := check_revision.1 (hk (.revision 1 5) (by simp))
    have hw := (check_key (param0 hst)).1.1 (hk (.storageWarm 0) (by simp))
    unfold slotCost slotTouched
    rw [if_pos hrev.1, if_pos hrev.1, if_pos hw, markWarmKey_warm hw]
    refine ⟨rfl, ?_⟩
    simp only [pop_eq (c := next c _) hst, Option.bind_eq_bind, Option.bind_some]
    rfl
  · refine sounds_sloadFor (g := 800) ?_
    intro x c k r h0 hk hst
    have hrev := check_revision.1 (hk (.revision 0 0) (by simp))
    unfold slotCost slotTouched
    rw [if_neg (by omega), if_neg (by omega)]
    refine ⟨rfl, ?_⟩
    simp only [pop_eq (c := next c _) hst, Option.bind_eq_bind, Option.bind_some]
    rfl

/-- The surcharge for a cold slot. -/
def cold (x : Model.Ct.Fixed) (w : World) (k : U256) : Nat := if x.revision ≥ 1 ∧ w.warmKeys k = false then 2100 else 0

/-- SSTORE. -/
theorem sstore_run {k v : U256} {r : List U256} (hat : At x c rev 0x55) (hst : c.stack = k :: v :: r) (hro : x.readOnly = false) :
    execInstrEip (testFrame keccak x c rev) .sstore (frameState c) =
      if c.gas.toNat ≤ 2300 then (frameState { moved c with stack := r }).fail .outOfGas
      else (frameState { moved c with stack := r, world := (slotTouched x c.world k).setCurrent k v }).charge
        (sstoreGas rev (getStorageStatus (c.world.getOriginal k) (c.world.getCurrent k) v) + cold x c.world k) fun s =>
        { s with refund := s.refund + sstoreRefund rev true (getStorageStatus (c.world.getOriginal k) (c.world.getCurrent k) v) } := by
  have h3 := hat.scope.stack
  have hlen : c.stack.length = r.length + 2 := by rw [hst]; rfl
  rw [exec_free hat (by decide) (I := .sstore) (Nat.not_lt_zero _) (fun h => by rw [hro] at h; cases h.2) rfl rfl (by show 2 ≤ _; omega) (by show _ + 0 ≤ 1024 + 2; omega)]
  show sstoreEip (testFrame keccak x c rev) (frameState (moved c)) = _
  unfold sstoreEip
  rw [pop2_eq (c := moved c) hst]
  unfold slotTouched cold
  dsimp only
  show (if c.gas.toNat ≤ 2300 then _ else _) = _
  by_cases hlow : c.gas.toNat ≤ 2300
  · rw [if_pos hlow, if_pos hlow]
  rw [if_neg hlow, if_neg hlow]
  by_cases hb : x.revision ≥ 1
  · rw [if_pos (show (testFrame keccak x c rev).rev ≥ BERLIN from (berlin_iff hat.rev).2 hb), if_pos hb]
    have hgo : ∀ sur : Nat, (frameState ({ moved c with stack := r, world := c.world.markWarmKey k } : S)).ask ((testFrame keccak x c rev).host.setStorage x.account k v) (fun status s =>
        s.charge (sstoreGas rev status + sur) fun s => { s with refund := s.refund + sstoreRefund rev true status }) =
      (frameState ({ moved c with stack := r, world := (c.world.markWarmKey k).setCurrent k v } : S)).charge
        (sstoreGas rev (getStorageStatus (c.world.getOriginal k) (c.world.getCurrent k) v) + sur) fun s =>
        { s with refund := s.refund + sstoreRefund rev true (getStorageStatus (c.world.getOriginal k) (c.world.getCurrent k) v) } := fun _ => rfl
    by_cases hw : c.world.warmKeys k = true
    · rw [if_neg (show ¬ (x.revision ≥ 1 ∧ c.world.warmKeys k = false) by rw [hw]; simp), ← hgo]
      have : ((testFrame keccak x c rev).host.accessStorage x.account k c.world) = (.warm, c.world.markWarmKey k) := by
        show (if c.world.warmKeys k = true then AccessStatus.warm else .cold, _) = _
        rw [if_pos hw]
      show (frameState ({ moved c with stack := r } : S)).ask ((testFrame keccak x c rev).host.accessStorage x.account k) _ = _
      unfold State.ask
      show (fun s : State World => _) _ = _
      simp only [show (frameState ({ moved c with stack := r } : S)).host = c.world from rfl, this]
      rfl
    · have hw' : c.world.warmKeys k = false := by simpa using hw
      rw [if_pos (show (x.revision ≥ 1 ∧ c.world.warmKeys k = false) from ⟨hb, hw'⟩), ← hgo]
      have : ((testFrame keccak x c rev).host.accessStorage x.account k c.world) = (.cold, c.world.markWarmKey k) := by
        show (if c.world.warmKeys k = true then AccessStatus.warm else .cold, _) = _
        rw [if_neg hw]
      show (frameState ({ moved c with stack := r } : S)).ask ((testFrame keccak x c rev).host.accessStorage x.account k) _ = _
      unfold State.ask
      simp only [show (frameState ({ moved c with stack := r } : S)).host = c.world from rfl, this]
      rfl
  · rw [if_neg (show ¬ (testFrame keccak x c rev).rev ≥ BERLIN from fun h => hb ((berlin_iff hat.rev).1 h)), if_neg hb, if_neg (fun h => hb h.1)]
    rfl

theorem sstore_table : ∀ p ∈ sstoreTable, 0 ≤ p.revision ∧
    p.gasCost = ((sstoreGas (p.revision.toNat + 7) p.config + (if p.revision ≥ 1 ∧ p.warm = false then 2100 else 0) : Nat) : Int) ∧
    p.gasRefund = sstoreRefund (p.revision.toNat + 7) true p.config := by decide +kernel

theorem check_config {st : StorageStatus} {k v : U256} {r : List U256} (hst : c.stack = k :: v :: r) :
    (Cond.storageConfig st 0 1).check x c = some true ↔ st = getStorageStatus (c.world.getOriginal k) (c.world.getCurrent k) v := by
  have h0 : param c 0 = some k := by unfold param; rw [hst]; rfl
  have h1 : param c 1 = some v := by unfold param; rw [hst]; rfl
  unfold Cond.check
  dsimp only
  rw [h0, h1]
  simp

/-- What the table says about a state. -/
theorem sstore_entry {p : SstoreParams} (hp : p ∈ sstoreTable) (hr : revisionOf x.revision = some rev) {k v : U256} {r : List U256} (hst : c.stack = k :: v :: r)
    (h1 : x.revision = p.revision) (h2 : Holds (sstoreAccess p) x c) (h3 : (Cond.storageConfig p.config 0 1).check x c = some true) :
    p.gasCost = ((sstoreGas rev (getStorageStatus (c.world.getOriginal k) (c.world.getCurrent k) v) + cold x c.world k : Nat) : Int) ∧
    p.gasRefund = sstoreRefund rev true (getStorageStatus (c.world.getOriginal k) (c.world.getCurrent k) v) := by
  obtain ⟨e0, e1, e2⟩ := sstore_table p hp
  have hv := rev_eq hr
  have erev : p.revision.toNat + 7 = rev := by omega
  rw [← (check_config hst).1 h3]
  rw [erev] at e1 e2
  refine ⟨?_, e2⟩
  rw [e1]
  have hk := param0 hst
  unfold cold sstoreAccess at *
  rw [h1]
  by_cases hb : p.revision ≥ 1
  · rw [if_pos hb] at h2
    cases hw : p.warm with
    | true =>
      rw [hw, if_pos rfl] at h2
      have := (check_key hk).1.1 (h2 (.storageWarm 0) (by simp))
      rw [this]
    | false =>
      rw [hw, if_neg (by simp)] at h2
      have := (check_key hk).2.1 (h2 (.storageCold 0) (by simp))
      rw [this]
  · rw [if_neg (fun h => hb h.1), if_neg (fun h => hb h.1)]

theorem sounds_sstore : Sounds keccak Model.Ct.sstore := by
  unfold Model.Ct.sstore
  refine sounds_append (sounds_flatMap ?_) (sounds_cons ?_ (sounds_cons ?_ sounds_nil))
  · intro p hp
    refine sounds_cons ?_ (sounds_cons ?_ (sounds_cons ?_ sounds_nil))
    · intro x c rev hs hr ha
      have hk : Holds _ x c := applies_iff.1 ha
      obtain ⟨ha1, ha2⟩ := holds_append.1 hk
      have hat : At x c rev 0x55 := at_of hs hr (ha1 _ (by simp))
      have hrev := check_revision.1 (ha1 (.revision p.revision p.revision) (by simp))
      have hro := check_readOnly.1 (ha1 (.readOnly false) (by simp))
      have hgas := check_gasGe.1 (ha1 (.gasGe (sstoreLimit p)) (by simp))
      obtain ⟨k, v, r, hst⟩ := stack2 (check_stackGe.1 (ha1 (.stackGe 2) (by simp)))
      obtain ⟨e1, e2⟩ := sstore_entry hp hr hst (by omega) ha2 (ha1 (.storageConfig p.config 0 1) (by simp))
      have hlim : 2301 ≤ c.gas ∧ p.gasCost ≤ c.gas := by
        unfold sstoreLimit at hgas
        split at hgas <;> omega
      rw [step_decode hat.op (I := .sstore) rfl, sstore_run hat hst hro, if_neg (by omega)]
      rw [e1] at hlim
      rw [charge_eq (by exact hlim.2)]
      show Does ((sstoreOpRegular p).effect x c) _
      unfold sstoreOpRegular
      dsimp only
      rw [pop_eq (c := { c with refund := i64 (c.refund + p.gasRefund), gas := c.gas - p.gasCost, pc := c.pc + 1 }) hst]
      simp only [pop_mk, Option.bind_eq_bind, Option.bind_some]
      have hok := (next_ok hat hlim.2).1
      rw [e1, e2]
      have fin : ∀ W : World, W = (slotTouched x c.world k).setCurrent k v → Does (some ({ c with refund := i64 (c.refund + sstoreRefund rev true (getStorageStatus (c.world.getOriginal k) (c.world.getCurrent k) v)), gas := c.gas - ((sstoreGas rev (getStorageStatus (c.world.getOriginal k) (c.world.getCurrent k) v) + cold x c.world k : Nat) : Int), pc := c.pc + 1, stack := r, world := W } : S))
          { frameState ({ moved c with stack := r, world := (slotTouched x c.world k).setCurrent k v, gas := c.gas - ((sstoreGas rev (getStorageStatus (c.world.getOriginal k) (c.world.getCurrent k) v) + cold x c.world k : Nat) : Int) } : S) with
            refund := c.refund + sstoreRefund rev true (getStorageStatus (c.world.getOriginal k) (c.world.getCurrent k) v) } := by
        rintro W rfl
        exact does_next' ⟨hok.status, hok.result, hok.memory, hok.gas, (by show (-2 ^ 63 : Int) ≤ 0 ∧ (0 : Int) < 2 ^ 63; decide)⟩ rfl rfl
      by_cases hb : x.revision ≥ 1
      · rw [if_pos hb]
        exact fin _ (by unfold slotTouched; rw [if_pos hb]; rfl)
      · rw [if_neg hb]
        exact fin _ (by unfold slotTouched; rw [if_neg hb])
    · refine sound_refuse (I := .sstore) (o := 0x55) rfl (by simp) ?_
      intro x c rev hat hk
      obtain ⟨ha1, ha2⟩ := holds_append.1 hk
      have hrev := check_revision.1 (ha1 (.revision p.revision p.revision) (by simp))
      have hro := check_readOnly.1 (ha1 (.readOnly false) (by simp))
      have hgas := check_gasLt.1 (ha1 (.gasLt p.gasCost) (by simp))
      obtain ⟨k, v, r, hst⟩ := stack2 (check_stackGe.1 (ha1 (.stackGe 2) (by simp)))
      obtain ⟨e1, e2⟩ := sstore_entry hp hat.rev hst (by omega) ha2 (ha1 (.storageConfig p.config 0 1) (by simp))
      rw [sstore_run hat hst hro]
      split
      · exact failed_fail _ _
      · exact charge_broke (d := { moved c with stack := r, world := (slotTouched x c.world k).setCurrent k v }) hat.scope.gas.1 (by rw [← e1]; exact hgas) _
    · refine sound_refuse (I := .sstore) (o := 0x55) rfl (by simp) ?_
      intro x c rev hat hk
      exact exec_refused (.inr (.inl ⟨rfl, by rw [frame_static]; exact check_readOnly.1 (hk (.readOnly true) (by simp))⟩))
  · refine sound_refuse (I := .sstore) (o := 0x55) rfl (by simp) ?_
    intro x c rev hat hk
    have hgas := check_gasLt.1 (hk (.gasLt 2300) (by simp))
    by_cases hro : x.readOnly = true
    · exact exec_refused (.inr (.inl ⟨rfl, by rw [frame_static]; exact hro⟩))
    · by_cases hs : c.stack.length < 2
      · exact exec_refused (.inr (.inr (.inl hs)))
      · obtain ⟨k, v, r, hst⟩ := stack2 (show 2 ≤ c.stack.length by omega)
        rw [sstore_run hat hst (by simpa using hro), if_pos (by omega)]
        exact failed_fail _ _
  · refine sound_refuse (I := .sstore) (o := 0x55) rfl (by simp) ?_
    intro x c rev hat hk
    have hs := check_stackLt.1 (hk (.stackLt 2) (by simp))
    exact exec_refused (.inr (.inr (.inl hs)))

end Tosca.Proofs.Ct

import Verif.Spec.GoPersist
import Verif.Proofs.Compare
import Verif.Props.GoValue

/-!
# Texts, maps and documents
-/

namespace Tosca.Proofs.Persist

open Tosca.Go Tosca.Model.Go Tosca.Model.Ct Tosca.Model.Compare Tosca.Model.Persist Tosca.Spec.Compare Tosca.Spec.Persist Tosca.Proofs.Compare

/-! ## Digits -/

theorem number_snoc (b : Nat) (l : List Nat) (d : Nat) : fromDigits b (l ++ [d]) = b * fromDigits b l + d := by
  unfold fromDigits
  rw [List.foldl_append]
  rfl

theorem number_digits {b : Nat} (hb : 0 < b) : ∀ k x, fromDigits b (digits b k x) = x % b ^ k
  | 0, x => by simp [digits, fromDigits, Nat.mod_one]
  | k + 1, x => by
    unfold digits
    rw [number_snoc, number_digits hb k, Nat.pow_succ, Nat.mul_comm (b ^ k) b, Nat.mod_mul]
    omega

theorem digits_length (b : Nat) : ∀ k x, (digits b k x).length = k
  | 0, _ => rfl
  | k + 1, x => by unfold digits; simp [digits_length b k]

theorem digits_lt {b : Nat} (hb : 0 < b) : ∀ {k x d}, d ∈ digits b k x → d < b
  | 0, _, _, h => by cases h
  | k + 1, x, d, h => by
    unfold digits at h
    rw [List.mem_append, List.mem_singleton] at h
    rcases h with h | h
    · exact digits_lt hb h
    · rw [h]; exact Nat.mod_lt _ hb

theorem mapM_map {α β γ : Type} {enc : α → β} {dec : β → Option γ} {f : α → γ} : ∀ {l : List α}, (∀ x ∈ l, dec (enc x) = some (f x)) →
    (l.map enc).mapM dec = some (l.map f)
  | [], _ => rfl
  | a :: l, h => by
    rw [List.map_cons, List.mapM_cons, h a List.mem_cons_self, mapM_map fun x hx => h x (List.mem_cons_of_mem _ hx)]
    rfl

theorem mapM_same {α β : Type} {enc : α → β} {dec : β → Option α} {l : List α} (h : ∀ x ∈ l, dec (enc x) = some x) :
    (l.map enc).mapM dec = some l := by
  rw [mapM_map (f := id) h, List.map_id]

theorem digitValue_hex {d : Nat} (h : d < 16) : digitValue (hexDigit d) = some d := by
  have : ∀ d : _root_.Fin 16, digitValue (hexDigit d) = some d.val := by decide
  exact this ⟨d, h⟩

theorem parseLimb_text {x : Nat} (h : x < 2 ^ 64) : parseLimb (limbText x) = some x := by
  unfold parseLimb limbText
  rw [if_pos (by rw [List.length_map, digits_length]), mapM_same (fun d hd => digitValue_hex (digits_lt (by omega) hd)), Option.map_some,
    number_digits (by omega), Nat.mod_eq_of_lt (by omega)]

theorem limb_length (x : Nat) : (limbText x).length = 16 := by
  unfold limbText
  rw [List.length_map, digits_length]

theorem drop_past {α : Type} (a b : List α) (n : Nat) : (a ++ b).drop (a.length + n) = b.drop n := by
  rw [List.drop_append, List.drop_of_length_le (by omega), List.nil_append, Nat.add_sub_cancel_left]

theorem parseU256_text (v : U256) : parseU256 (u256Text v) = some v := by
  have hv := v.isLt
  unfold u256Text
  have h3 := parseLimb_text (Nat.mod_lt (v.toNat / 2 ^ 192) (show 0 < 2 ^ 64 by decide))
  have h2 := parseLimb_text (Nat.mod_lt (v.toNat / 2 ^ 128) (show 0 < 2 ^ 64 by decide))
  have h1 := parseLimb_text (Nat.mod_lt (v.toNat / 2 ^ 64) (show 0 < 2 ^ 64 by decide))
  have h0 := parseLimb_text (Nat.mod_lt v.toNat (show 0 < 2 ^ 64 by decide))
  have l3 := limb_length (v.toNat / 2 ^ 192 % 2 ^ 64)
  have l2 := limb_length (v.toNat / 2 ^ 128 % 2 ^ 64)
  have l1 := limb_length (v.toNat / 2 ^ 64 % 2 ^ 64)
  have l0 := limb_length (v.toNat % 2 ^ 64)
  have hn : v.toNat / 2 ^ 192 % 2 ^ 64 * 2 ^ 192 + v.toNat / 2 ^ 128 % 2 ^ 64 * 2 ^ 128 + v.toNat / 2 ^ 64 % 2 ^ 64 * 2 ^ 64 + v.toNat % 2 ^ 64 = v.toNat := by
    omega
  revert h3 h2 h1 h0 l3 l2 l1 l0 hn
  generalize v.toNat / 2 ^ 192 % 2 ^ 64 = n3
  generalize v.toNat / 2 ^ 128 % 2 ^ 64 = n2
  generalize v.toNat / 2 ^ 64 % 2 ^ 64 = n1
  generalize v.toNat % 2 ^ 64 = n0
  intro h3 h2 h1 h0 l3 l2 l1 l0 hn
  revert h3 h2 h1 h0 l3 l2 l1 l0
  generalize limbText n3 = t3
  generalize limbText n2 = t2
  generalize limbText n1 = t1
  generalize limbText n0 = t0
  intro h3 h2 h1 h0 l3 l2 l1 l0
  have e : t3 ++ [32] ++ t2 ++ [32] ++ t1 ++ [32] ++ t0 = t3 ++ ((32 : Byte) :: (t2 ++ (32 :: (t1 ++ (32 :: t0))))) := by simp
  rw [e]
  unfold parseU256
  have g1 : (t3 ++ ((32 : Byte) :: (t2 ++ (32 :: (t1 ++ (32 :: t0))))))[16]? = some 32 := by
    rw [List.getElem?_append_right (by omega), l3]; rfl
  have g2 : (t3 ++ ((32 : Byte) :: (t2 ++ (32 :: (t1 ++ (32 :: t0))))))[33]? = some 32 := by
    rw [List.getElem?_append_right (by omega), l3, List.getElem?_cons_succ (i := 16), List.getElem?_append_right (by omega), l2]; rfl
  have g3 : (t3 ++ ((32 : Byte) :: (t2 ++ (32 :: (t1 ++ (32 :: t0))))))[50]? = some 32 := by
    rw [List.getElem?_append_right (by omega), l3, List.getElem?_cons_succ (i := 33), List.getElem?_append_right (by omega), l2,
      List.getElem?_cons_succ (i := 16), List.getElem?_append_right (by omega), l1]; rfl
  rw [if_neg (by
    rw [g1, g2, g3]
    simp [l3, l2, l1, l0])]
  have d3 : (t3 ++ ((32 : Byte) :: (t2 ++ (32 :: (t1 ++ (32 :: t0)))))).take 16 = t3 := List.take_left' l3
  have d2 : ((t3 ++ ((32 : Byte) :: (t2 ++ (32 :: (t1 ++ (32 :: t0)))))).drop 17).take 16 = t2 := by
    rw [show 17 = t3.length + 1 by omega, drop_past, List.drop_succ_cons, List.drop_zero]
    exact List.take_left' l2
  have d1 : ((t3 ++ ((32 : Byte) :: (t2 ++ (32 :: (t1 ++ (32 :: t0)))))).drop 34).take 16 = t1 := by
    rw [show 34 = t3.length + ((t2.length + 1) + 1) by omega, drop_past, List.drop_succ_cons, drop_past, List.drop_succ_cons, List.drop_zero]
    exact List.take_left' l1
  have d0 : ((t3 ++ ((32 : Byte) :: (t2 ++ (32 :: (t1 ++ (32 :: t0)))))).drop 51).take 16 = t0 := by
    rw [show 51 = t3.length + ((t2.length + ((t1.length + 1) + 1)) + 1) by omega, drop_past, List.drop_succ_cons, drop_past,
      List.drop_succ_cons, drop_past, List.drop_succ_cons, List.drop_zero]
    exact List.take_of_length_le (by omega)
  rw [d3, d2, d1, d0, h3, h2, h1, h0]
  show some (BitVec.ofNat 256 _) = some v
  rw [hn, BitVec.ofNat_toNat, BitVec.setWidth_eq]

theorem parseBytes_text (l : List Byte) : parseBytes (bytesText l) = some l :=
  (hexDecode_iff _ _ _ (Nat.le_refl _)).2 (spells_written l)

theorem parseShort_text (b : Model.Ct.Bytes) : parseShort (bytesText b.data) = some b := by
  have : hexDecode (bytesText b.data) = some b.data := parseBytes_text b.data
  unfold parseShort
  rw [this]
  dsimp only
  rw [dif_pos b.short]

theorem array_number (k x : Nat) : arrayNumber (arrayBytes k x) = x % 256 ^ k := by
  unfold arrayNumber arrayBytes
  rw [List.map_map, List.map_congr_left (g := id) (fun d hd => ?_), List.map_id, number_digits (by omega)]
  have := digits_lt (show 0 < 256 by omega) hd
  simp only [Function.comp, BitVec.toNat_ofNat, id]
  exact Nat.mod_eq_of_lt (by omega)

theorem array_length (k x : Nat) : (arrayBytes k x).length = k := by
  unfold arrayBytes
  rw [List.length_map, digits_length]

theorem parseAddress_text (a : Address) : parseAddress (addressText a) = some a := by
  unfold parseAddress addressText
  have h := C54_round_trip (arrayBytes 20 a.toNat)
  rw [array_length] at h
  have ha := a.isLt
  rw [h, Option.map_some, array_number, Nat.mod_eq_of_lt (by omega), BitVec.ofNat_toNat, BitVec.setWidth_eq]

theorem parseValue_text (a : U256) : parseValue (valueText a) = some a := by
  unfold parseValue valueText
  have h := C54_round_trip (arrayBytes 32 a.toNat)
  rw [array_length] at h
  have ha := a.isLt
  rw [h, Option.map_some, array_number, Nat.mod_eq_of_lt (by omega), BitVec.ofNat_toNat, BitVec.setWidth_eq]

theorem parseStatus_text (s : CtStatus) : parseStatus (statusText s) = some s := by
  cases s <;> decide

theorem parseKind_text (k : Kind) : parseKind (kindText k) = some k := by
  cases k <;> decide

theorem decimal_ok (n : Nat) : (∀ c ∈ decimal n, isDigit c = true) ∧ decimal n ≠ [] ∧ fromDigits 10 ((decimal n).map fun c => c.toNat - 48) = n := by
  have one : ∀ d : _root_.Fin 10, isDigit (Char.ofNat (48 + d)) = true ∧ (Char.ofNat (48 + d)).toNat - 48 = d.val := by decide
  induction n using Nat.strongRecOn with
  | ind n ih =>
    unfold decimal
    by_cases h : n < 10
    · rw [dif_pos h]
      obtain ⟨h1, h2⟩ := one ⟨n, h⟩
      refine ⟨fun c hc => ?_, by simp, ?_⟩
      · rw [List.mem_singleton] at hc; rw [hc]; exact h1
      · show 10 * 0 + ((Char.ofNat (48 + n)).toNat - 48) = n
        dsimp only at h2
        omega
    · rw [dif_neg h]
      obtain ⟨i1, _, i3⟩ := ih (n / 10) (by omega)
      obtain ⟨h1, h2⟩ := one ⟨n % 10, Nat.mod_lt _ (by omega)⟩
      refine ⟨fun c hc => ?_, by simp, ?_⟩
      · rw [List.mem_append, List.mem_singleton] at hc
        rcases hc with hc | hc
        · exact i1 c hc
        · rw [hc]; exact h1
      · rw [List.map_append, List.map_cons, List.map_nil, number_snoc, i3]
        dsimp only at h2
        omega

theorem findRevision_text (n : Nat) : findRevision ("Revision(".toList ++ decimal n ++ [')']) = some (decimal n) := by
  obtain ⟨h1, h2, _⟩ := decimal_ok n
  have hw : (decimal n ++ [')']).takeWhile isDigit = decimal n := by
    rw [List.takeWhile_append_of_pos h1]
    simp [isDigit]
  have hd : (decimal n ++ [')']).dropWhile isDigit = [')'] := by
    rw [List.dropWhile_append_of_pos h1]
    decide
  have hl : "Revision(".toList = 'R' :: "evision(".toList := by decide
  have ht : ("Revision(".toList ++ decimal n ++ [')']).take 9 = "Revision(".toList := by
    rw [List.append_assoc]
    exact List.take_left' (by decide)
  have hp : ("Revision(".toList ++ decimal n ++ [')']).drop 9 = decimal n ++ [')'] := by
    rw [List.append_assoc]
    exact List.drop_left' (by decide)
  have hm : matchRevision ("Revision(".toList ++ decimal n ++ [')']) = some (decimal n) := by
    unfold matchRevision
    rw [if_neg (by rw [ht]; simp), hp]
    dsimp only
    rw [hw, hd, if_neg]
    simp [h2]
  have hc : "Revision(".toList ++ decimal n ++ [')'] = 'R' :: ("evision(".toList ++ decimal n ++ [')']) := by
    rw [hl, List.cons_append, List.cons_append]
  rw [hc] at hm ⊢
  unfold findRevision
  rw [hm]

theorem parseRevision_text {r : Int} (h : 0 ≤ r ∧ r < 2 ^ 63) : parseRevision (revisionText r) = some r := by
  unfold revisionText
  by_cases h0 : r = 0
  · subst h0; decide
  by_cases h1 : r = 1
  · subst h1; decide
  by_cases h2 : r = 2
  · subst h2; decide
  by_cases h3 : r = 3
  · subst h3; decide
  by_cases h4 : r = 4
  · subst h4; decide
  by_cases h5 : r = 5
  · subst h5; decide
  rw [if_neg h0, if_neg h1, if_neg h2, if_neg h3, if_neg h4, if_neg h5, if_neg (show ¬ r < 0 by omega)]
  have first : ∀ (t t' : List Char), (t.head? ≠ some 'R') → "Revision(".toList ++ t' ++ [')'] ≠ t := by
    intro t t' ht e
    rw [← e] at ht
    exact ht rfl
  unfold parseRevision
  rw [if_neg (first _ _ (by decide)), if_neg (first _ _ (by decide)), if_neg (first _ _ (by decide)), if_neg (first _ _ (by decide)),
    if_neg (first _ _ (by decide)), if_neg (first _ _ (by decide)), findRevision_text]
  dsimp only
  rw [(decimal_ok _).2.2, if_pos (by omega)]
  congr 1
  omega

/-! ## Maps -/

section Maps

variable {K V : Type} [DecidableEq K]

theorem entry_cons {k k' : K} {v : V} {m : GoMap K V} : entry ((k, v) :: m) k' = if k = k' then some v else entry m k' := by
  unfold entry
  by_cases h : k = k' <;> simp [h]

theorem entry_modify {k k' : K} {z : V} {f : V → V} : ∀ {m : GoMap K V},
    entry (alter m k z f) k' = if k = k' then some (f ((entry m k).getD z)) else entry m k'
  | [] => by
    unfold alter
    rw [entry_cons]
    rfl
  | (a, v) :: m => by
    unfold alter
    dsimp only
    by_cases h : a = k
    · subst h
      rw [if_pos rfl, entry_cons, entry_cons, entry_cons, if_pos rfl]
      by_cases hk : a = k' <;> simp [hk]
    · rw [if_neg h, entry_cons, entry_modify, entry_cons, entry_cons, if_neg h]
      by_cases hk : k = k'
      · subst hk
        rw [if_neg h, if_pos rfl, if_pos rfl]
      · rw [if_neg hk, if_neg hk]

theorem keys_modify {k : K} {z : V} {f : V → V} : ∀ {m : GoMap K V} {a : K}, a ∈ (alter m k z f).map Prod.fst ↔ (a = k ∨ a ∈ m.map Prod.fst)
  | [], a => by simp [alter]
  | (b, v) :: m, a => by
    unfold alter
    dsimp only
    by_cases h : b = k
    · subst h
      rw [if_pos rfl]
      simp
    · rw [if_neg h, List.map_cons, List.mem_cons, keys_modify, List.map_cons, List.mem_cons]
      constructor
      · rintro (h | h | h)
        · exact .inr (.inl h)
        · exact .inl h
        · exact .inr (.inr h)
      · rintro (h | h | h)
        · exact .inr (.inl h)
        · exact .inl h
        · exact .inr (.inr h)

theorem modify_map {k : K} {z : V} {f : V → V} : ∀ {m : GoMap K V}, Map m → Map (alter m k z f)
  | [], _ => by simp [alter, Map]
  | (b, v) :: m, hm => by
    unfold Map at hm ⊢
    rw [List.map_cons, List.nodup_cons] at hm
    unfold alter
    dsimp only
    by_cases h : b = k
    · subst h
      rw [if_pos rfl, List.map_cons, List.nodup_cons]
      exact hm
    · rw [if_neg h, List.map_cons, List.nodup_cons]
      refine ⟨fun hb => ?_, modify_map hm.2⟩
      rcases keys_modify.mp hb with hb | hb
      · exact h hb
      · exact hm.1 hb

theorem fold_modify {W : Type} {z : V} {g : W → V → V} : ∀ {l : GoMap K W} (_ : Map l) (m : GoMap K V) (_ : Map m),
    Map (l.foldl (fun m e => alter m e.1 z (g e.2)) m) ∧
    ∀ k, entry (l.foldl (fun m e => alter m e.1 z (g e.2)) m) k =
      match entry l k with
      | some w => some (g w ((entry m k).getD z))
      | none => entry m k
  | [], _, m, hm => ⟨hm, fun _ => rfl⟩
  | (a, w) :: l, hl, m, hm => by
    unfold Map at hl
    rw [List.map_cons, List.nodup_cons] at hl
    obtain ⟨h1, h2⟩ := fold_modify (z := z) (g := g) hl.2 (alter m a z (g w)) (modify_map hm)
    refine ⟨h1, fun k => ?_⟩
    rw [List.foldl_cons, h2 k, entry_cons, entry_modify]
    by_cases hk : a = k
    · subst hk
      have : entry l a = none := get_none.mpr fun v hv => hl.1 (List.mem_map.mpr ⟨_, hv, rfl⟩)
      rw [this, if_pos rfl, if_pos rfl]
    · rw [if_neg hk, if_neg hk]

theorem perm_map {α β : Type} {enc : α → β} {d m : List β} (h : d.Perm m) : ∀ l : List α, m = l.map enc → ∃ l' : List α, l'.Perm l ∧ d = l'.map enc := by
  induction h with
  | nil => intro l hl; exact ⟨l, .refl _, hl⟩
  | @cons x d m _ ih =>
    intro l hl
    cases l with
    | nil => cases hl
    | cons a l =>
      rw [List.map_cons, List.cons.injEq] at hl
      obtain ⟨l', h1, h2⟩ := ih l hl.2
      exact ⟨a :: l', h1.cons a, by rw [List.map_cons, hl.1, h2]⟩
  | swap x y l0 =>
    intro l hl
    cases l with
    | nil => cases hl
    | cons a l =>
      cases l with
      | nil => cases hl
      | cons b l =>
        rw [List.map_cons, List.map_cons, List.cons.injEq, List.cons.injEq] at hl
        exact ⟨b :: a :: l, .swap a b l, by rw [List.map_cons, List.map_cons, hl.1, hl.2.1, hl.2.2]⟩
  | trans _ _ ih1 ih2 =>
    intro l hl
    obtain ⟨l1, p1, e1⟩ := ih2 l hl
    obtain ⟨l2, p2, e2⟩ := ih1 l1 e1
    exact ⟨l2, p2.trans p1, e2⟩

omit [DecidableEq K] in
theorem map_perm {l l' : GoMap K V} (h : l'.Perm l) (hl : Map l) : Map l' := ((h.map Prod.fst).nodup_iff).mpr hl

theorem same_of_entry {a b : GoMap K V} (ha : Map a) (hb : Map b) (h : ∀ k, entry a k = entry b k) : SameEntries a b := by
  rintro ⟨k, v⟩
  rw [← get_some ha, ← get_some hb, h k]

theorem perm_entry {l l' : GoMap K V} (h : l'.Perm l) (hl : Map l) (k : K) : entry l' k = entry l k := by
  refine Option.ext fun v => ?_
  rw [get_some (map_perm h hl), get_some hl]
  exact h.mem_iff

omit [DecidableEq K] in
theorem map_nil : Map ([] : GoMap K V) := List.nodup_nil

theorem readMap_ok {zero : V} {key : Text → Option K} {value : Text → Option V} {ek : K → Text} {ev : V → Text} (hk : ∀ k, key (ek k) = some k)
    (hv : ∀ v, value (ev v) = some v) {l : GoMap K V} (hl : Map l) {d : List (Text × Text)} (hd : d.Perm (l.map fun e => (ek e.1, ev e.2))) :
    ∃ m, readMap zero key value d = some m ∧ Map m ∧ SameEntries m l := by
  obtain ⟨l', hp, rfl⟩ := perm_map hd l rfl
  obtain ⟨h1, h2⟩ := fold_modify (z := zero) (g := fun v _ => v) (map_perm hp hl) [] map_nil
  refine ⟨_, ?_, h1, same_of_entry h1 hl fun k => ?_⟩
  · unfold readMap
    rw [mapM_same (fun e _ => by dsimp only; rw [hk, hv]; rfl)]
    rfl
  · rw [h2 k, perm_entry hp hl k]
    cases entry l k <;> rfl

theorem readWarm_ok {onlyTrue : Bool} {key : Text → Option K} {ek : K → Text} (hk : ∀ k, key (ek k) = some k) {l : GoMap K Unit} (hl : Map l)
    {d : List (Text × Bool)} (hd : d.Perm (l.map fun e => (ek e.1, true))) : ∃ m, readWarm onlyTrue key d = some m ∧ Map m ∧ SameEntries m l := by
  obtain ⟨l', hp, rfl⟩ := perm_map hd l rfl
  obtain ⟨h1, h2⟩ := fold_modify (z := ()) (g := fun (_ : Unit) (_ : Unit) => ()) (map_perm hp hl) [] map_nil
  refine ⟨_, ?_, h1, same_of_entry h1 hl fun k => ?_⟩
  · unfold readWarm
    rw [mapM_map (f := fun e => (e.1, true)) (fun e _ => by dsimp only; rw [hk]; rfl)]
    show some _ = some _
    rw [List.foldl_map]
    simp
  · rw [h2 k, perm_entry hp hl k]
    cases entry l k <;> rfl

end Maps

theorem entry_map {K V W : Type} [DecidableEq K] {f : V → W} {k : K} : ∀ {l : GoMap K V}, entry (l.map fun e => (e.1, f e.2)) k = (entry l k).map f
  | [] => rfl
  | (a, v) :: l => by
    rw [List.map_cons, entry_cons, entry_cons, entry_map]
    by_cases h : a = k <;> simp [h]

theorem readAccounts_ok {l : GoMap Address Account} (hl : Map l) {b c : List (Text × Text)}
    (hb : b.Perm (l.map fun e => (addressText e.1, u256Text e.2.balance))) (hc : c.Perm (l.map fun e => (addressText e.1, bytesText e.2.code.data))) :
    ∃ m, readAccounts b c = some m ∧ Map m ∧ SameEntries m l := by
  obtain ⟨lb, pb, rfl⟩ := perm_map hb l rfl
  obtain ⟨lc, pc, rfl⟩ := perm_map hc l rfl
  have keys : ∀ {W : Type} (f : Account → W) {l' : GoMap Address Account}, l'.Perm l → Map (l'.map fun e => (e.1, f e.2)) := by
    intro W f l' h
    unfold Map
    rw [List.map_map]
    exact map_perm h hl
  obtain ⟨h1, h2⟩ := fold_modify (z := ({} : Account)) (g := fun (v : U256) a => { a with balance := v }) (keys Account.balance pb) [] map_nil
  obtain ⟨h3, h4⟩ := fold_modify (z := ({} : Account)) (g := fun (v : Model.Ct.Bytes) a => { a with code := v }) (keys Account.code pc) _ h1
  refine ⟨_, ?_, h3, same_of_entry h3 hl fun k => ?_⟩
  · unfold readAccounts
    rw [mapM_map (f := fun e => (e.1, e.2.balance)) (fun e _ => by dsimp only; rw [parseAddress_text, parseU256_text]; rfl),
      mapM_map (f := fun e => (e.1, e.2.code)) (fun e _ => by dsimp only; rw [parseAddress_text, parseShort_text]; rfl)]
    rfl
  · rw [h4 k, h2 k, entry_map, entry_map, perm_entry pb hl k, perm_entry pc hl k]
    cases entry l k <;> rfl

/-! ## Records -/

theorem readPast_ok (c : PastCall) : readPast (pastDocument c) = some c := by
  unfold readPast pastDocument
  simp only [parseKind_text, parseAddress_text, parseBytes_text, parseValue_text, Option.bind_eq_bind, Option.bind_some]

theorem readFuture_ok (c : FutureCall) : readFuture (futureDocument c) = some c := by
  unfold readFuture futureDocument
  simp only [parseAddress_text, parseShort_text, Option.bind_eq_bind, Option.bind_some]

theorem readBlock_ok (b : BlockContext) : readBlock (blockDocument b) = some b := by
  unfold readBlock blockDocument
  simp only [parseAddress_text, parseU256_text, Option.bind_eq_bind, Option.bind_some]

theorem readHashes_ok {s : TestState} (h : Proper s) : readHashes s.hashes = s.hashes := by
  unfold readHashes
  cases hs : s.hashes with
  | none => rfl
  | some l =>
    rw [Option.map_some]
    congr 1
    exact List.take_left' (h.hashes l hs)

theorem load_ok {s : TestState} {d : Document} (hp : Proper s) (hs : Savable s) (h : Written s d) :
    ∃ t, load d = some t ∧ Proper t ∧ Restored s t := by
  obtain ⟨m1, e1, p1, r1⟩ := readMap_ok (zero := 0) parseU256_text parseU256_text hp.current h.current
  obtain ⟨m2, e2, p2, r2⟩ := readMap_ok (zero := 0) parseU256_text parseU256_text hp.original h.original
  obtain ⟨m3, e3, p3, r3⟩ := readWarm_ok (onlyTrue := true) parseU256_text hp.warm h.warm
  obtain ⟨m4, e4, p4, r4⟩ := readMap_ok (zero := 0) parseU256_text parseU256_text hp.transient h.transient
  obtain ⟨m5, e5, p5, r5⟩ := readAccounts_ok hp.accounts h.balances h.codes
  obtain ⟨m6, e6, p6, r6⟩ := readWarm_ok (onlyTrue := false) parseAddress_text hp.warmAccounts h.warmAccounts
  refine ⟨{ s with storage := { current := m1, original := m2, warm := m3 }, transient := m4, accounts := { accounts := m5, warm := m6 } }, ?_,
    ⟨p1, p2, p3, p4, p5, p6, hp.hashes, hp.code⟩, ⟨rfl, r1, r2, r3, r4, r5, r6⟩⟩
  have stack : (s.stack.map u256Text).mapM parseU256 = some s.stack := mapM_same fun x _ => parseU256_text x
  have logs : (s.logs.map fun l => (l.1.map u256Text, bytesText l.2)).mapM
      (fun l => do some (← l.1.mapM parseU256, ← parseBytes l.2) : List Text × Text → Option (List U256 × List Byte)) = some s.logs := by
    refine mapM_same fun l _ => ?_
    dsimp only
    rw [mapM_same fun x _ => parseU256_text x, parseBytes_text]
    rfl
  have past : (s.past.map pastDocument).mapM readPast = some s.past := mapM_same fun x _ => readPast_ok x
  have future : (s.future.map futureDocument).mapM readFuture = some s.future := mapM_same fun x _ => readFuture_ok x
  have destructed : (s.selfDestructed.map fun e => (addressText e.1, addressText e.2)).mapM
      (fun e => do some (← parseAddress e.1, ← parseAddress e.2) : Text × Text → Option (Address × Address)) = some s.selfDestructed := by
    refine mapM_same fun l _ => ?_
    dsimp only
    rw [parseAddress_text, parseAddress_text]
    rfl
  rw [h.plain]
  unfold load save
  dsimp only
  rw [stack, e1, e2, e3, e4, e5, e6, logs, past, future, destructed, readBlock_ok, readHashes_ok hp]
  simp only [Option.bind_eq_bind, Option.bind_some, if_neg (show ¬ s.stack.length > 1024 from Nat.not_lt.mpr hs.stack), parseStatus_text,
    parseRevision_text hs.revision, parseBytes_text, parseAddress_text, parseU256_text]

end Tosca.Proofs.Persist

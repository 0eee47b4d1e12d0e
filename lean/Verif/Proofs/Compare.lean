import Verif.Spec.GoCompare
import Mathlib.Data.List.Perm.Subperm
import Mathlib.Tactic.ByContra

/-!
# Comparison of maps, slices and states
-/

namespace Tosca.Proofs.Compare

open Tosca.Go Tosca.Model.Ct Tosca.Model.Compare Tosca.Spec.Compare

section Maps

variable {K V : Type} [DecidableEq K]

theorem get_none {m : GoMap K V} {k : K} : entry m k = none ↔ ∀ v, (k, v) ∉ m := by
  unfold entry
  rw [Option.map_eq_none_iff, List.find?_eq_none]
  constructor
  · intro h v hm
    exact h _ hm (by simp)
  · rintro h ⟨k', v⟩ hm he
    have : k' = k := by simpa using he
    subst this
    exact h v hm

theorem get_some {m : GoMap K V} (hm : Map m) {k : K} {v : V} : entry m k = some v ↔ (k, v) ∈ m := by
  induction m with
  | nil => simp [entry]
  | cons e m ih =>
    obtain ⟨k', v'⟩ := e
    have hm' : k' ∉ m.map Prod.fst ∧ Map m := by
      unfold Map at hm
      rw [List.map_cons, List.nodup_cons] at hm
      exact hm
    by_cases hk : k' = k
    · subst hk
      have : entry ((k', v') :: m) k' = some v' := by simp [entry]
      rw [this, List.mem_cons]
      constructor
      · intro h; cases h; exact .inl rfl
      · rintro (h | h)
        · cases h; rfl
        · exact absurd (List.mem_map_of_mem (f := Prod.fst) h) hm'.1
    · have : entry ((k', v') :: m) k = entry m k := by simp [entry, hk]
      rw [this, ih hm'.2, List.mem_cons]
      constructor
      · exact .inr
      · rintro (h | h)
        · cases h; exact absurd rfl hk
        · exact h

theorem get_isSome {m : GoMap K V} (hm : Map m) {k : K} : (entry m k).isSome = true ↔ ∃ v, (k, v) ∈ m := by
  rw [Option.isSome_iff_exists]
  exact exists_congr fun v => get_some hm

omit [DecidableEq K] in
theorem subset_length {a b : GoMap K V} (ha : Map a) (h : ∀ e, e ∈ a → e ∈ b) : a.length ≤ b.length := by
  have hs : a.map Prod.fst ⊆ b.map Prod.fst := by
    intro k hk
    obtain ⟨e, he, rfl⟩ := List.mem_map.mp hk
    exact List.mem_map_of_mem (h e he)
  have := (List.subperm_of_subset ha hs).length_le
  simpa using this

theorem mapsEqual_iff [DecidableEq V] {a b : GoMap K V} (ha : Map a) (hb : Map b) : mapsEqual a b = true ↔ SameEntries a b := by
  unfold mapsEqual
  rw [Bool.and_eq_true, beq_iff_eq, List.all_eq_true]
  have hall : (∀ e ∈ a, (entry b e.1 == some e.2) = true) ↔ ∀ e, e ∈ a → e ∈ b := by
    refine forall_congr' fun e => imp_congr_right fun _ => ?_
    rw [beq_iff_eq, get_some hb]
  rw [hall]
  constructor
  · rintro ⟨hl, h⟩ e
    refine ⟨h e, fun he => ?_⟩
    by_contra hn
    have hk : e.1 ∉ a.map Prod.fst := by
      intro hk
      obtain ⟨e', he', hke⟩ := List.mem_map.mp hk
      have h1 := (get_some hb).mpr (h e' he')
      have h2 := (get_some hb (k := e.1) (v := e.2)).mpr he
      rw [hke, h2] at h1
      have : e' = e := Prod.ext hke (Option.some.inj h1).symm
      exact hn (this ▸ he')
    have hm : Map (e :: a) := by
      unfold Map
      rw [List.map_cons, List.nodup_cons]
      exact ⟨hk, ha⟩
    have := subset_length hm (b := b) (by
      intro e' h'
      rcases List.mem_cons.mp h' with rfl | h'
      · exact he
      · exact h e' h')
    rw [List.length_cons] at this
    omega
  · intro h
    exact ⟨Nat.le_antisymm (subset_length ha fun e => (h e).mp) (subset_length hb fun e => (h e).mpr), fun e => (h e).mp⟩

theorem zeros_iff {a b : GoMap K U256} (ha : Map a) (hb : Map b) : mapEqualIgnoringZeroValues a b = true ↔ SameValues a b := by
  unfold mapEqualIgnoringZeroValues
  rw [Bool.and_eq_true, List.all_eq_true, List.all_eq_true]
  constructor
  · rintro ⟨h1, h2⟩ k v hv
    constructor
    · intro hm
      have := h1 _ hm
      rw [Bool.and_eq_true] at this
      have e : v = (entry b k).getD 0 := by simpa using this.2
      cases hg : entry b k with
      | none => rw [hg] at e; exact absurd e hv
      | some w => rw [hg] at e; exact e ▸ (get_some hb).mp hg
    · intro hm
      have := h2 _ hm
      cases hg : entry a k with
      | none => rw [hg] at this; exact absurd (by simpa using this) hv
      | some w =>
        have hw := (get_some ha).mp hg
        have h3 := h1 _ hw
        rw [(get_some hb).mpr hm] at h3
        have : w = v := by simpa using h3
        exact this ▸ hw
  · intro h
    refine ⟨fun e he => ?_, fun e he => ?_⟩
    · by_cases hz : e.2 = 0
      · cases hg : entry b e.1 with
        | none => simp [hz]
        | some w =>
          have hw := (get_some hb).mp hg
          by_cases hw0 : w = 0
          · simp [hz, hw0]
          · have := (get_some ha).mpr ((h _ _ hw0).mpr hw)
            rw [(get_some ha).mpr (show (e.1, e.2) ∈ a from he)] at this
            exact absurd ((Option.some.inj this).symm.trans hz) hw0
      · have := (get_some hb).mpr ((h e.1 e.2 hz).mp he)
        simp [this]
    · by_cases hz : e.2 = 0
      · simp [hz]
      · have := (get_some ha).mpr ((h e.1 e.2 hz).mpr he)
        simp [this]

end Maps

theorem zerosDiff_nil {n : Nat} {a b : GoMap (BitVec n) U256} {name : String} :
    mapDiffIgnoringZeroValues a b name = [] ↔ mapEqualIgnoringZeroValues a b = true := by
  unfold mapDiffIgnoringZeroValues mapEqualIgnoringZeroValues
  rw [List.append_eq_nil_iff, List.flatMap_eq_nil_iff, List.flatMap_eq_nil_iff, Bool.and_eq_true, List.all_eq_true, List.all_eq_true]
  refine and_congr (forall_congr' fun e => imp_congr_right fun _ => ?_) (forall_congr' fun e => imp_congr_right fun _ => ?_)
  · generalize (!(entry b e.1).isSome && e.2 != 0) = p
    generalize (e.2 != (entry b e.1).getD 0) = q
    cases p <;> cases q <;> simp
  · generalize (!(entry a e.1).isSome && e.2 != 0) = p
    cases p <;> simp

theorem setDiff_nil {n : Nat} {a b : GoMap (BitVec n) Unit} {name : String} (ha : Map a) (hb : Map b) : setDiff a b name = [] ↔ SameEntries a b := by
  unfold setDiff
  rw [List.append_eq_nil_iff, List.flatMap_eq_nil_iff, List.flatMap_eq_nil_iff]
  have key : ∀ {m : GoMap (BitVec n) Unit} (_ : Map m) (e : BitVec n × Unit),
      (if (!(entry m e.1).isSome) = true then [({ what := name, place := e.1.toNat } : Difference)] else []) = [] ↔ e ∈ m := by
    intro m hm e
    rw [← (get_some hm (k := e.1) (v := e.2))]
    cases entry m e.1 <;> simp
  constructor
  · rintro ⟨h1, h2⟩ e
    exact ⟨fun h => (key hb e).mp (h1 e h), fun h => (key ha e).mp (h2 e h)⟩
  · intro h
    exact ⟨fun e he => (key hb e).mpr ((h e).mp he), fun e he => (key ha e).mpr ((h e).mpr he)⟩

theorem accountsDiff_nil {a b : Accounts} (ha : Map a.accounts) (hb : Map b.accounts) (hwa : Map a.warm) (hwb : Map b.warm) :
    a.diff b = [] ↔ SameEntries a.accounts b.accounts ∧ SameEntries a.warm b.warm := by
  unfold Accounts.diff
  rw [List.append_eq_nil_iff, List.append_eq_nil_iff, List.flatMap_eq_nil_iff, List.flatMap_eq_nil_iff, setDiff_nil hwa hwb]
  refine and_congr_left fun _ => ?_
  have k1 : ∀ e : Address × Account, (match entry b.accounts e.1 with
      | none => [({ what := "account", place := e.1.toNat } : Difference)]
      | some v => if e.2 ≠ v then [{ what := "account", place := e.1.toNat }] else []) = [] ↔ e ∈ b.accounts := by
    intro e
    rw [← (get_some hb (k := e.1) (v := e.2))]
    cases entry b.accounts e.1 with
    | none => simp
    | some v =>
      by_cases h : e.2 = v
      · simp [h]
      · simp only [if_pos (show e.2 ≠ v from h), Option.some.injEq, List.cons_ne_nil, false_iff]
        exact fun h' => h h'.symm
  constructor
  · rintro ⟨h1, h2⟩ e
    have h1' : ∀ e, e ∈ a.accounts → e ∈ b.accounts := fun e he => (k1 e).mp (h1 e he)
    refine ⟨h1' e, fun he => ?_⟩
    have := h2 e he
    cases hg : entry a.accounts e.1 with
    | none => simp [hg] at this
    | some w =>
      have hw := (get_some ha).mp hg
      have e1 := (get_some hb).mpr (h1' _ hw)
      rw [(get_some hb).mpr (show (e.1, e.2) ∈ b.accounts from he)] at e1
      have : w = e.2 := (Option.some.inj e1).symm
      rw [this] at hw
      exact hw
  · intro h
    refine ⟨fun e he => (k1 e).mpr ((h e).mp he), fun e he => ?_⟩
    have := (get_some ha).mpr (show (e.1, e.2) ∈ a.accounts from (h e).mpr he)
    simp [this]

theorem logsLoop_iff : ∀ {a b : List (List U256 × List Byte)}, a.length = b.length → (logsLoop a b = true ↔ a = b)
  | [], [], _ => by simp [logsLoop]
  | a :: as, b :: bs, h => by
    have ih := logsLoop_iff (a := as) (b := bs) (by simpa using h)
    unfold logsLoop
    obtain ⟨a1, a2⟩ := a
    obtain ⟨b1, b2⟩ := b
    by_cases h1 : a1 = b1
    · by_cases h2 : a2 = b2
      · simp [h1, h2, ih]
      · simp [h1, h2]
    · simp [h1]

theorem logsEq_iff {a b : List (List U256 × List Byte)} : logsEq a b = true ↔ a = b := by
  unfold logsEq
  by_cases h : a.length = b.length
  · simp [h, logsLoop_iff h]
  · simp only [if_pos (show a.length ≠ b.length from h)]
    exact ⟨fun h => (by cases h), fun e => absurd (congrArg List.length e) h⟩

theorem report_nil {what : String} {c : Bool} : report what c = [] ↔ c = false := by
  unfold report
  cases c <;> simp

theorem slices_nil {α : Type} {f : Nat → α → α → List Difference} (hf : ∀ i x y, f i x y = [] ↔ x = y) {a b : List α} (hl : a.length = b.length) :
    ((List.range a.length).flatMap fun i =>
      atIndex (f i) a[i]? b[i]?) = [] ↔ a = b := by
  rw [List.flatMap_eq_nil_iff]
  constructor
  · intro h
    refine List.ext_getElem hl fun i h1 h2 => ?_
    have := h i (List.mem_range.mpr h1)
    rw [List.getElem?_eq_getElem h1, List.getElem?_eq_getElem h2] at this
    exact (hf _ _ _).mp this
  · rintro rfl i hi
    rw [List.getElem?_eq_getElem (List.mem_range.mp hi)]
    exact (hf _ _ _).mpr rfl

theorem sliceDiff_nil {α : Type} {name : String} {elements : α → α → Bool} (he : ∀ x y, elements x y = false ↔ x = y) {a b : List α} :
    sliceDiff name elements a b = [] ↔ a = b := by
  unfold sliceDiff
  by_cases h : a.length = b.length
  · rw [if_neg (by simpa using h)]
    refine slices_nil (f := fun i x y => if elements x y then [{ what := name, place := i }] else []) (fun i x y => ?_) h
    rw [← he]
    cases elements x y <;> simp
  · rw [if_pos h]
    exact ⟨fun h => (by cases h), fun e => absurd (congrArg List.length e) h⟩

theorem logsDiff_nil {a b : List (List U256 × List Byte)} : logsDiff a b = [] ↔ a = b := by
  unfold logsDiff
  rw [List.append_eq_nil_iff, report_nil]
  constructor
  · rintro ⟨hl, h⟩
    have hl' : a.length = b.length := by simpa using hl
    rw [if_neg (by omega)] at h
    refine (slices_nil (f := fun i x y => (if x.1 ≠ y.1 then [{ what := "logs", place := i }] else []) ++
      (if x.2 ≠ y.2 then [{ what := "logs", place := i }] else [])) (fun i x y => ?_) hl').mp h
    obtain ⟨x1, x2⟩ := x
    obtain ⟨y1, y2⟩ := y
    by_cases h1 : x1 = y1 <;> by_cases h2 : x2 = y2 <;> simp [h1, h2]
  · rintro rfl
    refine ⟨by simp, ?_⟩
    rw [List.flatMap_eq_nil_iff]
    intro i _
    cases a[i]? <;> simp [atIndex]

theorem hashes_length {s : TestState} (h : Proper s) : (hashesOf s).length = 256 := by
  unfold hashesOf
  cases hs : s.hashes with
  | none => exact List.length_replicate
  | some l => exact h.hashes l hs

theorem hashesEqual_iff {s o : TestState} : hashesEqual s.hashes o.hashes = true ↔ hashesOf s = hashesOf o := by
  unfold hashesEqual hashesOf
  generalize List.replicate 256 (0 : U256) = z
  cases s.hashes <;> cases o.hashes <;> (dsimp only [Option.getD]; try rw [beq_iff_eq]) <;> first | exact eq_comm | exact Iff.rfl | simp

theorem getHash_eq {s : TestState} {i : Nat} (hi : i < 256) : getHash s.hashes i = (hashesOf s).getD i 0 := by
  unfold getHash hashesOf
  cases s.hashes with
  | none => rw [List.getD_eq_getElem?_getD, Option.getD_none, List.getElem?_replicate, if_pos hi]; rfl
  | some l => rfl

theorem hashesDiff_nil {s o : TestState} (hs : Proper s) (ho : Proper o) :
    ((List.range 256).flatMap fun i => if getHash s.hashes i ≠ getHash o.hashes i then [({ what := "block hash", place := i } : Difference)] else []) = []
      ↔ hashesOf s = hashesOf o := by
  rw [List.flatMap_eq_nil_iff]
  constructor
  · intro h
    refine List.ext_getElem ((hashes_length hs).trans (hashes_length ho).symm) fun i h1 h2 => ?_
    have hi : i < 256 := by rw [hashes_length hs] at h1; exact h1
    have := h i (List.mem_range.mpr hi)
    rw [getHash_eq hi, getHash_eq hi] at this
    simp only [List.getD, List.getElem?_eq_getElem h1, List.getElem?_eq_getElem h2, Option.getD_some] at this
    by_contra hn
    rw [if_pos hn] at this
    cases this
  · intro h i hi
    rw [getHash_eq (List.mem_range.mp hi), getHash_eq (List.mem_range.mp hi), h]
    simp

theorem callContextDiff_nil {a b : CallContext} : callContextDiff a b = [] ↔ a = b := by
  obtain ⟨a1, a2, a3⟩ := a
  obtain ⟨b1, b2, b3⟩ := b
  unfold callContextDiff
  simp only [List.append_eq_nil_iff, report_nil, decide_eq_false_iff_not, not_not, ne_eq, CallContext.mk.injEq, and_assoc]

theorem blockDiff_nil {a b : BlockContext} : blockDiff a b = [] ↔ a = b := by
  obtain ⟨a1, a2, a3, a4, a5, a6, a7, a8, a9⟩ := a
  obtain ⟨b1, b2, b3, b4, b5, b6, b7, b8, b9⟩ := b
  unfold blockDiff
  simp only [List.append_eq_nil_iff, report_nil, decide_eq_false_iff_not, not_not, ne_eq, BlockContext.mk.injEq]
  constructor
  · rintro ⟨⟨⟨⟨⟨⟨⟨⟨h1, h2⟩, h3⟩, h4⟩, h5⟩, h6⟩, h7⟩, h8⟩, h9⟩
    exact ⟨h3, h4, h5, h6, h7, h8, h1, h2, h9⟩
  · rintro ⟨h3, h4, h5, h6, h7, h8, h1, h2, h9⟩
    exact ⟨⟨⟨⟨⟨⟨⟨⟨h1, h2⟩, h3⟩, h4⟩, h5⟩, h6⟩, h7⟩, h8⟩, h9⟩

theorem past_iff (a b : PastCall) : pastDiffers a b = false ↔ a = b := by
  obtain ⟨a1, a2, a3, a4, a5, a6, a7⟩ := a
  obtain ⟨b1, b2, b3, b4, b5, b6, b7⟩ := b
  unfold pastDiffers
  simp only [Bool.or_eq_false_iff, decide_eq_false_iff_not, not_not, ne_eq, PastCall.mk.injEq, and_assoc]

theorem future_iff (a b : FutureCall) : futureDiffers a b = false ↔ a = b := by
  obtain ⟨a1, a2, a3, a4, a5⟩ := a
  obtain ⟨b1, b2, b3, b4, b5⟩ := b
  unfold futureDiffers
  simp only [Bool.or_eq_false_iff, decide_eq_false_iff_not, not_not, ne_eq, FutureCall.mk.injEq, and_assoc]

theorem codeEq_iff {keccak : List Byte → U256} {a b : List Byte} : codeEq keccak a b = true ↔ a = b := by
  unfold codeEq
  rw [Bool.and_eq_true, beq_iff_eq, beq_iff_eq]
  exact ⟨fun h => h.2, fun h => ⟨h ▸ rfl, h⟩⟩

theorem journal_iff {s o : TestState} : journalEqual s o = true ↔ s.past = o.past ∧ s.future = o.future := by
  unfold journalEqual
  by_cases h : s.past = o.past <;> simp [h]

theorem transaction_iff {s o : TestState} : transactionEq s o = true ↔ s.origin = o.origin ∧ s.blobHashes = o.blobHashes := by
  unfold transactionEq
  simp

theorem storage_iff {s o : Storage} (c : Map s.current) (c' : Map o.current) (g : Map s.original) (g' : Map o.original) (w : Map s.warm)
    (w' : Map o.warm) :
    s.eq o = true ↔ SameValues s.current o.current ∧ SameEntries s.original o.original ∧ SameEntries s.warm o.warm := by
  unfold Storage.eq
  rw [Bool.and_eq_true, Bool.and_eq_true, zeros_iff c c', mapsEqual_iff g g', mapsEqual_iff w w', and_assoc]

theorem accounts_iff {s o : Accounts} (a : Map s.accounts) (a' : Map o.accounts) (w : Map s.warm) (w' : Map o.warm) :
    s.eq o = true ↔ SameEntries s.accounts o.accounts ∧ SameEntries s.warm o.warm := by
  unfold Accounts.eq
  rw [Bool.and_eq_true, mapsEqual_iff a a', mapsEqual_iff w w']

theorem equivalent_iff {keccak : List Byte → U256} {s o : TestState} (hs : Proper s) (ho : Proper o) :
    equivalent keccak s o = true ↔ SameOutside s o ∧ SameEntries s.storage.original o.storage.original := by
  unfold equivalent
  simp only [Bool.and_eq_true, codeEq_iff, beq_iff_eq, decide_eq_true_eq, journal_iff,
    storage_iff hs.current ho.current hs.original ho.original hs.warm ho.warm, zeros_iff hs.transient ho.transient,
    accounts_iff hs.accounts ho.accounts hs.warmAccounts ho.warmAccounts, logsEq_iff, hashesEqual_iff, transaction_iff]
  constructor
  · rintro ⟨⟨⟨⟨⟨⟨⟨⟨⟨⟨⟨⟨⟨⟨⟨⟨h1, h2⟩, h3⟩, h4⟩, h5⟩, h6⟩, h7, h8⟩, h9⟩, h10⟩, h11, h12, h13⟩, h14⟩, h15, h16⟩, h17⟩, h18⟩, h19⟩, h20⟩, h21, h22⟩
    exact ⟨⟨h1, h2, h3, h4, h5, h6, h7, h8, h9, h10, h11, h13, h14, h15, h16, h17, h18, h19, h20, h21, h22⟩, h12⟩
  · rintro ⟨⟨h1, h2, h3, h4, h5, h6, h7, h8, h9, h10, h11, h13, h14, h15, h16, h17, h18, h19, h20, h21, h22⟩, h12⟩
    exact ⟨⟨⟨⟨⟨⟨⟨⟨⟨⟨⟨⟨⟨⟨⟨⟨h1, h2⟩, h3⟩, h4⟩, h5⟩, h6⟩, h7, h8⟩, h9⟩, h10⟩, h11, h12, h13⟩, h14⟩, h15, h16⟩, h17⟩, h18⟩, h19⟩, h20⟩, h21, h22⟩

theorem pc_iff {s o : TestState} (hs : Proper s) :
    (s.pc == o.pc || (decide (s.pc ≥ BitVec.ofNat 16 s.code.length) && decide (o.pc ≥ BitVec.ofNat 16 s.code.length))) = true ↔ SamePc s o := by
  have hc : (BitVec.ofNat 16 s.code.length).toNat = s.code.length := by
    rw [BitVec.toNat_ofNat]
    exact Nat.mod_eq_of_lt hs.code
  unfold SamePc
  rw [Bool.or_eq_true, Bool.and_eq_true, beq_iff_eq, decide_eq_true_eq, decide_eq_true_eq, ge_iff_le, ge_iff_le, BitVec.le_def, BitVec.le_def, hc]

theorem eq_iff {keccak : List Byte → U256} {s o : TestState} (hs : Proper s) (ho : Proper o) : eq keccak s o = true ↔ Alike s o := by
  unfold eq Alike
  by_cases h1 : s.status = o.status
  · rw [if_neg (by simpa using h1)]
    by_cases h2 : s.status = .failed
    · rw [if_pos ⟨h2, h1 ▸ h2⟩]
      exact ⟨fun _ => ⟨h1, .inl h2⟩, fun _ => rfl⟩
    · rw [if_neg (fun h => h2 h.1)]
      dsimp only
      have side : ∀ {p : Prop}, (s.status = o.status ∧ (s.status = .failed ∨ p)) ↔ p :=
        ⟨fun h => h.2.resolve_left h2, fun h => ⟨h1, .inr h⟩⟩
      rw [side]
      by_cases h3 : s.status = .running
      · rw [if_neg (by simpa using h3), if_pos h3]
        rw [Bool.and_eq_true, Bool.and_eq_true, Bool.and_eq_true, Bool.and_eq_true, equivalent_iff hs ho, pc_iff hs, beq_iff_eq, beq_iff_eq, beq_iff_eq]
        simp only [and_assoc]
      · rw [if_pos (by simpa using h3), if_neg h3]
        rw [Bool.and_eq_true, equivalent_iff hs ho, beq_iff_eq, and_assoc]
  · rw [if_pos (by simpa using h1)]
    exact ⟨fun h => (by cases h), fun h => absurd h.1 h1⟩

theorem whenUnequal_nil {e : Bool} {d : List Difference} : whenUnequal e d = [] ↔ (e = true ∨ d = []) := by
  unfold whenUnequal
  cases e <;> simp

theorem storageDiff_nil {s o : Storage} (c : Map s.current) (c' : Map o.current) (g : Map s.original) (g' : Map o.original) (w : Map s.warm)
    (w' : Map o.warm) :
    s.diff o = [] ↔ SameValues s.current o.current ∧ SameValues s.original o.original ∧ SameEntries s.warm o.warm := by
  unfold Storage.diff
  rw [List.append_eq_nil_iff, List.append_eq_nil_iff, zerosDiff_nil, zerosDiff_nil, setDiff_nil w w', zeros_iff c c', zeros_iff g g', and_assoc]

theorem diff_iff {keccak : List Byte → U256} {s o : TestState} (hs : Proper s) (ho : Proper o) : diff keccak s o = [] ↔ Nothing s o := by
  have bne : ∀ {α : Type} [BEq α] [LawfulBEq α] (x y : α), (x != y) = false ↔ x = y := by
    intro α _ _ x y
    rw [bne_eq_false_iff_eq]
  have entriesValues : SameEntries s.storage.original o.storage.original → SameValues s.storage.original o.storage.original :=
    fun h k v _ => h (k, v)
  unfold diff Nothing
  simp only [List.append_eq_nil_iff, report_nil, whenUnequal_nil, decide_eq_false_iff_not, not_not, ne_eq, codeEq_iff, sliceDiff_nil bne,
    sliceDiff_nil past_iff, sliceDiff_nil future_iff, beq_iff_eq, decide_eq_true_eq, journal_iff, transaction_iff, logsEq_iff, logsDiff_nil,
    callContextDiff_nil, blockDiff_nil, hashesEqual_iff, zerosDiff_nil, zeros_iff hs.transient ho.transient,
    storage_iff hs.current ho.current hs.original ho.original hs.warm ho.warm,
    storageDiff_nil hs.current ho.current hs.original ho.original hs.warm ho.warm,
    accounts_iff hs.accounts ho.accounts hs.warmAccounts ho.warmAccounts,
    accountsDiff_nil hs.accounts ho.accounts hs.warmAccounts ho.warmAccounts, or_self]
  have hh := hashesDiff_nil hs ho
  simp only [ne_eq] at hh
  simp only [hh, or_self]
  constructor
  · intro h
    obtain ⟨⟨⟨⟨⟨⟨⟨⟨⟨⟨⟨⟨⟨⟨⟨⟨⟨⟨⟨⟨⟨⟨h1, h2⟩, h3⟩, h4⟩, h5⟩, h6⟩, h7⟩, h8⟩, h9⟩, h10⟩, h11⟩, h12⟩, h13⟩, h14⟩, h15⟩, h16⟩, h17⟩, h18⟩, h19⟩, h20⟩, h21⟩, h22⟩, h23⟩ := h
    have h10' : SameValues s.storage.current o.storage.current ∧ SameValues s.storage.original o.storage.original ∧
        SameEntries s.storage.warm o.storage.warm := by
      rcases h10 with h | h
      · exact ⟨h.1, entriesValues h.2.1, h.2.2⟩
      · exact h
    exact ⟨h1, ⟨h7, h2, h3, h5, h6, h14, h15.1, h15.2, h16, h18, h10'.1, h10'.2.2, h11, h12.1, h12.2, h13, h21, h22, h23, h17.1, h17.2⟩,
      h10'.2.1, h4, h8, h9, h19, fun h => Classical.byContradiction fun hn => h20 ⟨h, hn⟩⟩
  · rintro ⟨h1, ⟨h7, h2, h3, h5, h6, h14, h15, h15', h16, h18, hc, hw, h11, h12, h12', h13, h21, h22, h23, h17, h17'⟩, hg, h4, h8, h9, h19, h20⟩
    exact ⟨⟨⟨⟨⟨⟨⟨⟨⟨⟨⟨⟨⟨⟨⟨⟨⟨⟨⟨⟨⟨⟨h1, h2⟩, h3⟩, h4⟩, h5⟩, h6⟩, h7⟩, h8⟩, h9⟩, .inr ⟨hc, hg, hw⟩⟩, h11⟩, ⟨h12, h12'⟩⟩, h13⟩, h14⟩, ⟨h15, h15'⟩⟩,
      h16⟩, ⟨h17, h17'⟩⟩, h18⟩, h19⟩, fun h => h.2 (h20 h.1)⟩, h21⟩, h22⟩, h23⟩

end Tosca.Proofs.Compare

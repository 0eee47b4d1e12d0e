import Verif.Proofs.Persist
import Verif.Props.Compare

/-!
# C84: test states survive being written to a file and read back
-/

namespace Tosca

open Tosca.Go Tosca.Model.Ct Tosca.Model.Compare Tosca.Model.Persist Tosca.Spec.Compare Tosca.Spec.Persist Tosca.Proofs.Compare Tosca.Proofs.Persist

variable {keccak : List Byte → U256} {s t : TestState} {d : Document}

/-- C84.  What is written for a state can be read, whatever the order of its maps, and gives the state again, in all its components. -/
theorem C84_round_trip (hp : Proper s) (hs : Savable s) (h : Written s d) : ∃ t, load d = some t ∧ Proper t ∧ Restored s t := load_ok hp hs h

/-- C84.  The tests do not tell the state that was read from the one that was written, and have no difference to report. -/
theorem C84_equal (hp : Proper s) (hs : Savable s) (h : Written s d) :
    ∃ t, load d = some t ∧ Model.Compare.eq keccak s t = true ∧ Model.Compare.diff keccak s t = [] := by
  obtain ⟨t, e, pt, r⟩ := load_ok hp hs h
  have hr := r.plain
  have f : ∀ {α : Type} (g : TestState → α), g s = g { t with storage := s.storage, transient := s.transient, accounts := s.accounts } :=
    fun g => congrArg g hr.symm
  have values : ∀ {a b : GoMap U256 U256}, SameEntries a b → SameValues b a := fun h k v _ => (h (k, v)).symm
  have outside : SameOutside s t :=
    ⟨f TestState.code, f TestState.revision, f TestState.readOnly, f TestState.gas, f TestState.refund, f TestState.callContext, f TestState.past,
      f TestState.future, f TestState.block, f TestState.callData, values r.current, fun e => (r.warm e).symm, values r.transient,
      fun e => (r.accounts e).symm, fun e => (r.warmAccounts e).symm, f TestState.logs, f TestState.hasSelfDestructed, f TestState.selfDestructed,
      f hashesOf, f TestState.origin, f TestState.blobHashes⟩
  refine ⟨t, e, (eq_iff hp pt).mpr ⟨f TestState.status, .inr ⟨outside, fun e => (r.original e).symm, ?_⟩⟩, (diff_iff hp pt).mpr ⟨f TestState.status,
    outside, values r.original, f TestState.pc, f TestState.stack, f TestState.memory, f TestState.lastCallReturnData, fun _ => f TestState.returnData⟩⟩
  split
  · exact ⟨.inl (f TestState.pc), f TestState.stack, f TestState.memory, f TestState.lastCallReturnData⟩
  · exact f TestState.returnData

/-- C84.  Different states are written differently: if what was written for two states is the same, they are the same, up to the order of maps. -/
theorem C84_injective (hp : Proper s) (hs : Savable s) (hp' : Proper t) (hs' : Savable t) (h : Written s d) (h' : Written t d) :
    Model.Compare.eq keccak s t = true := by
  obtain ⟨u, e, pu, _⟩ := load_ok hp hs h
  obtain ⟨u1, e1, q1, _⟩ := C84_equal (keccak := keccak) hp hs h
  obtain ⟨u2, e2, q2, _⟩ := C84_equal (keccak := keccak) hp' hs' h'
  rw [e] at e1 e2
  cases e1
  cases e2
  have := (C83_equivalence (keccak := keccak) hp' pu hp).2.1
  rw [q2] at this
  exact (C83_equivalence hp pu hp').2.2 q1 this.symm

/-- C84.  The texts of numbers, addresses, data, revisions and kinds of calls are read as what they were written for. -/
theorem C84_texts : (∀ v, parseU256 (u256Text v) = some v) ∧ (∀ a, parseAddress (addressText a) = some a) ∧ (∀ l, parseBytes (bytesText l) = some l) ∧
    (∀ v, parseValue (valueText v) = some v) ∧ (∀ k, parseKind (kindText k) = some k) ∧ (∀ c, parseStatus (statusText c) = some c) ∧
    (∀ r : Int, 0 ≤ r → r < 2 ^ 63 → parseRevision (revisionText r) = some r) :=
  ⟨parseU256_text, parseAddress_text, parseBytes_text, parseValue_text, parseKind_text, parseStatus_text, fun _ h1 h2 => parseRevision_text ⟨h1, h2⟩⟩

/-- C84.  A negative revision can be written but not read. -/
theorem C84_negative {r : Int} (h : r < 0) : parseRevision (revisionText r) = none := by
  have hn : ∀ (l : List Char), (∀ c ∈ l, c ≠ 'R') → findRevision l = none := by
    intro l
    induction l with
    | nil => intro _; rfl
    | cons c l ih =>
      intro hc
      unfold findRevision
      have : matchRevision (c :: l) = none := by
        unfold matchRevision
        rw [if_pos]
        intro e
        have : (c :: l).head? = some 'R' := by
          have h2 : ((c :: l).take 9).head? = some 'R' := by rw [e]; decide
          simpa using h2
        exact hc c List.mem_cons_self (Option.some.inj this)
      rw [this]
      exact ih fun c h => hc c (List.mem_cons_of_mem _ h)
  unfold revisionText
  rw [if_neg (by omega), if_neg (by omega), if_neg (by omega), if_neg (by omega), if_neg (by omega), if_neg (by omega), if_pos h]
  have first : ∀ (t t' : List Char), (t.head? ≠ some 'R') → "Revision(".toList ++ t' ++ [')'] ≠ t := by
    intro t t' ht e
    rw [← e] at ht
    exact ht rfl
  unfold parseRevision
  rw [if_neg (first _ _ (by decide)), if_neg (first _ _ (by decide)), if_neg (first _ _ (by decide)), if_neg (first _ _ (by decide)),
    if_neg (first _ _ (by decide)), if_neg (first _ _ (by decide))]
  have digit : ∀ c ∈ decimal r.natAbs, c ≠ 'R' := by
    intro c hc e
    have := (decimal_ok r.natAbs).1 c hc
    rw [e] at this
    exact absurd this (by decide)
  have rest : ∀ c ∈ "evision(".toList ++ '-' :: decimal r.natAbs ++ [')'], c ≠ 'R' := by
    intro c hc
    rw [List.mem_append, List.mem_append, List.mem_cons, List.mem_singleton] at hc
    rcases hc with (hc | hc | hc) | hc
    · intro e
      rw [e] at hc
      exact absurd hc (by decide)
    · rw [hc]; decide
    · exact digit c hc
    · rw [hc]; decide
  have hl : "Revision(".toList = 'R' :: "evision(".toList := by decide
  have hf : findRevision ("Revision(".toList ++ '-' :: decimal r.natAbs ++ [')']) = none := by
    have e : "Revision(".toList ++ '-' :: decimal r.natAbs ++ [')'] = 'R' :: ("evision(".toList ++ '-' :: decimal r.natAbs ++ [')']) := by
      rw [hl, List.cons_append, List.cons_append]
    have hm : matchRevision ("Revision(".toList ++ '-' :: decimal r.natAbs ++ [')']) = none := by
      unfold matchRevision
      have hp : ("Revision(".toList ++ '-' :: decimal r.natAbs ++ [')']).drop 9 = '-' :: decimal r.natAbs ++ [')'] := by
        rw [List.append_assoc]
        exact List.drop_left' (by decide)
      split
      · rfl
      · rw [hp]
        have : ('-' :: decimal r.natAbs ++ [')']).takeWhile isDigit = [] := by
          rw [List.cons_append, List.takeWhile_cons_of_neg (by decide)]
        dsimp only
        rw [this, if_pos (.inl rfl)]
    rw [e] at hm ⊢
    unfold findRevision
    rw [hm]
    exact hn _ rest
  rw [hf]

/-- A state with entries in its maps, logs, calls, hashes and a revision without name. -/
def richState : TestState :=
  { someState true with
    revision := 99, stack := [7, 2 ^ 255], memory := [1, 2, 255], logs := [([5], [9])]
    past := [{ kind := .create2, recipient := 1, sender := 2, input := [3], value := 4, gas := 5, codeAddress := 6 }]
    future := [{ success := true, output := { data := [8] }, gasCosts := 9, gasRefund := -3, createdAccount := 2 ^ 159 }]
    selfDestructed := [(1, 2)], blobHashes := [3], hashes := some (List.replicate 256 7) }

/-- The hypotheses are met. -/
theorem richState_meets : Proper richState ∧ Savable richState ∧
    Written richState { save richState with current := (save richState).current.reverse, codes := (save richState).codes.reverse } := by
  have h := someState_proper true
  refine ⟨⟨h.1, h.2, h.3, h.4, h.5, h.6, fun l e => ?_, h.8⟩, ⟨by decide, by decide⟩, ⟨rfl, List.reverse_perm _, .refl _, .refl _, .refl _, .refl _,
    List.reverse_perm _, .refl _⟩⟩
  cases e
  exact List.length_replicate

/-- What is written for a number. -/
example : u256Text 0x1f = ("0000000000000000 0000000000000000 0000000000000000 000000000000001f".toUTF8.toList.map fun b => BitVec.ofNat 8 b.toNat) := by
  decide +kernel

example : (load (save richState)).map (fun t => Model.Compare.eq (fun _ => 0) richState t) = some true := by
  obtain ⟨t, e, h, _⟩ := C84_equal (keccak := fun _ => 0) richState_meets.1 richState_meets.2.1
    (show Written richState (save richState) from ⟨rfl, .refl _, .refl _, .refl _, .refl _, .refl _, .refl _, .refl _⟩)
  rw [e, Option.map_some, h]

end Tosca

import Verif.Spec.GoObserve
import Mathlib.Algebra.Order.Ring.Nat
import Mathlib.Tactic.NormNum
import Mathlib.Tactic.Ring

/-!
# Proofs: observing LFVM
-/

namespace Tosca.Spec.Observe

open Tosca Tosca.Go Tosca.Model.Lfvm Tosca.Model.Lfvm.Observe Tosca.Model.Compare

variable {ω σ : Type}

/-! ## Paths -/

theorem stepOnce_off {E : Env ω} {s : Model.Lfvm.St ω} (h : (E.code.length : Int) ≤ s.pc) : stepOnce E s = .ok .stopped s := by
  show (match (Res.ok s s : Res ω (Model.Lfvm.St ω)) with
    | .ok a s => (if a.pc ≥ (E.code.length : Int) then (pure .stopped : M ω Model.Lfvm.Status) else _) s
    | .err s => .err s
    | .panic => .panic) = _
  simp only [ge_iff_le, h, if_true]
  rfl

/-- What the loop of a run ends with. -/
def asRes : Option (Model.Lfvm.Status × Model.Lfvm.St ω) → Res ω Model.Lfvm.Status
  | some (st, s) => .ok st s
  | none => .panic

theorem path_of_loop (E : Env ω) : ∀ (fuel : Nat) (s : Model.Lfvm.St ω) (q : Res ω Model.Lfvm.Status), loop E fuel s = some q →
    ∃ l r, Path E s l r ∧ q = asRes r ∧ l.length ≤ fuel := by
  intro fuel
  induction fuel with
  | zero => intro s q h; exact absurd h (by simp [loop])
  | succ fuel ih =>
    intro s q h
    by_cases hp : s.pc < (E.code.length : Int)
    · rw [loop] at h
      cases hs : stepOnce E s with
      | ok st s' =>
        rw [hs] at h
        by_cases hr : st = .running
        · subst hr
          obtain ⟨l, r, h1, h2, h3⟩ := ih s' q h
          exact ⟨s :: l, r, .next hp hs h1, h2, by simp only [List.length_cons]; omega⟩
        · have : q = .ok st s' := by
            cases st <;> simp_all
          exact ⟨[s], some (st, s'), .ended hp hs hr, this, by simp⟩
      | err s' =>
        rw [hs] at h
        exact ⟨[s], some (.failed, s'), .failed hp hs, (Option.some.inj h).symm, by simp⟩
      | panic =>
        rw [hs] at h
        exact ⟨[s], none, .panic hp hs, (Option.some.inj h).symm, by simp⟩
    · have hp' : (E.code.length : Int) ≤ s.pc := by omega
      rw [loop, stepOnce_off hp'] at h
      exact ⟨[], some (.stopped, s), .off hp', (Option.some.inj h).symm, by simp⟩

theorem loop_of_path {E : Env ω} {s : Model.Lfvm.St ω} {l r} (h : Path E s l r) : ∀ fuel, l.length < fuel → loop E fuel s = some (asRes r) := by
  induction h with
  | off hp =>
    intro fuel hf
    obtain ⟨fuel, rfl⟩ : ∃ n, fuel = n + 1 := ⟨fuel - 1, by omega⟩
    rw [loop, stepOnce_off hp]; rfl
  | panic hp hs =>
    intro fuel hf
    obtain ⟨fuel, rfl⟩ : ∃ n, fuel = n + 1 := ⟨fuel - 1, by omega⟩
    rw [loop, hs]; rfl
  | failed hp hs =>
    intro fuel hf
    obtain ⟨fuel, rfl⟩ : ∃ n, fuel = n + 1 := ⟨fuel - 1, by omega⟩
    rw [loop, hs]; rfl
  | @ended s s' st hp hs hr =>
    intro fuel hf
    obtain ⟨fuel, rfl⟩ : ∃ n, fuel = n + 1 := ⟨fuel - 1, by omega⟩
    rw [loop, hs]
    cases st <;> first | rfl | exact absurd rfl hr
  | next hp hs _ ih =>
    intro fuel hf
    obtain ⟨fuel, rfl⟩ : ∃ n, fuel = n + 1 := ⟨fuel - 1, by omega⟩
    rw [loop, hs]
    exact ih fuel (by simp only [List.length_cons] at hf; omega)

theorem loop_more (E : Env ω) : ∀ (n m : Nat) (s : Model.Lfvm.St ω) (q : Res ω Model.Lfvm.Status), loop E n s = some q → n ≤ m → loop E m s = some q := by
  intro n
  induction n with
  | zero => intro m s q h; exact absurd h (by simp [loop])
  | succ n ih =>
    intro m s q h hm
    obtain ⟨m, rfl⟩ : ∃ k, m = k + 1 := ⟨m - 1, by omega⟩
    rw [loop] at h ⊢
    cases hs : stepOnce E s with
    | ok st s' =>
      rw [hs] at h
      cases st <;> first | exact h | exact ih m s' q h (by omega)
    | err s' => rw [hs] at h; exact h
    | panic => rw [hs] at h; exact h

/-- A state has one execution. -/
theorem path_unique {E : Env ω} {s : Model.Lfvm.St ω} {l r l' r'} (h : Path E s l r) (h' : Path E s l' r') : l' = l ∧ r' = r := by
  induction h generalizing l' r' with
  | off hp => cases h' with
    | off => exact ⟨rfl, rfl⟩
    | panic hq | failed hq | ended hq | next hq => exact absurd hq (by omega)
  | panic hp hs => cases h' with
    | off hq => exact absurd hp (by omega)
    | panic => exact ⟨rfl, rfl⟩
    | failed _ ht | ended _ ht | next _ ht => rw [hs] at ht; cases ht
  | failed hp hs => cases h' with
    | off hq => exact absurd hp (by omega)
    | failed _ ht => rw [hs] at ht; cases ht; exact ⟨rfl, rfl⟩
    | panic _ ht | ended _ ht | next _ ht => rw [hs] at ht; cases ht
  | ended hp hs hr => cases h' with
    | off hq => exact absurd hp (by omega)
    | ended _ ht => rw [hs] at ht; cases ht; exact ⟨rfl, rfl⟩
    | panic _ ht | failed _ ht => rw [hs] at ht; cases ht
    | next _ ht => rw [hs] at ht; cases ht; exact absurd rfl hr
  | next hp hs _ ih => cases h' with
    | off hq => exact absurd hp (by omega)
    | panic _ ht | failed _ ht => rw [hs] at ht; cases ht
    | ended _ ht hr => rw [hs] at ht; cases ht; exact absurd rfl hr
    | next _ ht h2 =>
      rw [hs] at ht; cases ht
      obtain ⟨h3, h4⟩ := ih h2
      exact ⟨by rw [h3], h4⟩

/-! ## Logging -/

theorem line_text (E : Env ω) (name : BitVec 16 → String) (s : Model.Lfvm.St ω) : (lineOf E s).text name = shown name E s := by
  have h : (lineOf E s).top = (stackOf s).getLast? := by
    show (if s.sp > 0 then some (s.data (s.sp - 1).toNat) else none) = _
    unfold stackOf
    by_cases h : s.sp > 0
    · obtain ⟨n, hn⟩ : ∃ n : Nat, s.sp = n + 1 := ⟨(s.sp - 1).toNat, by omega⟩
      have h1 : (s.sp).toNat = n + 1 := by omega
      have h2 : (s.sp - 1).toNat = n := by omega
      rw [if_pos h, h1, h2, List.range_succ, List.map_append]
      simp
    · rw [if_neg h, show s.sp.toNat = 0 by omega]; rfl
  unfold Line.text shown
  rw [h]
  simp only [String.join, List.foldl_cons, List.foldl_nil, String.empty_append]
  rfl

theorem logRun_off (E : Env ω) (name : BitVec 16 → String) (write : Option (Writer σ)) (fuel : Nat) {s : Model.Lfvm.St ω} (o : σ)
    (hp : (E.code.length : Int) ≤ s.pc) : logRun E name write (fuel + 1) s o = some (.done .stopped s, o) := by
  have hi : inCode E s = false := by simp only [inCode, decide_eq_false_iff_not]; omega
  simp only [logRun, hi, execute, stepOnce_off hp]
  rfl

theorem logRun_quiet (E : Env ω) (name : BitVec 16 → String) : ∀ (fuel : Nat) (s : Model.Lfvm.St ω) (o : σ),
    logRun E name none fuel s o = (loop E fuel s).map fun q => (match q with | .ok st s' => .done st s' | .err s' => .done .failed s' | .panic => .panic, o) := by
  intro fuel
  induction fuel with
  | zero => intro s o; rfl
  | succ fuel ih =>
    intro s o
    have hw : (if inCode E s = true then ((true, o) : Bool × σ) else (true, o)) = (true, o) := by split <;> rfl
    simp only [logRun, loop, hw, execute]
    cases hs : stepOnce E s with
    | ok st s' => cases st <;> first | rfl | exact ih s' o
    | err s' => rfl
    | panic => rfl

theorem logRun_path {E : Env ω} (name : BitVec 16 → String) (w : Writer σ) {s : Model.Lfvm.St ω} {l r} (h : Path E s l r) : ∀ (fuel : Nat) (o : σ), l.length < fuel →
    logRun E name (some w) fuel s o = some (match (deliver w (l.map (shown name E)) o).1 with
      | none => asEnded r
      | some i => (l[i]?.map Ended.writeError).getD .panic, (deliver w (l.map (shown name E)) o).2) := by
  have key : ∀ {s : Model.Lfvm.St ω}, s.pc < (E.code.length : Int) → ∀ (fuel : Nat) (o : σ), logRun E name (some w) (fuel + 1) s o =
      if (w (shown name E s) o).1 = false then some (.writeError s, (w (shown name E s) o).2)
      else match execute E s with
        | .ok .running s' => logRun E name (some w) fuel s' (w (shown name E s) o).2
        | .ok status s' => some (.done status s', (w (shown name E s) o).2)
        | .err s' => some (.done .failed s', (w (shown name E s) o).2)
        | .panic => some (.panic, (w (shown name E s) o).2) := by
    intro s hp fuel o
    have hi : inCode E s = true := by simp only [inCode, decide_eq_true_eq]; exact hp
    simp only [logRun, hi, if_true, line_text]
    rfl
  induction h with
  | off hp =>
    intro fuel o hf
    obtain ⟨fuel, rfl⟩ : ∃ n, fuel = n + 1 := ⟨fuel - 1, by omega⟩
    rw [logRun_off E name _ fuel o hp]; rfl
  | panic hp hs =>
    intro fuel o hf
    obtain ⟨fuel, rfl⟩ : ∃ n, fuel = n + 1 := ⟨fuel - 1, by omega⟩
    rw [key hp]
    rcases hw : w (shown name E _) o with ⟨b, o'⟩
    cases b <;> simp [hw, deliver, execute, hs, asEnded]
  | failed hp hs =>
    intro fuel o hf
    obtain ⟨fuel, rfl⟩ : ∃ n, fuel = n + 1 := ⟨fuel - 1, by omega⟩
    rw [key hp]
    rcases hw : w (shown name E _) o with ⟨b, o'⟩
    cases b <;> simp [hw, deliver, execute, hs, asEnded]
  | @ended s s' st hp hs hr =>
    intro fuel o hf
    obtain ⟨fuel, rfl⟩ : ∃ n, fuel = n + 1 := ⟨fuel - 1, by omega⟩
    rw [key hp]
    rcases hw : w (shown name E _) o with ⟨b, o'⟩
    cases b <;> cases st <;> first | exact absurd rfl hr | simp [hw, deliver, execute, hs, asEnded]
  | @next s s' l r hp hs _ ih =>
    intro fuel o hf
    obtain ⟨fuel, rfl⟩ : ∃ n, fuel = n + 1 := ⟨fuel - 1, by omega⟩
    rw [key hp]
    rcases hw : w (shown name E s) o with ⟨b, o'⟩
    cases b
    · simp [deliver, hw]
    · have h2 := ih fuel o' (by simp only [List.length_cons] at hf; omega)
      simp only [execute, hs, h2, List.map_cons, deliver, hw]
      rcases (deliver w (l.map (shown name E)) o').1 with _ | i
      · rfl
      · rfl

theorem deliver_lt (w : Writer σ) : ∀ (ts : List String) (o : σ) (i : Nat), (deliver w ts o).1 = some i → i < ts.length := by
  intro ts
  induction ts with
  | nil => intro o i h; cases h
  | cons t ts ih =>
    intro o i h
    rw [deliver] at h
    rcases hw : w t o with ⟨b, o'⟩
    rw [hw] at h
    cases b
    · cases h; simp
    · cases hd : (deliver w ts o').1 with
      | none => simp only [hd] at h; cases h
      | some j =>
        simp only [hd, Option.map_some] at h
        cases h
        have := ih o' j hd
        simp only [List.length_cons]; omega

theorem deliver_keep : ∀ (ts o : List String), deliver keep ts o = (none, o ++ ts) := by
  intro ts
  induction ts with
  | nil => intro o; simp [deliver]
  | cons t ts ih =>
    intro o
    rw [deliver]
    simp only [keep, ih]
    simp

/-! ## Windows and keys -/

theorem windows_snoc (n : Nat) (hn : 1 ≤ n) (ops : List (BitVec 16)) (x : BitVec 16) :
    windows n (ops ++ [x]) = windows n ops ++ if n ≤ ops.length + 1 then [(ops ++ [x]).drop (ops.length + 1 - n)] else [] := by
  unfold windows
  by_cases h : n ≤ ops.length + 1
  · rw [if_pos h]
    have h1 : (ops ++ [x]).length + 1 - n = (ops.length + 1 - n) + 1 := by simp only [List.length_append, List.length_singleton]; omega
    rw [h1, List.range_succ, List.map_append, List.map_singleton]
    congr 1
    · apply List.map_congr_left
      intro i hi
      have hi' := List.mem_range.mp hi
      rw [List.drop_append_of_le_length (by omega), List.take_append_of_le_length (by rw [List.length_drop]; omega)]
    · rw [List.take_of_length_le]
      rw [List.length_drop, List.length_append, List.length_singleton]; omega
  · rw [if_neg h]
    have h1 : (ops ++ [x]).length + 1 - n = 0 := by simp only [List.length_append, List.length_singleton]; omega
    have h2 : ops.length + 1 - n = 0 := by omega
    rw [h1, h2]; rfl

theorem mem_windows {n : Nat} {ops v : List (BitVec 16)} (h : v ∈ windows n ops) : v.length = n := by
  unfold windows at h
  obtain ⟨i, hi, rfl⟩ := List.mem_map.mp h
  have hi' := List.mem_range.mp hi
  rw [List.length_take, List.length_drop]; omega

theorem or_eq_add (a b i : Nat) (hb : b < 2 ^ i) : a * 2 ^ i ||| b = a * 2 ^ i + b := by
  rw [← Nat.shiftLeft_eq, Nat.shiftLeft_add_eq_or_of_lt hb]

theorem word1 (a : BitVec 16) : a.setWidth 64 = word [a] := by
  apply BitVec.eq_of_toNat_eq
  have := a.isLt
  simp [word]

theorem word2 (a b : BitVec 16) : a.setWidth 64 <<< 16 ||| b.setWidth 64 = word [a, b] := by
  apply BitVec.eq_of_toNat_eq
  have ha := a.isLt
  have hb := b.isLt
  have e : a.toNat * 65536 ||| b.toNat = a.toNat * 65536 + b.toNat := or_eq_add a.toNat b.toNat 16 hb
  have h1 : (a.setWidth 64 <<< 16).toNat = a.toNat * 65536 := by
    simp only [BitVec.toNat_shiftLeft, BitVec.toNat_setWidth, Nat.shiftLeft_eq]; omega
  have h2 : (b.setWidth 64).toNat = b.toNat := by simp only [BitVec.toNat_setWidth]; omega
  rw [BitVec.toNat_or, h1, h2, e]
  simp only [word, List.foldl_cons, List.foldl_nil, BitVec.toNat_ofNat]; omega

theorem word3 (a b c : BitVec 16) : a.setWidth 64 <<< 32 ||| b.setWidth 64 <<< 16 ||| c.setWidth 64 = word [a, b, c] := by
  apply BitVec.eq_of_toNat_eq
  have ha := a.isLt
  have hb := b.isLt
  have hc := c.isLt
  have e : a.toNat * 2 ^ 32 ||| b.toNat * 65536 = a.toNat * 2 ^ 32 + b.toNat * 65536 := or_eq_add _ _ 32 (by omega)
  have e' : (a.toNat * 65536 + b.toNat) * 65536 ||| c.toNat = (a.toNat * 65536 + b.toNat) * 65536 + c.toNat := or_eq_add _ _ 16 (by omega)
  have h1 : (a.setWidth 64 <<< 32).toNat = a.toNat * 2 ^ 32 := by
    simp only [BitVec.toNat_shiftLeft, BitVec.toNat_setWidth, Nat.shiftLeft_eq]; omega
  have h2 : (b.setWidth 64 <<< 16).toNat = b.toNat * 65536 := by
    simp only [BitVec.toNat_shiftLeft, BitVec.toNat_setWidth, Nat.shiftLeft_eq]; omega
  have h3 : (c.setWidth 64).toNat = c.toNat := by simp only [BitVec.toNat_setWidth]; omega
  rw [BitVec.toNat_or, BitVec.toNat_or, h1, h2, h3, e, show a.toNat * 2 ^ 32 + b.toNat * 65536 = (a.toNat * 65536 + b.toNat) * 65536 by omega, e']
  simp only [word, List.foldl_cons, List.foldl_nil, BitVec.toNat_ofNat]; omega

theorem word4 (a b c d : BitVec 16) :
    a.setWidth 64 <<< 48 ||| b.setWidth 64 <<< 32 ||| c.setWidth 64 <<< 16 ||| d.setWidth 64 = word [a, b, c, d] := by
  apply BitVec.eq_of_toNat_eq
  have ha := a.isLt
  have hb := b.isLt
  have hc := c.isLt
  have hd := d.isLt
  have e : a.toNat * 2 ^ 48 ||| b.toNat * 2 ^ 32 = a.toNat * 2 ^ 48 + b.toNat * 2 ^ 32 := or_eq_add _ _ 48 (by omega)
  have e' : (a.toNat * 65536 + b.toNat) * 2 ^ 32 ||| c.toNat * 65536 = (a.toNat * 65536 + b.toNat) * 2 ^ 32 + c.toNat * 65536 := or_eq_add _ _ 32 (by omega)
  have e'' : ((a.toNat * 65536 + b.toNat) * 65536 + c.toNat) * 65536 ||| d.toNat = ((a.toNat * 65536 + b.toNat) * 65536 + c.toNat) * 65536 + d.toNat :=
    or_eq_add _ _ 16 (by omega)
  have h1 : (a.setWidth 64 <<< 48).toNat = a.toNat * 2 ^ 48 := by
    simp only [BitVec.toNat_shiftLeft, BitVec.toNat_setWidth, Nat.shiftLeft_eq]; omega
  have h2 : (b.setWidth 64 <<< 32).toNat = b.toNat * 2 ^ 32 := by
    simp only [BitVec.toNat_shiftLeft, BitVec.toNat_setWidth, Nat.shiftLeft_eq]; omega
  have h3 : (c.setWidth 64 <<< 16).toNat = c.toNat * 65536 := by
    simp only [BitVec.toNat_shiftLeft, BitVec.toNat_setWidth, Nat.shiftLeft_eq]; omega
  have h4 : (d.setWidth 64).toNat = d.toNat := by simp only [BitVec.toNat_setWidth]; omega
  rw [BitVec.toNat_or, BitVec.toNat_or, BitVec.toNat_or, h1, h2, h3, h4, e,
    show a.toNat * 2 ^ 48 + b.toNat * 2 ^ 32 = (a.toNat * 65536 + b.toNat) * 2 ^ 32 by omega, e',
    show (a.toNat * 65536 + b.toNat) * 2 ^ 32 + c.toNat * 65536 = ((a.toNat * 65536 + b.toNat) * 65536 + c.toNat) * 65536 by omega, e'']
  simp only [word, List.foldl_cons, List.foldl_nil, BitVec.toNat_ofNat]; omega

theorem digits_inj : ∀ (v w : List (BitVec 16)), v.length = w.length → ∀ (i j : Nat),
    v.foldl (fun n op => n * 65536 + op.toNat) i = w.foldl (fun n op => n * 65536 + op.toNat) j → v = w ∧ i = j := by
  intro v
  induction v with
  | nil => intro w hl i j h; cases w with
    | nil => exact ⟨rfl, h⟩
    | cons b w => cases hl
  | cons a v ih =>
    intro w hl i j h
    cases w with
    | nil => cases hl
    | cons b w =>
      obtain ⟨h1, h2⟩ := ih w (Nat.succ.inj hl) _ _ h
      have ha := a.isLt
      have hb := b.isLt
      beta_reduce at h2
      exact ⟨by rw [h1, BitVec.eq_of_toNat_eq (x := a) (y := b) (by omega)], by omega⟩

theorem digits_lt : ∀ (v : List (BitVec 16)) (i : Nat), v.foldl (fun n op => n * 65536 + op.toNat) i < (i + 1) * 65536 ^ v.length := by
  intro v
  induction v with
  | nil => intro i; simp
  | cons a v ih =>
    intro i
    have ha := a.isLt
    refine lt_of_lt_of_le (ih _) ?_
    rw [List.length_cons, pow_succ, mul_comm (65536 ^ v.length), ← mul_assoc]
    exact Nat.mul_le_mul_right _ (by beta_reduce; omega)

theorem word_inj {v w : List (BitVec 16)} (hv : v.length ≤ 4) (hl : v.length = w.length) (h : word v = word w) : v = w := by
  have hb : ∀ u : List (BitVec 16), u.length ≤ 4 → u.foldl (fun n op => n * 65536 + op.toNat) 0 < 2 ^ 64 := by
    intro u hu
    refine lt_of_lt_of_le (digits_lt u 0) ?_
    rw [zero_add, one_mul]
    exact (Nat.pow_le_pow_right (by norm_num) hu).trans (by norm_num)
  have h1 := congrArg BitVec.toNat h
  unfold word at h1
  rw [BitVec.toNat_ofNat, BitVec.toNat_ofNat, Nat.mod_eq_of_lt (hb v hv), Nat.mod_eq_of_lt (hb w (hl ▸ hv))] at h1
  exact (digits_inj v w hl 0 0 h1).1

/-! ## Maps of counters -/

theorem entry_none_iff (m : Counts) (k : BitVec 64) : entry m k = none ↔ k ∉ m.map (·.1) := by
  unfold entry
  rw [Option.map_eq_none_iff, List.find?_eq_none]
  constructor
  · intro h hk
    obtain ⟨e, he, hek⟩ := List.mem_map.mp hk
    exact h e he (by simpa using hek)
  · intro h e he hek
    exact h (List.mem_map.mpr ⟨e, he, by simpa using hek⟩)

theorem isSome_iff (m : Counts) (k : BitVec 64) : (entry m k).isSome = true ↔ k ∈ m.map (·.1) := by
  rw [← not_iff_not, ← entry_none_iff]
  cases entry m k <;> simp

theorem entry_append_new (m : Counts) (k d j : BitVec 64) (h : entry m k = none) :
    entry (m ++ [(k, d)]) j = if j = k then some d else entry m j := by
  unfold entry at h ⊢
  rw [List.find?_append]
  by_cases hj : j = k
  · subst hj
    rw [if_pos rfl, Option.map_eq_none_iff.mp h]
    simp
  · rw [if_neg hj, List.find?_cons_of_neg (by simpa using fun h => hj h.symm)]
    simp

theorem entry_map (m : Counts) (k d j : BitVec 64) :
    entry (m.map fun e => if e.1 = k then (e.1, e.2 + d) else e) j = if j = k then (entry m j).map (· + d) else entry m j := by
  induction m with
  | nil => simp [entry]
  | cons e m ih =>
    unfold entry at ih ⊢
    rw [List.map_cons]
    by_cases he : e.1 = j
    · by_cases hj : j = k
      · rw [List.find?_cons_of_pos (by simp [he, hj]), List.find?_cons_of_pos (by simpa using he)]
        simp [hj, he]
      · rw [if_neg (show ¬ e.1 = k from fun h => hj (he.symm.trans h)), List.find?_cons_of_pos (by simpa using he), List.find?_cons_of_pos (by simpa using he)]
        simp [hj]
    · rw [List.find?_cons_of_neg (by split <;> simpa using he), List.find?_cons_of_neg (by simpa using he)]
      exact ih

theorem count_bump (m : Counts) (k d j : BitVec 64) : Model.Lfvm.Observe.count (bump m k d) j = Model.Lfvm.Observe.count m j + if j = k then d else 0 := by
  unfold bump Model.Lfvm.Observe.count
  cases h : entry m k with
  | none =>
    rw [if_neg (by simp), entry_append_new m k d j h]
    by_cases hj : j = k
    · subst hj; simp [h]
    · simp [hj]
  | some v =>
    rw [if_pos (by simp), entry_map]
    by_cases hj : j = k
    · subst hj; simp [h]
    · simp [hj]

theorem keys_bump (m : Counts) (k d : BitVec 64) : (bump m k d).map (·.1) = if k ∈ m.map (·.1) then m.map (·.1) else m.map (·.1) ++ [k] := by
  unfold bump
  by_cases h : k ∈ m.map (·.1)
  · rw [if_pos ((isSome_iff m k).mpr h), if_pos h, List.map_map]
    apply List.map_congr_left
    intro e _
    show (if e.1 = k then (e.1, e.2 + d) else e).1 = e.1
    split <;> rfl
  · rw [if_neg (fun h' => h ((isSome_iff m k).mp h')), if_neg h, List.map_append]; rfl

/-- `m` counts the keys `ks`. -/
structure Tally (m : Counts) (ks : List (BitVec 64)) : Prop where
  counts : ∀ k, Model.Lfvm.Observe.count m k = BitVec.ofNat 64 (ks.count k)
  occur : ∀ k, k ∈ m.map (·.1) → k ∈ ks
  once : (m.map (·.1)).Nodup

theorem tally_nil : Tally [] [] := ⟨fun _ => rfl, fun _ h => h, List.nodup_nil⟩

theorem nodup_bump {m : Counts} (k d : BitVec 64) (h : (m.map (·.1)).Nodup) : ((bump m k d).map (·.1)).Nodup := by
  rw [keys_bump]
  split
  · exact h
  · rename_i hk
    rw [List.nodup_append]
    exact ⟨h, by simp, fun a ha b hb => by rw [List.mem_singleton.mp hb]; exact fun e => hk (e ▸ ha)⟩

theorem tally_bump {m : Counts} {ks : List (BitVec 64)} (h : Tally m ks) (k : BitVec 64) : Tally (bump m k 1) (ks ++ [k]) := by
  refine ⟨?_, ?_, nodup_bump k 1 h.once⟩
  · intro j
    rw [count_bump, h.counts, List.count_append]
    by_cases hj : j = k
    · subst hj
      rw [if_pos rfl, List.count_singleton_self, BitVec.ofNat_add]; rfl
    · rw [if_neg hj, List.count_singleton, if_neg (by simpa using fun h => hj h.symm)]; simp
  · intro j hj
    rw [keys_bump] at hj
    split at hj
    · exact List.mem_append_left _ (h.occur j hj)
    · rcases List.mem_append.mp hj with hj | hj
      · exact List.mem_append_left _ (h.occur j hj)
      · exact List.mem_append_right _ hj

theorem count_addAll : ∀ (src m : Counts), (src.map (·.1)).Nodup → ∀ j, Model.Lfvm.Observe.count (addAll m src) j = Model.Lfvm.Observe.count m j + Model.Lfvm.Observe.count src j := by
  intro src
  induction src with
  | nil => intro m _ j; simp [addAll, Model.Lfvm.Observe.count, entry]
  | cons e src ih =>
    intro m hn j
    rw [List.map_cons, List.nodup_cons] at hn
    have h1 := ih (bump m e.1 e.2) hn.2 j
    show Model.Lfvm.Observe.count (addAll (bump m e.1 e.2) src) j = _
    rw [h1, count_bump, BitVec.add_assoc]
    congr 1
    by_cases hj : j = e.1
    · have h0 : entry src j = none := (entry_none_iff src j).mpr (hj ▸ hn.1)
      simp only [Model.Lfvm.Observe.count, h0]
      rw [if_pos hj]
      simp [entry, hj]
    · rw [if_neg hj]
      unfold Model.Lfvm.Observe.count entry
      rw [List.find?_cons_of_neg (by simpa using fun h => hj h.symm)]
      simp

theorem keys_addAll : ∀ (src m : Counts) (j : BitVec 64), j ∈ (addAll m src).map (·.1) → j ∈ m.map (·.1) ∨ j ∈ src.map (·.1) := by
  intro src
  induction src with
  | nil => intro m j h; exact .inl h
  | cons e src ih =>
    intro m j h
    rcases ih (bump m e.1 e.2) j h with h | h
    · rw [keys_bump] at h
      split at h
      · exact .inl h
      · rcases List.mem_append.mp h with h | h
        · exact .inl h
        · exact .inr (by rw [List.mem_singleton.mp h]; exact List.mem_cons_self)
    · exact .inr (List.mem_cons_of_mem _ h)

theorem nodup_addAll : ∀ (src m : Counts), (m.map (·.1)).Nodup → ((addAll m src).map (·.1)).Nodup := by
  intro src
  induction src with
  | nil => intro m h; exact h
  | cons e src ih => intro m h; exact ih _ (nodup_bump _ _ h)

theorem tally_addAll {m src : Counts} {ks ls : List (BitVec 64)} (h : Tally m ks) (h' : Tally src ls) : Tally (addAll m src) (ks ++ ls) := by
  refine ⟨?_, ?_, nodup_addAll src m h.once⟩
  · intro j
    rw [count_addAll src m h'.once, h.counts, h'.counts, List.count_append, BitVec.ofNat_add]
  · intro j hj
    rcases keys_addAll src m j hj with h1 | h1
    · exact List.mem_append_left _ (h.occur j h1)
    · exact List.mem_append_right _ (h'.occur j h1)

theorem count_map_word {n : Nat} (hn : n ≤ 4) : ∀ (ws : List (List (BitVec 16))), (∀ v ∈ ws, v.length = n) → ∀ w : List (BitVec 16), w.length = n →
    (ws.map word).count (word w) = ws.count w := by
  intro ws
  induction ws with
  | nil => intro _ w _; rfl
  | cons v ws ih =>
    intro h w hw
    have hv := h v List.mem_cons_self
    rw [List.map_cons, List.count_cons, List.count_cons, ih (fun u hu => h u (List.mem_cons_of_mem _ hu)) w hw]
    congr 1
    by_cases e : v = w
    · subst e; simp
    · rw [if_neg (by simpa using fun h => e (word_inj (hv ▸ hn) (hv.trans hw.symm) h)), if_neg (by simpa using e)]

theorem countsOf_tally {m : Counts} {n : Nat} (hn : n ≤ 4) {runs : List (List (BitVec 16))} (h : Tally m ((runs.flatMap (windows n)).map word)) : CountsOf m n runs := by
  refine ⟨?_, ?_, h.once⟩
  · intro w hw
    rw [h.counts, count_map_word hn _ ?_ w hw]
    intro v hv
    obtain ⟨ops, _, ho⟩ := List.mem_flatMap.mp hv
    exact mem_windows ho
  · intro k hk
    obtain ⟨w, h1, h2⟩ := List.mem_map.mp (h.occur k ((isSome_iff m k).mp hk))
    exact ⟨w, h1, h2.symm⟩

/-! ## The collector -/

/-- The statistics count the sequences of the given runs. -/
structure Tallies (s : Statistics) (runs : List (List (BitVec 16))) : Prop where
  steps : s.count = BitVec.ofNat 64 (runs.map List.length).sum
  single : Tally s.single ((runs.flatMap (windows 1)).map word)
  pair : Tally s.pair ((runs.flatMap (windows 2)).map word)
  triple : Tally s.triple ((runs.flatMap (windows 3)).map word)
  quad : Tally s.quad ((runs.flatMap (windows 4)).map word)

theorem statisticsOf_tallies {s : Statistics} {runs : List (List (BitVec 16))} (h : Tallies s runs) : StatisticsOf s runs :=
  ⟨h.steps, countsOf_tally (by norm_num) h.single, countsOf_tally (by norm_num) h.pair, countsOf_tally (by norm_num) h.triple, countsOf_tally (by norm_num) h.quad⟩

/-- The collector after the instructions `r` (the last one first). -/
structure Collected (c : Collector) (r : List (BitVec 16)) : Prop where
  tallies : Tallies c.stats [r.reverse]
  last : c.last = (r.getD 0 0).setWidth 64
  secondLast : c.secondLast = (r.getD 1 0).setWidth 64
  thirdLast : c.thirdLast = (r.getD 2 0).setWidth 64

theorem collected_nil : Collected {} [] := ⟨⟨rfl, tally_nil, tally_nil, tally_nil, tally_nil⟩, rfl, rfl, rfl⟩

theorem one_run (n : Nat) (ops : List (BitVec 16)) : [ops].flatMap (windows n) = windows n ops := by simp

theorem tally_next {m : Counts} {n : Nat} {r : List (BitVec 16)} {x : BitVec 16} (hn : 1 ≤ n) (h : Tally m (([r.reverse].flatMap (windows n)).map word))
    {k : BitVec 64} {w : List (BitVec 16)} (hl : n ≤ r.length + 1) (hw : (r.reverse ++ [x]).drop (r.length + 1 - n) = w) (hk : k = word w) :
    Tally (bump m k 1) (([(x :: r).reverse].flatMap (windows n)).map word) := by
  rw [one_run] at h ⊢
  rw [List.reverse_cons, windows_snoc n hn, if_pos (by rw [List.length_reverse]; exact hl), List.length_reverse, hw, List.map_append, hk]
  exact tally_bump h (word w)

theorem tally_same {m : Counts} {n : Nat} {r : List (BitVec 16)} {x : BitVec 16} (hn : 1 ≤ n) (h : Tally m (([r.reverse].flatMap (windows n)).map word))
    (hl : r.length + 1 < n) : Tally m (([(x :: r).reverse].flatMap (windows n)).map word) := by
  rw [one_run] at h ⊢
  rw [List.reverse_cons, windows_snoc n hn, if_neg (by rw [List.length_reverse]; omega), List.append_nil]
  exact h

theorem collected_next {c : Collector} {r : List (BitVec 16)} (h : Collected c r) (x : BitVec 16) (hl : r.length + 1 < 2 ^ 64) : Collected (c.nextOp x) (x :: r) := by
  have hc : c.stats.count + 1 = BitVec.ofNat 64 (r.length + 1) := by
    rw [h.tallies.steps, BitVec.ofNat_add]; simp
  have hsteps : c.stats.count + 1 = BitVec.ofNat 64 (([(x :: r).reverse].map List.length).sum) := by
    rw [hc]; simp
  have hcnt : ∀ i : Nat, i < 2 ^ 64 → ((c.stats.count + 1 = BitVec.ofNat 64 i) ↔ r.length + 1 = i) := by
    intro i hi
    rw [hc]
    constructor
    · intro e
      have := congrArg BitVec.toNat e
      rw [BitVec.toNat_ofNat, BitVec.toNat_ofNat, Nat.mod_eq_of_lt hl, Nat.mod_eq_of_lt hi] at this
      exact this
    · intro e; rw [e]
  have h1 := hcnt 1 (by norm_num)
  have h2 := hcnt 2 (by norm_num)
  have h3 := hcnt 3 (by norm_num)
  have hlast := h.last
  have hsecond := h.secondLast
  have hthird := h.thirdLast
  have single : Tally (bump c.stats.single (x.setWidth 64) 1) (([(x :: r).reverse].flatMap (windows 1)).map word) :=
    tally_next (by norm_num) h.tallies.single (by omega) (w := [x]) (by rw [List.drop_append_of_le_length (by simp)]; simp) (word1 x)
  match r, h, hl, hc, hsteps, h1, h2, h3, hlast, hsecond, hthird, single with
  | [], h, hl, hc, hsteps, h1, h2, h3, hlast, hsecond, hthird, single =>
    have e1 := h1.mpr rfl
    have e : c.nextOp x = Collector.shift { c with stats := { c.stats with count := c.stats.count + 1, single := bump c.stats.single (x.setWidth 64) 1 } } (x.setWidth 64) := by
      unfold Collector.nextOp
      exact if_pos e1
    rw [e]
    exact ⟨⟨hsteps, single, tally_same (by norm_num) h.tallies.pair (by simp), tally_same (by norm_num) h.tallies.triple (by simp),
      tally_same (by norm_num) h.tallies.quad (by simp)⟩, rfl, hlast, hsecond⟩
  | [a], h, hl, hc, hsteps, h1, h2, h3, hlast, hsecond, hthird, single =>
    have n1 : ¬ (c.stats.count + 1 = 1#64) := fun e => absurd (h1.mp e) (by simp)
    have e2 := h2.mpr rfl
    have e : c.nextOp x = Collector.shift { c with stats := { c.stats with count := c.stats.count + 1, single := bump c.stats.single (x.setWidth 64) 1, pair := bump c.stats.pair (c.last <<< 16 ||| x.setWidth 64) 1 } } (x.setWidth 64) := by
      unfold Collector.nextOp
      exact (if_neg n1).trans (if_pos e2)
    rw [e]
    exact ⟨⟨hsteps, single, tally_next (by norm_num) h.tallies.pair (by simp) (w := [a, x]) (by simp) (by rw [hlast]; exact word2 a x),
      tally_same (by norm_num) h.tallies.triple (by simp), tally_same (by norm_num) h.tallies.quad (by simp)⟩, rfl, hlast, hsecond⟩
  | [b, a], h, hl, hc, hsteps, h1, h2, h3, hlast, hsecond, hthird, single =>
    have n1 : ¬ (c.stats.count + 1 = 1#64) := fun e => absurd (h1.mp e) (by simp)
    have n2 : ¬ (c.stats.count + 1 = 2#64) := fun e => absurd (h2.mp e) (by simp)
    have e3 := h3.mpr rfl
    have e : c.nextOp x = Collector.shift { c with stats := { c.stats with count := c.stats.count + 1, single := bump c.stats.single (x.setWidth 64) 1, pair := bump c.stats.pair (c.last <<< 16 ||| x.setWidth 64) 1, triple := bump c.stats.triple (c.secondLast <<< 32 ||| c.last <<< 16 ||| x.setWidth 64) 1 } } (x.setWidth 64) := by
      unfold Collector.nextOp
      exact (if_neg n1).trans ((if_neg n2).trans (if_pos e3))
    rw [e]
    exact ⟨⟨hsteps, single, tally_next (by norm_num) h.tallies.pair (by simp) (w := [b, x]) (by simp) (by rw [hlast]; exact word2 b x),
      tally_next (by norm_num) h.tallies.triple (by simp) (w := [a, b, x]) (by simp) (by rw [hlast, hsecond]; exact word3 a b x),
      tally_same (by norm_num) h.tallies.quad (by simp)⟩, rfl, hlast, hsecond⟩
  | d :: b :: a :: r, h, hl, hc, hsteps, h1, h2, h3, hlast, hsecond, hthird, single =>
    have n1 : ¬ (c.stats.count + 1 = 1#64) := fun e => absurd (h1.mp e) (by simp)
    have n2 : ¬ (c.stats.count + 1 = 2#64) := fun e => absurd (h2.mp e) (by simp)
    have n3 : ¬ (c.stats.count + 1 = 3#64) := fun e => absurd (h3.mp e) (by simp)
    have e : c.nextOp x = Collector.shift { c with stats := { c.stats with count := c.stats.count + 1, single := bump c.stats.single (x.setWidth 64) 1, pair := bump c.stats.pair (c.last <<< 16 ||| x.setWidth 64) 1, triple := bump c.stats.triple (c.secondLast <<< 32 ||| c.last <<< 16 ||| x.setWidth 64) 1, quad := bump c.stats.quad (c.thirdLast <<< 48 ||| c.secondLast <<< 32 ||| c.last <<< 16 ||| x.setWidth 64) 1 } } (x.setWidth 64) := by
      unfold Collector.nextOp
      exact (if_neg n1).trans ((if_neg n2).trans (if_neg n3))
    rw [e]
    have hl4 : 4 ≤ (d :: b :: a :: r).length + 1 := by simp only [List.length_cons]; omega
    have hd : ∀ (i j : Nat), i = r.length + j → ((d :: b :: a :: r).reverse ++ [x]).drop i = [a, b, d, x].drop j := by
      intro i j hi
      have e : (d :: b :: a :: r).reverse ++ [x] = r.reverse ++ [a, b, d, x] := by simp
      rw [e, hi, ← List.length_reverse (as := r), List.drop_length_add_append]
    refine ⟨⟨hsteps, single, tally_next (by norm_num) h.tallies.pair (by omega) (w := [d, x]) ?_ (by rw [hlast]; exact word2 d x),
      tally_next (by norm_num) h.tallies.triple (by omega) (w := [b, d, x]) ?_ (by rw [hlast, hsecond]; exact word3 b d x),
      tally_next (by norm_num) h.tallies.quad (by omega) (w := [a, b, d, x]) ?_ (by rw [hlast, hsecond, hthird]; exact word4 a b d x)⟩, rfl, hlast, hsecond⟩
    · exact hd _ 2 (by simp only [List.length_cons]; omega)
    · exact hd _ 1 (by simp only [List.length_cons]; omega)
    · exact hd _ 0 (by simp only [List.length_cons]; omega)

/-! ## The run with statistics -/

theorem statLoop_off (E : Env ω) (fuel : Nat) {s : Model.Lfvm.St ω} (c : Collector) (hp : (E.code.length : Int) ≤ s.pc) :
    statLoop E (fuel + 1) s c = some (.done .stopped s, c) := by
  have hi : inCode E s = false := by simp only [inCode, decide_eq_false_iff_not]; omega
  simp only [statLoop, hi, execute, stepOnce_off hp]
  rfl

theorem statLoop_path {E : Env ω} {s : Model.Lfvm.St ω} {l r} (h : Path E s l r) : ∀ (fuel : Nat) (c : Collector), l.length < fuel →
    statLoop E fuel s c = some (asEnded r, (l.map (opcodeOf E)).foldl Collector.nextOp c) := by
  have key : ∀ {s : Model.Lfvm.St ω}, s.pc < (E.code.length : Int) → ∀ (fuel : Nat) (c : Collector), statLoop E (fuel + 1) s c =
      match execute E s with
        | .ok .running s' => statLoop E fuel s' (c.nextOp (opcodeOf E s))
        | .ok status s' => some (.done status s', c.nextOp (opcodeOf E s))
        | .err s' => some (.done .failed s', c.nextOp (opcodeOf E s))
        | .panic => some (.panic, c.nextOp (opcodeOf E s)) := by
    intro s hp fuel c
    have hi : inCode E s = true := by simp only [inCode, decide_eq_true_eq]; exact hp
    simp only [statLoop, hi, if_true]
    rfl
  induction h with
  | off hp =>
    intro fuel c hf
    obtain ⟨fuel, rfl⟩ : ∃ n, fuel = n + 1 := ⟨fuel - 1, by omega⟩
    rw [statLoop_off E fuel c hp]; rfl
  | panic hp hs =>
    intro fuel c hf
    obtain ⟨fuel, rfl⟩ : ∃ n, fuel = n + 1 := ⟨fuel - 1, by omega⟩
    rw [key hp]
    simp [execute, hs, asEnded]
  | failed hp hs =>
    intro fuel c hf
    obtain ⟨fuel, rfl⟩ : ∃ n, fuel = n + 1 := ⟨fuel - 1, by omega⟩
    rw [key hp]
    simp [execute, hs, asEnded]
  | @ended s s' st hp hs hr =>
    intro fuel c hf
    obtain ⟨fuel, rfl⟩ : ∃ n, fuel = n + 1 := ⟨fuel - 1, by omega⟩
    rw [key hp]
    cases st <;> first | exact absurd rfl hr | simp [execute, hs, asEnded]
  | @next s s' l r hp hs _ ih =>
    intro fuel c hf
    obtain ⟨fuel, rfl⟩ : ∃ n, fuel = n + 1 := ⟨fuel - 1, by omega⟩
    rw [key hp]
    simp only [execute, hs, ih fuel _ (by simp only [List.length_cons] at hf; omega)]
    rfl

theorem statLoop_more (E : Env ω) : ∀ (n m : Nat) (s : Model.Lfvm.St ω) (c : Collector) (q : Ended ω × Collector), statLoop E n s c = some q → n ≤ m →
    statLoop E m s c = some q := by
  intro n
  induction n with
  | zero => intro m s c q h; exact absurd h (by simp [statLoop])
  | succ n ih =>
    intro m s c q h hm
    obtain ⟨m, rfl⟩ : ∃ k, m = k + 1 := ⟨m - 1, by omega⟩
    rw [statLoop] at h ⊢
    cases hs : execute E s with
    | ok st s' =>
      rw [hs] at h
      cases st <;> first | exact h | exact ih m s' _ q h (by omega)
    | err s' => rw [hs] at h; exact h
    | panic => rw [hs] at h; exact h

/-- However many iterations were allowed: if it ended, it ended like this. -/
theorem statLoop_of_path {E : Env ω} {s : Model.Lfvm.St ω} {l r} (h : Path E s l r) {fuel : Nat} {c : Collector} {q : Ended ω × Collector}
    (hq : statLoop E fuel s c = some q) : q = (asEnded r, (l.map (opcodeOf E)).foldl Collector.nextOp c) := by
  have h1 := statLoop_more E fuel (max fuel (l.length + 1)) s c q hq (le_max_left _ _)
  have h2 := statLoop_path h (max fuel (l.length + 1)) c (lt_of_lt_of_le (Nat.lt_succ_self _) (le_max_right _ _))
  exact Option.some.inj (h1.symm.trans h2)

theorem collected_all : ∀ (ops r : List (BitVec 16)) (c : Collector), Collected c r → r.length + ops.length < 2 ^ 64 →
    Collected (ops.foldl Collector.nextOp c) (ops.reverse ++ r) := by
  intro ops
  induction ops with
  | nil => intro r c h _; exact h
  | cons x ops ih =>
    intro r c h hl
    simp only [List.length_cons] at hl
    have := ih (x :: r) (c.nextOp x) (collected_next h x (by omega)) (by simp only [List.length_cons]; omega)
    rw [List.reverse_cons, List.append_assoc]
    exact this

theorem collected_run (ops : List (BitVec 16)) (h : ops.length < 2 ^ 64) : Tallies (ops.foldl Collector.nextOp {}).stats [ops] := by
  have h1 := (collected_all ops [] {} collected_nil (by simpa using h)).tallies
  rw [List.append_nil, List.reverse_reverse] at h1
  exact h1

theorem tallies_insert {s t : Statistics} {runs more : List (List (BitVec 16))} (h : Tallies s runs) (h' : Tallies t more) : Tallies (s.insert t) (runs ++ more) := by
  refine ⟨?_, ?_, ?_, ?_, ?_⟩
  · show s.count + t.count = _
    rw [h.steps, h'.steps, List.map_append, List.sum_append, BitVec.ofNat_add]
  all_goals rw [List.flatMap_append, List.map_append]
  · exact tally_addAll h.single h'.single
  · exact tally_addAll h.pair h'.pair
  · exact tally_addAll h.triple h'.triple
  · exact tally_addAll h.quad h'.quad

theorem tallies_empty : Tallies {} [] := ⟨rfl, tally_nil, tally_nil, tally_nil, tally_nil⟩

theorem statRun_path {E : Env ω} {s : Model.Lfvm.St ω} {l r} (h : Path E s l r) {fuel : Nat} {shared : Option Statistics} {q : Ended ω × Option Statistics}
    (hq : statRun E fuel s shared = some q) : q = (asEnded r, match r with
      | some _ => some ((orNew shared).insert ((l.map (opcodeOf E)).foldl Collector.nextOp {}).stats)
      | none => shared) := by
  unfold statRun at hq
  cases hl : statLoop E fuel s {} with
  | none => rw [hl] at hq; cases hq
  | some p =>
    have hp := statLoop_of_path h hl
    rw [hl, hp] at hq
    cases r with
    | none => exact (Option.some.inj hq).symm
    | some e => exact (Option.some.inj hq).symm

theorem tallies_history {shared : Option Statistics} {runs : List (List (BitVec 16))} (h : History ω shared runs) : Tallies (orNew shared) runs := by
  induction h with
  | start => exact tallies_empty
  | run _ hp hl hq ih =>
    have := statRun_path hp hq
    rw [(Prod.mk.inj this).2]
    exact tallies_insert ih (collected_run _ (by rw [List.length_map]; exact hl))
  | panicked _ hp hq ih =>
    have := statRun_path hp hq
    rw [(Prod.mk.inj this).2]
    exact ih
  | reset => exact tallies_empty

/-! ## The ranking -/

theorem first_total (a b : BitVec 64 × BitVec 64) (h : a ≠ b) : first a b = true ∨ first b a = true := by
  unfold first
  by_cases h2 : a.2 = b.2
  · have h1 : a.1 ≠ b.1 := fun h1 => h (Prod.ext h1 h2)
    rw [if_neg (by simpa using h2), if_neg (by simpa using h2.symm)]
    rcases lt_or_gt_of_ne (fun e => h1 (BitVec.eq_of_toNat_eq e) : a.1.toNat ≠ b.1.toNat) with h | h
    · left; simpa [BitVec.lt_def] using h
    · right; simpa [BitVec.lt_def] using h
  · rw [if_pos h2, if_pos (fun e => h2 e.symm)]
    rcases lt_or_gt_of_ne (fun e => h2 (BitVec.eq_of_toNat_eq e) : a.2.toNat ≠ b.2.toNat) with h | h
    · right; simpa [BitVec.lt_def] using h
    · left; simpa [BitVec.lt_def] using h

theorem first_iff (a b : BitVec 64 × BitVec 64) : first a b = true ↔ b.2.toNat < a.2.toNat ∨ (a.2.toNat = b.2.toNat ∧ a.1.toNat < b.1.toNat) := by
  unfold first
  by_cases h2 : a.2 = b.2
  · rw [if_neg (by simpa using h2), h2]
    simp [BitVec.lt_def]
  · have : a.2.toNat ≠ b.2.toNat := fun e => h2 (BitVec.eq_of_toNat_eq e)
    rw [if_pos h2]
    simp [BitVec.lt_def, this]

theorem ranked_sorted (m : Counts) : (m.mergeSort fun a b => !first b a).Pairwise fun a b => first b a = false := by
  have h := List.pairwise_mergeSort (le := fun a b => !first b a) (l := m) ?_ ?_
  · exact h.imp fun hab => by simpa using hab
  · intro a b c hab hbc
    simp only [Bool.not_eq_true', Bool.eq_false_iff, ne_eq, first_iff] at hab hbc ⊢
    omega
  · intro a b
    simp only [Bool.or_eq_true, Bool.not_eq_true', Bool.eq_false_iff, ne_eq, first_iff]
    omega

theorem ranked_unique {l l' : Counts} (hp : l.Perm l') (h : l.Pairwise fun a b => first b a = false) (h' : l'.Pairwise fun a b => first b a = false) : l = l' := by
  refine List.Perm.eq_of_pairwise ?_ h h' hp
  intro a b _ _ h1 h2
  by_contra hab
  rcases first_total a b hab with h | h
  · rw [h] at h2; cases h2
  · rw [h] at h1; cases h1

end Tosca.Spec.Observe

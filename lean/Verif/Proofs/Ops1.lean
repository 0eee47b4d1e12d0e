import Verif.Proofs.Wp

/-!
# Instruction bodies, part 1: words, stack, environment
-/

namespace Tosca.Proofs

open Tosca.Model Tosca.Spec

variable {σ : Type} {P : Params σ} {c : Ctx σ} {E : Env σ}

theorem post_zero {pc' g : Nat} {top' : Int} {s' : State σ} {c' : Ctx σ} (hf : Frame P c c')
    (hr : Rel .running (some pc') g top' c' s') : Post P c pc' g top' s' {} c' := by
  refine ⟨hf, ?_⟩
  rw [outcome_zero]; exact hr

theorem bin_ok (f : U256 → U256 → U256) (fs : U256 → U256 → U256) (hfs : ∀ a b, f a b = fs a b)
    (hc : Fixed P c) (t g pc' : Nat) (ht : t + 2 ≤ 1024) :
    Ok (Ops.bin f t) c (Post P c pc' g ((t : Int) + 1)
      ((absState c t g pc').pop2 fun a b s => s.push (fs a b))) := by
  unfold Ops.bin
  simp only [ok_bind, ok_rd0 t (show t < 1024 by omega), ok_rd1 t (show t + 1 < 1024 by omega),
    ok_wr1 t (show t + 1 < 1024 by omega), ok_pure]
  refine post_zero ⟨⟨hc.1, hc.2, hc.3, hc.4, hc.5, hc.6⟩, rfl, rfl⟩ ?_
  simp only [State.pop2, State.pop1, absState, absStack_cons c.stack.buf t (by omega),
    absStack_cons c.stack.buf (t + 1) (by omega), State.push]
  refine rel_running (t + 1) rfl rfl rfl rfl rfl rfl (by omega) (by omega) ?_ rfl
  rw [absStack_push _ _ _ (by omega), hfs]

theorem un_ok (f : U256 → U256) (fs : U256 → U256) (hfs : ∀ a, f a = fs a)
    (hc : Fixed P c) (t g pc' : Nat) (ht : t + 1 ≤ 1024) :
    Ok (Ops.un f t) c (Post P c pc' g (t : Int)
      ((absState c t g pc').pop1 fun a s => s.push (fs a))) := by
  unfold Ops.un
  simp only [ok_bind, ok_rd0 t (show t < 1024 by omega), ok_wr0 t (show t < 1024 by omega), ok_pure]
  refine post_zero ⟨⟨hc.1, hc.2, hc.3, hc.4, hc.5, hc.6⟩, rfl, rfl⟩ ?_
  simp only [State.pop1, absState, absStack_cons c.stack.buf t (by omega), State.push]
  refine rel_running t rfl rfl rfl rfl rfl rfl (by omega) (by omega) ?_ rfl
  rw [absStack_push _ _ _ (by omega), hfs]

theorem push_ok (v : U256) (hc : Fixed P c) (t g pc' : Nat) (ht : 1 ≤ t) (ht' : t ≤ 1024) :
    Ok (Ops.push v t) c (Post P c pc' g ((t : Int) - 1) ((absState c t g pc').push v)) := by
  unfold Ops.push
  simp only [ok_bind, ok_wrm1 t ht ht', ok_pure]
  refine post_zero ⟨⟨hc.1, hc.2, hc.3, hc.4, hc.5, hc.6⟩, rfl, rfl⟩ ?_
  simp only [absState, State.push]
  refine rel_running (t - 1) rfl rfl rfl rfl rfl rfl (by omega) (by omega) ?_ rfl
  rw [absStack_push _ _ _ (by omega)]
  simp [Nat.sub_add_cancel ht]

/-- Rewriting the pushed value. -/
theorem push_ok' (v v' : U256) (hv : v = v') (hc : Fixed P c) (t g pc' : Nat) (ht : 1 ≤ t)
    (ht' : t ≤ 1024) :
    Ok (Ops.push v t) c (Post P c pc' g ((t : Int) - 1) ((absState c t g pc').push v')) := by
  subst hv; exact push_ok v hc t g pc' ht ht'

theorem stop_ok (hc : Fixed P c) (t g pc' : Nat) (ht' : t ≤ 1024) :
    Ok Ops.stop c (Post P c pc' g (t : Int) { absState c t g pc' with status := .stopped, ret := [] }) := by
  unfold Ops.stop
  simp only [ok_pure]
  refine ⟨hc.frame, ?_⟩
  rw [outcome_zero]
  constructor
  · rfl
  · rfl
  · rfl
  · intro w h; simp at h
  · intro _; rfl
  · intro _; exact ⟨rfl, rfl, rfl, t, rfl, ht', rfl⟩
  · intro _ h; simp at h

theorem invalid_ok (hc : Fixed P c) (t g pc' : Nat) :
    Ok Ops.invalid c (Post P c pc' g (t : Int) ((absState c t g pc').fail .invalidInstruction)) := by
  unfold Ops.invalid
  simp only [ok_pure]
  refine ⟨hc.frame, ?_⟩
  rw [outcome_zero]
  exact rel_fail rfl rfl rfl

theorem pop_ok (hc : Fixed P c) (t g pc' : Nat) (ht : t + 1 ≤ 1024) :
    Ok Ops.nop c (Post P c pc' g ((t : Int) + 1) ((absState c t g pc').pop1 fun _ s => s)) := by
  unfold Ops.nop
  simp only [ok_pure]
  refine post_zero hc.frame ?_
  simp only [State.pop1, absState, absStack_cons c.stack.buf t (by omega)]
  exact rel_running (t + 1) rfl rfl rfl rfl rfl rfl (by omega) (by omega) rfl rfl

theorem jumpdest_ok (hc : Fixed P c) (t g pc' : Nat) (ht : t ≤ 1024) :
    Ok Ops.nop c (Post P c pc' g (t : Int) (absState c t g pc')) := by
  unfold Ops.nop
  simp only [ok_pure]
  refine post_zero hc.frame ?_
  exact rel_running t rfl rfl rfl rfl rfl rfl (by omega) (by omega) rfl rfl

theorem addmod_ok (hc : Fixed P c) (t g pc' : Nat) (ht : t + 3 ≤ 1024) :
    Ok (Ops.addmod t) c (Post P c pc' g ((t : Int) + 2)
      ((absState c t g pc').pop3 fun a b m s => s.push (Word.addmod a b m))) := by
  unfold Ops.addmod
  simp only [ok_bind, ok_rd0 t (show t < 1024 by omega), ok_rd1 t (show t + 1 < 1024 by omega),
    ok_rd2 t (show t + 2 < 1024 by omega)]
  simp only [State.pop3, State.pop2, State.pop1, absState, absStack_cons c.stack.buf t (by omega),
    absStack_cons c.stack.buf (t + 1) (by omega), absStack_cons c.stack.buf (t + 1 + 1) (by omega), State.push]
  split
  · rename_i h
    simp only [ok_bind, ok_wr2 t (show t + 2 < 1024 by omega), ok_pure]
    refine post_zero ⟨⟨hc.1, hc.2, hc.3, hc.4, hc.5, hc.6⟩, rfl, rfl⟩ ?_
    refine rel_running (t + 2) rfl rfl rfl rfl rfl rfl (by omega) (by omega) ?_ rfl
    rw [absStack_push _ _ _ (by omega), w_addmod _ _ _ h]
  · rename_i h
    simp only [ok_pure]
    refine post_zero hc.frame ?_
    refine rel_running (t + 2) rfl rfl rfl rfl rfl rfl (by omega) (by omega) ?_ rfl
    have h0 : c.stack.buf (t + 2) = 0 := by simpa using h
    show Word.addmod (c.stack.buf t) (c.stack.buf (t + 1)) (c.stack.buf (t + 2)) :: absStack c.stack.buf (t + 3) = _
    rw [absStack_cons _ (t + 2) (by omega), h0]
    rfl

theorem mulmod_ok (hc : Fixed P c) (t g pc' : Nat) (ht : t + 3 ≤ 1024) :
    Ok (Ops.mulmod t) c (Post P c pc' g ((t : Int) + 2)
      ((absState c t g pc').pop3 fun a b m s => s.push (Word.mulmod a b m))) := by
  unfold Ops.mulmod
  simp only [ok_bind, ok_rd0 t (show t < 1024 by omega), ok_rd1 t (show t + 1 < 1024 by omega),
    ok_rd2 t (show t + 2 < 1024 by omega)]
  simp only [State.pop3, State.pop2, State.pop1, absState, absStack_cons c.stack.buf t (by omega),
    absStack_cons c.stack.buf (t + 1) (by omega), absStack_cons c.stack.buf (t + 1 + 1) (by omega), State.push]
  split
  · rename_i h
    simp only [ok_bind, ok_wr2 t (show t + 2 < 1024 by omega), ok_pure]
    refine post_zero ⟨⟨hc.1, hc.2, hc.3, hc.4, hc.5, hc.6⟩, rfl, rfl⟩ ?_
    refine rel_running (t + 2) rfl rfl rfl rfl rfl rfl (by omega) (by omega) ?_ rfl
    rw [absStack_push _ _ _ (by omega), w_mulmod _ _ _ h]
  · rename_i h
    simp only [ok_pure]
    refine post_zero hc.frame ?_
    refine rel_running (t + 2) rfl rfl rfl rfl rfl rfl (by omega) (by omega) ?_ rfl
    have h0 : c.stack.buf (t + 2) = 0 := by simpa using h
    show Word.mulmod (c.stack.buf t) (c.stack.buf (t + 1)) (c.stack.buf (t + 2)) :: absStack c.stack.buf (t + 3) = _
    rw [absStack_cons _ (t + 2) (by omega), h0]
    rfl

theorem exp_ok (hc : Fixed P c) (t g pc' : Nat) (ht : t + 2 ≤ 1024) :
    Ok (Ops.exp t g) c (Post P c pc' g ((t : Int) + 1)
      ((absState c t g pc').pop2 fun a b s => s.charge (50 * Word.byteLen b.toNat) fun s =>
        s.push (Word.exp a b))) := by
  unfold Ops.exp
  simp only [ok_bind, ok_rd0 t (show t < 1024 by omega), ok_rd1 t (show t + 1 < 1024 by omega)]
  simp only [State.pop2, State.pop1, absState, absStack_cons c.stack.buf t (by omega),
    absStack_cons c.stack.buf (t + 1) (by omega), State.push, State.charge, csb_byteLen]
  split
  · rename_i h
    rw [if_pos (by omega)]
    simp only [ok_pure]
    refine ⟨hc.frame, ?_⟩
    rw [outcome_tooMuch _ _ h]
    exact rel_fail rfl rfl rfl
  · rename_i h
    rw [if_neg (by omega)]
    simp only [ok_bind, ok_wr1 t (show t + 1 < 1024 by omega), ok_pure]
    refine ⟨⟨⟨hc.1, hc.2, hc.3, hc.4, hc.5, hc.6⟩, rfl, rfl⟩, ?_⟩
    rw [outcome_enough _ _ (by dsimp only; omega) (by dsimp only; omega)]
    refine rel_running (t + 1) rfl rfl rfl rfl ?_ rfl (by omega) (by omega) ?_ rfl
    · dsimp only; omega
    · rw [absStack_push _ _ _ (by omega), w_exp]

theorem signextend_ok (hc : Fixed P c) (t g pc' : Nat) (ht : t + 2 ≤ 1024) :
    Ok (Ops.signextend t) c (Post P c pc' g ((t : Int) + 1)
      ((absState c t g pc').pop2 fun a b s => s.push (Word.signextend a b))) := by
  unfold Ops.signextend
  simp only [ok_bind, ok_rd0 t (show t < 1024 by omega), ok_rd1 t (show t + 1 < 1024 by omega)]
  generalize hidx : (if (c.stack.buf t).toNat > 31 then 31 else (c.stack.buf t).toNat % 256) = idx
  have hlt : idx < 32 := by rw [← hidx]; split <;> omega
  have hw := w_signextend (c.stack.buf t) (c.stack.buf (t + 1)) idx hidx.symm
  simp only [ok_lift_eq (byteLe_ok _ idx hlt)]
  simp only [State.pop2, State.pop1, absState, absStack_cons c.stack.buf t (by omega),
    absStack_cons c.stack.buf (t + 1) (by omega), State.push]
  split
  · rename_i h
    rw [if_pos h] at hw
    simp only [ok_bind, ok_wr1 t (show t + 1 < 1024 by omega), ok_pure]
    refine post_zero ⟨⟨hc.1, hc.2, hc.3, hc.4, hc.5, hc.6⟩, rfl, rfl⟩ ?_
    refine rel_running (t + 1) rfl rfl rfl rfl rfl rfl (by omega) (by omega) ?_ rfl
    rw [absStack_push _ _ _ (by omega), hw]
  · rename_i h
    rw [if_neg h] at hw
    simp only [ok_bind, ok_wr1 t (show t + 1 < 1024 by omega), ok_pure]
    refine post_zero ⟨⟨hc.1, hc.2, hc.3, hc.4, hc.5, hc.6⟩, rfl, rfl⟩ ?_
    refine rel_running (t + 1) rfl rfl rfl rfl rfl rfl (by omega) (by omega) ?_ rfl
    rw [absStack_push _ _ _ (by omega), hw]

theorem byte_ok (hc : Fixed P c) (t g pc' : Nat) (ht : t + 2 ≤ 1024) :
    Ok (Ops.byte t) c (Post P c pc' g ((t : Int) + 1)
      ((absState c t g pc').pop2 fun a b s => s.push (Word.byte a b))) := by
  unfold Ops.byte
  simp only [ok_bind, ok_rd0 t (show t < 1024 by omega)]
  simp only [State.pop2, State.pop1, absState, absStack_cons c.stack.buf t (by omega),
    absStack_cons c.stack.buf (t + 1) (by omega), State.push]
  split
  · rename_i h
    simp only [ok_bind, ok_rd1 t (show t + 1 < 1024 by omega),
      ok_lift_eq (byteLe_ok _ (31 - (c.stack.buf t).toNat % 256) (by omega)),
      ok_wr1 t (show t + 1 < 1024 by omega), ok_pure]
    refine post_zero ⟨⟨hc.1, hc.2, hc.3, hc.4, hc.5, hc.6⟩, rfl, rfl⟩ ?_
    refine rel_running (t + 1) rfl rfl rfl rfl rfl rfl (by omega) (by omega) ?_ rfl
    rw [absStack_push _ _ _ (by omega), w_byte _ _ h]
  · rename_i h
    simp only [ok_bind, ok_wr1 t (show t + 1 < 1024 by omega), ok_pure]
    refine post_zero ⟨⟨hc.1, hc.2, hc.3, hc.4, hc.5, hc.6⟩, rfl, rfl⟩ ?_
    refine rel_running (t + 1) rfl rfl rfl rfl rfl rfl (by omega) (by omega) ?_ rfl
    rw [absStack_push _ _ _ (by omega), Word.byte, if_neg h]

theorem sar_ok (hc : Fixed P c) (t g pc' : Nat) (ht : t + 2 ≤ 1024) :
    Ok (Ops.sar t) c (Post P c pc' g ((t : Int) + 1)
      ((absState c t g pc').pop2 fun a b s => s.push (Word.sar a b))) := by
  unfold Ops.sar
  simp only [ok_bind, ok_rd0 t (show t < 1024 by omega), ok_rd1 t (show t + 1 < 1024 by omega),
    ok_lift_eq (byteLe_ok _ 31 (by omega)), signBit31]
  simp only [State.pop2, State.pop1, absState, absStack_cons c.stack.buf t (by omega),
    absStack_cons c.stack.buf (t + 1) (by omega), State.push]
  split
  · rename_i h
    have hw := w_sar_small (c.stack.buf t) (c.stack.buf (t + 1)) h
    simp only [ok_bind, ok_wr1 t (show t + 1 < 1024 by omega)]
    split
    · rename_i hm
      rw [if_pos (by simpa using hm)] at hw
      simp only [ok_bind, ok_rd0 t (show t < 1024 by omega), ok_rd1 t (show t + 1 < 1024 by omega),
        ok_wr1 t (show t + 1 < 1024 by omega), ok_pure]
      refine post_zero ⟨⟨hc.1, hc.2, hc.3, hc.4, hc.5, hc.6⟩, rfl, rfl⟩ ?_
      refine rel_running (t + 1) rfl rfl rfl rfl rfl rfl (by omega) (by omega) ?_ rfl
      rw [absStack_push _ _ _ (by omega), absStack_setBuf _ _ _ _ (by omega), ← hw]
      simp [setBuf]
    · rename_i hm
      rw [if_neg (by simpa using hm)] at hw
      simp only [ok_pure]
      refine post_zero ⟨⟨hc.1, hc.2, hc.3, hc.4, hc.5, hc.6⟩, rfl, rfl⟩ ?_
      refine rel_running (t + 1) rfl rfl rfl rfl rfl rfl (by omega) (by omega) ?_ rfl
      rw [absStack_push _ _ _ (by omega), hw]
  · rename_i h
    have hw := w_sar_big (c.stack.buf t) (c.stack.buf (t + 1)) h
    simp only [ok_bind, ok_wr1 t (show t + 1 < 1024 by omega), ok_pure]
    refine post_zero ⟨⟨hc.1, hc.2, hc.3, hc.4, hc.5, hc.6⟩, rfl, rfl⟩ ?_
    refine rel_running (t + 1) rfl rfl rfl rfl rfl rfl (by omega) (by omega) ?_ rfl
    rw [absStack_push _ _ _ (by omega), ← hw]
    simp

theorem dup_ok (n : Nat) (hn : 1 ≤ n) (hc : Fixed P c) (t g pc' : Nat) (ht : t + n ≤ 1024) (ht' : 1 ≤ t) :
    Ok (Ops.dup n t) c (Post P c pc' g ((t : Int) - 1)
      ((absState c t g pc').push ((absState c t g pc').stack.getD (n - 1) 0))) := by
  unfold Ops.dup
  simp only [ok_bind, ok_rd (t + (n - 1)) ((t : Int) + ((n : Int) - 1)) (by omega) (by omega),
    ok_wr (t - 1) ((t : Int) - 1) (by omega) (by omega), ok_pure]
  refine post_zero ⟨⟨hc.1, hc.2, hc.3, hc.4, hc.5, hc.6⟩, rfl, rfl⟩ ?_
  simp only [absState, State.push]
  refine rel_running (t - 1) rfl rfl rfl rfl rfl rfl (by omega) (by omega) ?_ rfl
  dsimp only
  rw [absStack_push _ _ _ (by omega), absStack_getD _ _ _ (by omega)]
  simp [Nat.sub_add_cancel ht']

theorem swap_ok (n : Nat) (hn : 1 ≤ n) (hc : Fixed P c) (t g pc' : Nat) (ht : t + (n + 1) ≤ 1024) :
    Ok (Ops.swap n t) c (Post P c pc' g (t : Int)
      { absState c t g pc' with stack := ((absState c t g pc').stack.set 0
        ((absState c t g pc').stack.getD n 0)).set n ((absState c t g pc').stack.getD 0 0) }) := by
  unfold Ops.swap
  simp only [ok_bind, ok_rd0 t (show t < 1024 by omega),
    ok_rd (t + n) ((t : Int) + n) (by omega) (by omega), ok_wr0 t (show t < 1024 by omega),
    ok_wr (t + n) ((t : Int) + n) (by omega) (by omega), ok_pure]
  refine post_zero ⟨⟨hc.1, hc.2, hc.3, hc.4, hc.5, hc.6⟩, rfl, rfl⟩ ?_
  simp only [absState]
  refine rel_running t rfl rfl rfl rfl rfl rfl (by omega) (by omega) ?_ rfl
  dsimp only
  rw [absStack_getD _ _ _ (by omega), absStack_getD _ _ _ (by omega)]
  apply List.ext_getElem?
  intro i
  by_cases hi : t + i < 1024
  · rw [absStack_getElem? _ _ _ hi]
    by_cases h1 : i = n
    · subst h1
      rw [List.getElem?_set_self (by rw [List.length_set, absStack_length]; omega)]
      simp [setBuf]
    · rw [List.getElem?_set_ne (by omega)]
      by_cases h0 : i = 0
      · subst h0
        rw [List.getElem?_set_self (by rw [absStack_length]; omega)]
        simp [setBuf, show ¬ n = 0 by omega]
      · rw [List.getElem?_set_ne (by omega), absStack_getElem? _ _ _ hi]
        simp [setBuf, h0, h1]
  · rw [List.getElem?_eq_none (by rw [List.length_set, List.length_set, absStack_length]; omega),
      List.getElem?_eq_none (by rw [absStack_length]; omega)]

theorem pushN_ok (n : Nat) (hn : n ≤ 32) (hc : Fixed P c) (t g pc pc' : Nat) (ht : 1 ≤ t)
    (ht' : t ≤ 1024) (hp : pc + n < P.code.length + 33) :
    Ok (Ops.pushN n t pc) c (Post P c pc' g ((t : Int) - 1)
      ((absState c t g pc').push (Word.ofBytes (slice P.code (pc + 1) n)))) := by
  unfold Ops.pushN
  obtain ⟨v0, h1, h2⟩ := pushValue_ok P.code c hc.code n pc hn hp
  simp only [ok_bind]
  rw [ok_of_eq h1, ok_of_eq h2]
  simp only [ok_wr (t - 1) ((t : Int) - 1) (by omega) (by omega), ok_pure]
  refine post_zero ⟨⟨hc.1, hc.2, hc.3, hc.4, hc.5, hc.6⟩, rfl, rfl⟩ ?_
  simp only [absState, State.push]
  refine rel_running (t - 1) rfl rfl rfl rfl rfl rfl (by omega) (by omega) ?_ rfl
  rw [absStack_push _ _ _ (by omega)]
  simp [Nat.sub_add_cancel ht]

end Tosca.Proofs

import Verif.Proofs.LfvmOps1

/-!
# The long-form EVM: memory, accounts and storage
-/

namespace Tosca.Proofs.Lfvm

open Tosca.Spec Tosca.Spec.Go Tosca.Go Tosca.Model.Go Tosca.Model.Lfvm

variable {ω : Type} {E : Env ω} {rev : Revision} {p : Int} {q k : Nat} {l : St ω} {s : State ω}

/-! ## Memory -/

/-- A charge per word, exact for sizes of one machine word. -/
theorem s64_words {c : BitVec 64} {n : U256} (hc : c.toNat ≤ 8) (hn : n.toNat < 2 ^ 60) :
    s64 (c * sizeInWords (uint64 n)) = ((c.toNat * words n.toNat : Nat) : Int) := by
  have hw : (sizeInWords (uint64 n)).toNat = words n.toNat := by
    rw [sizeInWords_eq, uint64_toNat, Nat.mod_eq_of_lt (by omega)]
  have hwl : words n.toNat < 2 ^ 56 := by unfold words; omega
  have hm : c.toNat * words n.toNat ≤ 8 * words n.toNat := Nat.mul_le_mul_right _ hc
  have e : (c * sizeInWords (uint64 n)).toNat = c.toNat * words n.toNat := by
    rw [BitVec.toNat_mul, hw, Nat.mod_eq_of_lt (by omega)]
  rw [s64_small _ (by omega), e]

theorem not_small {off n : U256} (h : n.toNat ≠ 0 → off.toNat + n.toNat ≤ 2 ^ 30) : n.toNat ≤ 2 ^ 30 := by
  by_cases hz : n.toNat = 0
  · omega
  · have := h hz; omega

theorem sim_sha3 (h : Rel 0 p q l s) (hs : 2 ≤ s.stack.length) :
    Sim (Post p q) (opSha3 E l) (s.pop2 fun off n s => s.touch off n (6 * words n.toNat) fun s =>
      s.push (E.hash (s.mem.read off.toNat n.toNat))) := by
  obtain ⟨a, r, ha, hr⟩ := stack_cons hs
  obtain ⟨b, r', hb, _⟩ := stack_cons hr
  refine sim_pop h ha fun l1 h1 => sim_peek h1 (show r = b :: r' from hb) fun h2 => ?_
  refine sim_like (alive_post p q) (touch_last _ _ _ _) ?_
  refine sim_getSlice h2 fun l3 g hn hc h3 => ?_
  refine sim_useGas (by rw [s64_words (by decide) (by have := not_small hn; omega)]; rfl) h3 fun l4 h4 => ?_
  refine sim_readView h4 hc ?_
  exact sim_setTop h4 fun l' h' => h'.match

theorem assoc {α β γ : Type} (m : M ω α) (f : α → M ω β) (g : β → M ω γ) : ((m >>= f) >>= g) = (m >>= fun a => f a >>= g) := by
  funext l
  show (match (match m l with | .ok a s => f a s | .err s => .err s | .panic => .panic) with
    | .ok a s => g a s | .err s => .err s | .panic => .panic) = _
  cases hm : m l with
  | ok a l' => rw [bind_ok hm]; rfl
  | err l' => rw [bind_err hm]
  | panic => rw [bind_panic hm]

theorem pure_bind' {α β : Type} (a : α) (f : α → M ω β) : ((pure a : M ω α) >>= f) = f a := rfl

theorem sim_mload (h : Rel 0 p q l s) (hs : 1 ≤ s.stack.length) :
    Sim (Post p q) ((opMload : M ω Unit) l) (s.pop1 fun off s => s.touch off 32 0 fun s =>
      s.push (Word.ofBytes (s.mem.read off.toNat 32))) := by
  obtain ⟨a, r, ha, hr⟩ := stack_cons hs
  refine sim_peek h ha fun h2 => ?_
  unfold readWord
  rw [assoc]
  refine sim_getSlice h2 fun l3 g hn hc h3 => ?_
  rw [assoc]
  refine sim_readView h3 hc ?_
  rw [l_setBytes, pure_bind']
  exact sim_setTop h3 fun l' h' => h'.match

/-- `set` writes all its bytes. -/
theorem sim_memSet {Q : Unit → St ω → State ω → Prop} {off n : U256} {bytes : List Byte} {k' : State ω → State ω}
    (h : Rel k p q l s) (hn : n.toNat = bytes.length) (hb : bytes.length < 2 ^ 64)
    (H : ∀ l' g, Rel k p q l' { s with gas := g, mem := (s.mem.expand off.toNat n.toNat).write off.toNat bytes } →
      Q () l' (k' { s with gas := g, mem := s.mem.expand off.toNat n.toNat })) :
    Sim Q ((memSet off bytes : M ω Unit) l) (s.touch off n 0 k') := by
  unfold memSet
  have e : ofU64 (BitVec.ofNat 64 bytes.length) = n := by
    apply BitVec.eq_of_toNat_eq
    rw [ofU64_toNat, BitVec.toNat_ofNat, Nat.mod_eq_of_lt hb, hn]
  rw [e]
  refine sim_getSlice h fun l3 g _ hc h3 => ?_
  refine sim_copyTo' h3 hc fun l4 h4 => ?_
  rw [hn, List.take_length] at h4
  rw [← hn] at h4
  exact H l4 g h4

theorem sim_mstore (h : Rel 0 p q l s) (hs : 2 ≤ s.stack.length) :
    Sim (Post p q) ((opMstore : M ω Unit) l) (s.pop2 fun off v s => s.touch off 32 0 fun s =>
      { s with mem := s.mem.write off.toNat (Word.toBytes v) }) := by
  obtain ⟨a, r, ha, hr⟩ := stack_cons hs
  obtain ⟨b, r', hb, _⟩ := stack_cons hr
  refine sim_pop h ha fun l1 h1 => sim_pop h1 (show r = b :: r' from hb) fun l2 h2 => ?_
  rw [l_bytes32]
  have hl : (Word.toBytes b).length = 32 := by unfold Word.toBytes; simp
  refine sim_memSet h2 (by rw [hl]; rfl) (by omega) fun l' g h' => h'.match

theorem sim_mstore8 (h : Rel 0 p q l s) (hs : 2 ≤ s.stack.length) :
    Sim (Post p q) ((opMstore8 : M ω Unit) l) (s.pop2 fun off v s => s.touch off 1 0 fun s =>
      { s with mem := s.mem.write off.toNat [BitVec.ofNat 8 v.toNat] }) := by
  obtain ⟨a, r, ha, hr⟩ := stack_cons hs
  obtain ⟨b, r', hb, _⟩ := stack_cons hr
  refine sim_pop h ha fun l1 h1 => sim_pop h1 (show r = b :: r' from hb) fun l2 h2 => ?_
  have e : (uint64 b).setWidth 8 = BitVec.ofNat 8 b.toNat := by
    apply BitVec.eq_of_toNat_eq
    rw [BitVec.toNat_setWidth, uint64_toNat, BitVec.toNat_ofNat]
    omega
  rw [e]
  refine sim_memSet h2 rfl (by simp) fun l' g h' => h'.match

theorem read_expand (m : Mem) (o n o' n' : Nat) : (m.expand o n).read o' n' = m.read o' n' := rfl

theorem sim_mcopy (hE : Setup E rev) (hrev : CANCUN ≤ rev) (h : Rel 0 p q l s) (hs : 3 ≤ s.stack.length) :
    Sim (Post p q) (opMcopy E l) (s.pop3 fun dst src n s => s.touch2 dst n src n (3 * words n.toNat) fun s =>
      { s with mem := s.mem.write dst.toNat (s.mem.read src.toNat n.toNat) }) := by
  obtain ⟨a, r, ha, hr⟩ := stack_cons hs
  obtain ⟨b, r', hb, hr'⟩ := stack_cons hr
  obtain ⟨c, r'', hc, _⟩ := stack_cons hr'
  unfold opMcopy
  rw [if_neg (by rw [(cancun hE).2 hrev]; decide), pop3_eq]
  refine sim_pop h ha fun l1 h1 => ?_
  refine sim_pop h1 (show r = b :: r' from hb) fun l2 h2 => ?_
  refine sim_pop h2 (show r' = c :: r'' from hc) fun l3 h3 => ?_
  have hl : ∀ (s : State ω) (k : State ω → State ω), Like (s.touch2 a c b c (3 * words c.toNat) k)
      (s.touch b c 0 fun s => s.charge (3 * words c.toNat) fun s => s.touch a c 0 k) := by
    intro s k
    rw [touch2_comm, touch2_first]
    refine Like.trans (like_charge (k' := fun s => s.touch b c 0 fun s => s.touch a c 0 k) (touch2_split _ _ _ _ _)) ?_
    exact (touch_charge _ _ _ _).symm
  refine sim_like (alive_post p q) (hl _ _) ?_
  refine sim_getSlice h3 fun l4 g hn hcov h4 => ?_
  have hsm := not_small hn
  dsimp only
  refine sim_useGas (by rw [s64_words (by decide) (by omega)]; rfl) h4 fun l5 h5 => ?_
  refine sim_readView h5 hcov ?_
  have hlen : (((s.mem.expand b.toNat c.toNat)).read b.toNat c.toNat).length = c.toNat := by unfold Mem.read; simp
  refine sim_memSet h5 hlen.symm (by rw [hlen]; omega) fun l' g h' => h'.match

theorem sim_calldataload (hE : Setup E rev) (h : Rel 0 p q l s) (hs : 1 ≤ s.stack.length) :
    Sim (Post p q) (opCallDataload E l)
      (s.pop1 fun off s => s.push (Word.ofBytes (slice E.params.input off.toNat 32))) := by
  obtain ⟨a, r, ha, hr⟩ := stack_cons hs
  refine sim_peek h ha fun h2 => ?_
  rw [getData_eq hE.input (by decide), l_setBytes]
  exact sim_setTop h2 fun l' h' => h'.match

theorem slice_length (src : List Byte) (o n : Nat) : (slice src o n).length = n := by unfold slice; simp

/-- Copying, after the operands were taken. -/
theorem sim_copyTail {src : List Byte} {dst off n : U256} (hsrc : src.length < 2 ^ 63) (h : Rel 0 p q l s) :
    Sim (Post p q)
      ((do
        useGas (s64 (3 * sizeInWords (uint64 n)))
        let view ← getSlice dst n
        copyTo view (getData src off (uint64 n)) : M ω Unit) l)
      (s.touch dst n (3 * words n.toNat) fun s => { s with mem := s.mem.write dst.toNat (slice src off.toNat n.toNat) }) := by
  by_cases hbig : n.toNat < 2 ^ 60
  · rw [touch_first]
    refine sim_useGas (by rw [s64_words (by decide) hbig]; rfl) h fun l4 h4 => ?_
    refine sim_getSlice h4 fun l5 g hn hcov h5 => ?_
    have hu : (uint64 n).toNat = n.toNat := by rw [uint64_toNat, Nat.mod_eq_of_lt (by omega)]
    rw [getData_eq hsrc (by omega), hu]
    refine sim_copyTo' h5 hcov fun l6 h6 => ?_
    have e : (slice src off.toNat n.toNat).take n.toNat = slice src off.toNat n.toNat :=
      List.take_of_length_le (by rw [slice_length]; omega)
    rw [e] at h6
    exact h6.match
  · have hf : Failed (s.touch dst n (3 * words n.toNat) fun s => { s with mem := s.mem.write dst.toNat (slice src off.toNat n.toNat) }) :=
      touch_poor (grow_big h (by omega) (by omega))
    cases hu : (useGas (s64 (3 * sizeInWords (uint64 n))) : M ω Unit) l with
    | panic =>
      unfold useGas at hu
      split at hu <;> cases hu
    | err l' => rw [bind_err hu]; exact hf
    | ok a l' =>
      rw [bind_ok hu]
      have hg : ∃ c : Nat, s64 (3 * sizeInWords (uint64 n)) = c ∧ c ≤ s.gas := by
        unfold useGas at hu
        rw [h.gas] at hu
        split at hu
        · cases hu
        · exact ⟨(s64 (3 * sizeInWords (uint64 n))).toNat, by omega, by omega⟩
      obtain ⟨c, hc, hcg⟩ := hg
      obtain ⟨l'', e, h''⟩ := useGas_ok hc h hcg
      rw [hu] at e
      injection e with _ e
      subst e
      obtain ⟨l3, e3⟩ := getSlice_err (off := dst) (n := n) h'' (grow_big h'' (by omega) (by omega))
      rw [bind_err e3]
      exact hf

theorem sim_dataCopy {src : List Byte} (hsrc : src.length < 2 ^ 63) (h : Rel 0 p q l s) (hs : 3 ≤ s.stack.length) :
    Sim (Post p q) ((genericDataCopy src : M ω Unit) l) (copyOp src s) := by
  obtain ⟨a, r, ha, hr⟩ := stack_cons hs
  obtain ⟨b, r', hb, hr'⟩ := stack_cons hr
  obtain ⟨c, r'', hc, _⟩ := stack_cons hr'
  unfold genericDataCopy copyOp
  rw [pop3_eq]
  refine sim_pop h ha fun l1 h1 => ?_
  refine sim_pop h1 (show r = b :: r' from hb) fun l2 h2 => ?_
  refine sim_pop h2 (show r' = c :: r'' from hc) fun l3 h3 => ?_
  exact sim_copyTail hsrc h3

theorem sim_returnDataCopy (h : Rel 0 p q l s) (hs : 3 ≤ s.stack.length) :
    Sim (Post p q) ((opReturnDataCopy : M ω Unit) l) (returndatacopy s) := by
  obtain ⟨dst, r, ha, hr⟩ := stack_cons hs
  obtain ⟨off, r', hb, hr'⟩ := stack_cons hr
  obtain ⟨n, r'', hc, _⟩ := stack_cons hr'
  unfold opReturnDataCopy returndatacopy
  rw [pop3_eq]
  refine sim_pop h ha fun l1 h1 => ?_
  refine sim_pop h1 (show r = off :: r' from hb) fun l2 h2 => ?_
  refine sim_pop h2 (show r' = n :: r'' from hc) fun l3 h3 => ?_
  dsimp only at h3 ⊢
  have hret := h.retLen
  -- copying beyond the end fails
  have hbad : off.toNat + n.toNat > s.ret.length → Failed (State.touch { s with stack := r'' } dst n (3 * words n.toNat) fun s =>
      if off.toNat + n.toNat > s.ret.length then s.fail .invalidMemoryAccess
      else { s with mem := s.mem.write dst.toNat (slice s.ret off.toNat n.toNat) }) := by
    intro hx
    unfold State.touch State.charge
    split
    · exact failed_fail _ _
    · dsimp only
      rw [if_pos hx]
      exact failed_fail _ _
  by_cases hu : isUint64 off = false ∨ isUint64 n = false
  · rw [if_pos hu]
    refine sim_err (hbad ?_)
    rw [isUint64_false, isUint64_false] at hu
    omega
  · rw [if_neg hu]
    have ho : off.toNat < 2 ^ 64 := by
      refine (isUint64_iff off).1 ?_
      cases hx : isUint64 off with | true => rfl | false => exact absurd (.inl hx) hu
    have hn : n.toNat < 2 ^ 64 := by
      refine (isUint64_iff n).1 ?_
      cases hx : isUint64 n with | true => rfl | false => exact absurd (.inr hx) hu
    have hw : (sizeInWords (uint64 n)).toNat = words n.toNat := by
      rw [sizeInWords_eq, uint64_toNat, Nat.mod_eq_of_lt (by omega)]
    have hwl : words n.toNat ≤ 2 ^ 59 := by unfold words; omega
    have hprice : s64 (3 * sizeInWords (uint64 n)) = ((3 * words n.toNat : Nat) : Int) := by
      have e : (3 * sizeInWords (uint64 n)).toNat = 3 * words n.toNat := by
        rw [BitVec.toNat_mul, hw, Nat.mod_eq_of_lt (by show (3 : Nat) * _ < _; omega)]; rfl
      rw [s64_small _ (by omega), e]
    have hsum : (uint64 off + uint64 n).toNat = (off.toNat + n.toNat) % 2 ^ 64 := by
      rw [BitVec.toNat_add, uint64_toNat, uint64_toNat]; omega
    rw [touch_first]
    rw [touch_first] at hbad
    by_cases hx : off.toNat + n.toNat > s.ret.length
    · have hf := hbad hx
      -- a charge, then an error
      by_cases hg : s.gas < 3 * words n.toNat
      · obtain ⟨l', e⟩ := useGas_err (.inl hprice) h3 hg
        rw [bind_err e]; exact hf
      · obtain ⟨l', e, h'⟩ := useGas_ok hprice h3 (by show 3 * words n.toNat ≤ s.gas; omega)
        rw [bind_ok e, bind_ok (show (getSt : M ω _) l' = .ok l' l' from rfl)]
        by_cases hov : uint64 off + uint64 n < uint64 off
        · rw [if_pos hov]; exact hf
        · rw [if_neg hov, if_pos]
          · exact hf
          · rw [BitVec.lt_def, hsum, uint64_toNat] at hov
            rw [gt_iff_lt, BitVec.lt_def, hsum, BitVec.toNat_ofNat, h'.ret]
            show s.ret.length % 2 ^ 64 < _
            omega
    · refine sim_useGas hprice h3 fun l4 h4 => ?_
      rw [bind_ok (show (getSt : M ω _) l4 = .ok l4 l4 from rfl)]
      rw [if_neg (by rw [BitVec.lt_def, hsum, uint64_toNat]; omega),
        if_neg (by rw [gt_iff_lt, BitVec.lt_def, hsum, BitVec.toNat_ofNat, h4.ret]; show ¬ s.ret.length % 2 ^ 64 < _; omega)]
      have hd : (uint64 off + uint64 n - uint64 off).toNat = n.toNat := by
        rw [show uint64 off + uint64 n - uint64 off = uint64 n by rw [BitVec.add_comm, BitVec.add_sub_cancel], uint64_toNat]; omega
      have ho' : (uint64 off).toNat = off.toNat := by rw [uint64_toNat]; omega
      rw [hd, ho', h4.ret]
      dsimp only
      have hsl : (s.ret.drop off.toNat).take n.toNat = slice s.ret off.toNat n.toNat := by
        rw [← slice_parts s.ret off.toNat n.toNat]
        simp only [List.length_take, List.length_drop]
        rw [show n.toNat - min n.toNat (s.ret.length - off.toNat) = 0 by omega]
        simp
      rw [hsl]
      refine sim_memSet h4 (slice_length _ _ _).symm (by rw [slice_length]; omega) fun l' g h' => ?_
      rw [if_neg hx]
      exact h'.match

end Tosca.Proofs.Lfvm

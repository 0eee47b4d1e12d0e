import Verif.Proofs.LfvmLike

/-!
# The long-form EVM: words, stack, environment
-/

namespace Tosca.Proofs.Lfvm

open Tosca.Spec Tosca.Spec.Go Tosca.Go Tosca.Model.Go Tosca.Model.Lfvm

variable {ω : Type}

/-- A call that a frame with at most 2^40 gas can make. -/
def InRange (rev : Revision) (kind : Kind) (p : CallParameters) : Prop :=
  (0 ≤ p.gas ∧ p.gas ≤ 2 ^ 40) ∧ (SHANGHAI ≤ rev → kind = .create ∨ kind = .create2 → p.input.length ≤ 49152)

/-- The call function, as far as such a frame uses it. -/
noncomputable def inRange (rev : Revision) (c : CallFn ω) : CallFn ω := fun kind p w =>
  open Classical in if InRange rev kind p then c kind p w else (.error .crash, w)

theorem inRange_ok {rev : Revision} {c : CallFn ω} (hc : CallFnOk c) : CallFnOk (inRange rev c) := by
  intro kind p w r w' h0 h1 hi hr
  unfold inRange at hr
  split at hr
  · exact hc kind p w r w' h0 h1 hi hr
  · cases hr

/-- The frame a context runs. -/
noncomputable abbrev frameOf (E : Env ω) (rev : Revision) : Params ω := nativeFrame E.hash E.db (inRange rev E.call) E.params rev

/-- The answers to calls respect the gas they are given. -/
def GasKept (c : CallFn ω) : Prop :=
  ∀ kind p w r w', 0 ≤ p.gas → p.gas ≤ 2 ^ 54 → p.input.length ≤ 2 ^ 30 → c kind p w = (.ok r, w') → 0 ≤ r.gasLeft ∧ r.gasLeft ≤ p.gas

theorem gasKept {c : CallFn ω} (h : CallFnOk c) : GasKept c := fun kind p w r w' h0 h1 h2 h3 => (h kind p w r w' h0 h1 h2 h3).gas

/-- A context for a frame in range. -/
structure Setup (E : Env ω) (rev : Revision) : Prop where
  call : GasKept (inRange rev E.call)
  rev : revisionOf E.params.block.revision = some rev
  run : RunOk E.params
  access : AccessOk E.db
  lengths : Lengths E.db
  input : E.params.input.length < 2 ^ 63

section
variable {E : Env ω} {rev : Revision}

theorem Setup.revision (h : Setup E rev) : E.params.block.revision = (rev : Int) - 7 ∧ 7 ≤ rev ∧ rev ≤ 12 := by
  have := h.rev
  unfold revisionOf ISTANBUL at this
  split at this
  · rename_i hc
    have e : (7 : Nat) + E.params.block.revision.toNat = rev := by simpa using this
    have hc' : (0 : Int) ≤ E.params.block.revision ∧ E.params.block.revision ≤ 5 := hc
    constructor
    · rw [← e]; omega
    · rw [← e]
      show (7 : Nat) ≤ 7 + E.params.block.revision.toNat ∧ 7 + E.params.block.revision.toNat ≤ (12 : Nat)
      omega
  · cases this

theorem atLeast (h : Setup E rev) (n : Int) (m : Nat) (hm : (m : Int) = n + 7) : (E.isAtLeast n = true) ↔ m ≤ rev := by
  have := h.revision
  unfold Env.isAtLeast
  rw [decide_eq_true_iff]
  omega

theorem berlin (h : Setup E rev) : (E.isAtLeast R09_Berlin = true) ↔ BERLIN ≤ rev := atLeast h 1 8 rfl
theorem london (h : Setup E rev) : (E.isAtLeast R10_London = true) ↔ LONDON ≤ rev := atLeast h 2 9 rfl
theorem shanghai (h : Setup E rev) : (E.isAtLeast R12_Shanghai = true) ↔ SHANGHAI ≤ rev := atLeast h 4 11 rfl
theorem cancun (h : Setup E rev) : (E.isAtLeast R13_Cancun = true) ↔ CANCUN ≤ rev := atLeast h 5 12 rfl

end

/-- The state after an instruction that goes on. -/
def Post (p : Int) (q : Nat) : Unit → St ω → State ω → Prop := fun _ l t => Match p q l t

theorem alive_post (p : Int) (q : Nat) : Alive (Post (ω := ω) p q) := alive_match p q

section
variable {p : Int} {q : Nat} {l : St ω} {s : State ω}

theorem pop2_eq (k : U256 → U256 → State ω → State ω) : s.pop2 k = s.pop1 fun a s => s.pop1 fun b s => k a b s := rfl
theorem pop3_eq (k : U256 → U256 → U256 → State ω → State ω) :
    s.pop3 k = s.pop1 fun a s => s.pop1 fun b s => s.pop1 fun c s => k a b c s := rfl
theorem pop4_eq (k : U256 → U256 → U256 → U256 → State ω → State ω) :
    s.pop4 k = s.pop1 fun a s => s.pop1 fun b s => s.pop1 fun c s => s.pop1 fun d s => k a b c d s := rfl

theorem sim_binary {f g : U256 → U256 → U256} (hfg : ∀ a b, f a b = g a b) (h : Rel 0 p q l s) (hs : 2 ≤ s.stack.length) :
    Sim (Post p q) (binary f l) (s.pop2 fun a b s => s.push (g a b)) := by
  obtain ⟨a, r, ha, hr⟩ := stack_cons hs
  obtain ⟨b, r', hb, _⟩ := stack_cons hr
  refine sim_pop h ha fun l1 h1 => sim_peek h1 (show r = b :: r' from hb) fun h2 => ?_
  rw [hfg]
  exact sim_setTop h2 fun l' h' => h'.match

theorem sim_ternary {f g : U256 → U256 → U256 → U256} (hfg : ∀ a b c, f a b c = g a b c) (h : Rel 0 p q l s) (hs : 3 ≤ s.stack.length) :
    Sim (Post p q) (ternary f l) (s.pop3 fun a b c s => s.push (g a b c)) := by
  obtain ⟨a, r, ha, hr⟩ := stack_cons hs
  obtain ⟨b, r', hb, hr'⟩ := stack_cons hr
  obtain ⟨c, r'', hc, _⟩ := stack_cons hr'
  rw [pop3_eq]
  refine sim_pop h ha fun l1 h1 => ?_
  refine sim_pop h1 (show r = b :: r' from hb) fun l2 h2 => ?_
  refine sim_peek h2 (show r' = c :: r'' from hc) fun h3 => ?_
  rw [hfg]
  exact sim_setTop h3 fun l' h' => h'.match

theorem sim_unary {f g : U256 → U256} (hfg : ∀ a, f a = g a) (h : Rel 0 p q l s) (hs : 1 ≤ s.stack.length) :
    Sim (Post p q) (unary f l) (s.pop1 fun a s => s.push (g a)) := by
  obtain ⟨a, r, ha, hr⟩ := stack_cons hs
  refine sim_peek h ha fun h2 => ?_
  rw [hfg]
  exact sim_setTop h2 fun l' h' => h'.match

theorem sim_exp (h : Rel 0 p q l s) (hs : 2 ≤ s.stack.length) :
    Sim (Post p q) (opExp l) (s.pop2 fun a b s => s.charge (50 * Word.byteLen b.toNat) fun s => s.push (Word.exp a b)) := by
  obtain ⟨a, r, ha, hr⟩ := stack_cons hs
  obtain ⟨b, r', hb, _⟩ := stack_cons hr
  refine sim_pop h ha fun l1 h1 => sim_peek h1 (show r = b :: r' from hb) fun h2 => ?_
  refine sim_useGas (by rw [l_byteLen]; omega) h2 fun l3 h3 => ?_
  rw [l_exp]
  exact sim_setTop h3 fun l' h' => h'.match

theorem sim_push {v v' : U256} (hv : v = v') (h : Rel 0 p q l s) (hs : s.stack.length + 1 ≤ 1024) :
    Sim (Post p q) ((pushV v : M ω Unit) l) (s.push v') := by
  subst hv
  exact sim_pushV h hs fun l' h' => h'.match

theorem sim_popOp (h : Rel 0 p q l s) (hs : 1 ≤ s.stack.length) :
    Sim (Post p q) ((do let _ ← pop : M ω Unit) l) (s.pop1 fun _ s => s) := by
  obtain ⟨a, r, ha, hr⟩ := stack_cons hs
  exact sim_pop (f := fun _ => pure ()) (k' := fun _ s => s) h ha fun l1 h1 => h1.match

theorem sim_dup {n : Nat} (h : Rel 0 p q l s) (hn : 1 ≤ n) (hs : n ≤ s.stack.length) (hlim : s.stack.length + 1 ≤ 1024) :
    Sim (Post p q) ((dup ((n - 1 : Nat) : Int) : M ω Unit) l) (s.push (s.stack.getD (n - 1) 0)) := by
  have hsp := h.sp
  have hv : s.stack.getD (n - 1) 0 = l.data (s.stack.length - n) := by
    have := words'_getD l.data s.stack.length (n - 1) (by omega)
    rw [h.stack] at this
    rw [this]; congr 1; omega
  have e : (dup ((n - 1 : Nat) : Int) : M ω Unit) l = .ok () { l with sp := l.sp + 1, data := fun x => if x = s.stack.length then s.stack.getD (n - 1) 0 else l.data x } := by
    unfold dup
    rw [bind_ok (show (getSt : M ω _) l = .ok l l from rfl),
      bind_ok (slot_ok (i := l.sp - ((n - 1 : Nat) : Int) - 1) (j := s.stack.length - n) (by rw [hsp]; omega) (by omega)),
      bind_ok (setSlot_ok (i := l.sp) (j := s.stack.length) (by rw [hsp]; omega) (by omega)), ← hv]
    rfl
  rw [e]
  exact (rel_write (sp := l.sp + 1) h (by rw [h.sp]; omega) hlim).match

theorem sim_swap {n : Nat} (h : Rel 0 p q l s) (hn : 1 ≤ n) (hs : n + 1 ≤ s.stack.length) :
    Sim (Post p q) ((swap (n : Int) : M ω Unit) l)
      { s with stack := (s.stack.set 0 (s.stack.getD n 0)).set n (s.stack.getD 0 0) } := by
  have hsp := h.sp
  have hlim := h.limit
  obtain ⟨N, hN⟩ : ∃ N, s.stack.length = N := ⟨_, rfl⟩
  rw [hN] at hsp hs hlim
  have hstack := h.stack
  rw [hN] at hstack
  have hv : ∀ i, i < N → s.stack.getD i 0 = l.data (N - 1 - i) := by
    intro i hi
    rw [← hstack, words'_getD _ _ _ hi]
  have e : (swap (n : Int) : M ω Unit) l =
      .ok () { l with data := fun x => if x = N - 1 then l.data (N - 1 - n) else (if x = N - 1 - n then l.data (N - 1) else l.data x) } := by
    unfold swap
    rw [bind_ok (show (getSt : M ω _) l = .ok l l from rfl),
      bind_ok (slot_ok (i := l.sp - 1) (j := N - 1) (by rw [hsp]; omega) (by omega)),
      bind_ok (slot_ok (i := l.sp - n - 1) (j := N - 1 - n) (by rw [hsp]; omega) (by omega)),
      bind_ok (setSlot_ok (i := l.sp - n - 1) (j := N - 1 - n) (by rw [hsp]; omega) (by omega)),
      setSlot_ok (i := l.sp - 1) (j := N - 1) (by rw [hsp]; omega) (by omega)]
  rw [e]
  have hlen : ((s.stack.set 0 (s.stack.getD n 0)).set n (s.stack.getD 0 0)).length = N := by simp [hN]
  refine ⟨h.status, h.pc, h.pc', h.gas, h.refund, ?_, ?_, ?_, h.size, h.mem, h.aligned, h.cost, h.ret, h.world⟩
  · show l.sp = (((s.stack.set 0 (s.stack.getD n 0)).set n (s.stack.getD 0 0)).length : Nat)
    rw [hlen, hsp]; omega
  · show words' _ ((s.stack.set 0 (s.stack.getD n 0)).set n (s.stack.getD 0 0)).length = (s.stack.set 0 (s.stack.getD n 0)).set n (s.stack.getD 0 0)
    rw [hlen]
    apply List.ext_getElem?
    intro i
    by_cases hi : i < N
    · rw [words'_getElem? _ _ _ hi, List.getElem?_set, List.getElem?_set]
      dsimp only
      have hsi : s.stack[i]? = some (l.data (N - 1 - i)) := by rw [← hstack, words'_getElem? _ _ _ hi]
      by_cases h1 : n = i
      · subst h1
        rw [if_pos rfl, if_neg (by omega), if_pos rfl, if_pos (by simp; omega), hv 0 (by omega)]
        rfl
      · rw [if_neg h1]
        by_cases h0 : 0 = i
        · subst h0
          rw [if_pos (by omega), if_pos rfl, if_pos (by omega), hv n (by omega)]
        · rw [if_neg h0, if_neg (by omega), if_neg (by omega), hsi]
    · rw [List.getElem?_eq_none (by rw [words'_length]; omega), List.getElem?_eq_none (by omega)]
  · show ((s.stack.set 0 (s.stack.getD n 0)).set n (s.stack.getD 0 0)).length ≤ 1024
    omega

theorem sim_nop (h : Rel 0 p q l s) : Sim (Post p q) ((pure () : M ω Unit) l) s := h.match

theorem sim_gas (h : Rel 0 p q l s) (hs : s.stack.length + 1 ≤ 1024) :
    Sim (Post p q) ((do let gas := (← getSt).gas; pushV (ofU64 (u64 gas)) : M ω Unit) l) (s.push (Word.ofN s.gas)) := by
  have hb := h.bound
  refine sim_getSt (sim_push ?_ h hs)
  refine l_ofU64 ?_
  rw [h.gas]
  unfold u64
  rw [BitVec.toNat_ofInt]
  omega

theorem sim_msize (h : Rel 0 p q l s) (hs : s.stack.length + 1 ≤ 1024) :
    Sim (Post p q) ((opMsize : M ω Unit) l) (s.push (Word.ofN s.mem.size)) :=
  sim_getSt (sim_push (l_ofU64 (memLength_eq h)) h hs)

theorem sim_returndatasize (h : Rel 0 p q l s) (hs : s.stack.length + 1 ≤ 1024) :
    Sim (Post p q) ((do let n := (← getSt).returnData.length; pushV (ofU64 (BitVec.ofNat 64 n)) : M ω Unit) l) (s.push (Word.ofN s.ret.length)) := by
  refine sim_getSt (sim_push ?_ h hs)
  rw [h.ret]
  exact l_ofN64 h.retLen

end

/-! ## Reading byte strings -/

theorem slice_parts (data : List Byte) (off n : Nat) :
    ((data.drop off).take n) ++ List.replicate (n - ((data.drop off).take n).length) 0 = slice data off n := by
  apply List.ext_getElem?
  intro i
  unfold slice byteAt
  rw [List.getElem?_map]
  by_cases hi : i < n
  · rw [List.getElem?_range hi, Option.map_some, List.getD_eq_getElem?_getD, List.getElem?_append]
    split
    · rename_i h
      simp only [List.length_take, List.length_drop] at h
      rw [List.getElem?_take, if_pos hi, List.getElem?_drop, List.getElem?_eq_getElem (by omega)]
      rfl
    · rename_i h
      simp only [List.length_take, List.length_drop] at h ⊢
      rw [List.getElem?_replicate, if_pos (by omega), List.getElem?_eq_none (l := data) (by omega)]
      rfl
  · rw [List.getElem?_eq_none (by simp; omega), List.getElem?_eq_none (by simp; omega)]
    rfl

theorem getData_eq {data : List Byte} {off : U256} {size : BitVec 64} (hd : data.length < 2 ^ 63) (hs : size.toNat < 2 ^ 63) :
    getData data off size = slice data off.toNat size.toNat := by
  unfold getData
  by_cases h0 : size = 0
  · subst h0; rw [if_pos rfl]; rfl
  rw [if_neg h0]
  have hout : data.length ≤ off.toNat → List.replicate size.toNat 0 = slice data off.toNat size.toNat := by
    intro h
    unfold slice
    rw [show (fun i => byteAt data (off.toNat + i)) = fun _ => (0 : Byte) from by
      funext i; unfold byteAt; rw [List.getD_eq_getElem?_getD, List.getElem?_eq_none (by omega)]; rfl]
    simp
  by_cases hf : isUint64 off = false ∨ (uint64 off).toNat ≥ data.length
  · rw [if_pos hf]
    apply hout
    rcases hf with hf | hf
    · rw [isUint64_false] at hf; omega
    · rw [uint64_toNat] at hf
      have := Nat.mod_le off.toNat (2 ^ 64)
      omega
  · rw [if_neg hf]
    have h1 : isUint64 off = true := by cases h : isUint64 off with | true => rfl | false => exact absurd (.inl h) hf
    have h2 : off.toNat < 2 ^ 64 := (isUint64_iff off).1 h1
    have h3 : (uint64 off).toNat = off.toNat := by rw [uint64_toNat, Nat.mod_eq_of_lt h2]
    have h4 : off.toNat < data.length := by rw [← h3]; omega
    dsimp only
    rw [h3]
    have h5 : (uint64 off + size).toNat = off.toNat + size.toNat := by
      rw [BitVec.toNat_add, h3]; omega
    rw [h5]
    rw [show (data.drop off.toNat).take (min (off.toNat + size.toNat) data.length - off.toNat) = (data.drop off.toNat).take size.toNat from by
      apply List.ext_getElem?
      intro i
      rw [List.getElem?_take, List.getElem?_take, List.getElem?_drop]
      by_cases hi : i < size.toNat
      · rw [if_pos hi]
        split
        · rfl
        · rw [List.getElem?_eq_none (by omega)]
      · rw [if_neg hi, if_neg (by omega)]]
    rw [List.take_take, Nat.min_self]
    exact slice_parts data off.toNat size.toNat

end Tosca.Proofs.Lfvm

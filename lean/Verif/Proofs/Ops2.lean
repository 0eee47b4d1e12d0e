import Verif.Proofs.Ops1

/-!
# Instruction bodies, part 2: memory and data copies
-/

namespace Tosca.Proofs

open Tosca.Model Tosca.Spec

variable {σ : Type} {P : Params σ} {c : Ctx σ} {E : Env σ}

/-- What the memory needs for exact costs. -/
structure MemOk (c : Ctx σ) (g : Nat) : Prop where
  aligned : c.memory.size % 32 = 0
  gas : g + memGas (words c.memory.size) ≤ 2 ^ 54

theorem memCost_ok (h : MemOk c g) (off n : U256) :
    ∃ mc, memoryExpansionCost c.memory.size off n = .ok mc ∧ MemCostOk (absMem c.memory) g off n mc :=
  memoryExpansionCost_ok (absMem c.memory) g off n h.aligned h.gas

section exact
variable {off n : U256} {mc : MemCost}

theorem exact_expand (hsz : mc.size = n.toNat) (hoff : n.toNat ≠ 0 → mc.offset = off.toNat) (m : Mem) :
    m.expand mc.offset mc.size = m.expand off.toNat n.toNat := by
  rw [hsz]
  by_cases h : n.toNat = 0
  · simp [Mem.expand, Mem.sizeAfter, h]
  · rw [hoff h]

theorem exact_read (hsz : mc.size = n.toNat) (hoff : n.toNat ≠ 0 → mc.offset = off.toNat) (m : Mem) :
    m.read mc.offset mc.size = m.read off.toNat n.toNat := by
  rw [hsz]
  by_cases h : n.toNat = 0
  · simp [Mem.read, h]
  · rw [hoff h]

theorem write_nil (m : Mem) (o : Nat) : m.write o [] = m := by
  apply Mem.ext
  · rfl
  · intro i
    show (if o ≤ i ∧ i < o + 0 then _ else _) = _
    rw [if_neg (by omega)]

theorem exact_write (hoff : n.toNat ≠ 0 → mc.offset = off.toNat) (m : Mem)
    (l : List Byte) (hl : l.length = n.toNat) : m.write mc.offset l = m.write off.toNat l := by
  by_cases h : n.toNat = 0
  · have : l = [] := List.length_eq_zero_iff.1 (by omega)
    subst this
    rw [write_nil, write_nil]
  · rw [hoff h]

theorem exact_bound (hsz : mc.size = n.toNat) (hoff : n.toNat ≠ 0 → mc.offset = off.toNat)
    (hb : n.toNat ≠ 0 → off.toNat + n.toNat ≤ 2 ^ 37) :
    mc.size ≠ 0 → mc.offset + mc.size + 31 < u64Mod := by
  intro h
  rw [hsz] at h ⊢
  rw [hoff h]
  have := hb h
  unfold u64Mod; omega

theorem exact_small (hb : n.toNat ≠ 0 → off.toNat + n.toNat ≤ 2 ^ 37) : n.toNat ≤ 2 ^ 37 := by
  by_cases h : n.toNat = 0
  · omega
  · have := hb h; omega

end exact

theorem minWords_small (n : Nat) (h : n ≤ 2 ^ 37) : minWords n = (words n : Nat) := by
  unfold minWords words u64Mod
  rw [Nat.mod_eq_of_lt (by omega), toInt64_small _ (by omega)]

theorem minWords_bound (n : Nat) : 0 ≤ minWords n ∧ minWords n < 2 ^ 59 := by
  unfold minWords u64Mod
  rw [toInt64_small _ (by omega)]
  omega

theorem words_small (n : Nat) (h : n ≤ 2 ^ 37) : words n ≤ 2 ^ 32 + 1 := by unfold words; omega

theorem checkedCost_small (f w k : Int) (h1 : 0 ≤ f * w) (h2 : f * w ≤ 2 ^ 60) (h3 : 0 ≤ k)
    (h4 : k ≤ 2 ^ 60) : Ops.checkedCost f w k = some (f * w + k) := by
  unfold Ops.checkedCost fits64 int64Min int64Max
  rw [if_pos (by omega)]
  dsimp only
  rw [if_pos (by omega)]

theorem checkedCost_big (f w k : Int) (g : Nat) (h1 : 0 ≤ f * w) (h3 : (g : Int) < k) :
    Ops.checkedCost f w k = none ∨ ∃ d, Ops.checkedCost f w k = some d ∧ (g : Int) < d := by
  unfold Ops.checkedCost fits64
  split
  · exact .inl rfl
  · rename_i d hd
    split at hd
    · simp only [Option.some.injEq] at hd
      subst hd
      split
      · exact .inr ⟨_, rfl, by omega⟩
      · exact .inl rfl
    · simp at hd

theorem readSpan_grow (m : Memory) (off n : Nat) (h : n ≠ 0 → off + n + 31 < u64Mod)
    (ha : m.size % 32 = 0) :
    (m.grow off n).readSpan ⟨(m.grow off n).gen, off, n⟩ = .ok (((absMem m).expand off n).read off n) := by
  unfold Memory.readSpan
  dsimp only
  by_cases hn : n = 0
  · subst hn; simp [Mem.read]
  · rw [if_neg hn, if_pos rfl, readAt_abs _ _ _ (fun hn => grow_covers m off n h ha hn),
      (grow_abs m off n h ha).1]

/-- Charging more than is left. -/
theorem post_outOfGas {res : OpResult} {g pc' : Nat} {top' : Int} {s : State σ} {c' : Ctx σ}
    (hf : Frame P c c') (h : (g : Int) < res.dynGas) (h1 : c'.gasRefunds = s.refund)
    (h2 : c'.world = s.host) : Post P c pc' g top' (s.fail .outOfGas) res c' := by
  refine ⟨hf, ?_⟩
  rw [outcome_tooMuch _ _ h]
  exact rel_fail rfl h1 h2

/-- Failing with a state returned by the body. -/
theorem post_fail {st : RunState} {why : Failure} {g pc' : Nat} {top' : Int} {s : State σ} {c' : Ctx σ}
    (hs : st = runStateOf (.failed why)) (hf : Frame P c c') (h1 : c'.gasRefunds = s.refund)
    (h2 : c'.world = s.host) : Post P c pc' g top' (s.fail why) { state := st } c' := by
  refine ⟨hf, ?_⟩
  rw [outcome_zero]
  exact rel_fail hs h1 h2

theorem mload_ok (hc : Fixed P c) (t g pc' : Nat) (ht : t + 1 ≤ 1024) (hm : MemOk c g) :
    Ok (Ops.mload t g) c (Post P c pc' g (t : Int)
      ((absState c t g pc').pop1 fun off s => s.touch off 32 0 fun s =>
        s.push (Word.ofBytes (s.mem.read off.toNat 32)))) := by
  unfold Ops.mload
  simp only [ok_bind, ok_rd0 t (show t < 1024 by omega)]
  simp only [State.pop1, absState, absStack_cons c.stack.buf t (by omega), State.push, State.touch,
    State.charge]
  obtain ⟨mc, hmc, hok⟩ := memCost_ok hm (c.stack.buf t) 32
  rw [ok_memCost_eq hmc]
  have h32 : (32 : U256).toNat = 32 := rfl
  cases hok with
  | tooMuch hcost hcost' hgg hsz =>
    rw [if_pos (by omega), if_pos (by omega)]
    rw [ok_pure]
    exact post_outOfGas hc.frame hcost rfl rfl
  | exact hcost hgg hsz hoff hb =>
    rw [if_neg (by omega), if_neg (by omega)]
    have hbd := exact_bound hsz hoff hb
    rw [hsz, h32] at hbd
    simp only [ok_bind]
    rw [ok_memRead_eq (writeTo_abs c.memory mc.offset 32 hbd hm.aligned)]
    simp only [ok_wr0 t (show t < 1024 by omega), ok_pure]
    refine ⟨⟨⟨hc.1, hc.2, hc.3, hc.4, hc.5, hc.6⟩, rfl, rfl⟩, ?_⟩
    rw [outcome_enough _ _ (by dsimp only; omega) (by dsimp only; omega)]
    have hx := exact_expand hsz hoff (absMem c.memory)
    rw [hsz] at hx
    refine rel_running t rfl rfl rfl rfl ?_ ?_ (by omega) (by omega) ?_ rfl
    · dsimp only; omega
    · dsimp only
      rw [(grow_abs _ _ _ hbd hm.aligned).1]
      exact hx.symm
    · rw [absStack_push _ _ _ (by omega), w_mload _ (by simp [Mem.read])]
      dsimp only
      rw [h32] at hx ⊢
      rw [hx, hoff (by rw [h32]; omega)]

theorem mstore_ok (hc : Fixed P c) (t g pc' : Nat) (ht : t + 2 ≤ 1024) (hm : MemOk c g) :
    Ok (Ops.mstore t g) c (Post P c pc' g ((t : Int) + 2)
      ((absState c t g pc').pop2 fun off v s => s.touch off 32 0 fun s =>
        { s with mem := s.mem.write off.toNat (Word.toBytes v) })) := by
  unfold Ops.mstore
  simp only [ok_bind, ok_rd0 t (show t < 1024 by omega), ok_rd1 t (show t + 1 < 1024 by omega)]
  simp only [State.pop2, State.pop1, absState, absStack_c2 c.stack.buf t (by omega), State.touch, State.charge]
  obtain ⟨mc, hmc, hok⟩ := memCost_ok hm (c.stack.buf t) 32
  rw [ok_memCost_eq hmc]
  have h32 : (32 : U256).toNat = 32 := rfl
  cases hok with
  | tooMuch hcost hcost' hgg hsz =>
    rw [if_pos (by omega), if_pos (by omega)]
    rw [ok_pure]
    exact post_outOfGas hc.frame hcost rfl rfl
  | exact hcost hgg hsz hoff hb =>
    rw [if_neg (by omega), if_neg (by omega)]
    have hbd := exact_bound hsz hoff hb
    rw [hsz, h32] at hbd
    simp only [ok_bind]
    have hlen : (Word.toBytes (c.stack.buf (t + 1))).length = 32 := by simp [Word.toBytes]
    obtain ⟨m', e1, a1, s1⟩ := readFrom_abs c.memory (leBytes (bswap (c.stack.buf (t + 1)))) mc.offset
      (by rw [w_mstore, hlen]; exact hbd) hm.aligned
    rw [ok_mem_eq (f := fun m => m.readFrom (leBytes (bswap (c.stack.buf (t + 1)))) mc.offset) e1]
    simp only [ok_pure]
    refine ⟨⟨⟨hc.1, hc.2, hc.3, hc.4, hc.5, hc.6⟩, rfl, rfl⟩, ?_⟩
    rw [outcome_enough _ _ (by dsimp only; omega) (by dsimp only; omega)]
    refine rel_running (t + 2) rfl rfl rfl rfl ?_ ?_ (by omega) (by omega) rfl rfl
    · dsimp only; omega
    · dsimp only
      rw [a1, w_mstore, hlen, hoff (by rw [h32]; omega)]
      rfl

theorem mstore8_ok (hc : Fixed P c) (t g pc' : Nat) (ht : t + 2 ≤ 1024) (hm : MemOk c g) :
    Ok (Ops.mstore8 t g) c (Post P c pc' g ((t : Int) + 2)
      ((absState c t g pc').pop2 fun off v s => s.touch off 1 0 fun s =>
        { s with mem := s.mem.write off.toNat [BitVec.ofNat 8 v.toNat] })) := by
  unfold Ops.mstore8
  simp only [ok_bind, ok_rd0 t (show t < 1024 by omega), ok_rd1 t (show t + 1 < 1024 by omega)]
  simp only [State.pop2, State.pop1, absState, absStack_c2 c.stack.buf t (by omega), State.touch, State.charge]
  obtain ⟨mc, hmc, hok⟩ := memCost_ok hm (c.stack.buf t) 1
  rw [ok_memCost_eq hmc]
  have h1 : (1 : U256).toNat = 1 := rfl
  cases hok with
  | tooMuch hcost hcost' hgg hsz =>
    rw [if_pos (by omega), if_pos (by omega)]
    rw [ok_pure]
    exact post_outOfGas hc.frame hcost rfl rfl
  | exact hcost hgg hsz hoff hb =>
    rw [if_neg (by omega), if_neg (by omega)]
    have hbd := exact_bound hsz hoff hb
    rw [hsz, h1] at hbd
    simp only [ok_bind]
    obtain ⟨m', e1, a1, s1⟩ := readFrom_abs c.memory [(c.stack.buf (t + 1)).setWidth 8] mc.offset
      (by simpa using hbd) hm.aligned
    rw [ok_mem_eq e1]
    simp only [ok_pure]
    refine ⟨⟨⟨hc.1, hc.2, hc.3, hc.4, hc.5, hc.6⟩, rfl, rfl⟩, ?_⟩
    rw [outcome_enough _ _ (by dsimp only; omega) (by dsimp only; omega)]
    refine rel_running (t + 2) rfl rfl rfl rfl ?_ ?_ (by omega) (by omega) rfl rfl
    · dsimp only; omega
    · dsimp only
      rw [a1, hoff (by rw [h1]; omega), w_mstore8]
      rfl

theorem sha3_ok (hE : EnvOk P E) (hc : Fixed P c) (t g pc' : Nat) (ht : t + 2 ≤ 1024) (hm : MemOk c g) :
    Ok (Ops.sha3 E t g) c (Post P c pc' g ((t : Int) + 1)
      ((absState c t g pc').pop2 fun off n s => s.touch off n (6 * words n.toNat) fun s =>
        s.push (P.keccak (s.mem.read off.toNat n.toNat)))) := by
  unfold Ops.sha3
  simp only [ok_bind, ok_rd0 t (show t < 1024 by omega), ok_rd1 t (show t + 1 < 1024 by omega)]
  simp only [State.pop2, State.pop1, absState, absStack_c2 c.stack.buf t (by omega), State.push, State.touch, State.charge]
  obtain ⟨mc, hmc, hok⟩ := memCost_ok hm (c.stack.buf t) (c.stack.buf (t + 1))
  rw [ok_memCost_eq hmc]
  cases hok with
  | tooMuch hcost hcost' hgg hsz =>
    rw [if_pos (by omega)]
    have hw := minWords_bound mc.size
    rcases checkedCost_big 6 (minWords mc.size) mc.cost g (by omega) hcost with h | ⟨d, h, hd⟩
    · simp only [h, ok_pure]
      exact post_fail rfl hc.frame rfl rfl
    · simp only [h]
      rw [if_pos hd, ok_pure]
      exact post_fail rfl hc.frame rfl rfl
  | exact hcost hgg hsz hoff hb =>
    have hsm := exact_small hb
    have hws := words_small _ hsm
    have hbd := exact_bound hsz hoff hb
    have h54 : g ≤ 2 ^ 54 := by have := hm.gas; omega
    rw [show minWords mc.size = (words (c.stack.buf (t + 1)).toNat : Nat) by
      rw [hsz, minWords_small _ hsm]]
    rw [checkedCost_small _ _ _ (by omega) (by omega) (by omega) (by omega)]
    dsimp only
    split
    · rw [if_pos (by omega), ok_pure]
      exact post_fail rfl hc.frame rfl rfl
    · rw [if_neg (by omega)]
      simp only [ok_bind, ok_getSpan]
      rw [ok_readSpan (readSpan_grow _ _ _ hbd hm.aligned), exact_expand hsz hoff, exact_read hsz hoff,
        ok_get]
      have fin : ∀ c' : Ctx σ, Frame P c c' → c'.gasRefunds = c.gasRefunds → c'.world = c.world →
          c'.memory = c.memory.grow mc.offset mc.size → c'.returnData = c.returnData →
          c'.stack.buf = setBuf c.stack.buf (t + 1) (P.keccak
            (((absMem c.memory).expand (c.stack.buf t).toNat (c.stack.buf (t + 1)).toNat).read
              (c.stack.buf t).toNat (c.stack.buf (t + 1)).toNat)) →
          Post P c pc' g ((t : Int) + 1)
            { status := Status.running, pc := pc',
              gas := g - ((absMem c.memory).growGas
                ((absMem c.memory).sizeAfter (c.stack.buf t).toNat (c.stack.buf (t + 1)).toNat) +
                6 * words (c.stack.buf (t + 1)).toNat),
              refund := c.gasRefunds,
              stack := P.keccak (((absMem c.memory).expand (c.stack.buf t).toNat
                (c.stack.buf (t + 1)).toNat).read (c.stack.buf t).toNat (c.stack.buf (t + 1)).toNat) ::
                absStack c.stack.buf (t + 2),
              mem := (absMem c.memory).expand (c.stack.buf t).toNat (c.stack.buf (t + 1)).toNat,
              ret := c.returnData, host := c.world }
            { dynGas := 6 * ((words (c.stack.buf (t + 1)).toNat : Nat) : Int) + mc.cost } c' := by
        intro c' hf h1 h2 h3 h4 h5
        refine ⟨hf, ?_⟩
        rw [outcome_enough _ _ (by dsimp only; omega) (by dsimp only; omega)]
        refine rel_running (t + 1) rfl h1 h2 rfl ?_ ?_ (by omega) (by omega) ?_ h4
        · dsimp only; omega
        · rw [h3, (grow_abs _ _ _ hbd hm.aligned).1, exact_expand hsz hoff]
        · rw [h5, absStack_push _ _ _ (by omega)]
      cases hs : c.sha3 with
      | none =>
        simp only [ok_bind, hE.keccak, ok_wr1 t (show t + 1 < 1024 by omega), ok_pure]
        exact fin _ ⟨⟨hc.1, hc.2, hc.3, hc.4, hc.5, fun s h => hc.6 s (hs ▸ h)⟩, rfl, rfl⟩ rfl rfl rfl rfl rfl
      | some s =>
        obtain ⟨s', hh, hs'⟩ := sha3_hash P.keccak s (hc.sha3 s hs)
          (((absMem c.memory).expand (c.stack.buf t).toNat (c.stack.buf (t + 1)).toNat).read
            (c.stack.buf t).toNat (c.stack.buf (t + 1)).toNat)
        simp only [ok_bind, hE.keccak, ok_lift_eq hh, ok_modify,
          ok_wr1 t (show t + 1 < 1024 by omega), ok_pure]
        refine fin _ ⟨⟨hc.1, hc.2, hc.3, hc.4, hc.5, ?_⟩, rfl, rfl⟩ rfl rfl rfl rfl rfl
        intro s2 h2
        simp only [Option.some.injEq] at h2
        rw [← h2]; exact hs'

theorem slice_tailView (data : List Byte) (off : U256) (n : Nat) (h : data.length < 2 ^ 64) :
    slice (Ops.tailView data off) 0 n = slice data off.toNat n := by
  unfold Ops.tailView slice
  apply List.map_congr_left
  intro i _
  unfold byteAt lo64 u64Mod
  rw [Nat.zero_add]
  split
  · rw [Nat.mod_eq_of_lt (by omega), List.getD_eq_getElem?_getD, List.getD_eq_getElem?_getD,
      List.getElem?_drop]
  · rw [List.getD_eq_getElem?_getD, List.getD_eq_getElem?_getD, List.getElem?_eq_none (by simp),
      List.getElem?_eq_none (by omega)]

theorem slice_codeView (code : List Byte) (off : U256) (n : Nat) (h : code.length < 2 ^ 32) :
    slice (if off.toNat < (padCode code).length - stopBytePadding
      then (padCode code).drop (lo64 off) else []) 0 n = slice code off.toNat n := by
  have hl : (padCode code).length - stopBytePadding = code.length := by
    simp [padCode, stopBytePadding]
  rw [hl]
  unfold slice
  apply List.map_congr_left
  intro i _
  rw [Nat.zero_add]
  split
  · rw [← padCode_getD code]
    unfold byteAt lo64 u64Mod
    rw [Nat.mod_eq_of_lt (by omega), List.getD_eq_getElem?_getD, List.getD_eq_getElem?_getD,
      List.getElem?_drop]
  · unfold byteAt
    rw [List.getD_eq_getElem?_getD, List.getD_eq_getElem?_getD, List.getElem?_eq_none (by simp),
      List.getElem?_eq_none (by omega)]

/-- The common end of the copy instructions. -/
theorem copy_fin (hc : Fixed P c) (t g pc' : Nat) (ht : t + 3 ≤ 1024) (hm : MemOk c g)
    (view src : List Byte) (d o n : U256) (mc : MemCost) (hsrc : slice view 0 n.toNat = slice src o.toNat n.toNat)
    (hcost : mc.cost = ((absMem c.memory).growGas ((absMem c.memory).sizeAfter d.toNat n.toNat) : Nat))
    (hsz : mc.size = n.toNat) (hoff : n.toNat ≠ 0 → mc.offset = d.toNat)
    (hb : n.toNat ≠ 0 → d.toNat + n.toNat ≤ 2 ^ 37) (dyn : Int)
    (hdyn : dyn = 3 * (words n.toNat : Nat) + mc.cost) (hle : dyn ≤ g) :
    Ok (do OpM.mem fun m => m.readFromWithSize view mc.offset mc.size
           return { dynGas := dyn } : OpM σ OpResult) c
      (Post P c pc' g ((t : Int) + 3)
        { status := Status.running, pc := pc'
          gas := g - ((absMem c.memory).growGas ((absMem c.memory).sizeAfter d.toNat n.toNat) +
            3 * words n.toNat)
          refund := c.gasRefunds, stack := absStack c.stack.buf (t + 3)
          mem := ((absMem c.memory).expand d.toNat n.toNat).write d.toNat (slice src o.toNat n.toNat)
          ret := c.returnData, host := c.world }) := by
  have hbd := exact_bound hsz hoff hb
  obtain ⟨m', e1, a1, s1⟩ := readFromWithSize_abs c.memory view mc.offset mc.size hbd hm.aligned
  simp only [ok_bind]
  rw [ok_mem_eq e1, ok_pure]
  refine ⟨⟨⟨hc.1, hc.2, hc.3, hc.4, hc.5, hc.6⟩, rfl, rfl⟩, ?_⟩
  rw [outcome_enough _ _ (by dsimp only; omega) (by dsimp only; omega)]
  refine rel_running (t + 3) rfl rfl rfl rfl ?_ ?_ (by omega) (by omega) rfl rfl
  · dsimp only; omega
  · dsimp only
    rw [a1, exact_expand hsz hoff, exact_write hoff _ _ (by rw [slice_length, hsz]), hsz, hsrc]

theorem calldatacopy_ok (hP : ParamsBase P) (hc : Fixed P c) (t g pc' : Nat) (ht : t + 3 ≤ 1024)
    (hm : MemOk c g) :
    Ok (Ops.calldatacopy t g) c (Post P c pc' g ((t : Int) + 3) (copyOp P.msg.input (absState c t g pc'))) := by
  unfold Ops.calldatacopy copyOp
  simp only [ok_bind, ok_rd0 t (show t < 1024 by omega), ok_rd1 t (show t + 1 < 1024 by omega),
    ok_rd2 t (show t + 2 < 1024 by omega)]
  simp only [State.pop3, State.pop2, State.pop1, absState, absStack_c3 c.stack.buf t (by omega),
    State.touch, State.charge]
  obtain ⟨mc, hmc, hok⟩ := memCost_ok hm (c.stack.buf t) (c.stack.buf (t + 2))
  rw [ok_memCost_eq hmc]
  have h54 : g ≤ 2 ^ 54 := by have := hm.gas; omega
  have hchk : int64Min ≤ (g : Int) + 1 ∧ (g : Int) + 1 ≤ int64Max := by
    unfold int64Min int64Max; omega
  cases hok with
  | tooMuch hcost hcost' hgg hsz =>
    rw [if_pos (by omega)]
    have hw := minWords_bound mc.size
    rcases checkedCost_big 3 (minWords mc.size) mc.cost g (by omega) hcost with h | ⟨d, h, hd⟩
    · simp only [h, ok_bind, ok_chk64 _ hchk, ok_pure]
      exact post_outOfGas hc.frame (by dsimp only; omega) rfl rfl
    · simp only [h]
      rw [if_pos hd]
      simp only [ok_bind, ok_chk64 _ hchk, ok_pure]
      exact post_outOfGas hc.frame (by dsimp only; omega) rfl rfl
  | exact hcost hgg hsz hoff hb =>
    have hsm := exact_small hb
    have hws := words_small _ hsm
    rw [show minWords mc.size = (words (c.stack.buf (t + 2)).toNat : Nat) by
      rw [hsz, minWords_small _ hsm]]
    rw [checkedCost_small _ _ _ (by omega) (by omega) (by omega) (by omega)]
    dsimp only
    split
    · rw [if_pos (by omega)]
      simp only [ok_bind, ok_chk64 _ hchk, ok_pure]
      exact post_outOfGas hc.frame (by dsimp only; omega) rfl rfl
    · rw [if_neg (by omega)]
      simp only [ok_bind, ok_get]
      rw [← ok_bind]
      exact copy_fin hc t g pc' ht hm _ P.msg.input (c.stack.buf t) (c.stack.buf (t + 1)) _ mc
        (by rw [hc.msg]; exact slice_tailView _ _ _ hP.input) hcost hsz hoff hb _ rfl (by omega)

theorem codecopy_ok (hP : ParamsBase P) (hc : Fixed P c) (t g pc' : Nat) (ht : t + 3 ≤ 1024)
    (hm : MemOk c g) :
    Ok (Ops.codecopy t g) c (Post P c pc' g ((t : Int) + 3) (copyOp P.code (absState c t g pc'))) := by
  unfold Ops.codecopy copyOp
  simp only [ok_bind, ok_rd0 t (show t < 1024 by omega), ok_rd1 t (show t + 1 < 1024 by omega),
    ok_rd2 t (show t + 2 < 1024 by omega)]
  simp only [State.pop3, State.pop2, State.pop1, absState, absStack_c3 c.stack.buf t (by omega),
    State.touch, State.charge]
  obtain ⟨mc, hmc, hok⟩ := memCost_ok hm (c.stack.buf t) (c.stack.buf (t + 2))
  rw [ok_memCost_eq hmc]
  have h54 : g ≤ 2 ^ 54 := by have := hm.gas; omega
  cases hok with
  | tooMuch hcost hcost' hgg hsz =>
    rw [if_pos (by omega)]
    have hw := minWords_bound mc.size
    rcases checkedCost_big 3 (minWords mc.size) mc.cost g (by omega) hcost with h | ⟨d, h, hd⟩
    · simp only [h, ok_pure]
      exact post_fail rfl hc.frame rfl rfl
    · simp only [h]
      rw [if_pos hd, ok_pure]
      exact post_fail rfl hc.frame rfl rfl
  | exact hcost hgg hsz hoff hb =>
    have hsm := exact_small hb
    have hws := words_small _ hsm
    rw [show minWords mc.size = (words (c.stack.buf (t + 2)).toNat : Nat) by
      rw [hsz, minWords_small _ hsm]]
    rw [checkedCost_small _ _ _ (by omega) (by omega) (by omega) (by omega)]
    dsimp only
    split
    · rw [if_pos (by omega), ok_pure]
      exact post_fail rfl hc.frame rfl rfl
    · rw [if_neg (by omega)]
      simp only [ok_bind, ok_get]
      rw [← ok_bind]
      exact copy_fin hc t g pc' ht hm _ P.code (c.stack.buf t) (c.stack.buf (t + 1)) _ mc
        (by rw [hc.code]; exact slice_codeView _ _ _ hP.code) hcost hsz hoff hb _ rfl (by omega)

theorem returndatacopy_ok (hc : Fixed P c) (t g pc' : Nat) (ht : t + 3 ≤ 1024)
    (hm : MemOk c g) (hr : c.returnData.length < 2 ^ 64) :
    Ok (Ops.returndatacopy t g) c (Post P c pc' g ((t : Int) + 3) (returndatacopy (absState c t g pc'))) := by
  unfold Ops.returndatacopy returndatacopy
  simp only [ok_bind, ok_rd0 t (show t < 1024 by omega), ok_rd1 t (show t + 1 < 1024 by omega),
    ok_rd2 t (show t + 2 < 1024 by omega)]
  simp only [State.pop3, State.pop2, State.pop1, absState, absStack_c3 c.stack.buf t (by omega),
    State.touch, State.charge]
  obtain ⟨mc, hmc, hok⟩ := memCost_ok hm (c.stack.buf t) (c.stack.buf (t + 2))
  rw [ok_memCost_eq hmc]
  have h54 : g ≤ 2 ^ 54 := by have := hm.gas; omega
  cases hok with
  | tooMuch hcost hcost' hgg hsz =>
    rw [if_pos (by omega), if_pos (by omega), ok_pure]
    exact post_outOfGas hc.frame hcost rfl rfl
  | exact hcost hgg hsz hoff hb =>
    have hsm := exact_small hb
    have hws := words_small _ hsm
    rw [if_neg (by omega)]
    rw [show minWords mc.size = (words (c.stack.buf (t + 2)).toNat : Nat) by
      rw [hsz, minWords_small _ hsm]]
    simp only [ok_bind]
    rw [ok_chk64 _ (by unfold int64Min int64Max; omega), ok_chk64 _ (by unfold int64Min int64Max; omega)]
    split
    · rw [if_pos (by omega), ok_pure]
      exact post_outOfGas hc.frame (by dsimp only; omega) rfl rfl
    · rw [if_neg (by omega)]
      simp only [ok_bind, ok_get]
      have hlt1 := (c.stack.buf (t + 1)).isLt
      have hlt2 := (c.stack.buf (t + 2)).isLt
      have hiff : (decide ((c.stack.buf (t + 1)).toNat + (c.stack.buf (t + 2)).toNat ≥ 2 ^ 256) = true ∨
          (c.stack.buf (t + 1) + c.stack.buf (t + 2)).toNat > c.returnData.length) ↔
          (c.stack.buf (t + 1)).toNat + (c.stack.buf (t + 2)).toNat > c.returnData.length := by
        rw [BitVec.toNat_add, decide_eq_true_eq]
        by_cases h : (c.stack.buf (t + 1)).toNat + (c.stack.buf (t + 2)).toNat ≥ 2 ^ 256
        · constructor
          · intro _; omega
          · intro _; exact .inl h
        · rw [Nat.mod_eq_of_lt (by omega)]
          constructor
          · rintro (h' | h') <;> omega
          · intro h'; exact .inr h'
      by_cases hbad : (c.stack.buf (t + 1)).toNat + (c.stack.buf (t + 2)).toNat > c.returnData.length
      · rw [if_pos (hiff.2 hbad), if_pos hbad, ok_pure]
        exact post_fail rfl hc.frame rfl rfl
      · rw [if_neg (fun h => hbad (hiff.1 h)), if_neg hbad]
        have hlo : lo64 (c.stack.buf (t + 1)) = (c.stack.buf (t + 1)).toNat := by
          unfold lo64 u64Mod; omega
        rw [hlo, if_pos (by omega)]
        refine copy_fin hc t g pc' ht hm _ c.returnData (c.stack.buf t) (c.stack.buf (t + 1)) _ mc
          ?_ hcost hsz hoff hb _ (by omega) (by omega)
        unfold slice
        apply List.map_congr_left
        intro i _
        unfold byteAt
        rw [Nat.zero_add, List.getD_eq_getElem?_getD, List.getD_eq_getElem?_getD, List.getElem?_drop]

theorem growGas_max (m : Mem) (a b : Nat) :
    m.growGas (max a b) = max (m.growGas a) (m.growGas b) := by
  unfold Mem.growGas
  have hw : ∀ {x y}, x ≤ y → memGas (words x) ≤ memGas (words y) := fun h => memGas_mono (by unfold words; omega)
  rcases Nat.le_total a b with h | h
  · rw [Nat.max_eq_right h]; have := hw h; omega
  · rw [Nat.max_eq_left h]; have := hw h; omega

theorem expand_comm (m : Mem) (a n b k : Nat) :
    (m.expand a n).expand b k = (m.expand b k).expand a n := by
  apply Mem.ext
  · unfold Mem.expand Mem.sizeAfter
    dsimp only
    split <;> split <;> omega
  · intro i; rfl

theorem mcopy_ok (hc : Fixed P c) (t g pc' : Nat) (ht : t + 3 ≤ 1024)
    (hm : MemOk c g) :
    Ok (Ops.mcopy t g) c (Post P c pc' g ((t : Int) + 3)
      ((absState c t g pc').pop3 fun dst src n s => s.touch2 dst n src n (3 * words n.toNat) fun s =>
      { s with mem := s.mem.write dst.toNat (s.mem.read src.toNat n.toNat) })) := by
  unfold Ops.mcopy
  simp only [ok_bind, ok_rd0 t (show t < 1024 by omega), ok_rd1 t (show t + 1 < 1024 by omega),
    ok_rd2 t (show t + 2 < 1024 by omega)]
  simp only [State.pop3, State.pop2, State.pop1, absState, absStack_c3 c.stack.buf t (by omega),
    State.touch2, State.charge, growGas_max]
  obtain ⟨md, hmd, hokd⟩ := memCost_ok hm (c.stack.buf t) (c.stack.buf (t + 2))
  obtain ⟨ms, hms, hoks⟩ := memCost_ok hm (c.stack.buf (t + 1)) (c.stack.buf (t + 2))
  rw [ok_memCost_eq hmd, ok_memCost_eq hms]
  have h54 : g ≤ 2 ^ 54 := by have := hm.gas; omega
  have hw := minWords_bound md.size
  rw [ok_chk64 _ (by unfold int64Min int64Max; omega)]
  have hbig : g < (absMem c.memory).growGas ((absMem c.memory).sizeAfter (c.stack.buf t).toNat
        (c.stack.buf (t + 2)).toNat) ∨ g < (absMem c.memory).growGas ((absMem c.memory).sizeAfter
        (c.stack.buf (t + 1)).toNat (c.stack.buf (t + 2)).toNat) → (g : Int) < max md.cost ms.cost →
      Ok (match fits64 (3 * minWords md.size + max md.cost ms.cost) with
        | none => pure { state := .errorGas }
        | some dynamicGas =>
          if (g : Int) < dynamicGas then pure { dynGas := dynamicGas }
          else do
            OpM.mem fun m => m.memCopy md.offset ms.offset md.size
            pure { dynGas := dynamicGas } : OpM σ OpResult) c
        (Post P c pc' g ((t : Int) + 3)
          (State.fail { status := Status.running, pc := pc', gas := g, refund := c.gasRefunds, stack := absStack c.stack.buf (t + 3), mem := absMem c.memory, ret := c.returnData, host := c.world } .outOfGas)) := by
    intro _ h2
    unfold fits64
    split
    · rw [ok_pure]; exact post_fail rfl hc.frame rfl rfl
    · rename_i d hd
      split at hd
      · simp only [Option.some.injEq] at hd
        rw [if_pos (by omega), ok_pure]
        exact post_outOfGas hc.frame (by dsimp only; omega) rfl rfl
      · simp at hd
  cases hokd with
  | tooMuch hcd hcd' hgd hszd =>
    rw [if_pos (by omega)]
    exact hbig (.inl hgd) (by omega)
  | exact hcd hgd hszd hoffd hbd =>
    cases hoks with
    | tooMuch hcs hcs' hgs hszs =>
      rw [if_pos (by omega)]
      exact hbig (.inr hgs) (by omega)
    | exact hcs hgs hszs hoffs hbs =>
      clear hbig
      have hsm := exact_small hbd
      have hws := words_small _ hsm
      rw [show minWords md.size = (words (c.stack.buf (t + 2)).toNat : Nat) by
        rw [hszd, minWords_small _ hsm]]
      have hmax : max md.cost ms.cost = ((max ((absMem c.memory).growGas ((absMem c.memory).sizeAfter (c.stack.buf t).toNat
        (c.stack.buf (t + 2)).toNat)) ((absMem c.memory).growGas ((absMem c.memory).sizeAfter
        (c.stack.buf (t + 1)).toNat (c.stack.buf (t + 2)).toNat)) : Nat) : Int) := by
        rw [hcd, hcs]; omega
      rw [hmax]
      unfold fits64
      rw [if_pos (by unfold int64Min int64Max; omega)]
      dsimp only
      split
      · rw [if_pos (by omega), ok_pure]
        exact post_outOfGas hc.frame (by dsimp only; omega) rfl rfl
      · rw [if_neg (by omega)]
        have hb1 := exact_bound hszd hoffd hbd
        have hb2 := exact_bound hszs hoffs hbs
        obtain ⟨m', e1, a1, s1⟩ := memCopy_abs c.memory md.offset ms.offset md.size hb1
          (by rw [hszs, ← hszd] at hb2; exact hb2) hm.aligned
        simp only [ok_bind]
        rw [ok_mem_eq e1, ok_pure]
        refine ⟨⟨⟨hc.1, hc.2, hc.3, hc.4, hc.5, hc.6⟩, rfl, rfl⟩, ?_⟩
        rw [outcome_enough _ _ (by dsimp only; omega) (by dsimp only; omega)]
        refine rel_running (t + 3) rfl rfl rfl rfl ?_ ?_ (by omega) (by omega) rfl rfl
        · dsimp only; omega
        · dsimp only
          rw [a1]
          have hss : md.size = ms.size := by rw [hszd, hszs]
          rw [exact_expand hszd hoffd, exact_write hoffd _ _ (by rw [read_length, hszd])]
          rw [hss, exact_expand hszs hoffs, exact_read hszs hoffs, expand_comm]

theorem ret_ok (st : RunState) (sst : Status) (hst : st = runStateOf sst) (hn : ∀ w, sst ≠ .failed w)
    (hns : sst ≠ .stopped) (hc : Fixed P c) (t g pc' : Nat) (ht : t + 2 ≤ 1024) (hm : MemOk c g) :
    Ok (Ops.ret st t g) c (Post P c pc' g ((t : Int) + 2) (halt sst (absState c t g pc'))) := by
  unfold Ops.ret halt
  simp only [ok_bind, ok_rd0 t (show t < 1024 by omega), ok_rd1 t (show t + 1 < 1024 by omega)]
  simp only [State.pop2, State.pop1, absState, absStack_c2 c.stack.buf t (by omega), State.touch, State.charge]
  obtain ⟨mc, hmc, hok⟩ := memCost_ok hm (c.stack.buf t) (c.stack.buf (t + 1))
  rw [ok_memCost_eq hmc]
  cases hok with
  | tooMuch hcost hcost' hgg hsz =>
    rw [if_pos (by omega), if_pos (by omega)]
    rw [ok_pure]
    exact post_outOfGas hc.frame hcost rfl rfl
  | exact hcost hgg hsz hoff hb =>
    rw [if_neg (by omega), if_neg (by omega)]
    have hbd := exact_bound hsz hoff hb
    simp only [ok_bind]
    rw [ok_memRead_eq (writeTo_abs c.memory mc.offset mc.size hbd hm.aligned)]
    simp only [ok_modify, ok_pure]
    refine ⟨⟨⟨hc.1, hc.2, hc.3, hc.4, hc.5, hc.6⟩, rfl, rfl⟩, ?_⟩
    rw [outcome_enough _ _ (by dsimp only; omega) (by dsimp only; omega)]
    constructor
    · exact hst
    · rfl
    · rfl
    · intro w h; exact absurd h (hn w)
    · intro h; exact absurd h hns
    · intro _
      refine ⟨rfl, by dsimp only; omega, ?_, t + 2, by omega, by omega, rfl⟩
      dsimp only
      rw [(grow_abs _ _ _ hbd hm.aligned).1, exact_expand hsz hoff]
    · intro _ _
      dsimp only
      rw [exact_expand hsz hoff, exact_read hsz hoff]

theorem readTopics_ok (n : Nat) : ∀ (t : Nat) (Q : List U256 → Ctx σ → Prop), t + n ≤ 1024 →
    (Ok (Ops.readTopics n (t : Int)) c Q ↔ Q ((absStack c.stack.buf t).take n) c) := by
  induction n with
  | zero => intro t Q _; simp [Ops.readTopics, ok_pure]
  | succ n ih =>
    intro t Q h
    unfold Ops.readTopics
    simp only [ok_bind]
    rw [ok_rd t _ rfl (by omega)]
    rw [show (t : Int) + 1 = ((t + 1 : Nat) : Int) by omega, ih (t + 1) _ (by omega), ok_pure,
      absStack_cons _ t (by omega), List.take_succ_cons]

theorem log_ok (hE : EnvOk P E) (n : Nat) (hc : Fixed P c) (t g pc' : Nat) (ht : t + (n + 2) ≤ 1024)
    (hm : MemOk c g) :
    Ok (Ops.log E n t g) c (Post P c pc' g ((t : Int) + (n + 2)) (log P n (absState c t g pc'))) := by
  unfold Ops.log log
  simp only [ok_bind, ok_rd0 t (show t < 1024 by omega), ok_rd1 t (show t + 1 < 1024 by omega)]
  simp only [State.pop2, State.pop1, absState, absStack_c2 c.stack.buf t (by omega), State.touch, State.charge, absStack_drop]
  obtain ⟨mc, hmc, hok⟩ := memCost_ok hm (c.stack.buf t) (c.stack.buf (t + 1))
  rw [ok_memCost_eq hmc]
  have h54 : g ≤ 2 ^ 54 := by have := hm.gas; omega
  cases hok with
  | tooMuch hcost hcost' hgg hsz =>
    rw [if_pos (by omega), if_pos (by omega)]
    rw [ok_pure]
    exact post_outOfGas hc.frame hcost rfl rfl
  | exact hcost hgg hsz hoff hb =>
    have hsm := exact_small hb
    have hbd := exact_bound hsz hoff hb
    rw [if_neg (by omega)]
    simp only [ok_bind]
    rw [show (t : Int) + 2 = ((t + 2 : Nat) : Int) by omega, readTopics_ok n (t + 2) _ (by omega)]
    have h8 : toInt64 ((8 * mc.size) % u64Mod) = ((8 * (c.stack.buf (t + 1)).toNat : Nat) : Int) := by
      rw [hsz]
      unfold u64Mod
      rw [Nat.mod_eq_of_lt (by omega), toInt64_small _ (by omega)]
    rw [h8, ok_chk64 _ (by unfold int64Min int64Max; omega)]
    split
    · rw [if_pos (by omega), ok_pure]
      exact post_outOfGas hc.frame (by dsimp only; omega) rfl rfl
    · rw [if_neg (by omega)]
      simp only [ok_bind, ok_getSpan]
      rw [ok_readSpan (readSpan_grow _ _ _ hbd hm.aligned), exact_expand hsz hoff, exact_read hsz hoff,
        ok_get]
      simp only [ok_host, ok_pure]
      refine ⟨⟨⟨hc.1, hc.2, hc.3, hc.4, hc.5, hc.6⟩, rfl, rfl⟩, ?_⟩
      rw [outcome_enough _ _ (by dsimp only; omega) (by dsimp only; omega)]
      refine rel_running (t + (n + 2)) rfl rfl ?_ rfl ?_ ?_ (by omega) (by omega) ?_ rfl
      · dsimp only; rw [hE.host, hc.msg]
      · dsimp only; omega
      · dsimp only
        rw [(grow_abs _ _ _ hbd hm.aligned).1, exact_expand hsz hoff]
      · dsimp only; congr 1; omega

end Tosca.Proofs

import Verif.Proofs.CtOps3

/-!
# Rules of instructions that use memory
-/

namespace Tosca.Proofs.Ct

open Tosca.Spec Tosca.Spec.Go Tosca.Go Tosca.Model.Go Tosca.Model.Ct Tosca.Proofs.Lfvm
open Tosca.Model.Lfvm (isUint64 uint64 ofU64 bytes20 bytes32 ofBytes20 setBytes)

variable {c : S} {t : State World} {keccak : List Byte → U256} {off n : U256} {cost : Int} {o s : BitVec 64}

theorem range_read (h : Ok c) (hb : Bounded c) (hr : Range off n o s) :
    readMem c.memory o s = some ((memOf c.memory).read off.toNat n.toNat, grow c.memory o s) := read_ok (bounded_length hb) h.memory hr.size hr.pos

theorem range_grow (h : Ok c) (hb : Bounded c) (hr : Range off n o s) : (grow c.memory o s).length % 32 = 0 ∧
    (grow c.memory o s).length = (memOf c.memory).sizeAfter off.toNat n.toNat ∧ memOf (grow c.memory o s) = (memOf c.memory).expand off.toNat n.toNat :=
  grow_ok (bounded_length hb) h.memory hr.size hr.pos

theorem range_write (h : Ok c) (hb : Bounded c) (hr : Range off n o s) {data : List Byte} (hd : data.length = n.toNat) :
    ∃ m', writeMem c.memory data o = some m' ∧ m'.length % 32 = 0 ∧ memOf m' = ((memOf c.memory).expand off.toNat n.toNat).write off.toNat data := by
  obtain ⟨m', h1, h2, h3, h4⟩ := write_ok (m := c.memory) (o := o) (off := off.toNat) (data := data) (bounded_length hb) h.memory (by rw [hd]; exact hr.pos)
  exact ⟨m', h1, h2, by rw [h4, hd]⟩

theorem ok_mem (h : Ok c) {m : List Byte} (hm : m.length % 32 = 0) : Ok { c with memory := m } := ⟨h.status, h.result, hm, h.gas, h.refund⟩

/-- The price per word. -/
theorem range_words (hr : Range off n o s) {k : Nat} (hk : k ≤ 8) (kb : BitVec 64) (e : kb.toNat = k) :
    s64 (kb * Model.Go.sizeInWords s) = ((k * words n.toNat : Nat) : Int) ∧ k * words n.toNat < 2 ^ 60 := by
  have hn := range_small hr
  have hw : words n.toNat ≤ 2 ^ 25 := by unfold words; omega
  have h1 : k * words n.toNat ≤ 8 * 2 ^ 25 := Nat.mul_le_mul hk hw
  have h2 : (kb * Model.Go.sizeInWords s).toNat = k * words n.toNat := by
    rw [BitVec.toNat_mul, sizeInWords_eq, hr.size, e]
    exact Nat.mod_eq_of_lt (by omega)
  exact ⟨by rw [s64_small _ (by omega), h2], by omega⟩

/-- Going on with memory grown. -/
theorem frame_grow (h : Ok c) (hb : Bounded c) (hr : Range off n o s) (g : Nat) :
    frameState { less c g with memory := grow c.memory o s } = { frameState (less c g) with mem := (memOf c.memory).expand off.toNat n.toNat } :=
  frame_mem (c := less c g) (range_grow h hb hr).2.2

theorem sounds_sha3 : Sounds keccak (sha3 keccak) := by
  unfold sha3
  refine sounds_simple (I := .sha3) rfl rfl rfl rfl rfl (by decide) (by decide) (by show (0x20 : Nat) ≠ 0; decide) (fun x c rev _ _ => always rfl rfl x rev) ?_
  intro x c rev hat hk hs hok hb
  obtain ⟨a, b, r, hst⟩ := stack2 hs
  have hst' : (next c (Instr.baseGas .sha3)).stack = a :: b :: r := hst
  show Does _ ((frameState (next c (Instr.baseGas .sha3))).pop2 fun off n s => s.touch off n (6 * words n.toNat) fun s => s.push (keccak (s.mem.read off.toNat n.toNat)))
  generalize next c (Instr.baseGas .sha3) = c1 at *
  rw [pop2_eq hst']
  simp only [pop_eq hst', pop_mk, Option.bind_eq_bind, Option.bind_some]
  have hok1 := ok_stack hok r
  have hb1 : Bounded { c1 with stack := r } := hb
  rcases hE : expansionCosts c1.memory a b with ⟨cost, o, s⟩
  refine does_mem_two hok1 hb1 hE (fun hr => (range_words (k := 6) hr (by omega) 6 rfl).1) ?_
  intro hr g _ _ hok2
  have hh := hash_ok (keccak := keccak) (bounded_length hb1) hok1.memory hr.size hr.pos
  simp only [hh, Option.bind_some]
  rw [← frame_grow hok1 hb1 hr g]
  exact does_push (ok_mem hok2 (range_grow hok1 hb1 hr).1) rfl

theorem sounds_mload : Sounds keccak mload := by
  unfold mload
  refine sounds_simple (I := .mload) rfl rfl rfl rfl rfl (by decide) (by decide) (by decide) (fun x c rev _ _ => always rfl rfl x rev) ?_
  intro x c rev hat hk hs hok hb
  obtain ⟨a, r, hst⟩ := stack1 hs
  have hst' : (next c (Instr.baseGas .mload)).stack = a :: r := hst
  show Does _ ((frameState (next c (Instr.baseGas .mload))).pop1 fun off s => s.touch off 32 0 fun s => s.push (Word.ofBytes (s.mem.read off.toNat 32)))
  generalize next c (Instr.baseGas .mload) = c1 at *
  rw [pop1_eq hst']
  simp only [pop_eq hst', Option.bind_eq_bind, Option.bind_some]
  have hok1 := ok_stack hok r
  have hb1 : Bounded { c1 with stack := r } := hb
  rcases hE : expansionCosts c1.memory a 32 with ⟨cost, o, s⟩
  refine does_mem hok1 hb1 hE ?_
  intro hr g _ _ hok2
  have e32 : s = 32 := BitVec.eq_of_toNat_eq hr.size
  subst e32
  simp only [range_read hok1 hb1 hr, Option.bind_some]
  have e := frame_grow hok1 hb1 hr g
  have e' : (32 : U256).toNat = 32 := by decide
  rw [e'] at e ⊢
  rw [← e]
  refine does_push (ok_mem hok2 (range_grow hok1 hb1 hr).1) ?_
  rw [l_setBytes]
  rfl

theorem sounds_mstore : Sounds keccak mstore := by
  unfold mstore
  refine sounds_simple (I := .mstore) rfl rfl rfl rfl rfl (by decide) (by decide) (by decide) (fun x c rev _ _ => always rfl rfl x rev) ?_
  intro x c rev hat hk hs hok hb
  obtain ⟨a, b, r, hst⟩ := stack2 hs
  have hst' : (next c (Instr.baseGas .mstore)).stack = a :: b :: r := hst
  show Does _ ((frameState (next c (Instr.baseGas .mstore))).pop2 fun off v s => s.touch off 32 0 fun s => { s with mem := s.mem.write off.toNat (Word.toBytes v) })
  generalize next c (Instr.baseGas .mstore) = c1 at *
  rw [pop2_eq hst']
  simp only [pop_eq hst', pop_mk, Option.bind_eq_bind, Option.bind_some]
  have hok1 := ok_stack hok r
  have hb1 : Bounded { c1 with stack := r } := hb
  rcases hE : expansionCosts c1.memory a 32 with ⟨cost, o, s⟩
  refine does_mem hok1 hb1 hE ?_
  intro hr g _ _ hok2
  obtain ⟨m', h1, h2, h3⟩ := range_write hok1 hb1 hr (data := bytes32 b) (by unfold bytes32; simp)
  simp only [h1, Option.bind_some]
  refine does_next (ok_mem hok2 h2) ?_
  rw [frame_mem (c := less { c1 with stack := r } g) h3, l_bytes32]

theorem sounds_mstore8 : Sounds keccak mstore8 := by
  unfold mstore8
  refine sounds_simple (I := .mstore8) rfl rfl rfl rfl rfl (by decide) (by decide) (by decide) (fun x c rev _ _ => always rfl rfl x rev) ?_
  intro x c rev hat hk hs hok hb
  obtain ⟨a, b, r, hst⟩ := stack2 hs
  have hst' : (next c (Instr.baseGas .mstore8)).stack = a :: b :: r := hst
  show Does _ ((frameState (next c (Instr.baseGas .mstore8))).pop2 fun off v s => s.touch off 1 0 fun s => { s with mem := s.mem.write off.toNat [BitVec.ofNat 8 v.toNat] })
  generalize next c (Instr.baseGas .mstore8) = c1 at *
  rw [pop2_eq hst']
  simp only [pop_eq hst', pop_mk, Option.bind_eq_bind, Option.bind_some]
  have hok1 := ok_stack hok r
  have hb1 : Bounded { c1 with stack := r } := hb
  rcases hE : expansionCosts c1.memory a 1 with ⟨cost, o, s⟩
  refine does_mem hok1 hb1 hE ?_
  intro hr g _ _ hok2
  obtain ⟨m', h1, h2, h3⟩ := range_write hok1 hb1 hr (data := [(bytes32 b).getD 31 0]) rfl
  simp only [h1, Option.bind_some]
  refine does_next (ok_mem hok2 h2) ?_
  rw [frame_mem (c := less { c1 with stack := r } g) h3]
  have e : (bytes32 b).getD 31 0 = BitVec.ofNat 8 b.toNat := by
    rw [l_bytes32]
    unfold Word.toBytes
    rw [List.getD_eq_getElem?_getD, List.getElem?_map, List.getElem?_range (by omega)]
    simp
  rw [e]

/-! ## Ending with data -/

theorem sounds_halt {op : Nat} {st : CtStatus} {I : Instr} {fin : Status} (hd : decode op = some I) (hp : I.pops = 2) (hq : I.pushes = 0) (hg : I.baseGas = 0)
    (hl : I.length = 1) (hne : I ≠ .sstore) (ho : op ≠ 0) (h1 : I.since = 0) (h2 : I.writes = false)
    (he : ∀ (P : Params World) at_ s, exec P at_ I s = halt fin s) (hf : (fin = .returned ∧ st = .stopped) ∨ (fin = .reverted ∧ st = .reverted)) :
    Sounds keccak (haltOp op st) := by
  unfold haltOp
  refine sounds_simple (I := I) hd hp.symm hq.symm (by rw [hg]; rfl) hl (by omega) hne ho (fun x c rev _ _ => always h1 h2 x rev) ?_
  intro x c rev hat hk hs hok hb
  rw [hp] at hs
  obtain ⟨a, b, r, hst⟩ := stack2 hs
  have hst' : (next c I.baseGas).stack = a :: b :: r := hst
  rw [he]
  unfold halt
  generalize next c I.baseGas = c1 at *
  rw [pop2_eq hst']
  simp only [pop_eq hst', pop_mk, Option.bind_eq_bind, Option.bind_some]
  have hok1 := ok_stack hok r
  have hb1 : Bounded { c1 with stack := r } := hb
  rcases hE : expansionCosts c1.memory a b with ⟨cost, o, s⟩
  refine does_mem hok1 hb1 hE ?_
  intro hr g hle _ hok2
  simp only [range_read hok1 hb1 hr, Option.bind_some]
  have e1 : c1.gas - (g : Int) = ((c1.gas - (g : Int)).toNat : Int) := by have := hok2.gas; dsimp only [less] at this; omega
  have e2 : c1.refund = i64 c1.refund := (i64_refund hok).symm
  rcases hf with ⟨rfl, rfl⟩ | ⟨rfl, rfl⟩
  · exact ⟨_, rfl, rfl, e1, e2, rfl, rfl⟩
  · exact ⟨_, rfl, rfl, e1, e2, rfl, rfl⟩

/-! ## Copying -/

theorem slice_length (l : List Byte) (a b : Nat) : (slice l a b).length = b := by unfold slice; simp

theorem slice_get (l : List Byte) (a b i : Nat) (h : i < (slice l a b).length) : (slice l a b)[i] = byteAt l (a + i) := by simp [slice]

theorem sub_slice {l : List Byte} {a b k : Nat} (h1 : a ≤ b) (h2 : b ≤ l.length) (h3 : b = l.length ∨ b = a + k) (h4 : b ≤ a + k) :
    ∃ d, Model.Ct.sub l a b = some d ∧ rightPad d k = slice l a k := by
  unfold Model.Ct.sub
  rw [if_pos ⟨h1, h2⟩]
  refine ⟨_, rfl, ?_⟩
  unfold rightPad
  have hl : ((l.drop a).take (b - a)).length = b - a := by simp; omega
  apply List.ext_getElem
  · rw [slice_length, List.length_append, List.length_take, List.length_replicate, hl]
    omega
  · intro i h5 h6
    rw [slice_get]
    rw [slice_length] at h6
    unfold byteAt
    rw [List.getD_eq_getElem?_getD]
    by_cases hi : i < b - a
    · rw [List.getElem_append_left (by rw [List.length_take, hl]; omega), List.getElem_take, List.getElem_take, List.getElem_drop,
        List.getElem?_eq_getElem (by omega)]
      rfl
    · rw [List.getElem_append_right (by rw [List.length_take, hl]; omega), List.getElem_replicate]
      have : l.length ≤ a + i := by omega
      rw [List.getElem?_eq_none this]
      rfl

theorem copySource_ok {source : List Byte} (hs : source.length < 2 ^ 63) {offset : U256} {size : BitVec 64} (hz : size.toNat ≤ 2 ^ 30) :
    ∃ d, copySource source offset size = some d ∧ rightPad d size.toNat = slice source offset.toNat size.toNat := by
  unfold copySource
  have hlen : (BitVec.ofNat 64 source.length).toNat = source.length := by rw [BitVec.toNat_ofNat]; omega
  dsimp only
  by_cases hfar : offset.toNat > (BitVec.ofNat 64 source.length).toNat
  · rw [if_pos hfar]
    rw [hlen] at hfar
    have e : (if BitVec.ofNat 64 source.length + size ≤ BitVec.ofNat 64 source.length then BitVec.ofNat 64 source.length + size else BitVec.ofNat 64 source.length).toNat = source.length := by
      split
      · rename_i h
        have h' : (BitVec.ofNat 64 source.length + size).toNat ≤ (BitVec.ofNat 64 source.length).toNat := h
        rw [BitVec.toNat_add, hlen] at h' ⊢
        omega
      · exact hlen
    rw [e, hlen]
    obtain ⟨d, h1, h2⟩ := sub_slice (l := source) (a := source.length) (b := source.length) (k := size.toNat) (Nat.le_refl _) (Nat.le_refl _) (.inl rfl) (by omega)
    refine ⟨d, h1, ?_⟩
    rw [h2]
    apply List.ext_getElem
    · rw [slice_length, slice_length]
    · intro i h3 h4
      rw [slice_get, slice_get]
      unfold byteAt
      rw [List.getD_eq_getElem?_getD, List.getD_eq_getElem?_getD, List.getElem?_eq_none (by omega), List.getElem?_eq_none (by omega)]
  · rw [if_neg hfar]
    rw [hlen] at hfar
    have eo : (uint64 offset).toNat = offset.toNat := by rw [uint64_toNat]; omega
    have ea : (uint64 offset + size).toNat = offset.toNat + size.toNat := by rw [BitVec.toNat_add, eo]; omega
    have e : (if uint64 offset + size ≤ BitVec.ofNat 64 source.length then uint64 offset + size else BitVec.ofNat 64 source.length).toNat =
        if offset.toNat + size.toNat ≤ source.length then offset.toNat + size.toNat else source.length := by
      have hiff : uint64 offset + size ≤ BitVec.ofNat 64 source.length ↔ offset.toNat + size.toNat ≤ source.length := by
        show (uint64 offset + size).toNat ≤ (BitVec.ofNat 64 source.length).toNat ↔ _
        rw [ea, hlen]
      by_cases hc : offset.toNat + size.toNat ≤ source.length
      · rw [if_pos (hiff.2 hc), if_pos hc, ea]
      · rw [if_neg (fun h => hc (hiff.1 h)), if_neg hc, hlen]
    rw [e, eo]
    refine sub_slice ?_ ?_ ?_ ?_ <;> split <;> omega

theorem rightPad_length (l : List Byte) (k : Nat) (h : l.length ≤ k) : (rightPad l k).length = k := by
  unfold rightPad
  rw [List.length_append, List.length_take, List.length_replicate]
  omega

theorem sounds_copy {op : Nat} {I : Instr} {src : Model.Ct.Fixed → List Byte} (hd : decode op = some I) (hp : I.pops = 3) (hq : I.pushes = 0) (hg : I.baseGas = 3)
    (hl : I.length = 1) (hne : I ≠ .sstore) (ho : op ≠ 0) (h1 : I.since = 0) (h2 : I.writes = false)
    (hs63 : ∀ x c, InScope x c → (src x).length < 2 ^ 63)
    (he : ∀ x c rev at_ s, exec (testFrame keccak x c rev) at_ I s = Spec.copyOp (src x) s) : Sounds keccak (Model.Ct.copyOp op src) := by
  unfold Model.Ct.copyOp
  refine sounds_simple (I := I) hd hp.symm hq.symm (by rw [hg]; rfl) hl (by omega) hne ho (fun x c rev _ _ => always h1 h2 x rev) ?_
  intro x c rev hat hk hs hok hb
  rw [hp] at hs
  obtain ⟨a, b, d, r, hst⟩ := stack3 hs
  have hst' : (next c I.baseGas).stack = a :: b :: d :: r := hst
  rw [he]
  unfold Spec.copyOp
  generalize next c I.baseGas = c1 at *
  rw [pop3_eq hst']
  simp only [pop_eq hst', pop_mk, Option.bind_eq_bind, Option.bind_some]
  have hok1 := ok_stack hok r
  have hb1 : Bounded { c1 with stack := r } := hb
  rcases hE : expansionCosts c1.memory a d with ⟨cost, o, s⟩
  refine does_mem_sum hok1 hb1 hE (fun hr => range_words (k := 3) hr (by omega) 3 rfl) ?_
  intro hr g hle _ hok2
  obtain ⟨q, e1, e2⟩ := copySource_ok (hs63 x c hat.scope) (offset := b) (size := s) (by rw [hr.size]; exact range_small hr)
  simp only [e1, Option.bind_some, e2]
  obtain ⟨m', h1, h2, h3⟩ := range_write hok1 hb1 hr (data := slice (src x) b.toNat s.toNat) (by rw [slice_length, hr.size])
  simp only [h1, Option.bind_some]
  refine does_next (ok_mem hok2 h2) ?_
  rw [frame_mem (c := less { c1 with stack := r } g) h3, hr.size]

theorem sounds_codecopy : Sounds keccak (Model.Ct.copyOp 0x39 fun x => x.code) :=
  sounds_copy (I := .codecopy) rfl rfl rfl rfl rfl (by decide) (by decide) rfl rfl (fun x c h => by have := h.code; omega) (fun _ _ _ _ _ => rfl)

theorem sounds_calldatacopy : Sounds keccak (Model.Ct.copyOp 0x37 fun x => x.callData) :=
  sounds_copy (I := .calldatacopy) rfl rfl rfl rfl rfl (by decide) (by decide) rfl rfl (fun x c h => h.input) (fun _ _ _ _ _ => rfl)

theorem sounds_calldataload : Sounds keccak calldataload := by
  unfold calldataload
  refine sounds_simple (I := .calldataload) rfl rfl rfl rfl rfl (by decide) (by decide) (by decide) (fun x c rev _ _ => always rfl rfl x rev) ?_
  intro x c rev hat hk hs hok hb
  obtain ⟨a, r, hst⟩ := stack1 hs
  have hst' : (next c (Instr.baseGas .calldataload)).stack = a :: r := hst
  have hin := hat.scope.input
  show Does _ ((frameState (next c (Instr.baseGas .calldataload))).pop1 fun off s => s.push (Word.ofBytes (slice x.callData off.toNat 32)))
  generalize next c (Instr.baseGas .calldataload) = c1 at *
  rw [pop1_eq hst']
  simp only [pop_eq hst', Option.bind_eq_bind, Option.bind_some]
  have hok1 := ok_stack hok r
  by_cases hu : isUint64 a = true
  · rw [if_pos hu]
    have hlt := (isUint64_iff a).1 hu
    obtain ⟨d, e1, e2⟩ := copySource_ok hin (offset := a) (size := 32) (by decide)
    unfold copySource at e1
    have hlen : (BitVec.ofNat 64 x.callData.length).toNat = x.callData.length := by rw [BitVec.toNat_ofNat]; omega
    have hc : (uint64 a > BitVec.ofNat 64 x.callData.length) ↔ a.toNat > (BitVec.ofNat 64 x.callData.length).toNat := by
      show (BitVec.ofNat 64 x.callData.length).toNat < (uint64 a).toNat ↔ _
      rw [uint64_toNat, Nat.mod_eq_of_lt hlt]
    simp only [hc, e1, Option.bind_some]
    refine does_push hok1 ?_
    rw [l_setBytes]
    exact congrArg _ e2
  · rw [if_neg hu]
    have hge := (isUint64_false a).1 (by simpa using hu)
    refine does_push hok1 ?_
    have : slice x.callData a.toNat 32 = List.replicate 32 0 := by
      apply List.ext_getElem
      · rw [slice_length, List.length_replicate]
      · intro i h3 h4
        rw [slice_get, List.getElem_replicate]
        unfold byteAt
        rw [List.getD_eq_getElem?_getD, List.getElem?_eq_none (by omega)]
        rfl
    rw [this]
    decide

theorem sounds_returndatacopy : Sounds keccak returndatacopy := by
  unfold Model.Ct.returndatacopy
  refine sounds_simple (I := .returndatacopy) rfl rfl rfl rfl rfl (by decide) (by decide) (by decide) (fun x c rev _ _ => always rfl rfl x rev) ?_
  intro x c rev hat hk hs hok hb
  obtain ⟨a, b, d, r, hst⟩ := stack3 hs
  have hst' : (next c (Instr.baseGas .returndatacopy)).stack = a :: b :: d :: r := hst
  have hlen0 : (next c (Instr.baseGas .returndatacopy)).lastCallReturnData.length < 2 ^ 63 := hat.scope.returned
  show Does _ (Spec.returndatacopy (frameState (next c (Instr.baseGas .returndatacopy))))
  unfold Spec.returndatacopy
  generalize next c (Instr.baseGas .returndatacopy) = c1 at *
  rw [pop3_eq hst']
  simp only [pop_eq hst', pop_mk, Option.bind_eq_bind, Option.bind_some]
  have hok1 := ok_stack hok r
  have hb1 : Bounded { c1 with stack := r } := hb
  have hlen : (BitVec.ofNat 64 c1.lastCallReturnData.length).toNat = c1.lastCallReturnData.length := by rw [BitVec.toNat_ofNat]; omega
  have hiff : (isUint64 b = false ∨ isUint64 d = false ∨ uint64 b + uint64 d < uint64 b ∨ uint64 b + uint64 d > BitVec.ofNat 64 c1.lastCallReturnData.length) ↔
      b.toNat + d.toNat > c1.lastCallReturnData.length := by
    rw [isUint64_false, isUint64_false]
    show _ ∨ _ ∨ (uint64 b + uint64 d).toNat < (uint64 b).toNat ∨ (BitVec.ofNat 64 c1.lastCallReturnData.length).toNat < (uint64 b + uint64 d).toNat ↔ _
    rw [BitVec.toNat_add, uint64_toNat, uint64_toNat, hlen]
    omega
  by_cases hbad : b.toNat + d.toNat > c1.lastCallReturnData.length
  · rw [if_pos (hiff.2 hbad)]
    refine does_failed ?_
    unfold State.touch State.charge
    split
    · exact failed_fail _ _
    · show Failed (if b.toNat + d.toNat > c1.lastCallReturnData.length then State.fail _ _ else _)
      rw [if_pos (show b.toNat + d.toNat > c1.lastCallReturnData.length from hbad)]
      exact failed_fail _ _
  · rw [if_neg (fun h => hbad (hiff.1 h))]
    rcases hE : expansionCosts c1.memory a d with ⟨cost, o, s⟩
    refine does_mem_sum hok1 hb1 hE (fun hr => range_words (k := 3) hr (by omega) 3 rfl) ?_
    intro hr g hle _ hok2
    show Does _ (if b.toNat + d.toNat > c1.lastCallReturnData.length then State.fail _ _ else _)
    rw [if_neg hbad]
    have eb : (uint64 b).toNat = b.toNat := by rw [uint64_toNat]; omega
    have ed : (uint64 d).toNat = d.toNat := by rw [uint64_toNat]; omega
    have es : (uint64 b + uint64 d).toNat = b.toNat + d.toNat := by rw [BitVec.toNat_add, eb, ed]; omega
    have e1 : Model.Ct.sub c1.lastCallReturnData (uint64 b).toNat (uint64 b + uint64 d).toNat = some (slice c1.lastCallReturnData b.toNat d.toNat) := by
      rw [es, eb]
      unfold Model.Ct.sub
      rw [if_pos (by omega)]
      congr 1
      apply List.ext_getElem
      · rw [slice_length, List.length_take, List.length_drop]; omega
      · intro i h5 h6
        rw [slice_length] at h6
        rw [slice_get, List.getElem_take, List.getElem_drop]
        unfold byteAt
        rw [List.getD_eq_getElem?_getD, List.getElem?_eq_getElem (by omega)]
        rfl
    simp only [e1, Option.bind_some]
    obtain ⟨m', h1, h2, h3⟩ := range_write hok1 hb1 hr (data := slice c1.lastCallReturnData b.toNat d.toNat) (by rw [slice_length])
    simp only [h1, Option.bind_some]
    refine does_next (ok_mem hok2 h2) ?_
    rw [frame_mem (c := less { c1 with stack := r } g) h3]
    rfl

end Tosca.Proofs.Ct

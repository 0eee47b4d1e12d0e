import Verif.Proofs.LfvmConv

/-!
# The long-form EVM: PUSH1 to PUSH32
-/

namespace Tosca.Proofs.Lfvm

open Tosca.Spec Tosca.Spec.Go Tosca.Go Tosca.Model.Go Tosca.Model.Lfvm

variable {ω : Type} {E : Env ω} {rev : Revision} {p : Int} {q k : Nat} {l : St ω} {s : State ω}

section
variable {C : Code} {j n : Nat} {code : List Byte} {off : Nat}

theorem arg_hi (hk : ∀ k, k < n → packedByte (C.drop j) k = byteAt code (off + k)) {i : Nat} (hi : 2 * i < n) :
    (C.getD (j + i) {}).arg.toNat / 256 = (byteAt code (off + 2 * i)).toNat := by
  have h := hk (2 * i) hi
  rw [packedByte_drop, if_pos (by omega), show 2 * i / 2 = i by omega] at h
  rw [← h, BitVec.toNat_setWidth, BitVec.toNat_ushiftRight, Nat.shiftRight_eq_div_pow]
  have := (C.getD (j + i) {}).arg.isLt
  omega

theorem arg_all (hk : ∀ k, k < n → packedByte (C.drop j) k = byteAt code (off + k)) {i : Nat} (hi : 2 * i + 1 < n) :
    (C.getD (j + i) {}).arg.toNat = 256 * (byteAt code (off + 2 * i)).toNat + (byteAt code (off + 2 * i + 1)).toNat := by
  have h1 := arg_hi hk (i := i) (by omega)
  have h := hk (2 * i + 1) hi
  rw [packedByte_drop, if_neg (by omega), show (2 * i + 1) / 2 = i by omega] at h
  have h2 : (byteAt code (off + 2 * i + 1)).toNat = (C.getD (j + i) {}).arg.toNat % 256 := by
    rw [Nat.add_assoc, ← h, BitVec.toNat_setWidth]
  omega

theorem be_two (code : List Byte) (off m : Nat) : Word.beNat (slice code off (m + 2)) =
    (256 * (byteAt code off).toNat + (byteAt code (off + 1)).toNat) * 256 ^ m + Word.beNat (slice code (off + 2) m) := by
  rw [show m + 2 = m + 1 + 1 from rfl, slice_succ, slice_succ, beNat_cons, beNat_cons, List.length_cons, slice_length, Nat.pow_succ, Nat.add_mul,
    ← Nat.add_assoc]
  congr 2
  rw [Nat.mul_comm (256 ^ m) 256, ← Nat.mul_assoc, Nat.mul_comm 256]

theorem be_one (code : List Byte) (off : Nat) : Word.beNat (slice code off 1) = (byteAt code off).toNat := by
  rw [slice_succ, beNat_cons]; simp [slice, Word.beNat]

/-- Two more bytes, by the argument that holds them. -/
theorem be_arg (hk : ∀ k, k < n → packedByte (C.drop j) k = byteAt code (off + k)) {i m : Nat} (hi : 2 * i + 1 < n) :
    Word.beNat (slice code (off + 2 * i) (m + 2)) =
      (C.getD (j + i) {}).arg.toNat * 256 ^ m + Word.beNat (slice code (off + 2 * (i + 1)) m) := by
  rw [be_two, arg_all hk hi]
  rfl

end

theorem or16 (w : BitVec 64) (a : BitVec 16) : ((w <<< 16) ||| a.setWidth 64).toNat = (w.toNat * 65536 + a.toNat) % 2 ^ 64 := by
  have ha : a.toNat < 2 ^ 16 := a.isLt
  have hor : (w <<< 16 ||| a.setWidth 64) = w <<< 16 + a.setWidth 64 := by
    rw [BitVec.add_eq_or_of_and_eq_zero]
    apply BitVec.eq_of_getLsbD_eq
    intro i hi
    rw [BitVec.getLsbD_and, BitVec.getLsbD_shiftLeft, BitVec.getLsbD_setWidth]
    by_cases h8 : i < 16
    · simp [h8]
    · simp [BitVec.getLsbD_of_ge a i (by omega)]
  rw [hor, BitVec.toNat_add, BitVec.toNat_shiftLeft, Nat.shiftLeft_eq, BitVec.toNat_setWidth]
  omega

theorem quad_toNat (a b c d : BitVec 16) :
    ((a.setWidth 64 <<< 48 : BitVec 64) ||| (b.setWidth 64 <<< 32) ||| (c.setWidth 64 <<< 16) ||| d.setWidth 64).toNat =
      a.toNat * 2 ^ 48 + b.toNat * 2 ^ 32 + c.toNat * 2 ^ 16 + d.toNat := by
  have e : ((a.setWidth 64 <<< 48 : BitVec 64) ||| (b.setWidth 64 <<< 32) ||| (c.setWidth 64 <<< 16) ||| d.setWidth 64) =
      ((((((a.setWidth 64 : BitVec 64) <<< 16) ||| b.setWidth 64) <<< 16) ||| c.setWidth 64) <<< 16) ||| d.setWidth 64 := by
    rw [BitVec.shiftLeft_or_distrib, BitVec.shiftLeft_or_distrib, BitVec.shiftLeft_or_distrib, ← BitVec.shiftLeft_add, ← BitVec.shiftLeft_add, ← BitVec.shiftLeft_add]
  have h1 := a.isLt
  have h2 := b.isLt
  have h3 := c.isLt
  have h4 := d.isLt
  rw [e, or16, or16, or16, BitVec.toNat_setWidth]
  omega

theorem append64 {n : Nat} (x : BitVec n) (y : BitVec 64) : (x ++ y).toNat = x.toNat * 2 ^ 64 + y.toNat := by
  rw [BitVec.toNat_append, ← Nat.shiftLeft_add_eq_or_of_lt y.isLt, Nat.shiftLeft_eq]

theorem or_hi (w : BitVec 64) (a : BitVec 16) : ((w <<< 8) ||| (a >>> 8).setWidth 64).toNat = (w.toNat * 256 + a.toNat / 256) % 2 ^ 64 := by
  have e : ((a >>> 8).setWidth 64 : BitVec 64) = (((a >>> 8).setWidth 8 : BitVec 8)).setWidth 64 := by
    apply BitVec.eq_of_toNat_eq
    simp only [BitVec.toNat_setWidth, BitVec.toNat_ushiftRight, Nat.shiftRight_eq_div_pow]
    have := a.isLt
    omega
  rw [e, or_byte64]
  simp only [BitVec.toNat_setWidth, BitVec.toNat_ushiftRight, Nat.shiftRight_eq_div_pow]
  have := a.isLt
  omega

theorem ofBytes_eq {v : U256} {l : List Byte} (h : v.toNat = Word.beNat l) : v = Word.ofBytes l := by
  apply BitVec.eq_of_toNat_eq
  unfold Word.ofBytes
  rw [ofN_toNat, ← h, Nat.mod_eq_of_lt v.isLt]

theorem rel_lpc (p' : Int) (h : Rel k p q l s) : Rel k p' q { l with pc := p' } s :=
  ⟨h.status, rfl, h.pc', h.gas, h.refund, h.sp, h.stack, h.limit, h.size, h.mem, h.aligned, h.cost, h.ret, h.retLen, h.world, h.bound⟩

theorem match_lpc (p' : Int) (h : Match p q l s) : Match p' q { l with pc := p' } s :=
  ⟨h.status, rfl, h.pc', h.gas, h.refund, h.sp, h.stack, h.limit, h.size, h.mem, h.aligned, h.cost, h.ret, h.world⟩

theorem codeSlice_ok {j n : Nat} (hp : l.pc = j) (h : j + n ≤ E.code.length) :
    (codeSlice E n : M ω _) l = .ok ((E.code.drop j).take n) l := by
  unfold codeSlice
  rw [bind_ok (show (getSt : M ω _) l = .ok l l from rfl)]
  rw [hp, if_pos (by omega)]
  rfl

theorem argAt_ok {j : Nat} {ins : Instruction} (hp : l.pc = j) (hi : E.code[j]? = some ins) : (argAt E 0 : M ω _) l = .ok ins.arg l := by
  unfold argAt
  rw [bind_ok (instrAt_ok hp hi)]
  rfl

theorem take_getD {C : Code} {j num i : Nat} (hi : i < num) : ((C.drop j).take num).getD i {} = C.getD (j + i) {} := by
  simp only [List.getD_eq_getElem?_getD]
  rw [List.getElem?_take_of_lt hi, List.getElem?_drop]

/-- Pushing and moving on by `d` instructions. -/
theorem sim_pushMove {v v' : U256} {d : Int} (hv : v = v') (h : Rel 0 p q l s) (hs : s.stack.length + 1 ≤ 1024) :
    Sim (Post (p + d) q) ((pushV v >>= fun _ => getSt >>= fun st => setPc (st.pc + d) : M ω Unit) l) (s.push v') := by
  refine sim_pushV' h hs fun l' h' => ?_
  rw [← hv]
  show Match _ _ _ _
  have := (rel_lpc (p + d) h').match
  rw [← h'.pc] at this ⊢
  exact this

theorem sim_pushN {n j : Nat} {code : List Byte} {ins : Instruction} (h : Rel 0 p q l s) (hs : s.stack.length + 1 ≤ 1024) (hp : p = j) (h1 : 1 ≤ n) (h2 : n ≤ 32)
    (hi : E.code[j]? = some ins) (hlen : j + (n / 2 + n % 2) ≤ E.code.length) {off : Nat}
    (hk : ∀ k, k < n → packedByte (E.code.drop j) k = byteAt code (off + k)) :
    Sim (Done (p + ((n / 2 + n % 2 : Nat) - 1 : Int)) q) (execOp E (0x5f + n) l) (s.push (Word.ofBytes (slice code off n))) := by
  have hlp : l.pc = j := h.pc.trans hp
  have hg : E.code.getD j {} = ins := by rw [List.getD_eq_getElem?_getD, hi]; rfl
  by_cases n1 : n = 1
  · subst n1
    refine sim_runs (m := opPush1 E) ?_
    unfold opPush1
    rw [bind_ok (argAt_ok hlp hi)]
    have := arg_hi hk (i := 0) (by omega)
    rw [show j + 0 = j from rfl, hg, show off + 2 * 0 = off from rfl] at this
    have e : ofU64 ((ins.arg >>> 8).setWidth 64) = Word.ofBytes (slice code off 1) := by
      apply ofBytes_eq
      rw [ofU64_toNat, BitVec.toNat_setWidth, BitVec.toNat_ushiftRight, Nat.shiftRight_eq_div_pow, be_one]
      have := ins.arg.isLt
      omega
    have := sim_push e h hs
    simpa using this
  by_cases n2 : n = 2
  · subst n2
    refine sim_runs (m := opPush2 E) ?_
    unfold opPush2
    rw [bind_ok (argAt_ok hlp hi)]
    have ha := be_arg hk (i := 0) (m := 0) (by omega)
    rw [show j + 0 = j from rfl, hg] at ha
    have e : ofU64 (ins.arg.setWidth 64) = Word.ofBytes (slice code off 2) := by
      apply ofBytes_eq
      have ha' : Word.beNat (slice code off 2) = _ := ha
      rw [ofU64_toNat, BitVec.toNat_setWidth, ha']
      have := ins.arg.isLt
      simp [slice, Word.beNat]
      omega
    have := sim_push e h hs
    simpa using this
  by_cases n3 : n = 3
  · subst n3
    refine sim_runs (m := opPush3 E) ?_
    unfold opPush3
    rw [bind_ok (codeSlice_ok hlp (by omega))]
    have ha := be_arg hk (i := 0) (m := 1) (by omega)
    have hb := arg_hi hk (i := 1) (by omega)
    refine sim_pushMove (d := 1) ?_ h hs
    apply ofBytes_eq
    have ha' : Word.beNat (slice code off 3) = _ := ha
    rw [ofU64_toNat, or_hi, ha', be_one]
    unfold arg64
    rw [take_getD (by omega), take_getD (by omega), hb, BitVec.toNat_setWidth]
    have h1 := (E.code.getD (j + 0) {}).arg.isLt
    have h2 := (byteAt code (off + 2 * 1)).isLt
    rw [Nat.zero_add]
    omega
  by_cases n4 : n = 4
  · subst n4
    refine sim_runs (m := opPush4 E) ?_
    unfold opPush4
    rw [bind_ok (codeSlice_ok hlp (by omega))]
    have ha := be_arg hk (i := 0) (m := 2) (by omega)
    have hb := be_arg hk (i := 1) (m := 0) (by omega)
    refine sim_pushMove (d := 1) ?_ h hs
    apply ofBytes_eq
    have ha' : Word.beNat (slice code off 4) = _ := ha
    have hb' : Word.beNat (slice code (off + 2 * (0 + 1)) 2) = _ := hb
    unfold arg64
    rw [ofU64_toNat, or16, ha', hb', take_getD (by omega), take_getD (by omega), BitVec.toNat_setWidth]
    have h1 := (E.code.getD (j + 0) {}).arg.isLt
    have h2 := (E.code.getD (j + 1) {}).arg.isLt
    have h3 : Word.beNat (slice code (off + 2 * (1 + 1)) 0) = 0 := rfl
    rw [h3]
    omega
  by_cases n5 : n = 32
  · subst n5
    refine sim_runs (m := opPush32 E) ?_
    unfold opPush32
    rw [bind_ok (codeSlice_ok hlp (by omega))]
    refine sim_pushMove (d := 15) ?_ h hs
    apply ofBytes_eq
    rw [append64, append64, append64]
    unfold quad arg64
    rw [quad_toNat, quad_toNat, quad_toNat, quad_toNat]
    iterate 16 rw [take_getD (by omega)]
    have e0 := be_arg hk (i := 0) (m := 30) (by omega)
    have e1 := be_arg hk (i := 1) (m := 28) (by omega)
    have e2 := be_arg hk (i := 2) (m := 26) (by omega)
    have e3 := be_arg hk (i := 3) (m := 24) (by omega)
    have e4 := be_arg hk (i := 4) (m := 22) (by omega)
    have e5 := be_arg hk (i := 5) (m := 20) (by omega)
    have e6 := be_arg hk (i := 6) (m := 18) (by omega)
    have e7 := be_arg hk (i := 7) (m := 16) (by omega)
    have e8 := be_arg hk (i := 8) (m := 14) (by omega)
    have e9 := be_arg hk (i := 9) (m := 12) (by omega)
    have e10 := be_arg hk (i := 10) (m := 10) (by omega)
    have e11 := be_arg hk (i := 11) (m := 8) (by omega)
    have e12 := be_arg hk (i := 12) (m := 6) (by omega)
    have e13 := be_arg hk (i := 13) (m := 4) (by omega)
    have e14 := be_arg hk (i := 14) (m := 2) (by omega)
    have e15 := be_arg hk (i := 15) (m := 0) (by omega)
    have ez : Word.beNat (slice code (off + 2 * (15 + 1)) 0) = 0 := rfl
    have es : Word.beNat (slice code off 32) = Word.beNat (slice code (off + 2 * 0) (30 + 2)) := rfl
    rw [es]
    simp only [Nat.reduceAdd, Nat.reducePow] at *
    omega
  · -- the general case
    have eop : execOp E (0x5f + n) = runs (opPush E n) := by
      unfold execOp
      rw [if_pos (by show 0x64 ≤ 0x5f + n ∧ 0x5f + n ≤ 0x7e; omega), show 0x5f + n - Op.PUSH1 + 1 = n from by show 0x5f + n - 0x60 + 1 = n; omega]
    rw [eop]
    refine sim_runs ?_
    unfold opPush
    rw [bind_ok (codeSlice_ok hlp hlen)]
    refine sim_pushMove (d := ((n / 2 + n % 2 : Nat) - 1 : Int)) ?_ h hs
    rw [l_setBytes]
    congr 1
    unfold slice
    apply List.map_congr_left
    intro k hk'
    rw [List.mem_range] at hk'
    rw [← hk k hk']
    unfold packedByte
    rw [take_getD (by omega), List.getD_eq_getElem?_getD, List.getD_eq_getElem?_getD, List.getElem?_drop]

end Tosca.Proofs.Lfvm

import Verif.Proofs.LfvmCt

/-!
# The long-form EVM: one step, with calls that may answer any refund
-/

namespace Tosca.Proofs.Lfvm

open Tosca.Spec Tosca.Spec.Go Tosca.Go Tosca.Model.Go Tosca.Model.Lfvm

variable {ω : Type} {E : Env ω} {rev : Revision} {code : List Byte} {C : Code}

theorem i64_twice (a : Int) : i64 (i64 a) = i64 a := by
  have := Int.bmod_add_bmod (x := a) (y := 0) (n := 2 ^ 64)
  unfold i64
  rw [Int.add_zero, Int.add_zero] at this
  exact this

theorem i64_range (a : Int) : -2 ^ 63 ≤ i64 a ∧ i64 a < 2 ^ 63 := by
  have h1 := Int.le_bmod (x := a) (m := 2 ^ 64) (by decide)
  have h2 := Int.bmod_lt (x := a) (m := 2 ^ 64) (by decide)
  unfold i64
  constructor <;> omega

/-- The frame with the refund as an `int64`. -/
def wrapped (t : State ω) : State ω := { t with refund := i64 t.refund }

theorem stepped_wrapped {st : Model.Lfvm.Status} {l : St ω} {t : State ω} (h : Stepped code C st l t) : Stepped code C st l (wrapped t) := by
  rcases h with ⟨h1, p, q, hm, L⟩ | ⟨h1, f, hf⟩ | ⟨h1, hd⟩
  · exact .inl ⟨h1, p, q, ⟨hm.status, hm.pc, hm.pc', hm.gas, hm.refund.trans (i64_twice _).symm, hm.sp, hm.stack, hm.limit, hm.size, hm.mem, hm.aligned, hm.cost, hm.ret, hm.world⟩, L⟩
  · exact .inr (.inl ⟨h1, f, hf⟩)
  · refine .inr (.inr ⟨h1, ?_⟩)
    cases st with
    | running => exact absurd rfl h1
    | failed => exact hd
    | stopped => exact ⟨hd.1, hd.2.1, hd.2.2.1, hd.2.2.2.1.trans (i64_twice _).symm, hd.2.2.2.2⟩
    | selfDestructed => exact ⟨hd.1, hd.2.1, hd.2.2.1, hd.2.2.2.1.trans (i64_twice _).symm, hd.2.2.2.2⟩
    | returned => exact ⟨hd.1, hd.2.1, hd.2.2.1, hd.2.2.2.1.trans (i64_twice _).symm, hd.2.2.2.2⟩
    | reverted => exact ⟨hd.1, hd.2.1, hd.2.2.1, hd.2.2.2.1.trans (i64_twice _).symm, hd.2.2.2.2⟩

/-- The context stepping starts with. -/
def startAt (c : CtState ω) (data : Nat → U256) (a : Nat) : St ω :=
  { pc := (a : Int), gas := c.gas, refund := c.refund, data := data, sp := (c.stack.length : Nat)
    store := c.memory ++ List.replicate (wordsOf c.memory.length * 32 - c.memory.length) 0
    memCost := (wordsOf c.memory.length * wordsOf c.memory.length / 512 + 3 * wordsOf c.memory.length : Nat)
    returnData := c.lastCallReturnData, world := c.world }

theorem stepOne_ok {keccak : List Byte → U256} {db : Db ω} {call : CallFn ω} {p : Parameters} {f : CtFound} {c : CtState ω} {rev : Revision}
    (hcall : GasKept call) (ha : AccessOk db) (hl : Lengths db) (hrun : RunOk p) (hin : p.input.length < 2 ^ 63) (hcode : p.code.length ≤ 49152)
    (hst : c.status = .running) (hpc : c.pc.toNat = p.code.length ∨ (Boundary p.code c.pc.toNat ∧ c.pc.toNat < p.code.length))
    (hg : 0 ≤ c.gas ∧ c.gas.toNat + memGas (words c.memory.length) ≤ 2 ^ 40) (hr : -2 ^ 63 ≤ c.refund ∧ c.refund < 2 ^ 63) (hs : c.stack.length ≤ 1024)
    (hret : c.lastCallReturnData.length < 2 ^ 64) (hf : StepFound keccak p f) (hrev : revisionOf p.block.revision = some rev) :
    ∃ c', stepN f db call p c 1 = some (c', none) ∧ Shows p.code c c' (wrapped (stepEip (nativeFrame keccak db call p rev) (frameState c))) := by
  have hs' := stands_frame p.code (c := c) hg.1
  obtain ⟨C, map, hC, hM, L, T, hmap⟩ := genPcMap_ok hcode
  have hcc : convertCached p.code false f.cached = some C := by
    unfold convertCached
    cases hcf : f.cached with
    | none => exact hC
    | some C' => dsimp only; rw [← hf.cached C' hcf, hC]
  have hcm : getPcMap p.code f.map = some map := by
    unfold getPcMap
    cases hcf : f.map with
    | none => exact hM
    | some m' => dsimp only; rw [← hf.map m' hcf, hM]
  obtain ⟨a, ha', La, hlt, hno⟩ := hmap.there c.pc.toNat hpc
  obtain ⟨data, hpush, hdata⟩ := pushAll_ok c.stack.reverse f.data 0 [] rfl rfl (by
    rw [List.length_reverse]
    show 0 + c.stack.length ≤ 1024
    omega)
  rw [List.length_reverse, List.reverse_reverse, List.append_nil, Nat.zero_add] at hdata
  rw [List.length_reverse, Nat.zero_add] at hpush
  have hkept : GasKept (inRange rev call) := by
    intro kind q w r w' h0 h1 hi he
    unfold inRange at he
    split at he
    · exact hcall kind q w r w' h0 h1 hi he
    · cases he
  have hE : Setup ({ db := db, call := call, params := p, code := C, hash := keccak } : Env ω) rev := ⟨hkept, hrev, hrun, ha, hl, hin⟩
  have hm := start_match (data := data) (p := a) hs' hs hdata hr
  have hsz : Spec.words (32 * Spec.words c.memory.length) = Spec.words c.memory.length := by unfold Spec.words; omega
  have hb : (frameState c).gas + memGas (Spec.words (frameState c).mem.size) ≤ 2 ^ 40 := by
    show c.gas.toNat + memGas (Spec.words (32 * Spec.words c.memory.length)) ≤ 2 ^ 40
    rw [hsz]; exact hg.2
  have hm : Match (a : Int) (frameState c).pc (startAt c data a) (frameState c) := hm
  have hrel := hm.rel hb hret
  have hsp : SpOk (startAt c data a) := by
    constructor
    · show (0 : Int) ≤ (c.stack.length : Nat); omega
    · show ((c.stack.length : Nat) : Int) ≤ 1024; omega
  have keep := keeps_stepOnce ({ db := db, call := call, params := p, code := C, hash := keccak } : Env ω) hmap.opcodes _ hsp
  have hsim := (step_ct hE rfl rfl T (by show p.code.length ≤ _; omega) hrel La).resolve_left (fun h => hno _ h.1.choose_spec)
  have hsim := hsim.2
  have hagree : stepEip (nativeFrame keccak db (inRange rev call) p rev) (frameState c) = stepEip (nativeFrame keccak db call p rev) (frameState c) := by
    have hsm : SmallAgree rev (inRange rev call) call := smallAgree_inRange call
    refine stepEip_agree (P := nativeFrame keccak db call p rev) ?_ (show c.gas.toNat ≤ 2 ^ 40 by omega)
    intro m w h0 h1 h2
    show (if m.input.length ≤ 2 ^ 30 then _ else _) = (if m.input.length ≤ 2 ^ 30 then _ else _)
    by_cases hl : m.input.length ≤ 2 ^ 30
    · rw [if_pos hl, if_pos hl, hsm (kindOf m) (paramsOf m) w ⟨⟨h0, h1⟩, fun hs hk => h2 hs (kindOf_create hk)⟩ hl]
    · rw [if_neg hl, if_neg hl]
  have hstep : ∃ st l', stepLoop ({ db := db, call := call, params := p, code := C, hash := keccak } : Env ω) 1 .running
      (startAt c data a) = some (st, l') ∧ SpOk l' ∧
      Stepped p.code C st l' (stepEip (nativeFrame keccak db call p rev) (frameState c)) := by
    rw [← hagree]
    unfold stepLoop
    rw [if_pos rfl]
    unfold executeOne
    cases e : stepOnce ({ db := db, call := call, params := p, code := C, hash := keccak } : Env ω) _ with
    | panic => rw [e] at hsim; exact hsim.elim
    | err l' =>
      rw [e] at hsim keep
      exact ⟨.failed, l', rfl, keep, .inr (.inl ⟨rfl, hsim⟩)⟩
    | ok st l' =>
      rw [e] at hsim keep
      refine ⟨st, l', rfl, keep, ?_⟩
      rcases hsim with ⟨rfl, p', q', hm', L'⟩ | ⟨hst, hd⟩
      · exact .inl ⟨rfl, p', q', hm', L'⟩
      · exact .inr (.inr ⟨hst, hd⟩)
  obtain ⟨st, l', e, hsp', hstep⟩ := hstep
  have hi := i64_range (stepEip (nativeFrame keccak db call p rev) (frameState c)).refund
  obtain ⟨c', e', hsh, _⟩ := shows_ok (c := c) hmap hcode hsp' (t := wrapped (stepEip (nativeFrame keccak db call p rev) (frameState c)))
    hi (stepped_wrapped hstep)
  refine ⟨c', ?_, hsh⟩
  have hrv : p.block.revision ≤ 5 := by
    unfold revisionOf at hrev
    split at hrev
    · omega
    · cases hrev
  unfold stepN
  rw [if_neg (by omega), if_neg (by rw [hst]; simp), hcc, hcm, hf.hash]
  dsimp only [Option.bind_some]
  rw [ha', hpush]
  dsimp only [Option.bind_some]
  rw [BitVec.toNat_ofNat, Nat.mod_eq_of_lt hlt, show ((wordsOf c.memory.length : Nat) : Int) * (wordsOf c.memory.length : Nat) / 512 + 3 * (wordsOf c.memory.length : Nat) =
    ((wordsOf c.memory.length * wordsOf c.memory.length / 512 + 3 * wordsOf c.memory.length : Nat) : Int) by
      rw [Int.natCast_add, Int.natCast_ediv, Int.natCast_mul, Int.natCast_mul]; rfl]
  unfold startAt at e
  rw [e]
  exact e'

end Tosca.Proofs.Lfvm

import Verif.Proofs.LfvmStack
import Verif.Props.GoEval

/-!
# The long-form EVM (C65-C69)
-/

namespace Tosca

open Tosca.Model Tosca.Spec Tosca.Proofs Tosca.Go Tosca.Model.Go Tosca.Spec.Go

variable {ω : Type}

/-! ### C65: runs -/

section
variable {keccak : List Byte → U256} {db : Db ω} {call : CallFn ω} {p : Parameters} {f : Model.Lfvm.Found} {fuel : Parameters → Nat}

/-- C65.  `Run` of the long-form EVM gives the result of the reference interpreter, whatever the code, the world state,
the client's `Call`, the pooled stack and the state of the caches.  It leaves the client's state as the reference does, except that
the effects of a failed run, which the client undoes, may differ. -/
theorem C65_run (h : LfvmSetting keccak db call p f) (hfuel : 2 * p.gas.toNat + 2 ≤ fuel p) (w : ω) :
    (Model.Lfvm.lfvmRun false f fuel db call p w).1 = (nativeRun keccak db call p w).1 ∧
    ((Model.Lfvm.lfvmRun false f fuel db call p w).2 = (nativeRun keccak db call p w).2 ∨ (nativeRun keccak db call p w).1 = .ok {}) :=
  Lfvm.lfvmRun_eq false keccak h.call h.access h.lengths h.run h.input h.code h.gas h.revision h.found.hash h.found.cached hfuel w
    (fun h => by cases h)

/-! ### C66: every run ends -/

/-- C66.  `Run` never panics (no index out of range on stack, code or memory) and its loop ends within twice as many iterations as there
is gas, plus two; the only error is that of an unknown revision.  The result respects the gas given to the run, and a failed run
has no gas, output and refund. -/
theorem C66_total (h : LfvmSetting keccak db call p f) (hfuel : 2 * p.gas.toNat + 2 ≤ fuel p) (w : ω) :
    (p.block.revision > 5 ∧ Model.Lfvm.lfvmRun false f fuel db call p w = (.error .unsupportedRevision, w)) ∨
    ∃ r w', Model.Lfvm.lfvmRun false f fuel db call p w = (.ok r, w') ∧ 0 ≤ r.gasLeft ∧ r.gasLeft ≤ p.gas ∧
      (r.success = false → r.gasRefund = 0) ∧ r.gasRefund ≤ 199 * (p.gas - r.gasLeft) ∧ -(199 * (p.gas - r.gasLeft)) ≤ r.gasRefund := by
  by_cases hrev : p.block.revision > 5
  · left
    refine ⟨hrev, ?_⟩
    unfold Model.Lfvm.lfvmRun
    rw [if_pos hrev]
  · right
    have hrun := (C65_run h hfuel w).1
    have hr : revisionOf p.block.revision = some (ISTANBUL + p.block.revision.toNat) := by
      unfold revisionOf; rw [if_pos ⟨h.revision, by omega⟩]
    have hn : ∃ r, (nativeRun keccak db call p w).1 = .ok r ∧ (r.success = false → r.gasRefund = 0) := by
      unfold nativeRun
      rw [hr]
      dsimp only
      have hP := nativeFrame_ok keccak db h.call h.run (ISTANBUL + p.block.revision.toNat)
      have hh := haltsEip_bound hP p.gas.toNat (wf_initial (P := nativeFrame keccak db call p (ISTANBUL + p.block.revision.toNat)) w h.run.gas.2)
        (Nat.le_refl _)
      revert hh
      generalize stepsEip _ _ _ = s
      intro hh
      unfold nativeOutcome
      cases hs : s.status with
      | running => exact absurd hs hh
      | stopped => exact ⟨_, rfl, fun h => by cases h⟩
      | returned => exact ⟨_, rfl, fun h => by cases h⟩
      | reverted => exact ⟨_, rfl, fun _ => rfl⟩
      | failed _ => exact ⟨_, rfl, fun _ => rfl⟩
    obtain ⟨r, hr1, hr2⟩ := hn
    have hres := nativeRun_respects keccak db call p w r _ h.call h.run (show nativeRun keccak db call p w = (.ok r, (nativeRun keccak db call p w).2) by
      rw [← hr1])
    refine ⟨r, (Model.Lfvm.lfvmRun false f fuel db call p w).2, ?_, hres.1.1, hres.1.2, hr2, hres.2.1.1, hres.2.1.2⟩
    rw [← hr1, ← hrun]

/-- C66.  The limit on iterations is no restriction: every sufficient limit gives the same. -/
theorem C66_limit (h : LfvmSetting keccak db call p f) (hfuel : 2 * p.gas.toNat + 2 ≤ fuel p) {fuel' : Parameters → Nat} (hfuel' : fuel p ≤ fuel' p) (w : ω) :
    Model.Lfvm.lfvmRun false f fuel' db call p w = Model.Lfvm.lfvmRun false f fuel db call p w := by
  have hc := C66_total h hfuel w
  unfold Model.Lfvm.lfvmRun at hc ⊢
  split
  · rfl
  · rename_i hrev
    rcases hc with ⟨h5, _⟩ | ⟨r, w', hc, _⟩
    · exact absurd h5 hrev
    · rw [if_neg hrev] at hc
      cases hcc : Model.Lfvm.convertCached p.code false f.cached with
      | none => rfl
      | some C =>
        rw [hcc] at hc
        dsimp only at hc ⊢
        unfold Model.Lfvm.run at hc ⊢
        split
        · rfl
        · rename_i hz
          rw [if_neg hz] at hc
          cases hl : Model.Lfvm.loop _ (fuel p) _ with
          | none => rw [hl] at hc; cases hc
          | some x =>
            have := Lfvm.loop_more _ (fuel' p - fuel p) _ _ _ hl
            rw [show fuel p + (fuel' p - fuel p) = fuel' p by omega] at this
            rw [this]

/-! ### C68: nothing shared influences a run -/

/-- C68.  The outcome of a run depends neither on what earlier runs left in the pooled stack nor on whether the code cache has an entry;
the client's state is the same after every run that the client does not undo. -/
theorem C68_shared {f' : Model.Lfvm.Found} (h : LfvmSetting keccak db call p f) (h' : LfvmFound keccak p f') (hfuel : 2 * p.gas.toNat + 2 ≤ fuel p) (w : ω) :
    (Model.Lfvm.lfvmRun false f fuel db call p w).1 = (Model.Lfvm.lfvmRun false f' fuel db call p w).1 ∧
    ((Model.Lfvm.lfvmRun false f fuel db call p w).2 = (Model.Lfvm.lfvmRun false f' fuel db call p w).2 ∨
      (Model.Lfvm.lfvmRun false f fuel db call p w).1 = .ok {}) := by
  have a := C65_run h hfuel w
  have b := C65_run (f := f') ⟨h.call, h.access, h.lengths, h.run, h.input, h.code, h.gas, h.revision, h'⟩ hfuel w
  refine ⟨a.1.trans b.1.symm, ?_⟩
  rcases a.2 with a2 | a2
  · rcases b.2 with b2 | b2
    · exact .inl (a2.trans b2.symm)
    · exact .inr (a.1.trans b2)
  · exact .inr (a.1.trans a2)

end

/-! ### C67: the converter -/

/-- The converted instruction at `p` is the instruction at `q` of the code: its opcode, with the bytes of a PUSH (zeros behind
the end of the code) packed in pairs in this and the following instructions, and with its offset in the code for PC.  It takes `n` places;
in the code it has `m` bytes. -/
def Converted (code : List Byte) (C : Model.Lfvm.Code) (p q n m : Nat) : Prop :=
  (C.getD p {}).opcode = (byteAt code q).toNat ∧ p + n ≤ C.length ∧
  (if 0x60 ≤ (byteAt code q).toNat ∧ (byteAt code q).toNat ≤ 0x7f then
    n = (m - 1 + 1) / 2 ∧ m = (byteAt code q).toNat - 0x5f + 1 ∧
    ∀ k, k < m - 1 → byteAt code (q + 1 + k) =
      (if k % 2 = 0 then ((C.getD (p + k / 2) {}).arg >>> 8).setWidth 8 else (C.getD (p + k / 2) {}).arg.setWidth 8)
  else n = 1 ∧ m = 1 ∧ ((byteAt code q).toNat = 0x58 → (C.getD p {}).arg.toNat = q))

/-- C67.  Converting code of up to 64 KiB succeeds (no index out of range), and the converted code has the same instructions in the same order:
starting at the beginning of both, every instruction of the code has its converted instruction at the matching position, and the next instruction
follows, directly or over a jump to the same offset as in the code.  The positions with a JUMPDEST are the valid jump targets of the code. -/
theorem C67_convert {code : List Byte} (hcode : code.length ≤ 2 ^ 16) :
    ∃ C, Model.Lfvm.convert code false = some C ∧
      (∃ At : Nat → Nat → Prop, At 0 0 ∧
        (∀ p q, At p q → code.length ≤ q → C.length ≤ p) ∧
        ∀ p q, At p q → q < code.length →
          (∃ n m, Converted code C p q n m ∧ At (p + n) (q + m)) ∨
          (p < q ∧ (byteAt code q).toNat = 0x5b ∧ ∃ a, C[p]? = some ⟨Model.Lfvm.Op.JUMP_TO, a⟩ ∧ a.toNat = q ∧ At q q)) ∧
      (∀ d, JumpTarget code d → ∃ a, C[d]? = some ⟨Model.Lfvm.Op.JUMPDEST, a⟩) ∧
      ∀ d a, C[d]? = some ⟨Model.Lfvm.Op.JUMPDEST, a⟩ → JumpTarget code d := by
  obtain ⟨C, hC, L, T⟩ := Lfvm.convert_ok false hcode
  refine ⟨C, hC, ⟨Lfvm.Laid false code C, L, ?_, ?_⟩, fun d hd => (T.complete d (Nat.zero_le _) hd).2, fun d a => T.sound d a (Nat.zero_le _)⟩
  · intro p q h hq
    cases h with
    | done _ h => exact Nat.le_of_eq h
    | jumpTo _ h => omega
    | push h => omega
    | pc h => omega
    | plain h => omega
    | super h => cases h
  · intro p q h hq
    have at_ : ∀ {o a}, C[p]? = some ⟨o, a⟩ → C.getD p {} = ⟨o, a⟩ := fun h => by rw [List.getD_eq_getElem?_getD, h]; rfl
    have inside : ∀ {o}, C[p]? = some o → p + 1 ≤ C.length := fun h => (List.getElem?_eq_some_iff.1 h).1
    cases h with
    | done h _ => omega
    | jumpTo h1 h2 h3 h4 h5 =>
      refine .inr ⟨h1, h3, _, h4, ?_, h5⟩
      rw [BitVec.toNat_ofNat, Nat.mod_eq_of_lt (by omega)]
    | @push _ _ n a h1 h2 h3 h4 h5 h6 h7 h8 =>
      refine .inl ⟨n / 2 + n % 2, n + 1, ⟨?_, h6, ?_⟩, h8⟩
      · rw [at_ h5, h4]
      · rw [if_pos (by omega)]
        refine ⟨by omega, by omega, fun k hk => ?_⟩
        rw [← h7 k (by omega), Lfvm.packedByte_drop]
    | pc h1 h2 h3 h4 =>
      refine .inl ⟨1, 1, ⟨?_, inside h3, ?_⟩, h4⟩
      · rw [at_ h3, h2]
      · rw [if_neg (by rw [h2]; decide)]
        refine ⟨rfl, rfl, fun _ => ?_⟩
        rw [at_ h3]
        show (BitVec.ofNat 16 q).toNat = q
        rw [BitVec.toNat_ofNat, Nat.mod_eq_of_lt (by omega)]
    | plain h1 h2 h3 h4 h5 =>
      refine .inl ⟨1, 1, ⟨?_, inside h4, ?_⟩, h5⟩
      · rw [at_ h4]
      · rw [if_neg h3]
        exact ⟨rfl, rfl, fun h => absurd h h2⟩
    | super h => cases h

/-! ### C69: the whole stack -/

/-- C69.  Calls of floria on the long-form EVM are answered as on the reference interpreter, through all levels: same result, same state of
the client. -/
theorem C69_call {F : Floria ω} (hF : FloriaOk F) {find : Parameters → ω → Model.Lfvm.Found} {fuel : Parameters → Nat}
    (hI : F.interpreter = lfvm fuel find) (hf : ∀ p w, LfvmFound F.keccak p (find p w)) (hfuel : ∀ p, 2 * p.gas.toNat + 2 ≤ fuel p)
    (hcode : ∀ a w, (F.db.code a w).length ≤ 2 ^ 16) (ha : AccessOk F.db) (hl : Lengths F.db) (hrev : 4 ≤ F.block.revision)
    (depth : Nat) (static : Bool) (kind : Kind) {p : CallParameters} (h0 : 0 ≤ p.gas) (h1 : p.gas ≤ 2 ^ 40) (hi : p.input.length ≤ 2 ^ 30)
    (hc : kind = .create ∨ kind = .create2 → p.input.length ≤ 49152) (w : ω) :
    F.call depth static kind p w = ({ F with interpreter := nativeRun F.keccak } : Floria ω).call depth static kind p w := by
  have h := Lfvm.lfvm_call hF hcode ha hl hrev hf hfuel depth static kind p w ⟨⟨h0, h1⟩, fun _ => hc⟩ hi
  have e : Floria.on F (lfvm fuel find) = F := by unfold Floria.on; rw [← hI]
  rw [e] at h
  exact h

/-- C69.  A transaction processed by floria on the long-form EVM has the receipt and the effect it has on the reference interpreter. -/
theorem C69_transaction {P : Processor ω} {db : Db ω} {block : BlockParameters} {t : Transaction} {fuel : Parameters → Nat}
    {find : Parameters → ω → Model.Lfvm.Found} (h : LfvmTxSetting P db block t fuel find) (w : ω) :
    P.run db block t w = ({ P with interpreter := nativeRun P.keccak } : Processor ω).run db block t w := by
  have := Lfvm.processor_small (P := P) (I := lfvm fuel find) (I' := nativeRun P.keccak) h.tx h.gas h.revision
    (Lfvm.lfvm_call h.floria h.code h.access h.lengths h.revision h.found h.fuel 0 false) w
  rw [← h.interpreter] at this
  exact this

/-! ### Examples -/

/-- The demo world state with code of limited size. -/
def smallDb : Db DemoWorld :=
  { demoDb with
    code := fun a w => (w.code a).take 24576
    codeHash := fun a w => if w.nonce a = 0 ∧ w.balance a = 0 ∧ w.code a = [] then 0 else demoKeccak ((w.code a).take 24576)
    codeSize := fun a w => ((w.code a).take 24576).length }

theorem small_access : AccessOk smallDb := ⟨fun _ _ _ => rfl, fun _ _ _ => rfl, fun _ _ _ => rfl⟩

theorem small_code (a : Address) (w : DemoWorld) : (smallDb.code a w).length ≤ 24576 := List.length_take_le _ _

theorem small_lengths : Lengths smallDb :=
  ⟨fun a w => by have := small_code a w; omega, fun a w => by have := small_code a w; show (smallDb.code a w).length < _; omega⟩

/-- A new interpreter whose pooled stack is full of garbage. -/
def lfvmFresh : Model.Lfvm.Found := { cached := none, data := fun i => BitVec.ofNat 256 (i + 77), hash := demoKeccak }

/-- An interpreter that has run the code before. -/
def lfvmUsed (code : List Byte) : Model.Lfvm.Found := { cached := Model.Lfvm.convert code false, data := fun _ => 3, hash := demoKeccak }

theorem lfvmFresh_ok (p : Parameters) : LfvmFound demoKeccak p lfvmFresh := ⟨rfl, fun _ h => by cases h⟩
theorem lfvmUsed_ok (p : Parameters) : LfvmFound demoKeccak p (lfvmUsed p.code) := ⟨rfl, fun _ h => h⟩

/-- A loop that counts from 3 to 0 and writes the numbers it meets to the storage, with a jump over push data:
PUSH1 3; JUMPDEST; DUP1; DUP1; SSTORE; PUSH1 1; SWAP1; SUB; DUP1; PUSH1 2; JUMPI; PC; PUSH1 0; MSTORE; PUSH1 32; PUSH1 0; RETURN. -/
def lfvmLoop : Parameters :=
  { block := demoBlock 5, tx := { origin := 1 }, gas := 100000, recipient := 9, sender := 1, codeHash := some 17,
    code := [0x60, 3, 0x5b, 0x80, 0x80, 0x55, 0x60, 1, 0x90, 0x03, 0x80, 0x60, 2, 0x57, 0x58, 0x60, 0, 0x52, 0x60, 32, 0x60, 0, 0xf3] }

theorem lfvmLoop_setting {f : Model.Lfvm.Found} (hf : LfvmFound demoKeccak lfvmLoop f) :
    LfvmSetting demoKeccak smallDb (fun _ _ w => (.ok {}, w)) lfvmLoop f where
  call := by
    intro kind p w r w' h0 _ _ h
    cases h
    exact callOk_zero h0
  access := small_access
  lengths := small_lengths
  run := by
    refine ⟨demo_chain 5 { sender := 1 }, ?_, ?_, ?_, ?_⟩
    · show (0 : Int) ≤ 100000 ∧ (100000 : Int) ≤ 2 ^ 54; omega
    · show -2 ^ 31 ≤ (0 : Int) ∧ (0 : Int) < 2 ^ 31; omega
    · show 23 < 2 ^ 32; omega
    · show 0 < 2 ^ 64; omega
  input := by show 0 < 2 ^ 63; omega
  code := by show 23 ≤ 2 ^ 16; omega
  gas := by show (100000 : Int) ≤ 2 ^ 40; omega
  revision := by show (0 : Int) ≤ 5; omega
  found := hf

/-- The hypotheses of C65, C66 and C68 are met by this run, on a new interpreter and on one that knows the code. -/
example : LfvmSetting demoKeccak smallDb (fun _ _ w => (.ok {}, w)) lfvmLoop lfvmFresh ∧
    LfvmSetting demoKeccak smallDb (fun _ _ w => (.ok {}, w)) lfvmLoop (lfvmUsed lfvmLoop.code) :=
  ⟨lfvmLoop_setting (lfvmFresh_ok _), lfvmLoop_setting (lfvmUsed_ok _)⟩

/-- A computable view of a result. -/
def runSummary (x : Except Err RunResult) : Option (Bool × List Byte × Int × Int) :=
  match x with
  | .ok r => some (r.success, r.output, r.gasLeft, r.gasRefund)
  | .error _ => none

/-- What it does: three values stored, and the offset of PC returned. -/
example : runSummary (Model.Lfvm.lfvmRun false lfvmFresh (fun _ => 200) smallDb (fun _ _ w => (.ok {}, w)) lfvmLoop {}).1 =
      some (true, List.replicate 31 0 ++ [14], 33584, 0) ∧
    (Model.Lfvm.lfvmRun false lfvmFresh (fun _ => 200) smallDb (fun _ _ w => (.ok {}, w)) lfvmLoop {}).2.storage 9 2 = 2 := by
  decide +kernel

/-- C67: the converted code of that contract: the JUMPDEST stays at offset 2, behind a jump. -/
example : ((Model.Lfvm.convert lfvmLoop.code false).getD []).map (fun i => (i.opcode, i.arg.toNat)) =
    [(96, 768), (256, 2), (91, 0), (128, 0), (128, 0), (85, 0), (96, 256), (144, 0), (3, 0), (128, 0), (96, 512), (87, 0), (88, 14),
      (96, 0), (82, 0), (96, 8192), (96, 0), (243, 0)] := by
  decide +kernel

/-- A processor on the long-form EVM. -/
def lfvmProcessor : Processor DemoWorld where
  interpreter := lfvm (fun p => 2 * p.gas.toNat + 2) (fun _ _ => lfvmFresh)
  keccak := demoKeccak
  createAddress1 a n := 2 ^ 30 + BitVec.ofNat 160 (a.toNat % 256 * 1000 + n.toNat % 1000)
  createAddress2 a s _ := 2 ^ 31 + BitVec.ofNat 160 (a.toNat % 256 * 1000 + s.toNat % 1000)
  precompiles _ a := if a = 4 then some demoEcho else none
  precompileList _ := [4]

theorem lfvm_floria (revision : Int) (t : Transaction) : FloriaOk (lfvmProcessor.context smallDb (demoBlock revision) t) where
  chain := demo_chain revision t
  code a w := by
    have := small_code a w
    show (smallDb.code a w).length < 2 ^ 32
    omega
  precompile rev a c h input := by
    change (if a = 4 then some demoEcho else none) = some c at h
    split at h
    · injection h with h
      subst h
      refine ⟨?_, ?_⟩
      · show (BitVec.ofNat 64 (input.length % 2 ^ 32)).toNat < 2 ^ 63
        rw [BitVec.toNat_ofNat]
        omega
      · show (input.take (2 ^ 32)).length < 2 ^ 64
        have := List.length_take_le (2 ^ 32) input
        omega
    · cases h

/-- The hypotheses of C69 are met by every transaction of reasonable size on this processor. -/
theorem lfvm_txSetting {t : Transaction} (ht : TxOk t) (hg : t.gasLimit ≤ 2 ^ 40) :
    LfvmTxSetting lfvmProcessor smallDb (demoBlock 5) t (fun p => 2 * p.gas.toNat + 2) (fun _ _ => lfvmFresh) where
  interpreter := rfl
  fuel _ := Nat.le_refl _
  found p _ := lfvmFresh_ok p
  access := small_access
  lengths := small_lengths
  code a w := by have := small_code a w; omega
  floria := lfvm_floria 5 t
  tx := ht
  gas := hg
  revision := by show (4 : Int) ≤ 5; decide

/-- Account 9 calls account 8 (with 30000 gas) and returns what CALL pushed; account 8 writes its caller to its storage. -/
def lfvmWorld : DemoWorld :=
  { balance := fun a => if a = 1 then 1000000 else 0
    code := fun a =>
      if a = 9 then [0x5f, 0x5f, 0x5f, 0x5f, 0x5f, 0x60, 8, 0x61, 0x75, 0x30, 0xf1, 0x5f, 0x52, 0x60, 32, 0x5f, 0xf3]
      else if a = 8 then [0x33, 0x60, 5, 0x55, 0x00] else [] }

def lfvmTx : Transaction := { sender := 1, recipient := some 9, gasLimit := 100000 }

example : LfvmTxSetting lfvmProcessor smallDb (demoBlock 5) lfvmTx (fun p => 2 * p.gas.toNat + 2) (fun _ _ => lfvmFresh) :=
  lfvm_txSetting ⟨by decide, by decide, by decide, by decide⟩ (by decide)

end Tosca

import Verif.Props.Control
import Verif.Proofs.Touch
import Verif.Props.Bounds

/-!
# Memory: contents and growth (C14), price (C15), zero-padded copies (C22), return data (C21), hashing (C30)

Each theorem gives the result for every amount of gas: with enough gas the exact result, otherwise a failure
without effect on the host.  `x.byte` is the memory before, `x.sizeAfter off n` its size after touching a range,
`x.growth` the price.
-/

namespace Tosca

open Tosca.Model Tosca.Spec Tosca.Proofs

variable {σ : Type} {P : Params σ} {E : Env σ} {codeOf : U256 → List Byte} {vm : Vm} {x : StepIn σ}

theorem len1 {rest : List U256} {a : U256} (h : x.stack = rest ++ [a]) : x.stack.length = rest.length + 1 := by rw [h]; simp
theorem len2 {rest : List U256} {a b : U256} (h : x.stack = rest ++ [b, a]) : x.stack.length = rest.length + 2 := by rw [h]; simp
theorem len3 {rest : List U256} {a b c : U256} (h : x.stack = rest ++ [c, b, a]) : x.stack.length = rest.length + 3 := by rw [h]; simp
theorem len4 {rest : List U256} {a b c d : U256} (h : x.stack = rest ++ [d, c, b, a]) : x.stack.length = rest.length + 4 := by rw [h]; simp

/-- C14, C15.  MLOAD pushes the big-endian value of 32 bytes of memory. -/
theorem C14_mload (h : Setting P E codeOf vm) (hx : InputOk P x) (ho : x.opcode P = 0x51) {off : U256} {rest : List U256}
    (hst : x.stack = rest ++ [off]) {size cost : Nat} (hz : size = x.sizeAfter off 32) (hc : cost = 3 + x.growth size) :
    ((cost : Int) ≤ P.msg.gas → Runs P E vm x 1 { x.same P with
        pc := x.pc + 1
        gasLeft := P.msg.gas - cost
        stack := rest ++ [Word.ofBytes (bytes 32 fun i => x.byte (off.toNat + i))]
        memory := bytes size x.byte } x.world) ∧
    (P.msg.gas < (cost : Int) → Fails P E vm x 1 .outOfGas x.refund x.world) := by
  have hll := len1 hst
  have hlen := hx.stack
  have hcase := touch_cases (i := .mload) h hx (by rw [ho]; rfl) (Nat.zero_le _) nofun (by rw [hll]; exact Nat.le_add_left _ _)
    (by show _ + 1 ≤ 1024 + 1; omega) (l := rest.reverse) (off := off) (n := 32) (extra := 0)
    (k := fun s => s.push (Word.ofBytes (s.mem.read off.toNat 32)))
    (pop1_cons ((started_stack _).trans (rev1 hst)) fun off s => s.touch off 32 0 fun s => s.push (Word.ofBytes (s.mem.read off.toNat 32))) (cost := cost) (by rw [hc, ← hz]; rfl)
  refine ⟨fun hg => ?_, hcase.2⟩
  obtain ⟨hr, he⟩ := hcase.1 hg
  refine runs_to h hx hr he rfl rfl rfl rfl rfl (gas_sub hg) rfl rfl ?_ ?_ rfl rfl
  · show (Word.ofBytes _ :: rest.reverse).reverse = rest ++ [Word.ofBytes _]
    simp only [List.reverse_cons, List.reverse_reverse]
    rfl
  · rw [hz]; exact read_zero _ _

/-- C14, C15.  MSTORE writes the 32 big-endian bytes of a word. -/
theorem C14_mstore (h : Setting P E codeOf vm) (hx : InputOk P x) (ho : x.opcode P = 0x52) {off v : U256} {rest : List U256}
    (hst : x.stack = rest ++ [v, off]) {size cost : Nat} (hz : size = x.sizeAfter off 32) (hc : cost = 3 + x.growth size) :
    ((cost : Int) ≤ P.msg.gas → Runs P E vm x 1 { x.same P with
        pc := x.pc + 1
        gasLeft := P.msg.gas - cost
        stack := rest
        memory := bytes size fun i => if off.toNat ≤ i ∧ i < off.toNat + 32
          then BitVec.ofNat 8 (v.toNat / 256 ^ (31 - (i - off.toNat))) else x.byte i } x.world) ∧
    (P.msg.gas < (cost : Int) → Fails P E vm x 1 .outOfGas x.refund x.world) := by
  have hll := len2 hst
  have hlen := hx.stack
  have hcase := touch_cases (i := .mstore) h hx (by rw [ho]; rfl) (Nat.zero_le _) nofun (by rw [hll]; exact Nat.le_add_left _ _)
    (by show _ + 0 ≤ 1024 + 2; omega) (pop2_cons ((started_stack _).trans (rev2 hst)) _) (cost := cost) (by rw [hc, ← hz]; rfl)
  refine ⟨fun hg => ?_, hcase.2⟩
  obtain ⟨hr, he⟩ := hcase.1 hg
  refine runs_to h hx hr he rfl rfl rfl rfl rfl (gas_sub hg) rfl rfl ?_ ?_ rfl rfl
  · exact List.reverse_reverse _
  · refine (read_zero _ _).trans ?_
    show bytes (x.sizeAfter off 32) (overwrite x.byte off.toNat (Word.toBytes v)) = _
    rw [← hz]
    unfold bytes
    apply List.map_congr_left
    intro i _
    unfold overwrite
    have hlb : (Word.toBytes v).length = 32 := by unfold Word.toBytes; rw [List.length_map, List.length_range]
    rw [hlb]
    split
    · rename_i hi
      unfold byteAt Word.toBytes
      rw [List.getD_eq_getElem?_getD, List.getElem?_map, List.getElem?_range (by omega)]
      rfl
    · rfl

/-- C14, C15.  MSTORE8 writes the lowest byte of a word. -/
theorem C14_mstore8 (h : Setting P E codeOf vm) (hx : InputOk P x) (ho : x.opcode P = 0x53) {off v : U256} {rest : List U256}
    (hst : x.stack = rest ++ [v, off]) {size cost : Nat} (hz : size = x.sizeAfter off 1) (hc : cost = 3 + x.growth size) :
    ((cost : Int) ≤ P.msg.gas → Runs P E vm x 1 { x.same P with
        pc := x.pc + 1
        gasLeft := P.msg.gas - cost
        stack := rest
        memory := bytes size fun i => if i = off.toNat then BitVec.ofNat 8 v.toNat else x.byte i } x.world) ∧
    (P.msg.gas < (cost : Int) → Fails P E vm x 1 .outOfGas x.refund x.world) := by
  have hll := len2 hst
  have hlen := hx.stack
  have hcase := touch_cases (i := .mstore8) h hx (by rw [ho]; rfl) (Nat.zero_le _) nofun (by rw [hll]; exact Nat.le_add_left _ _)
    (by show _ + 0 ≤ 1024 + 2; omega) (pop2_cons ((started_stack _).trans (rev2 hst)) _) (cost := cost) (by rw [hc, ← hz]; rfl)
  refine ⟨fun hg => ?_, hcase.2⟩
  obtain ⟨hr, he⟩ := hcase.1 hg
  refine runs_to h hx hr he rfl rfl rfl rfl rfl (gas_sub hg) rfl rfl ?_ ?_ rfl rfl
  · exact List.reverse_reverse _
  · refine (read_zero _ _).trans ?_
    show bytes (x.sizeAfter off 1) (overwrite x.byte off.toNat [BitVec.ofNat 8 v.toNat]) = _
    rw [← hz]
    unfold bytes
    apply List.map_congr_left
    intro i _
    unfold overwrite
    by_cases hi : i = off.toNat
    · rw [if_pos hi, if_pos (by simp only [List.length_cons, List.length_nil]; omega)]
      rw [hi, Nat.sub_self]
      rfl
    · rw [if_neg hi, if_neg (by simp only [List.length_cons, List.length_nil]; omega)]

/-- C14, C15.  MCOPY copies a range of memory to another, which may overlap it. -/
theorem C14_mcopy (h : Setting P E codeOf vm) (hx : InputOk P x) (ho : x.opcode P = 0x5e) (hrev : CANCUN ≤ P.rev)
    {dst src n : U256} {rest : List U256} (hst : x.stack = rest ++ [n, src, dst]) {size cost : Nat}
    (hz : size = max (x.sizeAfter dst n) (x.sizeAfter src n)) (hc : cost = 3 + 3 * words n.toNat + x.growth size) :
    ((cost : Int) ≤ P.msg.gas → Runs P E vm x 1 { x.same P with
        pc := x.pc + 1
        gasLeft := P.msg.gas - cost
        stack := rest
        memory := bytes size fun i => if dst.toNat ≤ i ∧ i < dst.toNat + n.toNat
          then x.byte (src.toNat + (i - dst.toNat)) else x.byte i } x.world) ∧
    (P.msg.gas < (cost : Int) → Fails P E vm x 1 .outOfGas x.refund x.world) := by
  have hll := len3 hst
  have hlen := hx.stack
  have hcase := touch2_cases (i := .mcopy) h hx (by rw [ho]; rfl) hrev nofun (by rw [hll]; exact Nat.le_add_left _ _)
    (by show _ + 0 ≤ 1024 + 3; omega) (pop3_cons ((started_stack _).trans (rev3 hst)) _) (cost := cost) hz
    (by rw [hc, show Instr.mcopy.baseGas = 3 from rfl]; omega)
  refine ⟨fun hg => ?_, hcase.2⟩
  obtain ⟨hr, he⟩ := hcase.1 hg
  refine runs_to h hx hr he rfl rfl rfl rfl rfl (gas_sub hg) rfl rfl ?_ ?_ rfl rfl
  · exact List.reverse_reverse _
  · refine (read_zero _ _).trans ?_
    show bytes size (overwrite x.byte dst.toNat (bytes n.toNat fun i => x.byte (src.toNat + i))) = _
    unfold bytes
    apply List.map_congr_left
    intro i _
    unfold overwrite
    rw [List.length_map, List.length_range]
    split
    · unfold byteAt
      rw [List.getD_eq_getElem?_getD, List.getElem?_map, List.getElem?_range (by omega)]
      rfl
    · rfl

theorem overwrite_bytes (f g : Nat → Byte) (off n i : Nat) :
    overwrite f off (bytes n g) i = if off ≤ i ∧ i < off + n then g (i - off) else f i := by
  unfold overwrite bytes
  rw [List.length_map, List.length_range]
  split
  · unfold byteAt
    rw [List.getD_eq_getElem?_getD, List.getElem?_map, List.getElem?_range (by omega)]
    rfl
  · rfl

/-- C22.  CALLDATALOAD pushes 32 bytes of the input, followed by zeros, from any 256-bit offset. -/
theorem C22_calldataload (h : Setting P E codeOf vm) (hx : InputOk P x) (ho : x.opcode P = 0x35) {off : U256} {rest : List U256}
    (hst : x.stack = rest ++ [off]) (hg : 3 ≤ P.msg.gas) :
    Runs P E vm x 1 { x.same P with pc := x.pc + 1, gasLeft := P.msg.gas - 3
                                    stack := rest ++ [Word.ofBytes (bytes 32 fun i => byteAt P.msg.input (off.toNat + i))] } x.world :=
  runs_un (i := .calldataload) (f := fun off => Word.ofBytes (slice P.msg.input off.toNat 32)) h hx (by rw [ho]; rfl) (fun _ => rfl)
    (Nat.zero_le _) rfl rfl rfl rfl hst hg

/-- C22 for both copies. -/
theorem copy_cases (h : Setting P E codeOf vm) (hx : InputOk P x) {i : Instr} {src : List Byte} (hd : decode (x.opcode P) = some i)
    (h1 : i.since = 0) (h2 : i.writes = false) (h3 : i.pops = 3) (h4 : i.pushes = 0) (h5 : i.length = 1) (h6 : i.baseGas = 3)
    (hi : ∀ s : State σ, exec P x.pc i s = copyOp src s)
    {dst off n : U256} {rest : List U256} (hst : x.stack = rest ++ [n, off, dst]) {size cost : Nat}
    (hz : size = x.sizeAfter dst n) (hc : cost = 3 + 3 * words n.toNat + x.growth size) :
    ((cost : Int) ≤ P.msg.gas → Runs P E vm x 1 { x.same P with
        pc := x.pc + 1
        gasLeft := P.msg.gas - cost
        stack := rest
        memory := bytes size fun i => if dst.toNat ≤ i ∧ i < dst.toNat + n.toNat
          then byteAt src (off.toNat + (i - dst.toNat)) else x.byte i } x.world) ∧
    (P.msg.gas < (cost : Int) → Fails P E vm x 1 .outOfGas x.refund x.world) := by
  have hll := len3 hst
  have hlen := hx.stack
  have hcase := touch_cases (i := i) h hx hd (by rw [h1]; exact Nat.zero_le _) (by rw [h2]; nofun) (by omega) (by omega)
    ((hi _).trans (pop3_cons ((started_stack _).trans (rev3 hst)) _)) (cost := cost) (by rw [hc, ← hz, h6]; omega)
  refine ⟨fun hg => ?_, hcase.2⟩
  obtain ⟨hr, he⟩ := hcase.1 hg
  refine runs_to h hx hr he rfl rfl rfl rfl ?_ (gas_sub hg) rfl rfl ?_ ?_ rfl rfl
  · show x.pc + i.length = _; rw [h5]
  · exact List.reverse_reverse _
  · refine (read_zero _ _).trans ?_
    show bytes (x.sizeAfter dst n) (overwrite x.byte dst.toNat (bytes n.toNat fun j => byteAt src (off.toNat + j))) = _
    rw [← hz]
    unfold bytes
    apply List.map_congr_left
    intro j _
    exact overwrite_bytes _ _ _ _ _

/-- C22.  CALLDATACOPY copies the input, followed by zeros, from any 256-bit offset. -/
theorem C22_calldatacopy (h : Setting P E codeOf vm) (hx : InputOk P x) (ho : x.opcode P = 0x37)
    {dst off n : U256} {rest : List U256} (hst : x.stack = rest ++ [n, off, dst]) {size cost : Nat}
    (hz : size = x.sizeAfter dst n) (hc : cost = 3 + 3 * words n.toNat + x.growth size) :
    ((cost : Int) ≤ P.msg.gas → Runs P E vm x 1 { x.same P with
        pc := x.pc + 1
        gasLeft := P.msg.gas - cost
        stack := rest
        memory := bytes size fun i => if dst.toNat ≤ i ∧ i < dst.toNat + n.toNat
          then byteAt P.msg.input (off.toNat + (i - dst.toNat)) else x.byte i } x.world) ∧
    (P.msg.gas < (cost : Int) → Fails P E vm x 1 .outOfGas x.refund x.world) :=
  copy_cases (i := .calldatacopy) h hx (by rw [ho]; rfl) rfl rfl rfl rfl rfl rfl (fun _ => rfl) hst hz hc

/-- C22.  CODECOPY copies the code, followed by zeros, from any 256-bit offset: the padding the VM adds is not
observable. -/
theorem C22_codecopy (h : Setting P E codeOf vm) (hx : InputOk P x) (ho : x.opcode P = 0x39)
    {dst off n : U256} {rest : List U256} (hst : x.stack = rest ++ [n, off, dst]) {size cost : Nat}
    (hz : size = x.sizeAfter dst n) (hc : cost = 3 + 3 * words n.toNat + x.growth size) :
    ((cost : Int) ≤ P.msg.gas → Runs P E vm x 1 { x.same P with
        pc := x.pc + 1
        gasLeft := P.msg.gas - cost
        stack := rest
        memory := bytes size fun i => if dst.toNat ≤ i ∧ i < dst.toNat + n.toNat
          then byteAt P.code (off.toNat + (i - dst.toNat)) else x.byte i } x.world) ∧
    (P.msg.gas < (cost : Int) → Fails P E vm x 1 .outOfGas x.refund x.world) :=
  copy_cases (i := .codecopy) h hx (by rw [ho]; rfl) rfl rfl rfl rfl rfl rfl (fun _ => rfl) hst hz hc

/-- C21.  RETURNDATACOPY copies from the return data; it fails if the range is not inside, where offset plus size is
computed without wrap-around. -/
theorem C21_returndatacopy (h : Setting P E codeOf vm) (hx : InputOk P x) (ho : x.opcode P = 0x3e)
    {dst off n : U256} {rest : List U256} (hst : x.stack = rest ++ [n, off, dst]) {size cost : Nat}
    (hz : size = x.sizeAfter dst n) (hc : cost = 3 + 3 * words n.toNat + x.growth size) :
    ((cost : Int) ≤ P.msg.gas → off.toNat + n.toNat ≤ x.ret.length → Runs P E vm x 1 { x.same P with
        pc := x.pc + 1
        gasLeft := P.msg.gas - cost
        stack := rest
        memory := bytes size fun i => if dst.toNat ≤ i ∧ i < dst.toNat + n.toNat
          then byteAt x.ret (off.toNat + (i - dst.toNat)) else x.byte i } x.world) ∧
    ((cost : Int) ≤ P.msg.gas → x.ret.length < off.toNat + n.toNat → Fails P E vm x 1 .invalidMemoryAccess x.refund x.world) ∧
    (P.msg.gas < (cost : Int) → Fails P E vm x 1 .outOfGas x.refund x.world) := by
  have hll := len3 hst
  have hlen := hx.stack
  have hcase := touch_cases (i := .returndatacopy) h hx (by rw [ho]; rfl) (Nat.zero_le _) nofun (by rw [hll]; exact Nat.le_add_left _ _)
    (by show _ + 0 ≤ 1024 + 3; omega) (pop3_cons ((started_stack _).trans (rev3 hst)) _) (cost := cost)
    (by rw [hc, ← hz, show Instr.returndatacopy.baseGas = 3 from rfl]; omega)
  refine ⟨fun hg hin => ?_, fun hg hout => ?_, hcase.2⟩
  · obtain ⟨hr, he⟩ := hcase.1 hg
    have he' := he.trans (if_neg (by show ¬ off.toNat + n.toNat > x.ret.length; omega))
    refine runs_to h hx hr he' rfl rfl rfl rfl rfl (gas_sub hg) rfl rfl ?_ ?_ rfl rfl
    · exact List.reverse_reverse _
    · refine (read_zero _ _).trans ?_
      show bytes (x.sizeAfter dst n) (overwrite x.byte dst.toNat (bytes n.toNat fun j => byteAt x.ret (off.toNat + j))) = _
      rw [← hz]
      unfold bytes
      apply List.map_congr_left
      intro j _
      exact overwrite_bytes _ _ _ _ _
  · obtain ⟨hr, he⟩ := hcase.1 hg
    exact fails_ready (f := .invalidMemoryAccess) h hx hr (he.trans (if_pos (by show off.toNat + n.toNat > x.ret.length; omega))) rfl

/-- C21.  INVALID_MEMORY_ACCESS is reported by RETURNDATACOPY only. -/
theorem C21_only_returndatacopy (h : Setting P E codeOf vm) (hx : InputOk P x) {r : Int} {w : σ}
    (hf : Fails P E vm x 1 .invalidMemoryAccess r w) : x.opcode P = 0x3e := by
  obtain ⟨f, h1, h2⟩ := fails_code h hx hf
  rcases failed_why h.gas h1 with hr | ⟨i, hr, hb⟩
  · rw [h2] at hr
    cases hr
  · cases f <;> cases h2
    have hd := hr.op
    have : i = .returndatacopy := by cases i <;> first | rfl | exact hb.elim
    subst this
    set_option maxRecDepth 100000 in
    exact (by decide : ∀ b : Fin 256, decode b.val = some .returndatacopy → b.val = 0x3e) ⟨_, decode_lt hd⟩ hd

/-- C30, C14, C15.  SHA3 pushes the Keccak hash of a memory range, with the hash cache on or off and whatever earlier
executions left in it. -/
theorem C30_sha3 (h : Setting P E codeOf vm) (hx : InputOk P x) (ho : x.opcode P = 0x20) {off n : U256} {rest : List U256}
    (hst : x.stack = rest ++ [n, off]) {size cost : Nat} (hz : size = x.sizeAfter off n)
    (hc : cost = 30 + 6 * words n.toNat + x.growth size) :
    ((cost : Int) ≤ P.msg.gas → Runs P E vm x 1 { x.same P with
        pc := x.pc + 1
        gasLeft := P.msg.gas - cost
        stack := rest ++ [P.keccak (bytes n.toNat fun i => x.byte (off.toNat + i))]
        memory := bytes size x.byte } x.world) ∧
    (P.msg.gas < (cost : Int) → Fails P E vm x 1 .outOfGas x.refund x.world) := by
  have hll := len2 hst
  have hlen := hx.stack
  have hcase := touch_cases (i := .sha3) h hx (by rw [ho]; rfl) (Nat.zero_le _) nofun (by rw [hll]; exact Nat.le_add_left _ _)
    (by show _ + 1 ≤ 1024 + 2; omega) (pop2_cons ((started_stack _).trans (rev2 hst)) _) (cost := cost)
    (by rw [hc, ← hz, show Instr.sha3.baseGas = 30 from rfl]; omega)
  refine ⟨fun hg => ?_, hcase.2⟩
  obtain ⟨hr, he⟩ := hcase.1 hg
  refine runs_to h hx hr he rfl rfl rfl rfl rfl (gas_sub hg) rfl rfl ?_ ?_ rfl rfl
  · show (P.keccak _ :: rest.reverse).reverse = rest ++ [P.keccak _]
    simp only [List.reverse_cons, List.reverse_reverse]
    rfl
  · rw [hz]; exact read_zero _ _

/-- C14, C11.  RETURN and REVERT halt with the given memory range as output. -/
theorem C14_return (h : Setting P E codeOf vm) (hx : InputOk P x) {st : StepStatus} {code : EvmcStatus}
    (ho : (x.opcode P = 0xf3 ∧ st = .returned ∧ code = .success) ∨ (x.opcode P = 0xfd ∧ st = .reverted ∧ code = .revert))
    {off n : U256} {rest : List U256} (hst : x.stack = rest ++ [n, off]) {size cost : Nat} (hz : size = x.sizeAfter off n)
    (hc : cost = x.growth size) :
    ((cost : Int) ≤ P.msg.gas → Runs P E vm x 1 { x.same P with
        stepStatus := st
        status := code
        pc := x.pc + 1
        gasLeft := P.msg.gas - cost
        stack := rest
        memory := bytes size x.byte
        output := bytes n.toNat fun i => x.byte (off.toNat + i)
        lastCallReturnData := bytes n.toNat fun i => x.byte (off.toNat + i) } x.world) ∧
    (P.msg.gas < (cost : Int) → Fails P E vm x 1 .outOfGas x.refund x.world) := by
  have hll := len2 hst
  have hlen := hx.stack
  rcases ho with ⟨ho, rfl, rfl⟩ | ⟨ho, rfl, rfl⟩
  · have hcase := touch_cases (i := .ret) h hx (by rw [ho]; rfl) (Nat.zero_le _) nofun (by rw [hll]; exact Nat.le_add_left _ _)
      (by show _ + 0 ≤ 1024 + 2; omega) (pop2_cons ((started_stack _).trans (rev2 hst)) _) (cost := cost)
      (by rw [hc, ← hz, show Instr.ret.baseGas = 0 from rfl]; omega)
    refine ⟨fun hg => ?_, hcase.2⟩
    obtain ⟨hr, he⟩ := hcase.1 hg
    have := runs_ready h hx hr he (fun f hf => by cases hf)
    rw [result_eq (P := P) (r := { x.same P with
        stepStatus := .returned
        status := .success
        pc := x.pc + 1
        gasLeft := P.msg.gas - cost
        stack := rest
        memory := bytes size x.byte
        output := bytes n.toNat fun i => x.byte (off.toNat + i)
        lastCallReturnData := bytes n.toNat fun i => x.byte (off.toNat + i) }) rfl rfl rfl rfl (gas_sub hg) rfl rfl
        (List.reverse_reverse _) (by rw [hz]; exact read_zero _ _) rfl] at this
    exact this
  · have hcase := touch_cases (i := .revert) h hx (by rw [ho]; rfl) (Nat.zero_le _) nofun (by rw [hll]; exact Nat.le_add_left _ _)
      (by show _ + 0 ≤ 1024 + 2; omega) (pop2_cons ((started_stack _).trans (rev2 hst)) _) (cost := cost)
      (by rw [hc, ← hz, show Instr.revert.baseGas = 0 from rfl]; omega)
    refine ⟨fun hg => ?_, hcase.2⟩
    obtain ⟨hr, he⟩ := hcase.1 hg
    have := runs_ready h hx hr he (fun f hf => by cases hf)
    rw [result_eq (P := P) (r := { x.same P with
        stepStatus := .reverted
        status := .revert
        pc := x.pc + 1
        gasLeft := P.msg.gas - cost
        stack := rest
        memory := bytes size x.byte
        output := bytes n.toNat fun i => x.byte (off.toNat + i)
        lastCallReturnData := bytes n.toNat fun i => x.byte (off.toNat + i) }) rfl rfl rfl rfl (gas_sub hg) rfl rfl
        (List.reverse_reverse _) (by rw [hz]; exact read_zero _ _) rfl] at this
    exact this

/-! ### C15: the total price of memory over a run -/

/-- Prices of single growths along a non-decreasing sequence of sizes add up to the price of the whole growth. -/
theorem growth_telescopes (f : Nat → Nat) (n : Nat) (hm : ∀ k, k < n → f k ≤ f (k + 1)) :
    ((List.range n).map fun k => memGas (words (f (k + 1))) - memGas (words (f k))).sum =
      memGas (words (f n)) - memGas (words (f 0)) ∧ memGas (words (f 0)) ≤ memGas (words (f n)) := by
  have mono : ∀ a b, a ≤ b → memGas (words a) ≤ memGas (words b) := by
    intro a b hab
    have : words a ≤ words b := by unfold words; omega
    unfold memGas
    have := Nat.mul_le_mul this this
    omega
  induction n with
  | zero => simp
  | succ n ih =>
    obtain ⟨ih, h2⟩ := ih fun k hk => hm k (by omega)
    rw [List.range_succ, List.map_append, List.sum_append, ih]
    simp only [List.map_cons, List.map_nil, List.sum_cons, List.sum_nil]
    have h1 := mono _ _ (hm n (by omega))
    omega

/-- C15.  Let `r k` be the result of executing `k` instructions from `x`, for all `k ≤ n`, none of them failed.
What the single instructions pay for growing the memory adds up to `C(final) - C(initial)`, so nothing is paid
twice; and this is at most the gas used. -/
theorem C15_telescopes (h : Setting P E codeOf vm) (hx : InputOk P x) {n : Nat} (hn : n ≤ 2147483646)
    {r : Nat → StepResult} {w : Nat → σ} (hr : ∀ k, k ≤ n → Returns P E vm x k (r k) (w k))
    (hs : ∀ k, k ≤ n → (r k).stepStatus ≠ .failed) :
    let size k := (r k).memory.length
    (∀ k, k < n → size k ≤ size (k + 1)) ∧
    ((List.range n).map fun k => memGas (words (size (k + 1))) - memGas (words (size k))).sum =
      memGas (words (size n)) - memGas (words x.memory.length) ∧
    (memGas (words (size n)) : Int) - memGas (words x.memory.length) ≤ P.msg.gas - (r n).gasLeft := by
  intro size
  have hsize : ∀ k, k ≤ n → size k = (steps P k (x.frame P)).mem.size := by
    intro k hk
    have hd := returns_describes h hx (by omega) (hr k hk)
    rcases failed_or (steps P k (x.frame P)).status with ⟨f, hf⟩ | hf
    · exact absurd (hd.failed f hf).1 (hs k hk)
    show (r k).memory.length = _
    rw [hd.ok hf]
    show (Mem.read _ 0 _).length = _
    unfold Mem.read
    rw [List.length_map, List.length_range]
  have hmono : ∀ k, k < n → size k ≤ size (k + 1) := by
    intro k hk
    rw [hsize k (by omega), hsize (k + 1) (by omega)]
    have hd := returns_describes h hx (by omega) (hr (k + 1) (by omega))
    rcases failed_or (steps P (k + 1) (x.frame P)).status with ⟨f, hf⟩ | hf
    · exact absurd (hd.failed f hf).1 (hs (k + 1) (by omega))
    have hd' := returns_describes h hx (by omega) (hr k (by omega))
    rcases failed_or (steps P k (x.frame P)).status with ⟨f, hf'⟩ | hf'
    · exact absurd (hd'.failed f hf').1 (hs k (by omega))
    have e : steps P (k + 1) (x.frame P) = step P (steps P k (x.frame P)) := steps_add k 1 _
    rw [e] at hf ⊢
    by_cases hrun : (steps P k (x.frame P)).status = .running
    · exact ((step_bound h.params (wf_steps_alive h.params k (inputOk_wf hx h.gas) hf') hrun).2 hf).size
    · unfold step; rw [if_neg hrun]; exact Nat.le_refl _
  have e0 : words (size 0) = words x.memory.length := by
    rw [hsize 0 (by omega)]
    exact words_pad _
  obtain ⟨h1, _⟩ := growth_telescopes size n hmono
  have h2 := (C38_stepN_memory h hx hn (hr n (Nat.le_refl _)) (hs n (Nat.le_refl _))).2
  refine ⟨hmono, by rw [h1, e0], ?_⟩
  have e5 : words (size n) = (r n).memory.length / 32 := by
    show words (r n).memory.length = _
    unfold words; omega
  rw [e5]
  exact h2.2

/-! ### Concrete cases -/

-- MSTORE at offset 100 of a one-word memory: it grows to 5 words, for 12 gas
example : (demoIn [7, 100]).sizeAfter 100 32 = 160 ∧ (demoIn [7, 100]).growth 160 = 12 := ⟨by decide, by decide⟩
example : ∃ vm res, Runs (demo [0x52]) (envOf (demo [0x52])) vm (demoIn [7, 100]) 1 res 0 ∧
    res.gasLeft = 99985 ∧ res.memory.length = 160 ∧ byteAt res.memory 131 = 7 ∧ byteAt res.memory 31 = 31 := by
  obtain ⟨vm, h⟩ := demo_setting [0x52] (by decide) CANCUN 0
  exact ⟨vm, _, (C14_mstore h (demoIn_ok _ _ _ _ _ (by decide) (by decide)) rfl (rest := []) rfl (size := 160) (cost := 15)
    (by decide) (by decide)).1 (by decide), rfl, by decide +kernel, by decide +kernel, by decide +kernel⟩
-- MLOAD at 2^255 cannot be paid for; SHA3 of an empty range at the same offset does not touch memory
example : ∃ vm, Fails (demo [0x51]) (envOf (demo [0x51])) vm (demoIn [BitVec.ofNat 256 (2 ^ 255)]) 1 .outOfGas 0 0 := by
  obtain ⟨vm, h⟩ := demo_setting [0x51] (by decide) CANCUN 0
  exact ⟨vm, (C14_mload h (demoIn_ok _ _ _ _ _ (by decide) (by decide)) rfl (rest := []) rfl rfl rfl).2 (by decide +kernel)⟩
example : ∃ vm res, Runs (demo [0x20]) (envOf (demo [0x20])) vm (demoIn [0, BitVec.ofNat 256 (2 ^ 255)]) 1 res 0 ∧
    res.gasLeft = 99970 ∧ res.memory.length = 32 := by
  obtain ⟨vm, h⟩ := demo_setting [0x20] (by decide) CANCUN 0
  exact ⟨vm, _, (C30_sha3 h (demoIn_ok _ _ _ _ _ (by decide) (by decide)) rfl (rest := []) rfl (size := 32) (cost := 30)
    (by decide) (by decide)).1 (by decide), rfl, by decide⟩
-- RETURNDATACOPY of two bytes at offset 1 (the buffer has three), and of three bytes
example : ∃ vm res, Runs (demo [0x3e]) (envOf (demo [0x3e])) vm (demoIn [2, 1, 5]) 1 res 0 ∧
    byteAt res.memory 5 = 2 ∧ byteAt res.memory 6 = 3 ∧ byteAt res.memory 7 = 7 := by
  obtain ⟨vm, h⟩ := demo_setting [0x3e] (by decide) CANCUN 0
  exact ⟨vm, _, (C21_returndatacopy h (demoIn_ok _ _ _ _ _ (by decide) (by decide)) rfl (rest := []) rfl (size := 32) (cost := 6)
    (by decide) (by decide)).1 (by decide) (by decide), by decide, by decide, by decide⟩
example : ∃ vm, Fails (demo [0x3e]) (envOf (demo [0x3e])) vm (demoIn [3, 1, 5]) 1 .invalidMemoryAccess 0 0 := by
  obtain ⟨vm, h⟩ := demo_setting [0x3e] (by decide) CANCUN 0
  exact ⟨vm, (C21_returndatacopy h (demoIn_ok _ _ _ _ _ (by decide) (by decide)) rfl (rest := []) rfl (size := 32) (cost := 6)
    (by decide) (by decide)).2.1 (by decide) (by decide)⟩

end Tosca

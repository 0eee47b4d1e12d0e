import Verif.Proofs.Ops3

/-!
# Instruction bodies, part 4: creations and calls
-/

namespace Tosca.Proofs

open Tosca.Model Tosca.Spec

variable {σ : Type} {P : Params σ} {c : Ctx σ} {E : Env σ}

theorem ok_hostCall (msg : Message) (c : Ctx σ) (Q) :
    Ok (Ops.hostCall E msg) c Q ↔ Q (E.host.call msg c.world).1
      { c with world := (E.host.call msg c.world).2, sha3 := c.sha3.map (E.reenter msg c.world) } :=
  ok_of_eq rfl

theorem Fixed.reenter (hE : EnvOk P E) (hc : Fixed P c) (msg : Message) (w : σ) (s : Sha3Cache)
    (h : c.sha3.map (E.reenter msg w) = some s) : Sha3Ok P.keccak s := by
  cases hs : c.sha3 with
  | none => rw [hs] at h; simp at h
  | some s0 =>
    rw [hs] at h
    simp only [Option.map_some, Option.some.injEq] at h
    rw [← h]
    exact hE.reenter _ _ _ (hc.sha3 _ hs)

theorem tdiv64 (g : Nat) : ((g : Int) - (g : Int).tdiv 64) = (allBut64th g : Nat) := by
  unfold allBut64th
  rw [Int.tdiv_eq_ediv_of_nonneg (by omega)]
  omega

/-- The tail of a creation in the specification. -/
def createTail (P : Params σ) (salt : Option U256) (value off n : U256) (s : State σ) : State σ :=
  let s := { s with ret := [] }
  checkBalance P value s fun ok s =>
    if ok = false then s.push 0
    else
      let fwd := allBut64th s.gas
      let msg := createMessage P salt value (s.mem.read off.toNat n.toNat) fwd
      s.ask (P.host.call msg) fun r s =>
        { s with
          gas := s.gas - fwd + r.gasLeft.toNat
          refund := s.refund + r.gasRefund
          ret := if r.status = .revert then r.output else []
          stack := (if r.status = .success then Word.ofAddress r.createAddress else 0)
            :: s.stack }

theorem createCall_ok (hP : ParamsBase P) (hE : EnvOk P E) (hc : Fixed P c) (salt : Option U256)
    (r g0 g1 pc' : Nat) (value off n : U256) (mc : MemCost)
    (hr : r < 1024) (hg : g1 ≤ g0) (hm : MemOk c g0) (hrf : RefundOk P c g0) (hd : P.msg.depth ≤ 1024)
    (hsz : mc.size = n.toNat) (hoff : n.toNat ≠ 0 → mc.offset = off.toNat)
    (hb : n.toNat ≠ 0 → off.toNat + n.toNat ≤ 2 ^ 37) :
    Ok (Ops.createCall E salt.isSome (r : Int) g0 g1 value (salt.getD 0) mc) c
      (Post P c pc' g0 (r : Int) (createTail P salt value off n
        { status := .running, pc := pc', gas := g1, refund := c.gasRefunds
          stack := absStack c.stack.buf (r + 1), mem := (absMem c.memory).expand off.toNat n.toNat
          ret := c.returnData, host := c.world })) := by
  have hbd := exact_bound hsz hoff hb
  have h54 : g0 ≤ 2 ^ 54 := by have := hm.gas; omega
  have hdep := hP.depth
  have hmem := (grow_abs _ _ _ hbd hm.aligned).1
  rw [exact_expand hsz hoff] at hmem
  unfold Ops.createCall createTail checkBalance
  simp only [ok_bind, ok_modify, ok_getSpan, ok_get, hE.host]
  -- the balance check failed
  have poor : ∀ w : σ, Ok (do
        OpM.wr ((r : Int) + 0) 0
        let d ← OpM.lift (chk64 ((g0 : Int) - g1))
        pure { dynGas := d } : OpM σ OpResult)
      { c with returnData := [], memory := c.memory.grow mc.offset mc.size, world := w }
      (Post P c pc' g0 (r : Int)
        { status := .running, pc := pc', gas := g1, refund := c.gasRefunds
          stack := 0 :: absStack c.stack.buf (r + 1), mem := (absMem c.memory).expand off.toNat n.toNat
          ret := [], host := w }) := by
    intro w
    simp only [ok_bind, ok_wr0 r hr]
    rw [ok_chk64 _ (by unfold int64Min int64Max; omega), ok_pure]
    refine ⟨⟨⟨hc.1, hc.2, hc.3, hc.4, hc.5, hc.6⟩, rfl, rfl⟩, ?_⟩
    rw [outcome_enough _ _ (by dsimp only; omega) (by dsimp only; omega)]
    refine rel_running r rfl rfl rfl rfl ?_ hmem.symm (by omega) (by omega) ?_ rfl
    · dsimp only; omega
    · rw [absStack_push _ _ _ hr]
  -- the call
  have rich : ∀ w : σ, Asked P.host c.world w → Ok (do
        let depth ← OpM.lift (chk32 (c.message.depth + 1))
        let msgGas ← OpM.lift (chk64 ((g1 : Int) - (g1 : Int).tdiv 64))
        let input ← OpM.readSpan ⟨(c.memory.grow mc.offset mc.size).gen, mc.offset, mc.size⟩
        let result ← Ops.hostCall E {
          kind := if salt.isSome = true then .create2 else .create
          depth := depth
          gas := msgGas
          sender := c.message.recipient
          input := input
          value := value
          create2Salt := salt.getD 0 }
        (if result.status = .revert then OpM.modify fun c => { c with returnData := result.output }
          else return () : OpM σ Unit)
        let used ← OpM.lift (chk64 (msgGas - result.gasLeft))
        let gas ← OpM.lift (chk64 ((g1 : Int) - used))
        Ops.addRefund result.gasRefund
        OpM.wr ((r : Int) + 0) (if result.status = .success then ofAddress result.createAddress else 0)
        let d ← OpM.lift (chk64 ((g0 : Int) - gas))
        return { dynGas := d } : OpM σ OpResult)
      { c with returnData := [], memory := c.memory.grow mc.offset mc.size, world := w }
      (Post P c pc' g0 (r : Int)
        (let res := P.host.call (createMessage P salt value
            (((absMem c.memory).expand off.toNat n.toNat).read off.toNat n.toNat) (allBut64th g1)) w
         { status := .running, pc := pc'
           gas := g1 - allBut64th g1 + res.1.gasLeft.toNat
           refund := c.gasRefunds + res.1.gasRefund
           ret := if res.1.status = .revert then res.1.output else []
           stack := (if res.1.status = .success then Word.ofAddress res.1.createAddress else 0)
              :: absStack c.stack.buf (r + 1)
           mem := (absMem c.memory).expand off.toNat n.toNat
           host := res.2 })) := by
    intro w hask
    have hfwd : allBut64th g1 ≤ g1 := by unfold allBut64th; omega
    simp only [ok_bind]
    rw [ok_chk32 _ (by rw [hc.msg]; omega), tdiv64, ok_chk64 _ (by unfold int64Min int64Max; omega)]
    rw [ok_readSpan (readSpan_grow _ _ _ hbd hm.aligned), exact_expand hsz hoff, exact_read hsz hoff, ok_hostCall]
    rw [hE.host]
    have hmsg : ({ kind := if salt.isSome = true then .create2 else .create
                   depth := c.message.depth + 1
                   gas := (allBut64th g1 : Nat)
                   sender := c.message.recipient
                   input := ((absMem c.memory).expand off.toNat n.toNat).read off.toNat n.toNat
                   value := value
                   create2Salt := salt.getD 0 } : Message) = createMessage P salt value
            (((absMem c.memory).expand off.toNat n.toNat).read off.toNat n.toNat) (allBut64th g1) := by
      rw [hc.msg]; rfl
    rw [hmsg]
    have hgas : (createMessage P salt value
            (((absMem c.memory).expand off.toNat n.toNat).read off.toNat n.toNat) (allBut64th g1)).gas = (allBut64th g1 : Nat) := rfl
    have hcg := hP.host.callGas (createMessage P salt value
            (((absMem c.memory).expand off.toNat n.toNat).read off.toNat n.toNat) (allBut64th g1)) w (by rw [hgas]; omega) (by rw [hgas]; omega)
    have hcr := hrf.call (createMessage P salt value
            (((absMem c.memory).expand off.toNat n.toNat).read off.toNat n.toNat) (allBut64th g1)) w hask (by rw [hgas]; omega) (by rw [hgas]; omega)
    rw [hgas] at hcg
    have hre := fun s => Fixed.reenter (s := s) hE hc (createMessage P salt value
            (((absMem c.memory).expand off.toNat n.toNat).read off.toNat n.toNat) (allBut64th g1)) w
    dsimp only
    generalize createMessage P salt value
            (((absMem c.memory).expand off.toNat n.toNat).read off.toNat n.toNat) (allBut64th g1) = msg at *
    generalize P.host.call msg w = res at *
    have hhi := hrf.hi
    have hlo := hrf.lo
    have tail : ∀ rd : List Byte,
        Ok (do
          let used ← OpM.lift (chk64 (((allBut64th g1 : Nat) : Int) - res.1.gasLeft))
          let gas ← OpM.lift (chk64 ((g1 : Int) - used))
          Ops.addRefund res.1.gasRefund
          OpM.wr ((r : Int) + 0) (if res.1.status = .success then ofAddress res.1.createAddress else 0)
          let d ← OpM.lift (chk64 ((g0 : Int) - gas))
          return { dynGas := d } : OpM σ OpResult)
          { c with returnData := rd, memory := c.memory.grow mc.offset mc.size, world := res.2,
                   sha3 := c.sha3.map (E.reenter msg w) }
          (Post P c pc' g0 (r : Int) { status := .running, pc := pc'
                                       gas := g1 - allBut64th g1 + res.1.gasLeft.toNat
                                       refund := c.gasRefunds + res.1.gasRefund
                                       ret := rd
                                       stack := (if res.1.status = .success then Word.ofAddress res.1.createAddress else 0)
                                          :: absStack c.stack.buf (r + 1)
                                       mem := (absMem c.memory).expand off.toNat n.toNat
                                       host := res.2 }) := by
      intro rd
      simp only [ok_bind]
      rw [ok_chk64 _ (by unfold int64Min int64Max; omega), ok_chk64 _ (by unfold int64Min int64Max; omega),
        addRefund_ok _ (by dsimp only; exact hcr)]
      simp only [ok_wr0 r hr]
      rw [ok_chk64 _ (by unfold int64Min int64Max; omega), ok_pure]
      refine ⟨⟨⟨hc.1, hc.2, hc.3, hc.4, hc.5, hre⟩, rfl, rfl⟩, ?_⟩
      rw [outcome_enough _ _ (by dsimp only; omega) (by dsimp only; omega)]
      refine rel_running r rfl rfl rfl rfl ?_ hmem.symm (by omega) (by omega) ?_ rfl
      · dsimp only; omega
      · rw [absStack_push _ _ _ hr]
        simp only [w_ofAddress]
    simp only [ok_bind] at tail
    by_cases hrev : res.1.status = .revert
    · rw [if_pos hrev, if_pos hrev, ok_modify]
      exact tail res.1.output
    · rw [if_neg hrev, if_neg hrev, ok_pure]
      exact tail []
  simp only [ok_bind] at poor rich
  by_cases hv : value = 0
  · have hv' : value.toNat = 0 := (toNat_eq_zero _).1 hv
    rw [if_neg (show ¬ value ≠ 0 from not_not_intro hv), if_pos hv', ok_pure,
      if_neg (show ¬ false = true by simp), if_neg (show ¬ true = false by simp)]
    have := rich c.world .here
    simp only [ok_bind]
    exact this
  · have hv' : ¬ value.toNat = 0 := (toNat_ne_zero _).1 hv
    rw [if_pos hv, if_neg hv', show P.msg.recipient = c.message.recipient by rw [hc.msg]]
    simp only [ok_bind, ok_host, ok_pure, State.ask]
    have hbal : Asked P.host c.world (P.host.getBalance c.message.recipient c.world).2 := .balance _ .here
    generalize P.host.getBalance c.message.recipient c.world = bal at hbal ⊢
    by_cases hlt : bal.1.toNat < value.toNat
    · rw [if_pos (show bal.1.ult value = true by simpa [BitVec.ult] using hlt),
        if_pos (show decide (value.toNat ≤ bal.1.toNat) = false by simpa using hlt)]
      simp only [ok_bind]
      exact poor bal.2
    · rw [if_neg (show ¬ bal.1.ult value = true by simpa [BitVec.ult] using hlt),
        if_neg (show ¬ decide (value.toNat ≤ bal.1.toNat) = false by simpa using hlt)]
      simp only [ok_bind]
      exact rich bal.2 hbal

/-- A running state with the result slot still to be written. -/
def mkState (c : Ctx σ) (pc' r g : Nat) (m : Mem) : State σ :=
  { status := .running, pc := pc', gas := g, refund := c.gasRefunds
    stack := absStack c.stack.buf (r + 1), mem := m, ret := c.returnData, host := c.world }

theorem createWith_eq (salt : Option U256) (value off n : U256) (s : State σ) :
    createWith P salt value off n s = s.touch off n 0 fun s =>
      if P.rev ≥ SHANGHAI ∧ n.toNat > 49152 then s.fail .initCodeTooLarge
      else
        s.charge ((if P.rev ≥ SHANGHAI then 2 * words n.toNat else 0)
          + (if salt.isSome then 6 * words n.toNat else 0)) (createTail P salt value off n) := rfl

/-- The part of `CreateImpl::Run` after reading the operands. -/
theorem createBody_ok (hP : ParamsBase P) (hE : EnvOk P E) (hc : Fixed P c) (salt : Option U256)
    (r g pc' : Nat) (value off n : U256)
    (hr : r < 1024) (hm : MemOk c g) (hrf : RefundOk P c g) (hd : P.msg.depth ≤ 1024) :
    Ok (do
      let mc ← memCost off n
      let gas ← OpM.lift (chk64 ((g : Int) - mc.cost))
      if gas < 0 then
        let d ← OpM.lift (chk64 ((g : Int) - gas))
        return { dynGas := d }
      else if P.rev ≥ SHANGHAI ∧ mc.size > 49152 then
        let d ← OpM.lift (chk64 ((g : Int) - gas))
        return { state := .errorInitCodeSizeExceeded, dynGas := d }
      else
        let gas ← (if P.rev ≥ SHANGHAI then OpM.lift (chk64 (gas - 2 * minWords mc.size))
          else return gas : OpM σ Int)
        if P.rev ≥ SHANGHAI ∧ gas < 0 then
          let d ← OpM.lift (chk64 ((g : Int) - gas))
          return { dynGas := d }
        else
          let gas ← (if salt.isSome = true then do
              let w ← OpM.lift (chk64 (6 * minWords mc.size))
              OpM.lift (chk64 (gas - w))
            else return gas : OpM σ Int)
          if salt.isSome = true ∧ gas < 0 then
            let d ← OpM.lift (chk64 ((g : Int) - gas))
            return { dynGas := d }
          else Ops.createCall E salt.isSome (r : Int) g gas value (salt.getD 0) mc : OpM σ OpResult) c
      (Post P c pc' g (r : Int) (createWith P salt value off n
        { status := .running, pc := pc', gas := g, refund := c.gasRefunds
          stack := absStack c.stack.buf (r + 1), mem := absMem c.memory
          ret := c.returnData, host := c.world })) := by
  rw [createWith_eq]
  simp only [State.touch, State.charge]
  have h54 : g ≤ 2 ^ 54 := by have := hm.gas; omega
  obtain ⟨mc, hmc, hok⟩ := memCost_ok hm off n
  rw [ok_bind, ok_memCost_eq hmc]
  cases hok with
  | tooMuch hcost hcost' hgg hsz =>
    unfold int64Max at hcost'
    rw [if_pos (by omega), ok_bind, ok_chk64 _ (by unfold int64Min int64Max; omega), if_pos (by omega),
      ok_bind, ok_chk64 _ (by unfold int64Min int64Max; omega), ok_pure]
    exact post_outOfGas hc.frame (by dsimp only; omega) rfl rfl
  | exact hcost hgg hsz hoff hb =>
    have hsm := exact_small hb
    have hws := words_small _ hsm
    rw [hcost]
    rw [if_neg (by omega), ok_bind, ok_chk64 _ (by unfold int64Min int64Max; omega), if_neg (by omega)]
    rw [show minWords mc.size = (words n.toNat : Nat) by rw [hsz, minWords_small _ hsm]]
    generalize hG : (absMem c.memory).growGas ((absMem c.memory).sizeAfter off.toNat n.toNat) = G at *
    by_cases hbig : P.rev ≥ SHANGHAI ∧ n.toNat > 49152
    · rw [if_pos (by rw [hsz]; exact hbig), if_pos hbig, ok_bind,
        ok_chk64 _ (by unfold int64Min int64Max; omega), ok_pure]
      refine ⟨hc.frame, ?_⟩
      rw [outcome_enough _ _ (by dsimp only; omega) (by dsimp only; omega)]
      exact rel_fail rfl rfl rfl
    · rw [if_neg (by rw [hsz]; exact hbig), if_neg hbig]
      have fin : ∀ g1 : Nat, ¬ g - (G + 0) < (if P.rev ≥ SHANGHAI then 2 * words n.toNat else 0)
            + (if salt.isSome = true then 6 * words n.toNat else 0) →
          g1 = g - (G + 0) - ((if P.rev ≥ SHANGHAI then 2 * words n.toNat else 0)
            + (if salt.isSome = true then 6 * words n.toNat else 0)) →
          Ok (Ops.createCall E salt.isSome (r : Int) g (g1 : Int) value (salt.getD 0) mc) c
            (Post P c pc' g (r : Int)
              (if g - (G + 0) < (if P.rev ≥ SHANGHAI then 2 * words n.toNat else 0)
                + (if salt.isSome = true then 6 * words n.toNat else 0) then
                State.fail (mkState c pc' r (g - (G + 0)) ((absMem c.memory).expand off.toNat n.toNat)) .outOfGas
              else createTail P salt value off n
                (mkState c pc' r (g - (G + 0) - ((if P.rev ≥ SHANGHAI then 2 * words n.toNat else 0)
                    + (if salt.isSome = true then 6 * words n.toNat else 0)))
                    ((absMem c.memory).expand off.toNat n.toNat)))) := by
        intro g1 h1 h2
        rw [if_neg h1, ← h2]
        exact createCall_ok hP hE hc salt r g g1 pc' value off n mc hr (by omega) hm hrf hd hsz hoff hb
      have oog : ∀ d : Int, g - (G + 0) < (if P.rev ≥ SHANGHAI then 2 * words n.toNat else 0)
            + (if salt.isSome = true then 6 * words n.toNat else 0) → (g : Int) < d →
          Post P c pc' g (r : Int)
              (if g - (G + 0) < (if P.rev ≥ SHANGHAI then 2 * words n.toNat else 0)
                + (if salt.isSome = true then 6 * words n.toNat else 0) then
                State.fail (mkState c pc' r (g - (G + 0)) ((absMem c.memory).expand off.toNat n.toNat)) .outOfGas
              else createTail P salt value off n
                (mkState c pc' r (g - (G + 0) - ((if P.rev ≥ SHANGHAI then 2 * words n.toNat else 0)
                    + (if salt.isSome = true then 6 * words n.toNat else 0)))
                    ((absMem c.memory).expand off.toNat n.toNat))) { dynGas := d } c := by
        intro d h1 h2
        rw [if_pos h1]
        exact post_outOfGas hc.frame h2 rfl rfl
      -- the CREATE2 word cost
      have second : ∀ a : Nat, a = (if P.rev ≥ SHANGHAI then 2 * words n.toNat else 0) → a ≤ g - G →
          Ok (do
            let gas ← (if salt.isSome = true then do
                let w ← OpM.lift (chk64 (6 * ((words n.toNat : Nat) : Int)))
                OpM.lift (chk64 ((g : Int) - G - a - w))
              else return (g : Int) - G - a : OpM σ Int)
            if salt.isSome = true ∧ gas < 0 then
              let d ← OpM.lift (chk64 ((g : Int) - gas))
              return { dynGas := d }
            else Ops.createCall E salt.isSome (r : Int) g gas value (salt.getD 0) mc : OpM σ OpResult) c
            (Post P c pc' g (r : Int)
              (if g - (G + 0) < (if P.rev ≥ SHANGHAI then 2 * words n.toNat else 0)
                + (if salt.isSome = true then 6 * words n.toNat else 0) then
                State.fail (mkState c pc' r (g - (G + 0)) ((absMem c.memory).expand off.toNat n.toNat)) .outOfGas
              else createTail P salt value off n
                (mkState c pc' r (g - (G + 0) - ((if P.rev ≥ SHANGHAI then 2 * words n.toNat else 0)
                    + (if salt.isSome = true then 6 * words n.toNat else 0)))
                    ((absMem c.memory).expand off.toNat n.toNat)))) := by
        intro a ha hle
        rw [← ha] at fin oog ⊢
        rw [ok_bind]
        by_cases hs : salt.isSome = true
        · rw [if_pos hs] at fin oog ⊢
          rw [if_pos hs, ok_bind, ok_chk64 _ (by unfold int64Min int64Max; omega),
            ok_chk64 _ (by unfold int64Min int64Max; omega)]
          by_cases hneg : (g : Int) - G - a - 6 * ((words n.toNat : Nat) : Int) < 0
          · rw [if_pos ⟨hs, hneg⟩, ok_bind, ok_chk64 _ (by unfold int64Min int64Max; omega), ok_pure]
            exact oog _ (by omega) (by omega)
          · rw [if_neg (fun h => hneg h.2)]
            have := fin (g - G - (a + 6 * words n.toNat)) (by omega) (by omega)
            rw [show (((g - G - (a + 6 * words n.toNat) : Nat)) : Int) = (g : Int) - G - a - 6 * ((words n.toNat : Nat) : Int) by omega] at this
            exact this
        · rw [if_neg hs] at fin oog ⊢
          rw [if_neg hs, ok_pure, if_neg (fun h => hs h.1)]
          have := fin (g - G - a) (by omega) (by omega)
          rw [show (((g - G - a : Nat)) : Int) = (g : Int) - G - a by omega] at this
          exact this
      rw [ok_bind]
      by_cases hsh : P.rev ≥ SHANGHAI
      · rw [if_pos hsh] at second oog ⊢
        rw [if_pos hsh, ok_chk64 _ (by unfold int64Min int64Max; omega)]
        by_cases hneg : (g : Int) - G - 2 * ((words n.toNat : Nat) : Int) < 0
        · rw [if_pos ⟨hsh, hneg⟩, ok_bind, ok_chk64 _ (by unfold int64Min int64Max; omega), ok_pure]
          exact oog _ (by omega) (by omega)
        · rw [if_neg (fun h => hneg h.2)]
          have := second (2 * words n.toNat) rfl (by omega)
          rw [show (((2 * words n.toNat : Nat)) : Int) = 2 * ((words n.toNat : Nat) : Int) by omega] at this
          exact this
      · rw [if_neg hsh] at second oog ⊢
        rw [if_neg hsh, ok_pure, if_neg (fun h => hsh h.1)]
        have := second 0 rfl (by omega)
        rw [show (g : Int) - (G : Int) - ((0 : Nat) : Int) = (g : Int) - G by omega] at this
        exact this

theorem create_ok (hP : ParamsBase P) (hE : EnvOk P E) (hc : Fixed P c) (is2 : Bool) (t g pc' : Nat)
    (ht : t + (if is2 then 4 else 3) ≤ 1024) (hm : MemOk c g) (hrf : RefundOk P c g) :
    Ok (Ops.create E is2 t g) c (Post P c pc' g ((t : Int) + (if is2 then 3 else 2))
      (create P is2 (absState c t g pc'))) := by
  unfold Ops.create create
  rw [ok_bind, ok_get]
  by_cases hd : P.msg.depth > 1024
  · rw [if_pos (by rw [hc.msg]; exact hd), if_pos hd, ok_pure]
    exact post_fail rfl hc.frame rfl rfl
  rw [if_neg (by rw [hc.msg]; exact hd), if_neg hd]
  cases is2 with
  | false =>
    simp only [Bool.false_eq_true, if_false] at ht ⊢
    rw [ok_bind, ok_rd0 t (by omega), ok_bind, ok_rd1 t (by omega), ok_bind, ok_rd2 t (by omega), ok_bind, ok_pure]
    simp only [State.pop3, State.pop2, State.pop1, absState, absStack_c3 c.stack.buf t (by omega)]
    have := createBody_ok hP hE hc none (t + 2) g pc' (c.stack.buf t) (c.stack.buf (t + 1)) (c.stack.buf (t + 2))
      (by omega) hm hrf (by omega)
    rw [hc.rev]
    simpa using this
  | true =>
    simp only [if_true] at ht ⊢
    rw [ok_bind, ok_rd0 t (by omega), ok_bind, ok_rd1 t (by omega), ok_bind, ok_rd2 t (by omega), ok_bind, ok_rd3 t (by omega)]
    simp only [State.pop3, State.pop2, State.pop1, absState, absStack_c4 c.stack.buf t (by omega)]
    have := createBody_ok hP hE hc (some (c.stack.buf (t + 3))) (t + 3) g pc' (c.stack.buf t) (c.stack.buf (t + 1)) (c.stack.buf (t + 2))
      (by omega) hm hrf (by omega)
    rw [hc.rev]
    simpa using this

end Tosca.Proofs

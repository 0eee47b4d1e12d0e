import Verif.Proofs.GoEffects
import Verif.Proofs.NativeEffects

/-!
# Invariants of calls
-/

namespace Tosca.Proofs

open Tosca.Spec Tosca.Model Tosca.Go Tosca.Model.Go

variable {ω : Type}

/-- An interpreter that affects the state only by the calls a frame may make (at some depth `d`), and not at all without code. -/
structure Works (R : Spec.Go.Reports) (db : Db ω) (I : Interpreter ω) : Prop where
  acts : ∀ call p w, ∃ acts rev d, (I db call p w).2 = replay (Spec.Go.host R db call p) acts w ∧
    ∀ a ∈ acts, Permitted (Spec.Go.host R db call p) (messageOf { p with depth := d }) rev a
  empty : ∀ call p w, p.code = [] → (I db call p w).2 = w

theorem evmzero_works (B : Binding) {keccak : List Byte → U256} {find : Parameters → ω → Found ω}
    (hf : ∀ p w, FoundFor keccak p (find p w)) (db : Db ω) : Works (reports B) db (evmzero B keccak find) where
  acts call p w := by
    obtain ⟨acts, rev, h⟩ := evmzeroRun_eff B keccak (find p w) db call p w
    exact ⟨acts, rev, p.depth, h⟩
  empty call p w hp := evmzeroRun_empty B keccak db call (hf p w) hp w

/-- The static flag of a callee's context. -/
def calleeStatic (st : Bool) (kind : Kind) : Bool := if kind = .staticCall then true else st

/-- The effects of the host methods that change the state, other than nested calls. -/
inductive Effect (db : Db ω) (self : Address) (readOnly : Bool) : ω → ω → Prop
  | accessAccount (a : Address) (w : ω) : Effect db self readOnly w (db.accessAccount a w).2
  | accessStorage (k : U256) (w : ω) : Effect db self readOnly w (db.accessStorage self k w).2
  | setStorage (k v : U256) (w : ω) : readOnly = false → Effect db self readOnly w (db.setStorage self k v w).2
  | setTransient (k v : U256) (w : ω) : readOnly = false → Effect db self readOnly w (db.setTransient self k v w)
  | emitLog (d : List Byte) (t : List U256) (w : ω) : readOnly = false → Effect db self readOnly w (db.emitLog ⟨self, t, d⟩ w)
  | selfDestruct (b : Address) (w : ω) : readOnly = false → Effect db self readOnly w (db.selfDestruct self b w).2

/-- A predicate on states that is kept by everything calls of the kind described by `Good` do. -/
structure Stable (F : Floria ω) (Good : Bool → Kind → CallParameters → Prop) (S : ω → Prop) : Prop where
  /-- What the callee's code does itself. -/
  act : ∀ st kind p rcp w w', Good st kind p → S w → Effect F.db rcp (calleeStatic st kind) w w' →
    (¬ isCreate kind → rcp = p.recipient) → S w'
  nonces : ∀ st kind p w, isCreate kind → Good st kind p → S w → F.db.nonce (createdAt F kind p w) w = 0 →
    S (F.db.setNonce (createdAt F kind p w) 1 (F.db.setNonce p.sender (F.db.nonce p.sender w + 1) w))
  transfer : ∀ st kind p rcp w w', Good st kind p → S w → kind ≠ .staticCall ∧ kind ≠ .delegateCall →
    (¬ isCreate kind → rcp = p.recipient) → transferValue F.db p.value p.sender rcp w = some w' → S w'
  /-- No such call is one from the driver to the state contract. -/
  special : ∀ st kind p, Good st kind p → ¬ (p.sender = driverAddress ∧ p.recipient = stateContractAddress)
  store : ∀ st kind p w0 w code, isCreate kind → Good st kind p → S w0 → F.db.nonce (createdAt F kind p w0) w0 = 0 → S w →
    S (F.db.setCode (createdAt F kind p w0) code w)
  /-- The callee has no code, or makes only such calls itself. -/
  nested : ∀ st kind p w code hash rcp created w', Good st kind p → S w → F.prepare kind p w = some (code, hash, rcp, created, w') →
    code = [] ∨ ∀ q m : Message, q.recipient = rcp → q.sender = p.sender → q.value = p.value → q.isStatic = calleeStatic st kind →
      Nested q m → Good (calleeStatic st kind) (Spec.Go.kindOf m) (Spec.Go.paramsOf m)

theorem stateContract_other {keccak : List Byte → U256} {db : Db ω} {sender receiver : Address}
    (h : ¬ (sender = driverAddress ∧ receiver = stateContractAddress)) (input : List Byte) (g : Int) (w : ω) :
    (handleStateContract keccak db sender receiver input g w).2 = w := by
  unfold handleStateContract
  split
  · rfl
  · rename_i h1
    rw [if_pos]
    intro h2
    exact h ⟨h2, Classical.not_not.mp h1⟩

theorem replay_stable {H : Host ω} {S : ω → Prop} {acts : List HostAct} (h : ∀ a ∈ acts, ∀ w, S w → S (a.apply H w)) :
    ∀ w, S w → S (replay H acts w) := by
  induction acts with
  | nil => intro w hw; exact hw
  | cons a l ih =>
    intro w hw
    exact ih (fun b hb => h b (by simp [hb])) _ (h a (by simp) w hw)

theorem isStatic_messageOf (p : Parameters) : (messageOf p).isStatic = p.static := by
  unfold messageOf Message.isStatic
  cases p.static <;> simp

/-- What a permitted call of a host method does. -/
theorem act_cases {R : Spec.Go.Reports} {db : Db ω} {call : CallFn ω} {p : Parameters} {rev : Revision} {a : HostAct} {w : ω} {d : Int}
    (h : Permitted (Spec.Go.host R db call p) (messageOf { p with depth := d }) rev a) :
    a.apply (Spec.Go.host R db call p) w = w ∨ Effect db p.recipient p.static w (a.apply (Spec.Go.host R db call p) w) ∨
    ∃ m, Nested (messageOf { p with depth := d }) m ∧ a.apply (Spec.Go.host R db call p) w = (call (Spec.Go.kindOf m) (Spec.Go.paramsOf m) w).2 := by
  have hst := isStatic_messageOf { p with depth := d }
  have hro : p.static = true → a.ReadOnly := fun hp => h.static (by rw [hst]; exact hp)
  have how := h.owned
  have hf : ¬ a.ReadOnly → p.static = false := by
    intro hn
    cases hs : p.static with
    | false => rfl
    | true => exact absurd (hro hs) hn
  cases a with
  | setStorage a k v =>
    cases (show a = p.recipient from how)
    exact Or.inr (Or.inl (.setStorage k v w (hf fun x => x)))
  | setTransient a k v =>
    cases (show a = p.recipient from how)
    exact Or.inr (Or.inl (.setTransient k v w (hf fun x => x)))
  | selfdestruct a b =>
    cases (show a = p.recipient from how)
    exact Or.inr (Or.inl (.selfDestruct b w (hf fun x => x)))
  | emitLog a d t =>
    cases (show a = p.recipient from how)
    exact Or.inr (Or.inl (.emitLog d t w (hf fun x => x)))
  | accessAccount a => exact Or.inr (Or.inl (.accessAccount a w))
  | accessStorage a k =>
    cases (show a = p.recipient from how)
    exact Or.inr (Or.inl (.accessStorage k w))
  | call m =>
    by_cases hl : m.input.length ≤ 2 ^ 30
    · refine Or.inr (Or.inr ⟨m, h.nested m rfl, ?_⟩)
      show (if m.input.length ≤ 2 ^ 30 then _ else _ : Tosca.CallResult × ω).2 = _
      rw [if_pos hl]
    · refine Or.inl ?_
      show (if m.input.length ≤ 2 ^ 30 then _ else _ : Tosca.CallResult × ω).2 = _
      rw [if_neg hl]
  | _ => exact Or.inl rfl

theorem finish_stable {F : Floria ω} {kind : Kind} {a : Address} {snapshot w : ω} {x : Except Err RunResult} {S : ω → Prop}
    (h1 : S snapshot) (h2 : S w) (h3 : isCreate kind → ∀ code, S (F.db.setCode a code w)) : S (F.finish kind a snapshot (x, w)).2 := by
  unfold Floria.finish
  cases x with
  | error e => exact h1
  | ok r =>
    dsimp only
    cases hs : r.success with
    | false => simp only [if_true]; rw [if_neg (by intro h; cases h.1)]; exact h1
    | true =>
      simp only [Bool.true_eq_false, if_false]
      split
      · rename_i hk
        split
        · exact h2
        · split
          · exact h2
          · split
            · exact h2
            · exact h3 hk.2 _
      · exact h2

/-- After the preparation of a call, the invariant is kept. -/
theorem callBody_rest {R : Spec.Go.Reports} {F : Floria ω} (hW : Works R F.db F.interpreter) {Good : Bool → Kind → CallParameters → Prop}
    {S : ω → Prop} {depth : Nat} {st : Bool} {next : Bool → CallFn ω}
    (ih : ∀ st kind p w, Good st kind p → S w → S (next st kind p w).2) {kind : Kind} {p : CallParameters} {w w1 : ω}
    {code : List Byte} {hash : U256} {rcp created : Address} (hd : ¬ depth > maxRecursiveDepth)
    (hp : F.prepare kind p w = some (code, hash, rcp, created, w1)) (hw1 : S w1)
    (hact : ∀ w w', S w → Effect F.db rcp (calleeStatic st kind) w w' → S w')
    (htr : ∀ w', kind ≠ .staticCall ∧ kind ≠ .delegateCall → transferValue F.db p.value p.sender rcp w1 = some w' → S w')
    (hsp : ¬ (p.sender = driverAddress ∧ p.recipient = stateContractAddress))
    (hst : isCreate kind → ∀ w c, S w → S (F.db.setCode created c w))
    (hne : code = [] ∨ ∀ q m : Message, q.recipient = rcp → q.sender = p.sender → q.value = p.value → q.isStatic = calleeStatic st kind →
      Nested q m → Good (calleeStatic st kind) (Spec.Go.kindOf m) (Spec.Go.paramsOf m)) :
    S (F.callBody depth st next kind p w).2 := by
  unfold Floria.callBody
  rw [if_neg hd, hp]
  dsimp only
  split
  · exact hw1
  · rename_i w2 hw2
    have hs2 : S w2 := by
      split at hw2
      · rename_i hkk
        exact htr w2 hkk hw2
      · cases hw2; exact hw1
    have hst' := stateContract_other (keccak := F.keccak) (db := F.db) hsp p.input p.gas w2
    split
    · rename_i out w3 he
      rw [he] at hst'
      dsimp only at hst' ⊢
      rw [hst']; exact hs2
    · rename_i w3 he
      rw [he] at hst'
      dsimp only at hst'
      subst hst'
      split
      · exact hs2
      · split
        · exact hs2
        · have hrun : S (F.interpreter F.db (next (calleeStatic st kind))
              { block := F.block, tx := F.tx, kind := kind, static := calleeStatic st kind, depth := depth, gas := p.gas
                recipient := rcp, sender := p.sender, input := p.input, value := p.value, codeHash := some hash, code := code } w3).2 := by
            rcases hne with he | hne
            · rw [hW.empty _ _ _ he]; exact hs2
            · obtain ⟨acts, rev, d, h1, h2⟩ := hW.acts (next (calleeStatic st kind))
                { block := F.block, tx := F.tx, kind := kind, static := calleeStatic st kind, depth := depth, gas := p.gas
                  recipient := rcp, sender := p.sender, input := p.input, value := p.value, codeHash := some hash, code := code } w3
              rw [h1]
              refine replay_stable (fun a ha w hw => ?_) w3 hs2
              rcases act_cases (w := w) (h2 a ha) with e | e | ⟨m, hm, e⟩
              · rw [e]; exact hw
              · exact hact _ _ hw e
              · rw [e]
                exact ih _ _ _ _ (hne _ m rfl rfl rfl (isStatic_messageOf _) hm) hw
          exact finish_stable hw1 hrun fun hk c => hst hk _ c hrun

theorem prepare_info {F : Floria ω} {kind : Kind} {p : CallParameters} {w w1 : ω} {code : List Byte} {hash : U256} {rcp created : Address}
    (hp : F.prepare kind p w = some (code, hash, rcp, created, w1)) :
    (isCreate kind ∧ F.db.nonce (createdAt F kind p w) w = 0 ∧ rcp = createdAt F kind p w ∧ created = createdAt F kind p w ∧
      w1 = F.db.setNonce (createdAt F kind p w) 1 (F.db.setNonce p.sender (F.db.nonce p.sender w + 1) w)) ∨
    (¬ isCreate kind ∧ rcp = p.recipient ∧ created = 0 ∧ w1 = w ∧
      code = F.db.code (if kind = .delegateCall ∨ kind = .callCode then p.codeAddress else p.recipient) w) := by
  by_cases hk : isCreate kind
  · rw [prepare_create hk] at hp
    split at hp
    · cases hp
    · rename_i hn
      have hz : F.db.nonce (createdAt F kind p w) w = 0 := by
        by_cases hz : F.db.nonce (createdAt F kind p w) w = 0
        · exact hz
        · exact absurd (Or.inl hz) hn
      cases hp
      exact Or.inl ⟨hk, hz, rfl, rfl, rfl⟩
  · rw [prepare_call hk] at hp
    cases hp
    exact Or.inr ⟨hk, rfl, rfl, rfl, rfl⟩

theorem callBody_stable {R : Spec.Go.Reports} {F : Floria ω} (hW : Works R F.db F.interpreter) {Good : Bool → Kind → CallParameters → Prop}
    {S : ω → Prop} (hS : Stable F Good S) {depth : Nat} {st : Bool} {next : Bool → CallFn ω}
    (ih : ∀ st kind p w, Good st kind p → S w → S (next st kind p w).2) {kind : Kind} {p : CallParameters} {w : ω}
    (hg : Good st kind p) (hw : S w) : S (F.callBody depth st next kind p w).2 := by
  by_cases hd : depth > maxRecursiveDepth
  · unfold Floria.callBody
    rw [if_pos hd]; exact hw
  · cases hp : F.prepare kind p w with
    | none => unfold Floria.callBody; rw [if_neg hd, hp]; exact hw
    | some t =>
      obtain ⟨code, hash, rcp, created, w1⟩ := t
      have hi := prepare_info hp
      have hr : ¬ isCreate kind → rcp = p.recipient := by
        intro hk
        rcases hi with ⟨h, _⟩ | ⟨_, h, _⟩
        · exact absurd h hk
        · exact h
      refine callBody_rest hW ih hd hp ?_ (fun w w' h1 h2 => hS.act st kind p rcp w w' hg h1 h2 hr) ?_ (hS.special st kind p hg) ?_
        (hS.nested st kind p w code hash rcp created w1 hg hw hp)
      · rcases hi with ⟨hk, hz, _, _, rfl⟩ | ⟨_, _, _, rfl, _⟩
        · exact hS.nonces st kind p w hk hg hw hz
        · exact hw
      · intro w' hkk ht
        refine hS.transfer st kind p rcp w1 w' hg ?_ hkk hr ht
        rcases hi with ⟨hk, hz, _, _, rfl⟩ | ⟨_, _, _, rfl, _⟩
        · exact hS.nonces st kind p w hk hg hw hz
        · exact hw
      · intro hk w2 c h2
        rcases hi with ⟨_, hz, _, rfl, _⟩ | ⟨h, _⟩
        · exact hS.store st kind p w w2 c hk hg hw hz h2
        · exact absurd hk h

/-- What claims about transactions need to know about the processor. -/
structure Sound (P : Processor ω) (db : Db ω) (block : BlockParameters) (t : Transaction) : Prop where
  works : ∃ R, Works R (P.context db block t).db (P.context db block t).interpreter
  call : Spec.Go.CallFnOk ((P.context db block t).call 0 false)
  tx : Spec.Go.TxOk t

/-- Calls keep the invariant. -/
theorem call_stable {R : Spec.Go.Reports} {F : Floria ω} (hW : Works R F.db F.interpreter) {Good : Bool → Kind → CallParameters → Prop}
    {S : ω → Prop} (hS : Stable F Good S) (depth : Nat) (st : Bool) :
    ∀ kind p w, Good st kind p → S w → S (F.call depth st kind p w).2 :=
  call_induct F (fun _ st c => ∀ kind p w, Good st kind p → S w → S (c kind p w).2)
    (fun _ _ _ _ _ _ _ hw => hw)
    (fun _ _ _ ih _ _ _ hg hw => callBody_stable hW hS (fun st kind p w h1 h2 => ih st kind p w h1 h2) hg hw) depth st

end Tosca.Proofs

import Verif.Proofs.AnyHost
import Verif.Spec.Effects

/-!
# Host effects of a run, for every host
-/

namespace Tosca.Proofs

open Tosca.Model Tosca.Spec

variable {σ ω α β : Type} {E : Env σ} {p : Message} {rev : Revision} {A : HostAct → Prop}

/-- The parts of the context that stay fixed. -/
structure Fix (p : Message) (rev : Revision) (c : Ctx σ) : Prop where
  msg : c.message = p
  rev : c.revision = rev
  static : c.isStatic = p.isStatic

/-- A body changes the host state only by calls in `A`. -/
def Eff (H : Host σ) (p : Message) (rev : Revision) (A : HostAct → Prop) (m : OpM σ α) : Prop :=
  ∀ c a c', Fix p rev c → m c = .ok (a, c') →
    Fix p rev c' ∧ ∃ acts, c'.world = replay H acts c.world ∧ ∀ x ∈ acts, A x

theorem replay_append (H : Host σ) (l1 l2 : List HostAct) (w : σ) :
    replay H (l1 ++ l2) w = replay H l2 (replay H l1 w) := by
  unfold replay; rw [List.foldl_append]

theorem eff_pure (a : α) : Eff E.host p rev A (pure a : OpM σ α) := by
  intro c b c' hf h
  cases h
  exact ⟨hf, [], rfl, by simp⟩

theorem eff_bind {m : OpM σ α} {f : α → OpM σ β} (Q : α → Prop) (hm : Eff E.host p rev A m) (hq : After m Q)
    (hf : ∀ a, Q a → Eff E.host p rev A (f a)) : Eff E.host p rev A (m >>= f) := by
  intro c b c' hF h
  change OpM.bind m f c = _ at h
  unfold OpM.bind at h
  split at h
  · rename_i a c1 h1
    obtain ⟨hF1, l1, e1, p1⟩ := hm c a c1 hF h1
    obtain ⟨hF2, l2, e2, p2⟩ := hf a (hq _ _ _ h1) c1 b c' hF1 h
    refine ⟨hF2, l1 ++ l2, ?_, ?_⟩
    · rw [replay_append, e2, e1]
    · intro x hx
      rcases List.mem_append.mp hx with h | h
      · exact p1 x h
      · exact p2 x h
  · cases h

theorem eff_seq {m : OpM σ α} {f : α → OpM σ β} (hm : Eff E.host p rev A m)
    (hf : ∀ a, Eff E.host p rev A (f a)) : Eff E.host p rev A (m >>= f) :=
  eff_bind (fun _ => True) hm (fun _ _ _ _ => trivial) fun a _ => hf a

theorem eff_get {f : Ctx σ → OpM σ β} (hf : ∀ c, Fix p rev c → Eff E.host p rev A (f c)) :
    Eff E.host p rev A (OpM.get >>= f) := by
  intro c b c' hF h
  exact hf c hF c b c' hF h

/-- Bodies that leave the host alone. -/
theorem eff_quiet {m : OpM σ α} (h : ∀ c a c', m c = .ok (a, c') →
    c'.message = c.message ∧ c'.revision = c.revision ∧ c'.isStatic = c.isStatic ∧ c'.world = c.world) :
    Eff E.host p rev A m := by
  intro c a c' hF hm
  obtain ⟨h1, h2, h3, h4⟩ := h c a c' hm
  exact ⟨⟨h1.trans hF.msg, h2.trans hF.rev, h3.trans hF.static⟩, [], h4, by simp⟩

theorem eff_lift (m : M α) : Eff E.host p rev A (OpM.lift m : OpM σ α) := by
  apply eff_quiet
  intro c a c' h
  unfold OpM.lift at h
  split at h <;> cases h
  exact ⟨rfl, rfl, rfl, rfl⟩

theorem eff_chk64 (x : Int) {f : Int → OpM σ β} (hf : Eff E.host p rev A (f x)) :
    Eff E.host p rev A (OpM.lift (chk64 x) >>= f) :=
  eff_bind _ (eff_lift _) (after_chk x) fun a h => by rw [h]; exact hf

theorem after_chk32 (x : Int) : After (OpM.lift (chk32 x) : OpM σ Int) (fun y => y = x) := by
  intro c a c' e
  unfold OpM.lift chk32 at e
  split at e
  · rename_i h; split at h <;> cases h; cases e; rfl
  · cases e

theorem eff_chk32 (x : Int) {f : Int → OpM σ β} (hf : Eff E.host p rev A (f x)) :
    Eff E.host p rev A (OpM.lift (chk32 x) >>= f) :=
  eff_bind _ (eff_lift _) (after_chk32 x) fun a h => by rw [h]; exact hf

theorem eff_modify (f : Ctx σ → Ctx σ) (h : ∀ c, (f c).message = c.message ∧ (f c).revision = c.revision ∧
    (f c).isStatic = c.isStatic ∧ (f c).world = c.world) : Eff E.host p rev A (OpM.modify f) := by
  apply eff_quiet
  intro c a c' hm
  cases hm
  exact h c

theorem eff_rd (i : Int) : Eff E.host p rev A (OpM.rd i : OpM σ U256) := by
  apply eff_quiet
  intro c a c' h
  unfold OpM.rd at h
  split at h <;> cases h
  exact ⟨rfl, rfl, rfl, rfl⟩

theorem eff_wr (i : Int) (v : U256) : Eff E.host p rev A (OpM.wr i v : OpM σ Unit) := by
  apply eff_quiet
  intro c a c' h
  unfold OpM.wr at h
  split at h <;> cases h
  exact ⟨rfl, rfl, rfl, rfl⟩

theorem eff_mem (f : Memory → M Memory) : Eff E.host p rev A (OpM.mem f : OpM σ Unit) := by
  apply eff_quiet
  intro c a c' h
  unfold OpM.mem at h
  split at h <;> cases h
  exact ⟨rfl, rfl, rfl, rfl⟩

theorem eff_memRead (f : Memory → M (List Byte × Memory)) : Eff E.host p rev A (OpM.memRead f : OpM σ (List Byte)) := by
  apply eff_quiet
  intro c a c' h
  unfold OpM.memRead at h
  split at h <;> cases h
  exact ⟨rfl, rfl, rfl, rfl⟩

theorem eff_getSpan (a b : Nat) : Eff E.host p rev A (OpM.getSpan a b : OpM σ Span) := by
  apply eff_quiet
  intro c a c' h
  cases h
  exact ⟨rfl, rfl, rfl, rfl⟩

theorem eff_readSpan (s : Span) : Eff E.host p rev A (OpM.readSpan s : OpM σ (List Byte)) := by
  apply eff_quiet
  intro c a c' h
  unfold OpM.readSpan at h
  split at h <;> cases h
  exact ⟨rfl, rfl, rfl, rfl⟩

theorem eff_memCost (a b : U256) : Eff E.host p rev A (memCost a b : OpM σ MemCost) := by
  apply eff_quiet
  intro c a c' h
  unfold memCost at h
  split at h <;> cases h
  exact ⟨rfl, rfl, rfl, rfl⟩

theorem eff_codeByte (i : Nat) : Eff E.host p rev A (Ops.codeByte i : OpM σ Byte) := by
  apply eff_quiet
  intro c a c' h
  unfold Ops.codeByte at h
  split at h <;> cases h
  exact ⟨rfl, rfl, rfl, rfl⟩

theorem eff_checkJumpDest (d : U256) : Eff E.host p rev A (checkJumpDest d : OpM σ Bool) := by
  apply eff_quiet
  intro c a c' h
  unfold checkJumpDest at h
  split at h
  · cases h; exact ⟨rfl, rfl, rfl, rfl⟩
  · dsimp only at h
    split at h
    · cases h; exact ⟨rfl, rfl, rfl, rfl⟩
    · split at h <;> (cases h; exact ⟨rfl, rfl, rfl, rfl⟩)

theorem eff_ite (q : Prop) [Decidable q] {a b : OpM σ α} (ha : q → Eff E.host p rev A a) (hb : ¬ q → Eff E.host p rev A b) :
    Eff E.host p rev A (if q then a else b) := by
  split
  · exact ha (by assumption)
  · exact hb (by assumption)

/-- A call of a host method. -/
theorem eff_host (act : HostAct) (f : σ → α × σ) (hact : ∀ w, (f w).2 = act.apply E.host w) (hA : A act) :
    Eff E.host p rev A (OpM.host f) := by
  intro c a c' hF h
  cases h
  refine ⟨⟨hF.msg, hF.rev, hF.static⟩, [act], ?_, ?_⟩
  · show (f c.world).2 = act.apply E.host c.world
    exact hact _
  · intro x hx
    rw [List.mem_singleton] at hx
    rw [hx]; exact hA

theorem eff_hostCall (m : Message) (hA : A (.call m)) : Eff E.host p rev A (Ops.hostCall E m) := by
  intro c a c' hF h
  cases h
  refine ⟨⟨hF.msg, hF.rev, hF.static⟩, [.call m], rfl, ?_⟩
  intro x hx
  rw [List.mem_singleton] at hx
  rw [hx]; exact hA

/-- Calls that only look. -/
theorem permitted_look (H : Host σ) (a : HostAct) (h1 : a.OwnedBy p.recipient) (h2 : a.ReadOnly) (h3 : ∀ m, a ≠ .call m)
    (h4 : ∀ b, a ≠ .accessAccount b) (h5 : ∀ b k, a ≠ .accessStorage b k) (h6 : ∀ n, a ≠ .getBlockHash n) :
    Permitted H p rev a :=
  ⟨h1, fun _ => h2, fun m h => absurd h (h3 m), fun h => (h.elim (fun ⟨b, h⟩ => absurd h (h4 b)) fun ⟨b, k, h⟩ => absurd h (h5 b k)),
   fun n h => absurd h (h6 n)⟩

/-- Calls that modify the own state, outside static frames. -/
theorem permitted_write (H : Host σ) (a : HostAct) (h1 : a.OwnedBy p.recipient) (h2 : p.isStatic = false) (h3 : ∀ m, a ≠ .call m)
    (h4 : ∀ b, a ≠ .accessAccount b) (h5 : ∀ b k, a ≠ .accessStorage b k) (h6 : ∀ n, a ≠ .getBlockHash n) :
    Permitted H p rev a :=
  ⟨h1, fun h => (by rw [h2] at h; cases h), fun m h => absurd h (h3 m),
   fun h => (h.elim (fun ⟨b, h⟩ => absurd h (h4 b)) fun ⟨b, k, h⟩ => absurd h (h5 b k)), fun n h => absurd h (h6 n)⟩

theorem permitted_accessAccount (H : Host σ) (b : Address) (h : BERLIN ≤ rev) : Permitted H p rev (.accessAccount b) :=
  ⟨trivial, fun _ => trivial, nofun, fun _ => h, nofun⟩
theorem permitted_accessStorage (H : Host σ) (k : U256) (h : BERLIN ≤ rev) : Permitted H p rev (.accessStorage p.recipient k) :=
  ⟨rfl, fun _ => trivial, nofun, fun _ => h, nofun⟩

/-- Decomposes a body into primitive steps. -/
macro "eff_step" : tactic => `(tactic| first
  | with_reducible exact eff_pure _
  | with_reducible exact eff_rd _
  | with_reducible exact eff_wr _ _
  | with_reducible exact eff_lift _
  | with_reducible exact eff_mem _
  | with_reducible exact eff_memRead _
  | with_reducible exact eff_getSpan _ _
  | with_reducible exact eff_readSpan _
  | with_reducible exact eff_memCost _ _
  | with_reducible exact eff_codeByte _
  | with_reducible exact eff_checkJumpDest _
  | with_reducible exact eff_modify _ (fun _ => ⟨rfl, rfl, rfl, rfl⟩)
  | (with_reducible refine eff_get (fun _ _ => ?_))
  | (with_reducible refine eff_seq ?_ (fun _ => ?_))
  | (with_reducible refine eff_ite _ (fun _ => ?_) (fun _ => ?_))
  | split)

macro "eff" : tactic => `(tactic| repeat' eff_step)

/-- Permission for a call that only looks at the host. -/
macro "look" : tactic => `(tactic| exact permitted_look _ _ (by first | trivial | rfl) trivial nofun nofun nofun nofun)

section bodies
variable {H : Host σ}

theorem eff_bin (f : U256 → U256 → U256) (top : Int) : Eff E.host p rev A (Ops.bin f top : OpM σ OpResult) := by
  unfold Ops.bin; eff
theorem eff_un (f : U256 → U256) (top : Int) : Eff E.host p rev A (Ops.un f top : OpM σ OpResult) := by
  unfold Ops.un; eff
theorem eff_push (v : U256) (top : Int) : Eff E.host p rev A (Ops.push v top : OpM σ OpResult) := by
  unfold Ops.push; eff
theorem eff_addRefund (x : Int) : Eff E.host p rev A (Ops.addRefund x : OpM σ Unit) := by
  unfold Ops.addRefund; eff
theorem eff_addRefunds (l : List Int) : Eff E.host p rev A (Ops.addRefunds l : OpM σ Unit) := by
  induction l with
  | nil => exact eff_pure _
  | cons x xs ih => unfold Ops.addRefunds; exact eff_seq (eff_addRefund x) fun _ => ih
theorem eff_readTopics (n : Nat) : ∀ i, Eff E.host p rev A (Ops.readTopics n i : OpM σ (List U256)) := by
  induction n with
  | zero => intro i; exact eff_pure _
  | succ n ih =>
    intro i
    unfold Ops.readTopics
    exact eff_seq (eff_rd i) fun _ => eff_seq (ih _) fun _ => eff_pure _
theorem eff_partialWord (n : Nat) : ∀ i w, Eff E.host p rev A (Ops.partialWord n i w : OpM σ (BitVec 64)) := by
  induction n with
  | zero => intro i w; exact eff_pure _
  | succ n ih => intro i w; unfold Ops.partialWord; exact eff_seq (eff_codeByte i) fun _ => ih _ _
theorem eff_loadWordBe (i : Nat) : Eff E.host p rev A (Ops.loadWordBe i : OpM σ (BitVec 64)) := by
  unfold Ops.loadWordBe; eff
theorem eff_fullWords (n : Nat) : ∀ i w, Eff E.host p rev A (Ops.fullWords n i w : OpM σ U256) := by
  induction n with
  | zero => intro i w; exact eff_pure _
  | succ n ih => intro i w; unfold Ops.fullWords; exact eff_seq (eff_loadWordBe i) fun _ => ih _ _
theorem eff_callArgs (op : Ops.CallOp) (top : Int) : Eff E.host p rev A (Ops.callArgs op top : OpM σ Ops.CallArgs) := by
  unfold Ops.callArgs; eff

theorem eff_accountAccessCost (a : Address) : Eff E.host p rev (Permitted E.host p rev) (Ops.accountAccessCost E a) := by
  unfold Ops.accountAccessCost
  refine eff_get fun c hc => eff_ite _ (fun h => ?_) fun _ => eff_pure _
  refine eff_seq (eff_host (.accessAccount a) _ (fun _ => rfl) ?_) fun _ => by eff
  exact permitted_accessAccount _ _ (by rw [← hc.rev]; exact h)

theorem callArgs_value (op : Ops.CallOp) (top : Int) :
    After (Ops.callArgs op top : OpM σ Ops.CallArgs) fun a => op = .staticcall ∨ op = .delegatecall → a.value = 0 := by
  unfold Ops.callArgs
  refine after_ite _ (fun _ => ?_) fun h => ?_
  · repeat' (with_reducible refine after_any (fun _ => ?_))
    exact after_pure fun _ => rfl
  · repeat' (with_reducible refine after_any (fun _ => ?_))
    exact after_pure fun h' => absurd h' h

theorem eff_createCall (b : Bool) (t g g' : Int) (e s : U256) (mc : MemCost) (hd : p.depth ≤ 1024) (hs : p.isStatic = false) :
    Eff E.host p rev (Permitted E.host p rev) (Ops.createCall E b t g g' e s mc) := by
  have h := fun x => eff_addRefund (E := E) (p := p) (rev := rev) (A := Permitted E.host p rev) x
  unfold Ops.createCall
  refine eff_seq (by eff) fun _ => eff_seq (by eff) fun init => eff_get fun c hc => eff_seq ?_ fun ins => ?_
  · refine eff_ite _ (fun _ => ?_) fun _ => eff_pure _
    exact eff_seq (eff_host (.getBalance c.message.recipient) _ (fun _ => rfl) (by look)) fun _ => eff_pure _
  · refine eff_ite _ (fun _ => by eff) fun _ => ?_
    refine eff_chk32 _ (eff_chk64 _ (eff_seq (by eff) fun input => ?_))
    refine eff_seq (eff_hostCall _ ?_) fun r => by repeat' first | exact h _ | eff_step
    refine ⟨trivial, fun h => (by rw [hs] at h; cases h), ?_, nofun, nofun⟩
    intro m hm
    injection hm with hm
    subst hm
    constructor
    · exact hd
    · show c.message.depth + 1 = _; rw [hc.msg]
    · intro _; show c.message.recipient = _; rw [hc.msg]
    · intro hk; exfalso; cases b <;> cases hk
    · intro hk; exfalso; cases b <;> rcases hk with hk | hk <;> cases hk
    · intro hk; exfalso; cases b <;> cases hk
    · intro h; rw [hs] at h; cases h

theorem eff_create (b : Bool) (t g : Int) (hs : p.isStatic = false) :
    Eff E.host p rev (Permitted E.host p rev) (Ops.create E b t g) := by
  unfold Ops.create
  dsimp only
  refine eff_get fun c hc => eff_ite _ (fun _ => eff_pure _) fun hd => ?_
  have h := fun t g g' e s mc => eff_createCall (E := E) (rev := rev) b t g g' e s mc (show p.depth ≤ 1024 by
    rw [← hc.msg]; omega) hs
  repeat' first | exact h _ _ _ _ _ _ | eff_step

theorem static_flags {f : BitVec 32} (h : f.getLsbD 0 = true) (b : Prop) [Decidable b] :
    (if b then (1 : BitVec 32) else f).getLsbD 0 = true := by
  split
  · rfl
  · exact h

theorem nested_ok {op : Ops.CallOp} {m : Message} {a : Address} {v : U256} (hd : p.depth ≤ 1024)
    (hv : op = .staticcall ∨ op = .delegatecall → v = 0)
    (hs : op = .call → v ≠ 0 → p.isStatic = false)
    (h1 : m.kind = match op with
        | .delegatecall => .delegatecall
        | .callcode => .callcode
        | _ => .call)
    (h2 : m.flags = if op = .staticcall then 1 else p.flags) (h3 : m.depth = p.depth + 1)
    (h4 : m.recipient = if op = .call ∨ op = .staticcall then a else p.recipient)
    (h5 : m.sender = if op = .delegatecall then p.sender else p.recipient)
    (h6 : m.value = if op = .delegatecall then p.value else v)
    (h7 : m.codeAddress = a) : Nested p m := by
  refine ⟨hd, h3, ?_, ?_, ?_, ?_, ?_⟩
  · intro hk
    rw [h5]
    cases op with
    | delegatecall => exact absurd h1 hk
    | _ => rfl
  · intro hk
    rw [h5, h6]
    cases op with
    | delegatecall => exact ⟨rfl, rfl⟩
    | _ => rw [h1] at hk; cases hk
  · intro hk
    rw [h4]
    cases op with
    | delegatecall => rfl
    | callcode => rfl
    | _ => rw [h1] at hk; rcases hk with hk | hk <;> cases hk
  · intro hk
    rw [h4, h7]
    cases op with
    | call => rfl
    | staticcall => rfl
    | _ => rw [h1] at hk; cases hk
  · intro hp
    refine ⟨?_, ?_, ?_, ?_⟩
    · show m.flags.getLsbD 0 = true
      rw [h2]; exact static_flags hp _
    · rw [h1]; cases op <;> nofun
    · rw [h1]; cases op <;> nofun
    · intro hk
      rw [h6]
      cases op with
      | call =>
        by_contra hne
        have := hs rfl hne
        rw [hp] at this; cases this
      | staticcall => exact hv (.inl rfl)
      | callcode => rw [h1] at hk; cases hk
      | delegatecall => rw [h1] at hk; cases hk

theorem eff_callCall (op : Ops.CallOp) (t g g' : Int) (cg : U256) (a : Address) (v : U256)
    (mi mo : MemCost) (hd : p.depth ≤ 1024) (hv : op = .staticcall ∨ op = .delegatecall → v = 0)
    (hs : op = .call → v ≠ 0 → p.isStatic = false) :
    Eff E.host p rev (Permitted E.host p rev) (Ops.callCall E op t g g' cg a v mi mo) := by
  have h := fun x => eff_addRefund (E := E) (p := p) (rev := rev) (A := Permitted E.host p rev) x
  unfold Ops.callCall
  dsimp only
  refine eff_seq (by eff) fun _ => eff_seq (by eff) fun _ => eff_seq (by eff) fun ispan => eff_get fun c hc => ?_
  refine eff_chk32 _ (eff_chk64 _ (eff_seq (by eff) fun mg => eff_seq (by eff) fun g2 => eff_seq ?_ fun ins => ?_))
  · refine eff_ite _ (fun _ => ?_) fun _ => eff_pure _
    exact eff_seq (eff_host (.getBalance c.message.recipient) _ (fun _ => rfl) (by look)) fun _ => eff_pure _
  · refine eff_ite _ (fun _ => by eff) fun _ => eff_seq (by eff) fun input => ?_
    refine eff_seq (eff_hostCall _ ?_) fun r => by repeat' first | exact h _ | eff_step
    rw [hc.msg]
    have hn := fun m h1 h2 h3 h4 h5 h6 h7 => nested_ok (p := p) (op := op) (m := m) (a := a) (v := v) hd hv hs h1 h2 h3 h4 h5 h6 h7
    refine ⟨trivial, fun hp => (hn _ (by cases op <;> rfl) rfl rfl rfl rfl rfl rfl).static hp, ?_, nofun, nofun⟩
    intro m hm
    injection hm with hm
    subst hm
    exact hn _ (by cases op <;> rfl) rfl rfl rfl rfl rfl rfl

theorem eff_call (op : Ops.CallOp) (t g : Int) : Eff E.host p rev (Permitted E.host p rev) (Ops.call E op t g) := by
  unfold Ops.call
  dsimp only
  refine eff_get fun c hc => eff_ite _ (fun _ => eff_pure _) fun hd => ?_
  refine eff_bind _ (eff_callArgs op t) (callArgs_value op t) fun args hargs => ?_
  refine eff_seq (by eff) fun mi => eff_seq (by eff) fun mo => eff_seq (by eff) fun g1 => ?_
  refine eff_ite _ (fun _ => by eff) fun _ => eff_ite _ (fun _ => by eff) fun hns => ?_
  refine eff_seq (eff_accountAccessCost _) fun acc => eff_seq ?_ fun na => eff_seq (by eff) fun g2 => eff_ite _ (fun _ => by eff) fun _ => ?_
  · refine eff_ite _ (fun _ => ?_) fun _ => eff_pure _
    exact eff_seq (eff_host (.accountExists args.account) _ (fun _ => rfl) (by look)) fun _ => by eff
  · refine eff_callCall op _ _ _ _ _ _ _ _ (by rw [← hc.msg]; omega) hargs ?_
    intro ho hv
    by_contra hst
    apply hns
    refine ⟨ho, by simpa using hv, ?_⟩
    rw [hc.static]
    simpa using hst

theorem eff_balance (t g : Int) : Eff E.host p rev (Permitted E.host p rev) (Ops.balance E t g) := by
  unfold Ops.balance
  refine eff_seq (by eff) fun a => eff_seq (eff_accountAccessCost _) fun d => eff_ite _ (fun _ => by eff) fun _ => ?_
  exact eff_seq (eff_host (.getBalance (toAddress a)) _ (fun _ => rfl) (by look)) fun _ => by eff

theorem eff_extcodesize (t g : Int) : Eff E.host p rev (Permitted E.host p rev) (Ops.extcodesize E t g) := by
  unfold Ops.extcodesize
  refine eff_seq (by eff) fun a => eff_seq (eff_accountAccessCost _) fun d => eff_ite _ (fun _ => by eff) fun _ => ?_
  exact eff_seq (eff_host (.getCodeSize (toAddress a)) _ (fun _ => rfl) (by look)) fun _ => by eff

theorem eff_extcodehash (t g : Int) : Eff E.host p rev (Permitted E.host p rev) (Ops.extcodehash E t g) := by
  unfold Ops.extcodehash
  refine eff_seq (by eff) fun a => eff_seq (eff_accountAccessCost _) fun d => eff_ite _ (fun _ => by eff) fun _ => ?_
  exact eff_seq (eff_host (.getCodeHash (toAddress a)) _ (fun _ => rfl) (by look)) fun _ => by eff

theorem eff_extcodecopy (t g : Int) : Eff E.host p rev (Permitted E.host p rev) (Ops.extcodecopy E t g) := by
  unfold Ops.extcodecopy
  refine eff_seq (by eff) fun a => eff_seq (by eff) fun mo => eff_seq (by eff) fun co => eff_seq (by eff) fun sz =>
    eff_seq (by eff) fun mc => eff_ite _ (fun _ => by eff) fun _ => ?_
  refine eff_seq (eff_accountAccessCost _) fun d => eff_seq (by eff) fun _ => eff_seq (by eff) fun _ =>
    eff_seq (by eff) fun _ => eff_ite _ (fun _ => by eff) fun _ => eff_ite _ (fun _ => ?_) fun _ => by eff
  refine eff_seq (by eff) fun span => eff_ite _ (fun _ => ?_) fun _ => by eff
  exact eff_seq (eff_host (.copyCode (toAddress a) (lo64 co) mc.size) _ (fun _ => rfl) (by look)) fun _ => by eff

theorem eff_blockhash (top : Int) : Eff E.host p rev (Permitted E.host p rev) (Ops.blockhash E top) := by
  unfold Ops.blockhash; dsimp only
  refine eff_seq (by eff) fun a => eff_ite _ (fun _ => by eff) fun ha1 => ?_
  have key : ∀ lower : Int, (E.host.txContext.blockNumber < 257 → lower = 0) →
      (¬ E.host.txContext.blockNumber < 257 → lower = E.host.txContext.blockNumber - 256) →
      ∀ q, q = toInt64 (lo64 a) ∧ q ≥ lower ∧ q < E.host.txContext.blockNumber →
      Permitted E.host p rev (.getBlockHash q) := by
    intro lower h1 h2 q hq
    refine ⟨trivial, fun _ => trivial, nofun, ?_, ?_⟩
    · rintro (⟨b, h⟩ | ⟨b, k, h⟩) <;> cases h
    · intro n hn
      injection hn with hn
      subst hn
      by_cases h : E.host.txContext.blockNumber < 257
      · have := h1 h; omega
      · have := h2 h; omega
  have body : ∀ lower : Int, (E.host.txContext.blockNumber < 257 → lower = 0) →
      (¬ E.host.txContext.blockNumber < 257 → lower = E.host.txContext.blockNumber - 256) →
      Eff E.host p rev (Permitted E.host p rev) (if toInt64 (lo64 a) ≥ lower ∧ toInt64 (lo64 a) < E.host.txContext.blockNumber then do
        let h ← OpM.host (E.host.getBlockHash (toInt64 (lo64 a)))
        OpM.wr (top + 0) h
        pure { }
      else do
        OpM.wr (top + 0) 0
        pure { } : OpM σ OpResult) := by
    intro lower h1 h2
    refine eff_ite _ (fun hin => ?_) fun _ => by eff
    exact eff_seq (eff_host (.getBlockHash _) _ (fun _ => rfl) (key lower h1 h2 _ ⟨rfl, hin⟩)) fun _ => by eff
  refine eff_ite _ (fun h => ?_) fun h => ?_
  · refine eff_bind (fun x => x = 0) (eff_lift _) ?_ fun x hx => body x (fun _ => hx) (fun h' => absurd h h')
    intro c x c' hx
    cases hx
    rfl
  · exact eff_chk64 _ (body _ (fun h' => absurd h' h) fun _ => rfl)

theorem eff_selfbalance (top : Int) : Eff E.host p rev (Permitted E.host p rev) (Ops.selfbalance E top) := by
  unfold Ops.selfbalance
  exact eff_get fun c hc => eff_seq (eff_host (.getBalance c.message.recipient) _ (fun _ => rfl) (by look)) fun _ =>
    eff_push _ _

theorem eff_sload (t g : Int) : Eff E.host p rev (Permitted E.host p rev) (Ops.sload E t g) := by
  unfold Ops.sload
  refine eff_seq (by eff) fun k => eff_get fun c hc => ?_
  rw [hc.msg, hc.rev]
  refine eff_seq (eff_ite _ (fun h => ?_) fun _ => by eff) fun d => eff_ite _ (fun _ => by eff) fun _ => ?_
  · exact eff_seq (eff_host (.accessStorage p.recipient k) _ (fun _ => rfl) (permitted_accessStorage _ _ h)) fun _ => by eff
  · exact eff_seq (eff_host (.getStorage p.recipient k) _ (fun _ => rfl) (by look)) fun _ => by eff

theorem eff_sstore (t g : Int) (hs : p.isStatic = false) : Eff E.host p rev (Permitted E.host p rev) (Ops.sstore E t g) := by
  have h' := fun x => eff_addRefunds (E := E) (p := p) (rev := rev) (A := Permitted E.host p rev) x
  unfold Ops.sstore
  refine eff_ite _ (fun _ => by eff) fun _ => eff_seq (by eff) fun k => eff_seq (by eff) fun v => eff_get fun c hc => ?_
  rw [hc.msg, hc.rev]
  refine eff_seq (eff_ite _ (fun h => ?_) fun _ => by eff) fun w => ?_
  · exact eff_seq (eff_host (.accessStorage p.recipient k) _ (fun _ => rfl) (permitted_accessStorage _ _ h)) fun _ => by eff
  · refine eff_seq (eff_host (.setStorage p.recipient k v) _ (fun _ => rfl)
      (permitted_write _ _ rfl hs nofun nofun nofun nofun)) fun st => ?_
    exact eff_seq (by eff) fun d => eff_ite _ (fun _ => by eff) fun _ => eff_seq (h' _) fun _ => eff_pure _

theorem eff_tload (t : Int) : Eff E.host p rev (Permitted E.host p rev) (Ops.tload E t) := by
  unfold Ops.tload
  refine eff_seq (by eff) fun k => eff_get fun c hc => ?_
  rw [hc.msg]
  exact eff_seq (eff_host (.getTransient p.recipient k) _ (fun _ => rfl) (by look)) fun _ => by eff

theorem eff_tstore (t : Int) (hs : p.isStatic = false) : Eff E.host p rev (Permitted E.host p rev) (Ops.tstore E t) := by
  unfold Ops.tstore
  refine eff_seq (by eff) fun k => eff_seq (by eff) fun v => eff_get fun c hc => ?_
  rw [hc.msg]
  exact eff_seq (eff_host (.setTransient p.recipient k v) _ (fun _ => rfl)
    (permitted_write _ _ rfl hs nofun nofun nofun nofun)) fun _ => by eff

theorem eff_log (n : Nat) (t g : Int) (hs : p.isStatic = false) :
    Eff E.host p rev (Permitted E.host p rev) (Ops.log E n t g) := by
  unfold Ops.log
  refine eff_seq (by eff) fun o => eff_seq (by eff) fun sz => eff_seq (by eff) fun mc => eff_ite _ (fun _ => by eff) fun _ => ?_
  refine eff_seq (eff_readTopics _ _) fun ts => eff_seq (by eff) fun d => eff_ite _ (fun _ => by eff) fun _ => ?_
  refine eff_seq (by eff) fun span => eff_seq (by eff) fun data => eff_get fun c hc => ?_
  rw [hc.msg]
  exact eff_seq (eff_host (.emitLog p.recipient data ts) _ (fun _ => rfl)
    (permitted_write _ _ rfl hs nofun nofun nofun nofun)) fun _ => by eff

theorem eff_selfdestruct (t g : Int) (hs : p.isStatic = false) :
    Eff E.host p rev (Permitted E.host p rev) (Ops.selfdestruct E t g) := by
  have h' := fun x => eff_addRefund (E := E) (p := p) (rev := rev) (A := Permitted E.host p rev) x
  unfold Ops.selfdestruct
  dsimp only
  refine eff_seq (by eff) fun a => eff_get fun c hc => ?_
  rw [hc.msg, hc.rev]
  refine eff_seq (eff_host (.getBalance p.recipient) _ (fun _ => rfl) (by look)) fun bal => ?_
  refine eff_seq (eff_ite _ (fun _ => ?_) fun _ => by eff) fun g0 => ?_
  · exact eff_seq (eff_host (.accountExists (toAddress a)) _ (fun _ => rfl) (by look)) fun _ => by eff
  refine eff_seq (eff_ite _ (fun h => ?_) fun _ => by eff) fun d => eff_ite _ (fun _ => by eff) fun _ => ?_
  · exact eff_seq (eff_host (.accessAccount (toAddress a)) _ (fun _ => rfl) (permitted_accessAccount _ _ h)) fun _ => by eff
  · refine eff_seq (eff_host (.selfdestruct p.recipient (toAddress a)) _ (fun _ => rfl)
      (permitted_write _ _ rfl hs nofun nofun nofun nofun)) fun f => ?_
    exact eff_ite _ (fun _ => eff_ite _ (fun _ => eff_seq (h' _) fun _ => by eff) fun _ => by eff) fun _ => by eff

theorem eff_pushN (n : Nat) (t : Int) (pc : Nat) : Eff E.host p rev A (Ops.pushN n t pc : OpM σ OpResult) := by
  unfold Ops.pushN; dsimp only
  refine eff_seq (eff_ite _ (fun _ => eff_seq (eff_partialWord _ _ _) fun _ => by eff) fun _ => by eff) fun v => ?_
  exact eff_seq (eff_fullWords _ _ _) fun _ => by eff

theorem eff_invoke (op : OpCode) (top gas : Int) (pc : Nat) (hw : op.info.disallowedInStaticCall = true → p.isStatic = false) :
    Eff E.host p rev (Permitted E.host p rev) (invoke E op top gas pc) := by
  cases op with
  | STOP => exact eff_pure _
  | ADD | MUL | SUB | DIV | SDIV | MOD | SMOD | LT | GT | SLT | SGT | EQ | AND | OR | XOR | SHL | SHR =>
    exact eff_bin _ _
  | ISZERO | NOT => exact eff_un _ _
  | ADDMOD => show Eff _ _ _ _ (Ops.addmod top); unfold Ops.addmod; eff
  | MULMOD => show Eff _ _ _ _ (Ops.mulmod top); unfold Ops.mulmod; eff
  | EXP => show Eff _ _ _ _ (Ops.exp top gas); unfold Ops.exp; dsimp only; eff
  | SIGNEXTEND => show Eff _ _ _ _ (Ops.signextend top); unfold Ops.signextend; dsimp only; eff
  | BYTE => show Eff _ _ _ _ (Ops.byte top); unfold Ops.byte; eff
  | SAR => show Eff _ _ _ _ (Ops.sar top); unfold Ops.sar; dsimp only; eff
  | SHA3 => show Eff _ _ _ _ (Ops.sha3 E top gas); unfold Ops.sha3; eff
  | ADDRESS | CALLER | CALLVALUE | CALLDATASIZE | CODESIZE | RETURNDATASIZE | MSIZE =>
    exact eff_get fun _ _ => eff_push _ _
  | ORIGIN | GASPRICE | COINBASE | TIMESTAMP | NUMBER | PREVRANDAO | GASLIMIT | CHAINID | BASEFEE | BLOBBASEFEE
  | PC | GAS | PUSH0 => exact eff_push _ _
  | BALANCE => exact eff_balance _ _
  | EXTCODESIZE => exact eff_extcodesize _ _
  | EXTCODEHASH => exact eff_extcodehash _ _
  | EXTCODECOPY => exact eff_extcodecopy _ _
  | CALLDATALOAD => show Eff _ _ _ _ (Ops.calldataload top); unfold Ops.calldataload; eff
  | CALLDATACOPY => show Eff _ _ _ _ (Ops.calldatacopy top gas); unfold Ops.calldatacopy; eff
  | CODECOPY => show Eff _ _ _ _ (Ops.codecopy top gas); unfold Ops.codecopy; dsimp only; eff
  | RETURNDATACOPY => show Eff _ _ _ _ (Ops.returndatacopy top gas); unfold Ops.returndatacopy; dsimp only; eff
  | BLOCKHASH => exact eff_blockhash _
  | SELFBALANCE => exact eff_selfbalance _
  | BLOBHASH => show Eff _ _ _ _ (Ops.blobhash E top); unfold Ops.blobhash; eff
  | POP | JUMP | JUMPI | JUMPDEST => exact eff_pure _
  | MLOAD => show Eff _ _ _ _ (Ops.mload top gas); unfold Ops.mload; eff
  | MSTORE => show Eff _ _ _ _ (Ops.mstore top gas); unfold Ops.mstore; eff
  | MSTORE8 => show Eff _ _ _ _ (Ops.mstore8 top gas); unfold Ops.mstore8; eff
  | SLOAD => exact eff_sload _ _
  | SSTORE => exact eff_sstore _ _ (hw rfl)
  | TLOAD => exact eff_tload _
  | TSTORE => exact eff_tstore _ (hw rfl)
  | MCOPY => show Eff _ _ _ _ (Ops.mcopy top gas); unfold Ops.mcopy; eff
  | PUSH i => exact eff_pushN _ _ _
  | DUP i => show Eff _ _ _ _ (Ops.dup (i.val + 1) top); unfold Ops.dup; eff
  | SWAP i => show Eff _ _ _ _ (Ops.swap (i.val + 1) top); unfold Ops.swap; eff
  | LOG i => exact eff_log _ _ _ (hw rfl)
  | CREATE => exact eff_create false top gas (hw rfl)
  | CREATE2 => exact eff_create true top gas (hw rfl)
  | CALL => exact eff_call .call top gas
  | CALLCODE => exact eff_call .callcode top gas
  | DELEGATECALL => exact eff_call .delegatecall top gas
  | STATICCALL => exact eff_call .staticcall top gas
  | RETURN => show Eff _ _ _ _ (Ops.ret .ret top gas); unfold Ops.ret; eff
  | REVERT => show Eff _ _ _ _ (Ops.ret .revert top gas); unfold Ops.ret; eff
  | INVALID => exact eff_pure _
  | SELFDESTRUCT => exact eff_selfdestruct _ _ (hw rfl)

end bodies

theorem eff_runRest (stepping : Bool) (op : OpCode) (pc : Nat) (gas top : Int)
    (hw : op.info.disallowedInStaticCall = true → p.isStatic = false) :
    Eff E.host p rev (Permitted E.host p rev) (runRest E stepping op pc gas top) := by
  unfold runRest
  refine eff_ite _ (fun _ => ?_) fun _ => eff_seq (eff_invoke op _ _ _ hw) fun _ => by eff
  refine eff_seq ?_ fun t => by dsimp only; eff
  unfold runJump
  split
  · eff
  · eff

theorem eff_run (stepping : Bool) (op : OpCode) (pc : Nat) (gas top size : Int) :
    Eff E.host p rev (Permitted E.host p rev) (run E stepping op pc gas top size) := by
  rw [run_eq]
  refine eff_get fun c hc => eff_ite _ (fun _ => by eff) fun _ => eff_ite _ (fun _ => by eff) fun hns => ?_
  refine eff_ite _ (fun _ => by eff) fun _ => eff_ite _ (fun _ => by eff) fun _ => eff_ite _ (fun _ => by eff) fun _ => ?_
  refine eff_seq (by eff) fun g => eff_runRest stepping op pc _ _ ?_
  intro hd
  rw [hc.static] at hns
  cases hs : p.isStatic with
  | false => rfl
  | true => exact absurd ⟨hd, hs⟩ hns

theorem execOne_eff (obs : Observer σ ω) (stepping : Bool) (l l' : Loc) (c c' : Ctx σ) (o o' : ω) (hF : Fix p rev c)
    (h : execOne E obs stepping l c o = .ok (l', c', o')) :
    Fix p rev c' ∧ ∃ acts, c'.world = replay E.host acts c.world ∧ ∀ x ∈ acts, Permitted E.host p rev x := by
  unfold execOne at h
  simp only [bind, Except.bind, pure, Except.pure] at h
  split at h
  · cases h
  · split at h
    · cases h
    · rename_i b _ _ r hr
      have := eff_run (E := E) stepping _ _ _ _ _ c _ _ hF hr
      cases h
      split
      · exact ⟨⟨this.1.msg, this.1.rev, this.1.static⟩, this.2⟩
      · exact this

theorem loop_eff (obs : Observer σ ω) (stepping : Bool) (n : Int) (fuel : Nat) :
    ∀ (e : Int) (l l' : Loc) (c c' : Ctx σ) (o o' : ω), Fix p rev c →
    loop E obs stepping n fuel e l c o = .ok (some (l', c', o')) →
    ∃ acts, c'.world = replay E.host acts c.world ∧ ∀ x ∈ acts, Permitted E.host p rev x := by
  induction fuel with
  | zero => intro e l l' c c' o o' _ h; simp [loop] at h
  | succ fuel ih =>
    intro e l l' c c' o o' hF h
    rw [loop_succ] at h
    split at h
    · cases h
    · split at h
      · cases h; exact ⟨[], rfl, by simp⟩
      · split at h
        · split at h
          · cases h
          · rename_i l1 c1 o1 hr
            obtain ⟨hF1, l1, e1, p1⟩ := execOne_eff obs stepping _ _ c c1 o o1 hF hr
            obtain ⟨l2, e2, p2⟩ := ih _ _ _ _ _ _ _ hF1 h
            refine ⟨l1 ++ l2, by rw [replay_append, ← e1, e2], ?_⟩
            intro x hx
            rcases List.mem_append.mp hx with h | h
            · exact p1 x h
            · exact p2 x h
        · cases h; exact ⟨[], rfl, by simp⟩

/-- Host effects of `Execute`, for every host. -/
theorem executeWith_eff {obs : Observer σ ω} {fuel : Nat} {vm vm' : Vm} {code : List Byte} {msg : Message}
    {rev : Revision} {buf : Nat → U256} {w w' : σ} {o o' : ω} {res : EvmcResult}
    (h : vm.executeWith E obs fuel code msg rev buf w o = .ok (some (res, w', vm', o'))) :
    ∃ acts, w' = replay E.host acts w ∧ ∀ a ∈ acts, Permitted E.host msg rev a := by
  obtain ⟨info, vm1, l, c, oL, _, hlo, _, rfl, _⟩ := executeWith_inv h
  exact loop_eff obs false (-1) fuel _ _ _ _ _ _ _ ⟨rfl, rfl, rfl⟩ hlo

/-- Host effects of `StepN`, for every host. -/
theorem stepN_eff {fuel : Nat} {vm vm' : Vm} {code : List Byte} {msg : Message} {rev : Revision}
    {status : StepStatus} {pc : Nat} {refund : Int} {stack : List U256} {memory ret : List Byte} {n : Int}
    {buf : Nat → U256} {w w' : σ} {res : StepResult}
    (h : vm.stepN E fuel code msg rev status pc refund stack memory ret n buf w = .ok (some (res, w', vm'))) :
    ∃ acts, w' = replay E.host acts w ∧ ∀ a ∈ acts, Permitted E.host msg rev a := by
  obtain ⟨info, vm1, l, c, c0, _, _, _, hlo, _, _, _, _, _, _, rfl, _, h1, h2, h3, rfl⟩ := stepN_inv h
  exact loop_eff noObserver true _ fuel _ _ _ _ _ _ _ ⟨h1, h2, h3⟩ hlo

end Tosca.Proofs

import Verif.Proofs.AnyHost

/-!
# Two runs that differ only in stale stack words and in the caches

A relational version of `Sync`: two contexts that agree on everything but the SHA3 cache and the
stack words outside a set `S` of slots stay so, and bodies that read only slots in `S` return the
same results.
-/

namespace Tosca.Proofs.Twin

open Tosca.Model

variable {σ ω α β : Type} {E : Env σ}

/-- The context with another buffer and another SHA3 cache. -/
def Sw (buf : Nat → U256) (s : Option Sha3Cache) (c : Ctx σ) : Ctx σ :=
  { c with stack := { c.stack with buf := buf }, sha3 := s }

/-- A cache that is absent or used properly. -/
def OptOk (k : List Byte → U256) (o : Option Sha3Cache) : Prop := ∀ s, o = some s → Sha3Ok k s

/-- Agreement up to the words outside `S` and the caches. -/
structure Tw (k : List Byte → U256) (S : Int → Prop) (c c' : Ctx σ) : Prop where
  sw : ∃ buf s, c' = Sw buf s c
  agree : ∀ i : Nat, i < 1024 → S i → c'.stack.buf i = c.stack.buf i
  ok : OptOk k c.sha3
  ok' : OptOk k c'.sha3

/-- Two environments with the same host and hash function. -/
structure Twins (k : List Byte → U256) (E E' : Env σ) : Prop where
  host : E'.host = E.host
  left : EnvKeeps k E
  right : EnvKeeps k E'

def Rel (k : List Byte → U256) (S : Int → Prop) (Q : α → Int → Prop) (m m' : OpM σ α) : Prop :=
  ∀ c c', Tw k S c c' → match m c with
    | .error e => m' c' = .error e
    | .ok (a, d) => ∃ d', m' c' = .ok (a, d') ∧ Tw k (Q a) d d'

variable {k : List Byte → U256} {S : Int → Prop} {Q : α → Int → Prop}

theorem rel_bind {R : β → Int → Prop} {m m' : OpM σ β} {f f' : β → OpM σ α} (hm : Rel k S R m m')
    (hf : ∀ a, Rel k (R a) Q (f a) (f' a)) : Rel k S Q (m >>= f) (m' >>= f') := by
  intro c c' h
  have h1 := hm c c' h
  show match OpM.bind m f c with
    | .error e => OpM.bind m' f' c' = .error e
    | .ok (a, d) => ∃ d', OpM.bind m' f' c' = .ok (a, d') ∧ Tw k (Q a) d d'
  unfold OpM.bind
  cases hmc : m c with
  | error e => rw [hmc] at h1; simp only at h1; rw [h1]
  | ok r =>
    obtain ⟨a, d⟩ := r
    rw [hmc] at h1
    simp only at h1
    obtain ⟨d', e1, t1⟩ := h1
    rw [e1]
    dsimp only
    exact hf a d d' t1

theorem rel_seq {m m' : OpM σ β} {f f' : β → OpM σ α} (hm : Rel k S (fun _ => S) m m')
    (hf : ∀ a, Rel k S Q (f a) (f' a)) : Rel k S Q (m >>= f) (m' >>= f') := rel_bind hm hf

theorem rel_pure (a : α) : Rel k (Q a) Q (pure a : OpM σ α) (pure a) := fun _ c' h => ⟨c', rfl, h⟩

theorem rel_same (a : α) : Rel k S (fun _ => S) (pure a : OpM σ α) (pure a) := fun _ c' h => ⟨c', rfl, h⟩

theorem rel_lift (m : M α) : Rel k S (fun _ => S) (OpM.lift m : OpM σ α) (OpM.lift m) := by
  intro c c' h
  unfold OpM.lift
  cases m with
  | error e => exact rfl
  | ok a => exact ⟨c', rfl, h⟩

theorem rel_get {f f' : Ctx σ → OpM σ α} (hf : ∀ c, Rel k S Q (f c) (f' c))
    (hu : ∀ c buf s, f' (Sw buf s c) = f' c) : Rel k S Q (OpM.get >>= f) (OpM.get >>= f') := by
  intro c c' h
  show match f c c with
    | .error e => f' c' c' = .error e
    | .ok (a, d) => ∃ d', f' c' c' = .ok (a, d') ∧ Tw k (Q a) d d'
  obtain ⟨buf, s, hs⟩ := h.sw
  rw [show f' c' = f' c by rw [hs, hu]]
  exact hf c c c' h

theorem rel_modify (f : Ctx σ → Ctx σ) (h : ∀ c buf s, f (Sw buf s c) = Sw buf s (f c))
    (hb : ∀ c, (f c).stack.buf = c.stack.buf) (hi : ∀ c, (f c).sha3 = c.sha3) :
    Rel k S (fun _ => S) (OpM.modify f) (OpM.modify f) := by
  intro c c' t
  obtain ⟨buf, s, hs⟩ := t.sw
  refine ⟨f c', rfl, ⟨buf, s, by rw [hs, h]⟩, ?_, ?_, ?_⟩
  · intro i hn hi; rw [hb, hb]; exact t.agree i hn hi
  · rw [hi]; exact t.ok
  · rw [hi]; exact t.ok'

theorem rel_rd (p : Int) (h : S p) : Rel k S (fun _ => S) (OpM.rd p : OpM σ U256) (OpM.rd p) := by
  intro c c' t
  unfold OpM.rd
  by_cases hp : 0 ≤ p ∧ p < 1024
  · simp only [if_pos hp]
    refine ⟨c', ?_, t⟩
    rw [t.agree p.toNat (by omega) (by rw [Int.toNat_of_nonneg hp.1]; exact h)]
  · simp only [if_neg hp]

theorem tw_rest {c c' d : Ctx σ} (t : Tw k S c c') (h : ∃ buf s, d = Sw buf s c) (hb : d.stack.buf = c'.stack.buf)
    (hs : d.sha3 = c'.sha3) : Tw k S c d :=
  ⟨h, by rw [hb]; exact t.agree, t.ok, by rw [hs]; exact t.ok'⟩

theorem rel_wr (p : Int) (v : U256) :
    Rel k S (fun _ i => S i ∨ i = p) (OpM.wr p v : OpM σ Unit) (OpM.wr p v) := by
  intro c c' t
  unfold OpM.wr
  by_cases hp : 0 ≤ p ∧ p < 1024
  · simp only [if_pos hp]
    obtain ⟨buf, s, hs⟩ := t.sw
    refine ⟨_, rfl, ⟨fun i => if i = p.toNat then v else buf i, s, by rw [hs]; rfl⟩, ?_, t.ok, t.ok'⟩
    intro i hn hi
    show (if i = p.toNat then v else c'.stack.buf i) = (if i = p.toNat then v else c.stack.buf i)
    split
    · rfl
    · rcases hi with hi | hi
      · exact t.agree i hn hi
      · omega
  · simp only [if_neg hp]

theorem Tw.mono {S' : Int → Prop} {c c' : Ctx σ} (h : Tw k S c c') (hs : ∀ i, S' i → S i) : Tw k S' c c' :=
  ⟨h.sw, fun i hn hi => h.agree i hn (hs i hi), h.ok, h.ok'⟩

theorem rel_post {Q' : α → Int → Prop} {m m' : OpM σ α} (h : Rel k S Q m m') (hq : ∀ a i, Q' a i → Q a i) :
    Rel k S Q' m m' := by
  intro c c' t
  have := h c c' t
  cases hm : m c with
  | error e => rw [hm] at this; exact this
  | ok r =>
    rw [hm] at this
    obtain ⟨d', h1, h2⟩ := this
    exact ⟨d', h1, h2.mono (hq _)⟩

/-- A write inside the set changes nothing about the agreement. -/
theorem rel_wrs (p : Int) (v : U256) : Rel k S (fun _ => S) (OpM.wr p v : OpM σ Unit) (OpM.wr p v) :=
  rel_post (rel_wr p v) fun _ _ h => Or.inl h

theorem rel_host (f : σ → α × σ) : Rel k S (fun _ => S) (OpM.host f) (OpM.host f) := by
  intro c c' t
  obtain ⟨buf, s, hs⟩ := t.sw
  subst hs
  exact ⟨_, rfl, ⟨buf, s, rfl⟩, t.agree, t.ok, t.ok'⟩

theorem rel_mem (f : Memory → M Memory) : Rel k S (fun _ => S) (OpM.mem f : OpM σ Unit) (OpM.mem f) := by
  intro c c' t
  obtain ⟨buf, s, hs⟩ := t.sw
  unfold OpM.mem
  rw [show c'.memory = c.memory by rw [hs]; rfl]
  cases f c.memory with
  | error e => exact rfl
  | ok m => exact ⟨_, rfl, ⟨buf, s, by rw [hs]; rfl⟩, t.agree, t.ok, t.ok'⟩

theorem rel_memRead (f : Memory → M (List Byte × Memory)) :
    Rel k S (fun _ => S) (OpM.memRead f : OpM σ (List Byte)) (OpM.memRead f) := by
  intro c c' t
  obtain ⟨buf, s, hs⟩ := t.sw
  unfold OpM.memRead
  rw [show c'.memory = c.memory by rw [hs]; rfl]
  cases f c.memory with
  | error e => exact rfl
  | ok m => exact ⟨_, rfl, ⟨buf, s, by rw [hs]; rfl⟩, t.agree, t.ok, t.ok'⟩

theorem rel_getSpan (a b : Nat) : Rel k S (fun _ => S) (OpM.getSpan a b : OpM σ Span) (OpM.getSpan a b) := by
  intro c c' t
  obtain ⟨buf, s, hs⟩ := t.sw
  subst hs
  exact ⟨_, rfl, ⟨buf, s, rfl⟩, t.agree, t.ok, t.ok'⟩

theorem rel_readSpan (sp : Span) : Rel k S (fun _ => S) (OpM.readSpan sp : OpM σ (List Byte)) (OpM.readSpan sp) := by
  intro c c' t
  obtain ⟨buf, s, hs⟩ := t.sw
  unfold OpM.readSpan
  rw [show c'.memory = c.memory by rw [hs]; rfl]
  cases c.memory.readSpan sp with
  | error e => exact rfl
  | ok m => exact ⟨_, rfl, t⟩

theorem rel_memCost (a b : U256) : Rel k S (fun _ => S) (memCost a b : OpM σ MemCost) (memCost a b) := by
  intro c c' t
  obtain ⟨buf, s, hs⟩ := t.sw
  unfold memCost
  rw [show c'.memory = c.memory by rw [hs]; rfl]
  cases memoryExpansionCost c.memory.size a b with
  | error e => exact rfl
  | ok m => exact ⟨_, rfl, t⟩

theorem rel_codeByte (p : Nat) : Rel k S (fun _ => S) (Ops.codeByte p : OpM σ Byte) (Ops.codeByte p) := by
  intro c c' t
  obtain ⟨buf, s, hs⟩ := t.sw
  unfold Ops.codeByte
  rw [show c'.code = c.code by rw [hs]; rfl]
  by_cases h : p < c.code.length
  · simp only [if_pos h]; exact ⟨_, rfl, t⟩
  · simp only [if_neg h]

theorem rel_checkJumpDest (d : U256) : Rel k S (fun _ => S) (checkJumpDest d : OpM σ Bool) (checkJumpDest d) := by
  intro c c' t
  obtain ⟨buf, s, hs⟩ := t.sw
  subst hs
  unfold checkJumpDest
  rw [show (Sw buf s c).jumpTargets = c.jumpTargets from rfl]
  have ht : Tw k S { c with state := .errorJump } { Sw buf s c with state := .errorJump } :=
    ⟨⟨buf, s, rfl⟩, t.agree, t.ok, t.ok'⟩
  by_cases h1 : d.toNat / u64Mod ≠ 0
  · simp only [if_pos h1]; exact ⟨_, rfl, ht⟩
  · simp only [if_neg h1]
    by_cases h2 : lo64 d ≥ c.jumpTargets.length
    · simp only [if_pos h2]; exact ⟨_, rfl, ht⟩
    · simp only [if_neg h2]
      by_cases h3 : c.jumpTargets.getD (lo64 d) 0 = 0
      · simp only [if_pos h3]; exact ⟨_, rfl, ht⟩
      · simp only [if_neg h3]; exact ⟨_, rfl, t⟩

theorem rel_ite (p : Prop) [Decidable p] {a b a' b' : OpM σ α} (ha : p → Rel k S Q a a') (hb : ¬ p → Rel k S Q b b') :
    Rel k S Q (if p then a else b) (if p then a' else b') := by
  by_cases h : p
  · rw [if_pos h, if_pos h]; exact ha h
  · rw [if_neg h, if_neg h]; exact hb h

theorem rel_hostCall {E E' : Env σ} (hE : Twins k E E') (msg : Message) :
    Rel k S (fun _ => S) (Ops.hostCall E msg) (Ops.hostCall E' msg) := by
  intro c c' t
  obtain ⟨buf, s, hs⟩ := t.sw
  have hw : c'.world = c.world := by rw [hs]; rfl
  refine ⟨{ c' with world := (E.host.call msg c.world).2, sha3 := c'.sha3.map (E'.reenter msg c.world) },
    by unfold Ops.hostCall; rw [hE.host, hw],
    ⟨buf, c'.sha3.map (E'.reenter msg c.world), by rw [hs]; rfl⟩, t.agree, ?_, ?_⟩
  · exact (keeps_sha3 hE.left).reenter msg c.world c.sha3 t.ok
  · exact (keeps_sha3 hE.right).reenter msg c.world c'.sha3 t.ok'

/-- The use of the cache in SHA3. -/
theorem rel_hash {E E' : Env σ} (hE : Twins k E E') (bytes : List Byte) (f f' : U256 → OpM σ α)
    (hf : ∀ v, Rel k S Q (f v) (f' v)) :
    Rel k S Q (OpM.get >>= fun c : Ctx σ => match c.sha3 with
      | some cache => OpM.lift (cache.hash E.keccak bytes) >>= fun p =>
          OpM.modify (fun c : Ctx σ => { c with sha3 := some p.2 }) >>= fun _ => f p.1
      | none => f (E.keccak bytes))
     (OpM.get >>= fun c : Ctx σ => match c.sha3 with
      | some cache => OpM.lift (cache.hash E'.keccak bytes) >>= fun p =>
          OpM.modify (fun c : Ctx σ => { c with sha3 := some p.2 }) >>= fun _ => f' p.1
      | none => f' (E'.keccak bytes)) := by
  have key : ∀ (E : Env σ) (_ : EnvKeeps k E) (g : U256 → OpM σ α) (c : Ctx σ), OptOk k c.sha3 →
      ∃ s, OptOk k s ∧ (OpM.get >>= fun c : Ctx σ => match c.sha3 with
      | some cache => OpM.lift (cache.hash E.keccak bytes) >>= fun p =>
          OpM.modify (fun c : Ctx σ => { c with sha3 := some p.2 }) >>= fun _ => g p.1
      | none => g (E.keccak bytes)) c = g (k bytes) { c with sha3 := s } := by
    intro E hE g c hc
    cases hs : c.sha3 with
    | none =>
      refine ⟨none, fun _ h => (nomatch h), ?_⟩
      simp only [bind, OpM.bind, OpM.get, hs, hE.keccak]
      rw [show ({ c with sha3 := none } : Ctx σ) = c by rw [← hs]]
    | some s =>
      obtain ⟨s', h1, h2⟩ := sha3_hash k s (hc s hs) bytes
      refine ⟨some s', fun x h => by cases h; exact h2, ?_⟩
      simp only [bind, OpM.bind, OpM.get, hs, hE.keccak, OpM.lift, OpM.modify, h1]
  intro c c' t
  obtain ⟨s1, o1, h1⟩ := key E hE.left f c t.ok
  obtain ⟨s2, o2, h2⟩ := key E' hE.right f' c' t.ok'
  rw [h1, h2]
  obtain ⟨buf, s, hs⟩ := t.sw
  exact hf (k bytes) _ _ ⟨⟨buf, s2, by rw [hs]; rfl⟩, t.agree, o1, o2⟩

/-! ### Instruction bodies -/

/-- Bodies that keep the agreement on the slots from `b` on. -/
abbrev Keep (k : List Byte → U256) (b : Int) (m m' : OpM σ α) : Prop := Rel k (fun i => b ≤ i) (fun _ i => b ≤ i) m m'

macro "twin_step" : tactic => `(tactic| first
  | assumption
  | with_reducible exact rel_same _
  | with_reducible exact rel_rd _ (by omega)
  | with_reducible exact rel_wrs _ _
  | with_reducible exact rel_host _
  | with_reducible exact rel_lift _
  | with_reducible exact rel_mem _
  | with_reducible exact rel_memRead _
  | with_reducible exact rel_getSpan _ _
  | with_reducible exact rel_readSpan _
  | with_reducible exact rel_memCost _ _
  | with_reducible exact rel_codeByte _
  | with_reducible exact rel_checkJumpDest _
  | with_reducible exact rel_hostCall (by assumption) _
  | with_reducible exact rel_modify _ (fun _ _ _ => rfl) (fun _ => rfl) (fun _ => rfl)
  | (with_reducible refine rel_get (fun _ => ?_) (fun _ _ _ => rfl))
  | (with_reducible refine rel_seq ?_ (fun _ => ?_))
  | (with_reducible refine rel_ite _ (fun _ => ?_) (fun _ => ?_))
  | split)

macro "twin" : tactic => `(tactic| repeat' twin_step)

variable {b top : Int}

theorem keep_bin (f : U256 → U256 → U256) (hb : b ≤ top) : Keep k b (Ops.bin f top : OpM σ OpResult) (Ops.bin f top) := by
  unfold Ops.bin; twin
theorem keep_un (f : U256 → U256) (hb : b ≤ top) : Keep k b (Ops.un f top : OpM σ OpResult) (Ops.un f top) := by
  unfold Ops.un; twin
theorem keep_addRefund (x : Int) : Keep k b (Ops.addRefund x : OpM σ Unit) (Ops.addRefund x) := by
  unfold Ops.addRefund; twin
theorem keep_addRefunds (l : List Int) : Keep k b (Ops.addRefunds l : OpM σ Unit) (Ops.addRefunds l) := by
  induction l with
  | nil => exact rel_same _
  | cons x xs ih => unfold Ops.addRefunds; exact rel_bind (keep_addRefund x) fun _ => ih
theorem keep_readTopics (n : Nat) : ∀ p, b ≤ p → Keep k b (Ops.readTopics n p : OpM σ (List U256)) (Ops.readTopics n p) := by
  induction n with
  | zero => intro p _; exact rel_same _
  | succ n ih =>
    intro p hp
    unfold Ops.readTopics
    exact rel_bind (rel_rd p hp) fun _ => rel_bind (ih _ (by omega)) fun _ => rel_same _
theorem keep_partialWord (n : Nat) : ∀ p w, Keep k b (Ops.partialWord n p w : OpM σ (BitVec 64)) (Ops.partialWord n p w) := by
  induction n with
  | zero => intro p w; exact rel_same _
  | succ n ih => intro p w; unfold Ops.partialWord; exact rel_bind (rel_codeByte p) fun _ => ih _ _
theorem keep_loadWordBe (p : Nat) : Keep k b (Ops.loadWordBe p : OpM σ (BitVec 64)) (Ops.loadWordBe p) := by
  unfold Ops.loadWordBe; twin
theorem keep_fullWords (n : Nat) : ∀ p w, Keep k b (Ops.fullWords n p w : OpM σ U256) (Ops.fullWords n p w) := by
  induction n with
  | zero => intro p w; exact rel_same _
  | succ n ih => intro p w; unfold Ops.fullWords; exact rel_bind (keep_loadWordBe p) fun _ => ih _ _

variable {E' : Env σ}

theorem keep_accountAccessCost (hE : E'.host = E.host) (a : Address) :
    Keep k b (Ops.accountAccessCost E a) (Ops.accountAccessCost E' a) := by
  unfold Ops.accountAccessCost; rw [hE]; twin

theorem keep_callArgs (op : Ops.CallOp) (hb : b ≤ top) :
    Rel k (fun i => b ≤ i) (fun _ i => b ≤ i) (Ops.callArgs op top : OpM σ Ops.CallArgs) (Ops.callArgs op top) := by
  unfold Ops.callArgs; twin

theorem keep_sha3 (hE : Twins k E E') (hb : b ≤ top) (gas : Int) : Keep k b (Ops.sha3 E top gas) (Ops.sha3 E' top gas) := by
  unfold Ops.sha3
  refine rel_bind (R := fun _ i => b ≤ i) (rel_rd _ (by omega)) fun offset =>
    rel_bind (R := fun _ i => b ≤ i) (rel_rd _ (by omega)) fun size =>
    rel_bind (R := fun _ i => b ≤ i) (rel_memCost _ _) fun mc => ?_
  split
  · exact rel_same _
  · rename_i d _
    refine rel_ite _ (fun _ => rel_same _) (fun _ => rel_bind (R := fun _ i => b ≤ i) (rel_getSpan _ _) fun span =>
      rel_bind (R := fun _ i => b ≤ i) (rel_readSpan _) fun bytes => ?_)
    exact rel_hash hE bytes (fun h => OpM.wr (top + 1) h >>= fun _ => pure ({ dynGas := d } : OpResult))
      (fun h => OpM.wr (top + 1) h >>= fun _ => pure ({ dynGas := d } : OpResult))
      fun v => rel_bind (rel_wrs _ _) fun _ => rel_same _

theorem keep_createCall (hE : Twins k E E') (c2 : Bool) (t g g' : Int) (e s : U256) (mc : MemCost) :
    Keep k b (Ops.createCall E c2 t g g' e s mc) (Ops.createCall E' c2 t g g' e s mc) := by
  have h := fun x => keep_addRefund (σ := σ) (k := k) (b := b) x
  unfold Ops.createCall
  rw [hE.host]
  repeat' first | exact h _ | twin_step

theorem keep_create (hE : Twins k E E') (c2 : Bool) (hb : b ≤ top) (g : Int) :
    Keep k b (Ops.create E c2 top g) (Ops.create E' c2 top g) := by
  have h := fun t g g' e s mc => keep_createCall (b := b) hE c2 t g g' e s mc
  unfold Ops.create
  dsimp only
  repeat' first | exact h _ _ _ _ _ _ | twin_step

theorem keep_callCall (hE : Twins k E E') (op : Ops.CallOp) (t g g' : Int) (cg : U256) (a : Address) (v : U256)
    (mi mo : MemCost) : Keep k b (Ops.callCall E op t g g' cg a v mi mo) (Ops.callCall E' op t g g' cg a v mi mo) := by
  have h := fun x => keep_addRefund (σ := σ) (k := k) (b := b) x
  unfold Ops.callCall
  dsimp only
  rw [hE.host]
  repeat' first | exact h _ | twin_step

theorem keep_call (hE : Twins k E E') (op : Ops.CallOp) (hb : b ≤ top) (g : Int) :
    Keep k b (Ops.call E op top g) (Ops.call E' op top g) := by
  have h := fun t g g' cg a v mi mo => keep_callCall (b := b) hE op t g g' cg a v mi mo
  have h2 := keep_callArgs (σ := σ) (k := k) op hb
  have h3 := fun a => keep_accountAccessCost (k := k) (b := b) hE.host a
  unfold Ops.call
  dsimp only
  rw [hE.host]
  repeat' first | exact h _ _ _ _ _ _ _ _ | exact h2 | exact h3 _ | twin_step

/-- Bodies that also write the new top slot. -/
abbrev Grow (k : List Byte → U256) (b top : Int) (m m' : OpM σ α) : Prop :=
  Rel k (fun i => b ≤ i) (fun _ i => b ≤ i ∨ i = top + -1) m m'

theorem grow_push (v : U256) : Grow k b top (Ops.push v top : OpM σ OpResult) (Ops.push v top) := by
  unfold Ops.push
  exact rel_bind (rel_wr _ v) fun _ => rel_same _

theorem grow_pushN (n pc : Nat) : Grow k b top (Ops.pushN n top pc : OpM σ OpResult) (Ops.pushN n top pc) := by
  unfold Ops.pushN
  dsimp only
  refine rel_seq (rel_ite _ (fun _ => rel_seq (keep_partialWord _ _ _) fun _ => rel_same _) (fun _ => rel_same _)) fun _ =>
    rel_seq (keep_fullWords _ _ _) fun _ => rel_bind (rel_wr _ _) fun _ => rel_same _

theorem grow_dup (n : Nat) (hn : 1 ≤ n) (hb : b ≤ top) : Grow k b top (Ops.dup n top : OpM σ OpResult) (Ops.dup n top) := by
  unfold Ops.dup
  exact rel_seq (rel_rd _ (by omega)) fun _ => rel_bind (rel_wr _ _) fun _ => rel_same _

/-- The slots on which two runs agree after an instruction: those before, and the pushed word. -/
def After (b top : Int) (op : OpCode) (i : Int) : Prop := b ≤ i ∨ (0 < op.info.delta ∧ i = top - 1)

theorem after_keep {op : OpCode} {m m' : OpM σ α} (h : Keep k b m m') (hd : op.info.delta ≤ 0) :
    Rel k (fun i => b ≤ i) (fun _ => After b top op) m m' :=
  rel_post h fun _ _ hi => by
    rcases hi with hi | hi
    · exact hi
    · omega

theorem after_grow {op : OpCode} {m m' : OpM σ α} (h : Grow k b top m m') :
    Rel k (fun i => b ≤ i) (fun _ => After b top op) m m' :=
  rel_post h fun _ _ hi => by
    rcases hi with hi | hi
    · exact .inl hi
    · exact .inr hi.2

theorem rel_invoke (hE : Twins k E E') (op : OpCode) (hb : b ≤ top) (gas : Int) (pc : Nat) :
    Rel k (fun i => b ≤ i) (fun _ => After b top op) (invoke E op top gas pc) (invoke E' op top gas pc) := by
  have ha := fun a => keep_accountAccessCost (k := k) (b := b) hE.host a
  have hh := hE.host
  cases op with
  | STOP | JUMP | JUMPI | JUMPDEST | POP | INVALID => exact after_keep (rel_same _) (by decide)
  | ADD | MUL | SUB | DIV | SDIV | MOD | SMOD | LT | GT | SLT | SGT | EQ | AND | OR | XOR | SHL | SHR =>
    exact after_keep (keep_bin _ hb) (by decide)
  | ISZERO | NOT => exact after_keep (keep_un _ hb) (by decide)
  | ADDMOD => refine after_keep ?_ (by decide); show Keep k b (Ops.addmod top) (Ops.addmod top); unfold Ops.addmod; twin
  | MULMOD => refine after_keep ?_ (by decide); show Keep k b (Ops.mulmod top) (Ops.mulmod top); unfold Ops.mulmod; twin
  | EXP => refine after_keep ?_ (by decide); show Keep k b (Ops.exp top gas) (Ops.exp top gas); unfold Ops.exp; twin
  | SIGNEXTEND =>
    refine after_keep ?_ (by decide); show Keep k b (Ops.signextend top) (Ops.signextend top); unfold Ops.signextend; dsimp only; twin
  | BYTE => refine after_keep ?_ (by decide); show Keep k b (Ops.byte top) (Ops.byte top); unfold Ops.byte; twin
  | SAR => refine after_keep ?_ (by decide); show Keep k b (Ops.sar top) (Ops.sar top); unfold Ops.sar; dsimp only; twin
  | SHA3 => exact after_keep (keep_sha3 hE hb gas) (by decide)
  | ADDRESS | CALLER | CALLVALUE | CALLDATASIZE | CODESIZE | RETURNDATASIZE | MSIZE =>
    exact after_grow (rel_get (fun _ => grow_push _) (fun _ _ _ => rfl))
  | ORIGIN =>
    refine after_grow ?_
    show Grow k b top (Ops.origin E top) (Ops.origin E' top)
    unfold Ops.origin; rw [hh]; exact grow_push _
  | GASPRICE =>
    refine after_grow ?_
    show Grow k b top (Ops.gasprice E top) (Ops.gasprice E' top)
    unfold Ops.gasprice; rw [hh]; exact grow_push _
  | COINBASE =>
    refine after_grow ?_
    show Grow k b top (Ops.coinbase E top) (Ops.coinbase E' top)
    unfold Ops.coinbase; rw [hh]; exact grow_push _
  | TIMESTAMP =>
    refine after_grow ?_
    show Grow k b top (Ops.timestamp E top) (Ops.timestamp E' top)
    unfold Ops.timestamp; rw [hh]; exact grow_push _
  | NUMBER =>
    refine after_grow ?_
    show Grow k b top (Ops.number E top) (Ops.number E' top)
    unfold Ops.number; rw [hh]; exact grow_push _
  | PREVRANDAO =>
    refine after_grow ?_
    show Grow k b top (Ops.prevrandao E top) (Ops.prevrandao E' top)
    unfold Ops.prevrandao; rw [hh]; exact grow_push _
  | GASLIMIT =>
    refine after_grow ?_
    show Grow k b top (Ops.gaslimit E top) (Ops.gaslimit E' top)
    unfold Ops.gaslimit; rw [hh]; exact grow_push _
  | CHAINID =>
    refine after_grow ?_
    show Grow k b top (Ops.chainid E top) (Ops.chainid E' top)
    unfold Ops.chainid; rw [hh]; exact grow_push _
  | BASEFEE =>
    refine after_grow ?_
    show Grow k b top (Ops.basefee E top) (Ops.basefee E' top)
    unfold Ops.basefee; rw [hh]; exact grow_push _
  | BLOBBASEFEE =>
    refine after_grow ?_
    show Grow k b top (Ops.blobbasefee E top) (Ops.blobbasefee E' top)
    unfold Ops.blobbasefee; rw [hh]; exact grow_push _
  | PC | GAS | PUSH0 => exact after_grow (grow_push _)
  | BALANCE =>
    refine after_keep ?_ (by decide); show Keep k b (Ops.balance E top gas) (Ops.balance E' top gas); unfold Ops.balance; rw [hh]
    repeat' first | exact ha _ | twin_step
  | EXTCODESIZE =>
    refine after_keep ?_ (by decide); show Keep k b (Ops.extcodesize E top gas) (Ops.extcodesize E' top gas); unfold Ops.extcodesize; rw [hh]
    repeat' first | exact ha _ | twin_step
  | EXTCODEHASH =>
    refine after_keep ?_ (by decide); show Keep k b (Ops.extcodehash E top gas) (Ops.extcodehash E' top gas); unfold Ops.extcodehash; rw [hh]
    repeat' first | exact ha _ | twin_step
  | EXTCODECOPY =>
    refine after_keep ?_ (by decide); show Keep k b (Ops.extcodecopy E top gas) (Ops.extcodecopy E' top gas); unfold Ops.extcodecopy; rw [hh]
    repeat' first | exact ha _ | twin_step
  | CALLDATALOAD =>
    refine after_keep ?_ (by decide); show Keep k b (Ops.calldataload top) (Ops.calldataload top); unfold Ops.calldataload; twin
  | CALLDATACOPY =>
    refine after_keep ?_ (by decide); show Keep k b (Ops.calldatacopy top gas) (Ops.calldatacopy top gas); unfold Ops.calldatacopy; twin
  | CODECOPY =>
    refine after_keep ?_ (by decide); show Keep k b (Ops.codecopy top gas) (Ops.codecopy top gas); unfold Ops.codecopy; dsimp only; twin
  | RETURNDATACOPY =>
    refine after_keep ?_ (by decide); show Keep k b (Ops.returndatacopy top gas) (Ops.returndatacopy top gas)
    unfold Ops.returndatacopy; dsimp only; twin
  | BLOCKHASH =>
    refine after_keep ?_ (by decide); show Keep k b (Ops.blockhash E top) (Ops.blockhash E' top); unfold Ops.blockhash; rw [hh]; dsimp only; twin
  | SELFBALANCE =>
    refine after_grow ?_; show Grow k b top (Ops.selfbalance E top) (Ops.selfbalance E' top); unfold Ops.selfbalance; rw [hh]
    exact rel_get (fun _ => rel_seq (rel_host _) fun _ => grow_push _) (fun _ _ _ => rfl)
  | BLOBHASH =>
    refine after_keep ?_ (by decide); show Keep k b (Ops.blobhash E top) (Ops.blobhash E' top); unfold Ops.blobhash; rw [hh]; twin
  | MLOAD => refine after_keep ?_ (by decide); show Keep k b (Ops.mload top gas) (Ops.mload top gas); unfold Ops.mload; twin
  | MSTORE => refine after_keep ?_ (by decide); show Keep k b (Ops.mstore top gas) (Ops.mstore top gas); unfold Ops.mstore; twin
  | MSTORE8 => refine after_keep ?_ (by decide); show Keep k b (Ops.mstore8 top gas) (Ops.mstore8 top gas); unfold Ops.mstore8; twin
  | SLOAD =>
    refine after_keep ?_ (by decide); show Keep k b (Ops.sload E top gas) (Ops.sload E' top gas); unfold Ops.sload; rw [hh]; twin
  | SSTORE =>
    have h := fun l => keep_addRefunds (σ := σ) (k := k) (b := b) l
    refine after_keep ?_ (by decide); show Keep k b (Ops.sstore E top gas) (Ops.sstore E' top gas); unfold Ops.sstore; rw [hh]; dsimp only
    repeat' first | exact h _ | twin_step
  | TLOAD => refine after_keep ?_ (by decide); show Keep k b (Ops.tload E top) (Ops.tload E' top); unfold Ops.tload; rw [hh]; twin
  | TSTORE => refine after_keep ?_ (by decide); show Keep k b (Ops.tstore E top) (Ops.tstore E' top); unfold Ops.tstore; rw [hh]; twin
  | MCOPY => refine after_keep ?_ (by decide); show Keep k b (Ops.mcopy top gas) (Ops.mcopy top gas); unfold Ops.mcopy; twin
  | PUSH i => exact after_grow (grow_pushN _ _)
  | DUP i => exact after_grow (grow_dup _ (by omega) hb)
  | SWAP i =>
    refine after_keep ?_ (show (OpCode.SWAP i).info.delta ≤ 0 from by simp [OpCode.info, OpInfo.delta]); show Keep k b (Ops.swap (i.val + 1) top) (Ops.swap (i.val + 1) top); unfold Ops.swap; twin
  | LOG i =>
    have h := keep_readTopics (σ := σ) (k := k) (b := b) i.val (top + 2) (by omega)
    refine after_keep ?_ (show (OpCode.LOG i).info.delta ≤ 0 from by simp [OpCode.info, OpInfo.delta]; omega); show Keep k b (Ops.log E i.val top gas) (Ops.log E' i.val top gas); unfold Ops.log; rw [hh]
    repeat' first | exact h | twin_step
  | CREATE => exact after_keep (keep_create hE false hb gas) (by decide)
  | CREATE2 => exact after_keep (keep_create hE true hb gas) (by decide)
  | CALL => exact after_keep (keep_call hE .call hb gas) (by decide)
  | CALLCODE => exact after_keep (keep_call hE .callcode hb gas) (by decide)
  | DELEGATECALL => exact after_keep (keep_call hE .delegatecall hb gas) (by decide)
  | STATICCALL => exact after_keep (keep_call hE .staticcall hb gas) (by decide)
  | RETURN => refine after_keep ?_ (by decide); show Keep k b (Ops.ret .ret top gas) (Ops.ret .ret top gas); unfold Ops.ret; twin
  | REVERT => refine after_keep ?_ (by decide); show Keep k b (Ops.ret .revert top gas) (Ops.ret .revert top gas); unfold Ops.ret; twin
  | SELFDESTRUCT =>
    have h := fun x => keep_addRefund (σ := σ) (k := k) (b := b) x
    refine after_keep ?_ (by decide); show Keep k b (Ops.selfdestruct E top gas) (Ops.selfdestruct E' top gas); unfold Ops.selfdestruct; rw [hh]; dsimp only
    repeat' first | exact h _ | twin_step

/-! ### The interpreter loop -/

/-- The slots on which two runs agree after a dispatched instruction: also the new top slot, unless
the instruction failed. -/
def AfterRun (b top : Int) (op : OpCode) (r : Result) (i : Int) : Prop :=
  b ≤ i ∨ (0 < op.info.delta ∧ i = top - 1 ∧ (r.state = .running ∨ r.state.isSuccess = true))

theorem rel_ret (a : α) (h : ∀ i, Q a i → S i) : Rel k S Q (pure a : OpM σ α) (pure a) :=
  fun _ c' t => ⟨c', rfl, t.mono h⟩

theorem keep_runJump (op : OpCode) (hb : b ≤ top) : Keep k b (runJump op top : OpM σ Bool) (runJump op top) := by
  unfold runJump
  split
  · twin
  · twin

theorem jump_delta {op : OpCode} (h : op.info.isJump = true) : op.info.delta ≤ 0 := by
  cases op with
  | PUSH i | DUP i | SWAP i | LOG i => exact absurd h (by simp [OpCode.info])
  | _ => revert h; decide

theorem delta_le_one (op : OpCode) : op.info.delta ≤ 1 := by
  cases op with
  | PUSH i => simp [OpCode.info, OpInfo.delta]
  | DUP i | SWAP i => simp only [OpCode.info, OpInfo.delta]; omega
  | LOG i => simp [OpCode.info, OpInfo.delta]; omega
  | _ => decide

theorem pushes_nonneg (op : OpCode) : 0 ≤ op.info.pushes := by
  cases op with
  | PUSH i | LOG i => simp [OpCode.info]
  | DUP i | SWAP i => simp only [OpCode.info]; omega
  | _ => decide

theorem rel_run (hE : Twins k E E') (stepping : Bool) (op : OpCode) (pc : Nat) (gas : Int) (hb : b ≤ top) (size : Int) :
    Rel k (fun i => b ≤ i) (AfterRun b top op) (run E stepping op pc gas top size) (run E' stepping op pc gas top size) := by
  have hno : ∀ r : Result, r.state ≠ .running → r.state.isSuccess = false → ∀ i, AfterRun b top op r i → b ≤ i := by
    rintro r h1 h2 i (h | ⟨_, _, h | h⟩)
    · exact h
    · exact absurd h h1
    · rw [h2] at h; cases h
  unfold run
  dsimp only
  refine rel_get (fun c => ?_) (fun _ _ _ => rfl)
  refine rel_ite _ (fun _ => rel_ret _ (hno _ nofun rfl)) fun _ => ?_
  refine rel_ite _ (fun _ => rel_ret _ (hno _ nofun rfl)) fun _ => ?_
  refine rel_ite _ (fun _ => rel_ret _ (hno _ nofun rfl)) fun _ => ?_
  refine rel_ite _ (fun _ => rel_ret _ (hno _ nofun rfl)) fun _ => ?_
  refine rel_ite _ (fun _ => rel_ret _ (hno _ nofun rfl)) fun _ => ?_
  refine rel_seq (rel_lift _) fun g => ?_
  refine rel_ite _ (fun hj => ?_) fun _ => ?_
  · have hd := jump_delta hj
    refine rel_post (Q := fun _ i => b ≤ i) ?_ (fun a i hi => ?_)
    · have h1 := keep_runJump (σ := σ) (k := k) op hb
      repeat' first | exact h1 | twin_step
    · rcases hi with h | h
      · exact h
      · omega
  · refine rel_bind (rel_invoke hE op hb g pc) fun res => ?_
    have hsub : ∀ r : Result, ∀ i, AfterRun b top op r i → After b top op i := by
      rintro r i (h | h)
      · exact .inl h
      · exact .inr ⟨h.1, h.2.1⟩
    refine rel_ite _ (fun _ => rel_ite _ (fun _ => rel_ret _ (hsub _)) fun _ => rel_seq (rel_lift _) fun _ => rel_ret _ (hsub _))
      fun _ => rel_ret _ (hsub _)

/-- An instruction that did not fail had enough operands. -/
theorem run_pops {stepping : Bool} {op : OpCode} {pc : Nat} {gas size : Int} {c d : Ctx σ} {r : Result}
    (h : run E stepping op pc gas top size c = .ok (r, d)) (hr : r.state = .running ∨ r.state.isSuccess = true) :
    ¬ ((op.info.pops : Int) > 0 ∧ size < op.info.pops) := by
  intro hp
  unfold run at h
  have hq : op.info.pops > 0 ∧ size < op.info.pops := ⟨by omega, hp.2⟩
  simp only [bind, OpM.bind, OpM.get, pure, if_pos hq] at h
  split at h
  · cases h; rcases hr with h | h <;> cases h
  · split at h <;> · cases h; rcases hr with h | h <;> cases h

/-- The relation between two runs at the same point of the loop. -/
structure Pair (k : List Byte → U256) (b : Int) (l : Loc) (c c' : Ctx σ) : Prop where
  tw : Tw k (fun i => b ≤ i) c c'
  entry : b ≤ c.stack.top
  now : l.state = .running ∨ l.state.isSuccess = true → b ≤ l.top ∧ l.top ≤ 1024
  size : l.size = 1024 - l.top

theorem execOne_pair (hE : Twins k E E') (stepping : Bool) {l : Loc} {c c' : Ctx σ} (h : Pair k b l c c')
    (hr : l.state = .running) :
    match execOne E noObserver stepping l c () with
    | .error e => execOne E' noObserver stepping l c' () = .error e
    | .ok (l1, c1, _) => ∃ b1 c1', execOne E' noObserver stepping l c' () = .ok (l1, c1', ()) ∧ Pair k b1 l1 c1 c1' := by
  have hb := (h.now (.inl hr)).1
  obtain ⟨buf, s, hs⟩ := h.tw.sw
  have hcode : c'.code = c.code := by rw [hs]; rfl
  unfold execOne
  simp only [bind, Except.bind, pure, Except.pure, hcode]
  cases hf : fetch c.code l.pc with
  | error e => exact rfl
  | ok x =>
    dsimp only
    have h1 := rel_run hE stepping (dispatch x) (l.pc.getD 0) l.gas hb l.size c c' h.tw
    have hsf := sync_run (E := E) (keeps_sha3 hE.left) stepping (dispatch x) (l.pc.getD 0) l.gas l.top l.size c c.gas c.stack.top
    cases hrun : run E stepping (dispatch x) (l.pc.getD 0) l.gas l.top l.size c with
    | error e => rw [hrun] at h1; simp only at h1; rw [h1]
    | ok r =>
      obtain ⟨r, d⟩ := r
      rw [hrun] at h1 hsf
      simp only at h1 hsf
      obtain ⟨d', h2, h3⟩ := h1
      rw [h2]
      have htop := hsf.2.1.top
      dsimp only
      simp only [noObserver, Bool.false_eq_true, if_false]
      have hsz := h.size
      have hp := run_pops hrun
      have hhi := (h.now (.inl hr)).2
      have hdelta : (dispatch x).info.delta = (dispatch x).info.pushes - (dispatch x).info.pops := rfl
      by_cases hok : (r.state = .running ∨ r.state.isSuccess = true) ∧ 0 < (dispatch x).info.delta
      · refine ⟨min b (l.top - 1), d', rfl, h3.mono ?_, ?_, ?_, ?_⟩
        · intro i hi
          rcases (show b ≤ i ∨ i = l.top - 1 by omega) with h | h
          · exact .inl h
          · exact .inr ⟨hok.2, h, hok.1⟩
        · rw [htop]; have := h.entry; omega
        · intro _
          have : (dispatch x).info.delta ≤ 1 := delta_le_one _
          dsimp only
          omega
        · dsimp only; omega
      · refine ⟨b, d', rfl, h3.mono fun i hi => .inl hi, by rw [htop]; exact h.entry, fun hst => ?_, by dsimp only; omega⟩
        have : ¬ 0 < (dispatch x).info.delta := fun hd => hok ⟨hst, hd⟩
        have := hp hst
        have := pushes_nonneg (dispatch x)
        dsimp only
        omega

theorem loop_pair (hE : Twins k E E') (stepping : Bool) (n : Int) (fuel : Nat) :
    ∀ (e b : Int) (l : Loc) (c c' : Ctx σ), Pair k b l c c' →
    match loop E noObserver stepping n fuel e l c () with
    | .error err => loop E' noObserver stepping n fuel e l c' () = .error err
    | .ok none => loop E' noObserver stepping n fuel e l c' () = .ok none
    | .ok (some (l1, c1, _)) => ∃ b1 c1', loop E' noObserver stepping n fuel e l c' () = .ok (some (l1, c1', ())) ∧
        Pair k b1 l1 c1 c1' := by
  induction fuel with
  | zero => intro e b l c c' h; exact rfl
  | succ fuel ih =>
    intro e b l c c' h
    rw [loop_succ, loop_succ]
    cases hn : (if stepping = true then chk32 (e + 1) else .ok e : M Int) with
    | error err => exact rfl
    | ok next =>
      dsimp only
      by_cases h1 : stepping = true ∧ e ≥ n
      · simp only [if_pos h1]; exact ⟨b, c', rfl, h⟩
      · simp only [if_neg h1]
        by_cases h2 : l.state = .running
        · simp only [if_pos h2]
          have hx := execOne_pair hE stepping h h2
          cases hex : execOne E noObserver stepping l c () with
          | error err => rw [hex] at hx; simp only at hx; rw [hx]
          | ok r =>
            obtain ⟨l1, c1, u⟩ := r
            rw [hex] at hx
            simp only at hx
            obtain ⟨b1, c1', hx, hp⟩ := hx
            rw [hx]
            dsimp only
            exact ih next b1 l1 c1 c1' hp
        · simp only [if_neg h2]; exact ⟨b, c', rfl, h⟩

/-! ### Entry points -/

variable {codeOf : U256 → List Byte} {vm vm' : Vm}

/-- The observable part of the outcome of `Execute`. -/
def seen (r : M (Option (EvmcResult × σ × Vm))) : M (Option (EvmcResult × σ)) :=
  (Option.map fun (r, w, _) => (r, w)) <$> r

theorem execute_twin (hE : Twins k E E') (hv : VmOk codeOf k vm) (hv' : VmOk codeOf k vm') {msg : Message} {code : List Byte}
    (hh : HashOk codeOf msg code) (rev : Revision) (fuel : Nat) (buf buf' : Nat → U256) (w : σ) :
    seen (vm'.execute E' fuel code msg rev buf' w) = seen (vm.execute E fuel code msg rev buf w) := by
  obtain ⟨vm1, hl, hv1, _, _⟩ := lookupCode_ok hv hh
  obtain ⟨vm2, hl2, hv2, _, _⟩ := lookupCode_ok hv' hh
  unfold Vm.execute Vm.executeWith interpret seen
  simp only [bind, Except.bind, pure, Except.pure, hl, hl2]
  rw [runInterpreter_eq, runInterpreter_eq]
  have hp : Pair k 1024 (startLoc false (initialCtx (vm1.args (computeContractInfo code) msg rev) buf w))
      (initialCtx (vm1.args (computeContractInfo code) msg rev) buf w)
      (initialCtx (vm2.args (computeContractInfo code) msg rev) buf' w) := by
    exact ⟨⟨⟨buf', _, rfl⟩, fun i hn hi => absurd hi (by omega), args_sha3 hv1, args_sha3 hv2⟩, Int.le_refl _, fun _ => ⟨Int.le_refl _, Int.le_refl _⟩, rfl⟩
  have h := loop_pair hE false (-1) fuel 0 1024 _ _ _ hp
  rw [show startLoc false (initialCtx (vm2.args (computeContractInfo code) msg rev) buf' w) =
    startLoc false (initialCtx (vm1.args (computeContractInfo code) msg rev) buf w) from rfl]
  cases hlo : loop E noObserver false (-1) fuel 0 (startLoc false (initialCtx (vm1.args (computeContractInfo code) msg rev) buf w))
      (initialCtx (vm1.args (computeContractInfo code) msg rev) buf w) () with
  | error e => rw [hlo] at h; simp only at h; simp only [noObserver] at h ⊢; rw [h]
  | ok r =>
    rw [hlo] at h
    cases r with
    | none => simp only at h; simp only [noObserver] at h ⊢; rw [h]
    | some r =>
      obtain ⟨l1, c1, u⟩ := r
      simp only at h
      obtain ⟨b1, c1', h, hpair⟩ := h
      obtain ⟨buf1, s1, hs1⟩ := hpair.tw.sw
      simp only [noObserver] at h ⊢
      rw [h, hs1]
      rfl

theorem pushAll_twin (l : List U256) : ∀ (s s' : Stack), s'.top = s.top → s.top ≤ 1024 →
    (∀ i : Nat, i < 1024 → s.top ≤ i → s'.buf i = s.buf i) →
    match s.pushAll l with
    | .error e => s'.pushAll l = .error e
    | .ok t => ∃ t', s'.pushAll l = .ok t' ∧ t'.top = t.top ∧ t.top ≤ 1024 ∧
        (∀ i : Nat, i < 1024 → t.top ≤ i → t'.buf i = t.buf i) := by
  induction l with
  | nil => intro s s' h1 h0 h2; exact ⟨s', rfl, h1, h0, h2⟩
  | cons v vs ih =>
    intro s s' h1 h0 h2
    unfold Stack.pushAll Stack.push
    simp only [bind, Except.bind, h1]
    by_cases hp : 0 ≤ s.top - 1 ∧ s.top - 1 < 1024
    · simp only [if_pos hp]
      refine ih _ _ rfl (by dsimp only; omega) ?_
      intro i hn hi
      dsimp only at hi ⊢
      split
      · rfl
      · exact h2 i hn (by omega)
    · simp only [if_neg hp]

theorem readDown_twin (s s' : Stack) (b : Int) (h : ∀ i : Nat, i < 1024 → b ≤ i → s'.buf i = s.buf i) (n : Nat) :
    ∀ p, b ≤ p → s'.readDown n p = s.readDown n p := by
  induction n with
  | zero => intro p _; rfl
  | succ n ih =>
    intro p hp
    unfold Stack.readDown
    by_cases hr : 0 ≤ p ∧ p < 1024
    · simp only [if_pos hr, ih (p + 1) (by omega), h p.toNat (by omega) (by omega)]
    · simp only [if_neg hr]

theorem export_twin {s s' : Stack} (ht : s'.top = s.top) (h : ∀ i : Nat, i < 1024 → s.top ≤ i → s'.buf i = s.buf i) :
    s'.export = s.export := by
  unfold Stack.export
  have hsz : s'.size = s.size := by unfold Stack.size; rw [ht]
  rw [hsz, ht, readDown_twin s s' s.top h s.size s.top (Int.le_refl _)]

theorem copy_top_ge (s : Stack) (h : s.top ≤ 1024) : s.top ≤ s.copy.top ∧ s.copy.top ≤ 1024 := by
  unfold Stack.copy Stack.size kStackSize
  dsimp only
  omega

theorem copy_twin {s s' : Stack} (ht : s'.top = s.top) (hi : s.top ≤ 1024)
    (h : ∀ i : Nat, i < 1024 → s.top ≤ i → s'.buf i = s.buf i) :
    s'.copy.top = s.copy.top ∧ s.copy.top ≤ 1024 ∧ ∀ i : Nat, i < 1024 → s.copy.top ≤ i → s'.copy.buf i = s.copy.buf i := by
  refine ⟨?_, (copy_top_ge s hi).2, fun i hn hj => h i hn ?_⟩
  · unfold Stack.copy Stack.size; rw [ht]
  · have := (copy_top_ge s hi).1; omega

/-- The observable part of the outcome of `StepN`. -/
def seenStep (r : M (Option (StepResult × σ × Vm))) : M (Option (StepResult × σ)) :=
  (Option.map fun (r, w, _) => (r, w)) <$> r

theorem stepN_twin (hE : Twins k E E') (hv : VmOk codeOf k vm) (hv' : VmOk codeOf k vm') {msg : Message} {code : List Byte}
    (hh : HashOk codeOf msg code) (rev : Revision) (fuel : Nat) (status : StepStatus) (pc : Nat) (refund : Int)
    (stack : List U256) (memory ret : List Byte) (n : Int) (buf buf' : Nat → U256) (w : σ) :
    seenStep (vm'.stepN E' fuel code msg rev status pc refund stack memory ret n buf' w) =
    seenStep (vm.stepN E fuel code msg rev status pc refund stack memory ret n buf w) := by
  obtain ⟨vm1, hl, hv1, _, _⟩ := lookupCode_ok hv hh
  obtain ⟨vm2, hl2, hv2, _, _⟩ := lookupCode_ok hv' hh
  unfold Vm.stepN seenStep
  simp only [bind, Except.bind, pure, Except.pure, hl, hl2]
  have hpush := pushAll_twin stack { buf := buf } { buf := buf' } rfl (Int.le_refl _) (fun i hn hi => absurd hi (by dsimp only; omega))
  cases hpa : Stack.pushAll { buf := buf } stack with
  | error e => rw [hpa] at hpush; simp only at hpush; rw [hpush]
  | ok s0 =>
    rw [hpa] at hpush
    simp only at hpush
    obtain ⟨s0', hpa', ht0, hi0, ha0⟩ := hpush
    rw [hpa']
    dsimp only
    unfold interpretNSteps
    simp only [bind, Except.bind, pure, Except.pure]
    rw [runInterpreter_eq, runInterpreter_eq]
    obtain ⟨ht1, hi1, ha1⟩ := copy_twin ht0 hi0 ha0
    obtain ⟨ht2, hi2, ha2⟩ := copy_twin ht1 hi1 ha1
    generalize hc0' : steppingCtx (σ := σ) _ w = c0'
    generalize hc0 : steppingCtx (σ := σ) _ w = c0
    have hstk : c0.stack = s0.copy.copy := by rw [← hc0]; rfl
    have hstk' : c0'.stack = s0'.copy.copy := by rw [← hc0']; rfl
    have hsw : c0' = Sw c0'.stack.buf c0'.sha3 c0 := by
      have ht : c0'.stack.top = c0.stack.top := by rw [hstk, hstk']; exact ht2
      have hst : Sw c0'.stack.buf c0'.sha3 c0 = { c0 with stack := c0'.stack, sha3 := c0'.sha3 } := by
        have : ({ c0.stack with buf := c0'.stack.buf } : Stack) = c0'.stack := by
          cases hx : c0'.stack with
          | mk bf tp => rw [hx] at ht; dsimp only at ht ⊢; rw [ht]
        unfold Sw
        rw [this]
      rw [hst, ← hc0, ← hc0']
      rfl
    have hsize : (c0.stack.size : Int) = 1024 - c0.stack.top := by
      rw [hstk]
      unfold Stack.copy Stack.size kStackSize
      dsimp only
      omega
    have hp : Pair k c0.stack.top (startLoc true c0) c0 c0' := by
      refine ⟨⟨⟨_, _, hsw⟩, ?_, ?_, ?_⟩, Int.le_refl _, fun _ => ⟨Int.le_refl _, ?_⟩, hsize⟩
      · rw [hstk, hstk']; exact ha2
      · rw [← hc0]; exact args_sha3 hv1
      · rw [← hc0']; exact args_sha3 hv2
      · show c0.stack.top ≤ 1024
        rw [hstk]; exact hi2
    have hloc : startLoc true c0' = startLoc true c0 := by
      rw [hsw]; rfl
    have h := loop_pair hE true (if status = .running then n else 0) fuel 0 _ _ _ _ hp
    rw [hloc]
    cases hlo : loop E noObserver true (if status = .running then n else 0) fuel 0 (startLoc true c0) c0 () with
    | error e => rw [hlo] at h; simp only at h; rw [h]
    | ok r =>
      rw [hlo] at h
      cases r with
      | none => simp only at h; rw [h]
      | some r =>
        obtain ⟨l1, c1, u⟩ := r
        simp only at h
        obtain ⟨b1, c1', h, hpair⟩ := h
        obtain ⟨buf1, s1, hs1⟩ := hpair.tw.sw
        rw [h]
        dsimp only
        have hctop : c1.stack.top ≤ 1024 := by
          have := loop_sync (E := E) keeps_true noObserver true (if status = .running then n else 0) fuel 0 (startLoc true c0) c0 c0.gas c0.stack.top ()
          rw [hlo] at this
          simp only at this
          rw [this.2.1.top, hstk]
          exact hi2
        have hex : (epilogue true l1 c1').stack.copy.export = (epilogue true l1 c1).stack.copy.export := by
          have hb : b1 ≤ (epilogue true l1 c1).stack.top ∧ (epilogue true l1 c1).stack.top ≤ 1024 := by
            unfold epilogue
            simp only [if_true]
            split
            · rename_i hst
              exact hpair.now (hst.symm)
            · exact ⟨hpair.entry, hctop⟩
          have htop : (epilogue true l1 c1').stack.top = (epilogue true l1 c1).stack.top := by
            rw [hs1]; rfl
          obtain ⟨a1, _, a3⟩ := copy_twin (s := (epilogue true l1 c1).stack) (s' := (epilogue true l1 c1').stack) htop hb.2
            (fun i hn hi => hpair.tw.agree i hn (by omega))
          exact export_twin a1 a3
        rw [hex]
        cases (epilogue true l1 c1).stack.copy.export with
        | error e => rfl
        | ok sd =>
          dsimp only
          rw [show (epilogue true l1 c1').memory = (epilogue true l1 c1).memory by rw [hs1]; rfl]
          cases (epilogue true l1 c1).memory.writeTo (epilogue true l1 c1).memory.size 0 with
          | error e => rfl
          | ok md =>
            dsimp only
            rw [hs1]
            rfl

end Tosca.Proofs.Twin

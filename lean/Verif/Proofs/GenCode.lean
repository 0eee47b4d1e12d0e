import Verif.Spec.GoGen
import Verif.Proofs.CtCode

/-!
# The generator of code
-/

namespace Tosca.Proofs.Gen

open Tosca.Go Tosca.Model.Go Tosca.Model.Gen Tosca.Spec Tosca.Spec.Go Tosca.Spec.Gen

variable {σ : Type}

theorem width_eq (op : Byte) : width op = byteLen op.toNat := by
  rw [byteLen_eq]
  unfold width
  split <;> omega

theorem width_pos (op : Byte) : 0 < width op := by rw [width_eq]; exact byteLen_pos op

theorem pick_ok (src : Source σ) {i : Nat} {next : ConstOp} {rest : List ConstOp} {s : σ} (hi : (i : Int) ≤ next.pos) :
    ((i : Int) = next.pos ∧ (pick src i next rest s).1 = next.op ∧ (pick src i next rest s).2.1 = rest) ∨
    (((i + width (pick src i next rest s).1 : Nat) : Int) ≤ next.pos ∧ (pick src i next rest s).2.1 = next :: rest) := by
  unfold pick
  by_cases h : (i : Int) = next.pos
  · rw [if_pos h]; exact .inl ⟨h, rfl, rfl⟩
  · rw [if_neg h]
    refine .inr ⟨?_, rfl⟩
    dsimp only
    generalize (src.int s).1 = op
    generalize hl : (if next.pos - i - 1 < 32 then (0x60 + (next.pos - i - 1) - 1).toNat else 0x7f : Nat) = limit
    have hw : (width op = if 0x60 ≤ op.toNat ∧ op.toNat ≤ 0x7f then op.toNat - 0x60 + 2 else 1) := rfl
    by_cases hc : limit < op.toNat ∧ op.toNat ≤ 0x7f
    · rw [if_pos hc]
      have e : (BitVec.ofNat 8 limit : Byte).toNat = limit := by rw [BitVec.toNat_ofNat]; omega
      unfold width
      rw [e]
      split at hl <;> split <;> omega
    · rw [if_neg hc]
      rw [hw]
      split at hl <;> split <;> omega

/-- The operations stand at their positions, one behind the other. -/
def Placed (code : List Byte) (i : Nat) (ops : List ConstOp) : Prop :=
  (∀ c ∈ ops, OpAt code c.pos c.op ∧ (i : Int) ≤ c.pos) ∧ ops.Pairwise fun c d => (c.pos : Int) + (width c.op : Int) ≤ d.pos

theorem build_ok {src : Source σ} (hs : SourceOk src) (size : Nat) : ∀ (fuel i : Nat) (ops : List ConstOp) (acc : List Byte) (s : σ)
    (code : List Byte) (s' : σ), acc.length = min i size → build src size fuel i ops acc s = some (code, s') →
    acc <+: code ∧ code.length = size ∧ (Boundary code i → Placed code i ops) := by
  intro fuel
  induction fuel with
  | zero => intro i ops acc s code s' _ h; simp [build] at h
  | succ fuel ih =>
    intro i ops acc s code s' hlen h
    match ops with
    | [] => simp [build] at h
    | next :: rest =>
      unfold build at h
      by_cases hi : i ≥ size
      · rw [if_pos hi] at h; cases h
      rw [if_neg hi] at h
      by_cases hn : next.pos < i
      · rw [if_pos hn] at h; cases h
      rw [if_neg hn] at h
      have hlen' : acc.length = i := by omega
      have hp := pick_ok src (rest := rest) (s := s) (show (i : Int) ≤ next.pos by omega)
      generalize pick src i next rest s = q at hp h
      obtain ⟨op, ops', s1⟩ := q
      dsimp only at hp h
      -- what holds once the code is written with `op` at `i`
      have at_i : ∀ code : List Byte, (acc ++ [op]) <+: code → i < code.length ∧ code[i]? = some op ∧
          (Boundary code i → Boundary code (i + width op)) := by
        rintro code ⟨t, rfl⟩
        have h1 : i < (acc ++ [op] ++ t).length := by simp [hlen']
        have h2 : (acc ++ [op] ++ t)[i]? = some op := by
          rw [List.getElem?_append_left (by simp [hlen']), List.getElem?_append_right (by omega), hlen']
          simp
        refine ⟨h1, h2, fun hb => ?_⟩
        have := boundary_next _ i hb h1
        unfold nxt at this
        rw [List.getD_eq_getElem?_getD, h2, Option.getD_some, ← width_eq] at this
        exact this
      have combine : ∀ code : List Byte, (acc ++ [op]) <+: code → code.length = size →
          (Boundary code (i + width op) → Placed code (i + width op) ops') → Boundary code i → Placed code i (next :: rest) := by
        intro code hpre _ hpl hb
        obtain ⟨a1, a2, a3⟩ := at_i code hpre
        obtain ⟨p1, p2⟩ := hpl (a3 hb)
        rcases hp with ⟨e1, e2, e3⟩ | ⟨e1, e2⟩
        · subst e3
          refine ⟨fun c hc => ?_, List.pairwise_cons.2 ⟨fun d hd => ?_, p2⟩⟩
          · rcases List.mem_cons.1 hc with rfl | hc
            · exact ⟨⟨i, e1.symm, a1, hb, by rw [a2, e2]⟩, by omega⟩
            · have := p1 c hc; exact ⟨this.1, by have := this.2; push_cast at this; omega⟩
          · have := (p1 d hd).2
            rw [← e2, ← e1]; push_cast at this; exact this
        · subst e2
          refine ⟨fun c hc => ⟨(p1 c hc).1, ?_⟩, p2⟩
          have := (p1 c hc).2; push_cast at this; omega
      match ops' with
      | [] =>
        simp only [Option.some.injEq, Prod.mk.injEq] at h
        obtain ⟨rfl, _⟩ := h
        have hr := hs.read (size - (i + 1)) s1
        have hsz : (acc ++ [op] ++ (src.read (size - (i + 1)) s1).1).length = size := by
          simp [hlen', hr]; omega
        have hpre : (acc ++ [op]) <+: (acc ++ [op] ++ (src.read (size - (i + 1)) s1).1) := List.prefix_append _ _
        exact ⟨(List.prefix_append acc [op]).trans hpre, hsz, combine _ hpre hsz fun _ => ⟨fun c hc => by simp at hc, List.Pairwise.nil⟩⟩
      | c :: ops'' =>
        dsimp only at h
        by_cases hpush : 0x60 ≤ op.toNat ∧ op.toNat ≤ 0x7f
        · rw [if_pos hpush] at h
          have hw : i + (op.toNat - 0x60 + 1) + 1 = i + width op := by unfold width; rw [if_pos hpush]; omega
          rw [hw] at h
          have hr := hs.read ((if i + 1 + (op.toNat - 0x60 + 1) > size then size else i + 1 + (op.toNat - 0x60 + 1)) - (i + 1)) s1
          obtain ⟨g1, g2, g3⟩ := ih _ _ _ _ _ _ (by
            rw [List.length_append, List.length_append, hr, hlen']
            simp only [List.length_singleton]
            rw [← hw]
            split <;> omega) h
          have hpre := (List.prefix_append (acc ++ [op]) _).trans g1
          exact ⟨(List.prefix_append acc [op]).trans hpre, g2, combine _ hpre g2 g3⟩
        · rw [if_neg hpush] at h
          have hw : i + 1 = i + width op := by unfold width; rw [if_neg hpush]
          rw [hw] at h
          obtain ⟨g1, g2, g3⟩ := ih _ _ _ _ _ _ (by
            rw [List.length_append, hlen', ← hw]; simp only [List.length_singleton]; omega) h
          exact ⟨(List.prefix_append acc [op]).trans g1, g2, combine _ g1 g2 g3⟩

/-! ### The solver -/

/-- The data of an operation runs into another operation, or an operation is outside of the code. -/
def Bad (size : Nat) (ops : List ConstOp) : Prop :=
  (∃ c ∈ ops, ∃ d ∈ ops, d.pos < c.pos ∧ c.pos < d.pos + (width d.op : Int)) ∨ ∃ c ∈ ops, c.pos < 0 ∨ (size : Int) ≤ c.pos

theorem Bad.mono {size : Nat} {l m : List ConstOp} (h : Bad size l) (hs : l ⊆ m) : Bad size m := by
  rcases h with ⟨c, hc, d, hd, h⟩ | ⟨c, hc, h⟩
  · exact .inl ⟨c, hs hc, d, hs hd, h⟩
  · exact .inr ⟨c, hs hc, h⟩

/-- What the marks say about the operations. -/
structure Inv (ops : List ConstOp) (used : Int → Used) : Prop where
  code : ∀ q, used q = .isCode → ∃ c ∈ ops, c.pos = q
  data : ∀ q, used q = .isData → ∃ c ∈ ops, c.pos < q ∧ q < c.pos + (width c.op : Int)
  marked : ∀ c ∈ ops, used c.pos = .isCode ∨ ∃ d ∈ ops, d.pos < c.pos ∧ c.pos < d.pos + (width d.op : Int)

theorem inv_mark {ops : List ConstOp} {used : Int → Used} (h : Inv ops used) (pos : Int) (op : Byte) :
    Inv (ops ++ [⟨pos, op⟩]) (markUsed used pos op) := by
  have hn : (⟨pos, op⟩ : ConstOp) ∈ ops ++ [⟨pos, op⟩] := by simp
  have ho : ∀ {c : ConstOp}, c ∈ ops → c ∈ ops ++ [⟨pos, op⟩] := fun hc => List.mem_append_left _ hc
  have hw := width_pos op
  refine ⟨fun q hq => ?_, fun q hq => ?_, fun c hc => ?_⟩
  · unfold markUsed at hq
    split at hq
    · cases hq
    · split at hq
      · rename_i e; exact ⟨_, hn, e.symm⟩
      · obtain ⟨c, hc, e⟩ := h.code q hq; exact ⟨c, ho hc, e⟩
  · unfold markUsed at hq
    split at hq
    · rename_i e; exact ⟨_, hn, e⟩
    · split at hq
      · cases hq
      · obtain ⟨c, hc, e⟩ := h.data q hq; exact ⟨c, ho hc, e⟩
  · unfold markUsed
    by_cases h1 : pos < c.pos ∧ c.pos < pos + (width op : Int)
    · exact .inr ⟨_, hn, h1⟩
    · rw [if_neg h1]
      by_cases h2 : c.pos = pos
      · rw [if_pos h2]; exact .inl rfl
      · rw [if_neg h2]
        rcases List.mem_append.1 hc with hc | hc
        · rcases h.marked c hc with h | ⟨d, hd, h⟩
          · exact .inl h
          · exact .inr ⟨d, ho hd, h⟩
        · rw [List.mem_singleton] at hc
          subst hc
          exact absurd rfl h2

theorem inv_fold : ∀ (l done : List ConstOp) (used : Int → Used), Inv done used →
    Inv (done ++ l) (l.foldl (fun u c => markUsed u c.pos c.op) used)
  | [], done, used, h => by simpa using h
  | c :: l, done, used, h => by
    have := inv_fold l (done ++ [⟨c.pos, c.op⟩]) _ (inv_mark h c.pos c.op)
    rw [List.append_assoc] at this
    exact this

theorem inv_new (ops : List ConstOp) (a : Assignment) (s : σ) : Inv (newCodeSolver ops a s).ops (newCodeSolver ops a s).used := by
  have := inv_fold ops [] (fun _ => .isUnused) (⟨fun q (h : Used.isUnused = .isCode) => (by cases h), fun q (h : Used.isUnused = .isData) => (by cases h), fun c hc => (by simp at hc)⟩ : Inv [] fun _ => Used.isUnused)
  simpa [newCodeSolver] using this

/-- The search finds a position in the code that fits. -/
theorem search_ok {ok : Nat → Bool} {size start : Nat} : ∀ (fuel pos p : Nat), pos < size → search ok size start fuel pos = some p →
    p < size ∧ ok p = true
  | 0, pos, p, _, h => by simp [search] at h
  | fuel + 1, pos, p, hp, h => by
    unfold search at h
    split at h
    · rename_i hk; cases h; exact ⟨hp, hk⟩
    · dsimp only at h
      split at h <;> split at h
      · cases h
      · exact search_ok fuel 0 p (by omega) h
      · cases h
      · exact search_ok fuel (pos + 1) p (by omega) h

/-- The variable is the position of the operation. -/
def SatOp (s : CodeSolver σ) (v : Variable) (op : Byte) : Prop := ∃ p, s.assignment v = some p ∧ (⟨(p.toNat : Nat), op⟩ : ConstOp) ∈ s.ops
/-- The variable is the position of an operation. -/
def SatCode (s : CodeSolver σ) (v : Variable) : Prop := ∃ p, s.assignment v = some p ∧ ∃ c ∈ s.ops, c.pos = (p.toNat : Nat)
/-- The variable is the position of data. -/
def SatData (size : Nat) (s : CodeSolver σ) (v : Variable) : Prop :=
  ∃ p, s.assignment v = some p ∧ p.toNat < size ∧ ∃ c ∈ s.ops, c.pos < (p.toNat : Nat) ∧ ((p.toNat : Nat) : Int) < c.pos + (width c.op : Int)

theorem set_self (a : Assignment) (v : Variable) (x : U256) : a.set v x v = some x := by simp [Assignment.set]
theorem set_other (a : Assignment) {v u : Variable} (x : U256) (h : u ≠ v) : a.set v x u = a u := by simp [Assignment.set, h]

theorem nat_word {n size : Nat} (h : n < size) (hs : size < 2 ^ 256) : (BitVec.ofNat 256 n).toNat = n := by
  rw [BitVec.toNat_ofNat]; omega

theorem solveVarOps_ok {src : Source σ} (hs : SourceOk src) {size : Nat} (h0 : 0 < size) (h1 : size < 2 ^ 256) :
    ∀ (l : List (Variable × Byte)) (bound : Variable → Option Byte) (s t : CodeSolver σ), Inv s.ops s.used →
    (∀ u op, bound u = some op → SatOp s u op) → solveVarOps src size l bound s = some t →
    Inv t.ops t.used ∧ s.ops ⊆ t.ops ∧ (∀ c ∈ l, SatOp t c.1 c.2) ∧ (∀ u op, bound u = some op → SatOp t u op) ∧
    (∀ u, u ∉ l.map (·.1) → t.assignment u = s.assignment u) := by
  intro l
  induction l with
  | nil =>
    intro bound s t hi hb h
    simp only [solveVarOps, Option.some.injEq] at h
    subst h
    exact ⟨hi, fun _ h => h, fun c hc => by simp at hc, hb, fun _ _ => rfl⟩
  | cons c rest ih =>
    obtain ⟨v, op⟩ := c
    intro bound s t hi hb h
    unfold solveVarOps at h
    cases hv : bound v with
    | some op' =>
      rw [hv] at h
      dsimp only at h
      split at h
      · cases h
      · rename_i he
        have he : op' = op := by simpa using he
        subst he
        obtain ⟨g1, g2, g3, g4, g5⟩ := ih bound s t hi hb h
        refine ⟨g1, g2, fun c hc => ?_, g4, fun u hu => g5 u fun hm => hu (by simp at hm ⊢; exact .inr hm)⟩
        rcases List.mem_cons.1 hc with rfl | hc
        · exact g4 _ _ hv
        · exact g3 c hc
    | none =>
      rw [hv] at h
      dsimp only at h
      cases hf : search (fun pos => fits size s.used pos op) size (src.intn size s.rnd).1 size (src.intn size s.rnd).1 with
      | none => rw [hf] at h; cases h
      | some pos =>
        rw [hf] at h
        dsimp only at h
        obtain ⟨hp, _⟩ := search_ok _ _ _ (hs.intn size s.rnd h0) hf
        have hw := nat_word hp h1
        generalize hs2 : (⟨s.ops ++ [⟨pos, op⟩], s.assignment.set v (BitVec.ofNat 256 pos), markUsed s.used pos op,
          (src.intn size s.rnd).2⟩ : CodeSolver σ) = s2 at h
        have e1 : s2.ops = s.ops ++ [⟨pos, op⟩] := by rw [← hs2]
        have e2 : s2.assignment = s.assignment.set v (BitVec.ofNat 256 pos) := by rw [← hs2]
        have e3 : s2.used = markUsed s.used pos op := by rw [← hs2]
        have hnew : SatOp s2 v op := ⟨_, by rw [e2]; exact set_self _ _ _, by rw [e1, hw]; simp⟩
        have hold : ∀ u o, u ≠ v → SatOp s u o → SatOp s2 u o := by
          rintro u o hu ⟨p, p1, p2⟩
          exact ⟨p, by rw [e2, set_other _ _ hu]; exact p1, by rw [e1]; exact List.mem_append_left _ p2⟩
        obtain ⟨g1, g2, g3, g4, g5⟩ := ih (fun u => if u = v then some op else bound u) s2 t (by rw [e1, e3]; exact inv_mark hi _ _) (by
          intro u o hu
          split at hu
          · rename_i e; cases hu; rw [e]; exact hnew
          · rename_i e; exact hold u o e (hb u o hu)) h
        refine ⟨g1, fun x hx => g2 (by rw [e1]; exact List.mem_append_left _ hx), fun c hc => ?_, fun u o hu => ?_, fun u hu => ?_⟩
        · rcases List.mem_cons.1 hc with rfl | hc
          · exact g4 v op (by simp)
          · exact g3 c hc
        · refine g4 u o ?_
          have : u ≠ v := by rintro rfl; rw [hv] at hu; cases hu
          rw [if_neg this]; exact hu
        · have h3 : u ≠ v := by rintro rfl; exact hu (by simp)
          rw [g5 u fun hm => hu (by simp at hm ⊢; exact .inr hm), e2, set_other _ _ h3]

theorem placeCode_ok {src : Source σ} (hs : SourceOk src) {size : Nat} (h0 : 0 < size) (h1 : size < 2 ^ 256) {v : Variable}
    {s t : CodeSolver σ} (hi : Inv s.ops s.used) (h : placeCode src size v s = some t) :
    Inv t.ops t.used ∧ s.ops ⊆ t.ops ∧ SatCode t v ∧ ∀ u, u ≠ v → t.assignment u = s.assignment u := by
  unfold placeCode at h
  dsimp only at h
  cases hf : search (fun pos => decide (s.used pos ≠ .isData)) size (src.intn size s.rnd).1 size (src.intn size s.rnd).1 with
  | none => rw [hf] at h; cases h
  | some pos =>
    rw [hf] at h
    dsimp only at h
    obtain ⟨hp, hk⟩ := search_ok _ _ _ (hs.intn size s.rnd h0) hf
    have hw := nat_word hp h1
    split at h
    · cases h
      refine ⟨inv_mark hi _ _, fun x hx => List.mem_append_left _ hx, ⟨_, set_self _ _ _, _, List.mem_append_right _ (List.mem_singleton.2 rfl), ?_⟩,
        fun u hu => set_other _ _ hu⟩
      rw [hw]
    · rename_i hun
      cases h
      have hc : s.used pos = .isCode := by
        have := of_decide_eq_true hk
        cases hu : s.used pos
        · exact absurd hu hun
        · rfl
        · exact absurd hu this
      obtain ⟨c, hc, e⟩ := hi.code _ hc
      exact ⟨hi, fun _ h => h, ⟨_, set_self _ _ _, c, hc, by rw [e, hw]⟩, fun u hu => set_other _ _ hu⟩

theorem solveIsCode_ok {src : Source σ} (hs : SourceOk src) {size : Nat} (h0 : 0 < size) (h1 : size < 2 ^ 256) :
    ∀ (l : List Variable) (s t : CodeSolver σ), Inv s.ops s.used → solveIsCode src size l s = some t →
    Inv t.ops t.used ∧ s.ops ⊆ t.ops ∧ (∀ v ∈ l, SatCode t v) ∧ (∀ u, SatCode s u → SatCode t u) ∧
    (Bad size t.ops ∨ ∀ u op, SatOp s u op → SatOp t u op) ∧ ∀ u, u ∉ l → t.assignment u = s.assignment u := by
  intro l
  induction l with
  | nil =>
    intro s t hi h
    simp only [solveIsCode, Option.some.injEq] at h
    subst h
    exact ⟨hi, fun _ h => h, fun c hc => by simp at hc, fun _ h => h, .inr fun _ _ h => h, fun _ _ => rfl⟩
  | cons v rest ih =>
    intro s t hi h
    -- the variable is placed
    have place : (s.assignment v = none ∨ ∃ p, s.assignment v = some p ∧ p.toNat < size ∧ s.used p.toNat ≠ .isCode) →
        (placeCode src size v s).bind (solveIsCode src size rest) = some t →
        Inv t.ops t.used ∧ s.ops ⊆ t.ops ∧ (∀ u ∈ v :: rest, SatCode t u) ∧ (∀ u, SatCode s u → SatCode t u) ∧
        (Bad size t.ops ∨ ∀ u op, SatOp s u op → SatOp t u op) ∧ ∀ u, u ∉ v :: rest → t.assignment u = s.assignment u := by
      intro hv h
      obtain ⟨s2, hp, h⟩ := Option.bind_eq_some_iff.1 h
      obtain ⟨p1, p2, p3, p4⟩ := placeCode_ok hs h0 h1 hi hp
      obtain ⟨g1, g2, g3, g4, g5, g6⟩ := ih s2 t p1 h
      have keep : ∀ u, SatCode s u → SatCode t u := by
        intro u hu
        refine g4 u ?_
        by_cases e : u = v
        · rw [e]; exact p3
        · obtain ⟨p, q1, c, hc, q2⟩ := hu
          exact ⟨p, by rw [p4 u e]; exact q1, c, p2 hc, q2⟩
      refine ⟨g1, fun x hx => g2 (p2 hx), fun u hu => ?_, keep, ?_, fun u hu => ?_⟩
      · rcases List.mem_cons.1 hu with rfl | hu
        · exact g4 _ p3
        · exact g3 u hu
      · by_cases hb : Bad size t.ops
        · exact .inl hb
        · refine .inr fun u op hu => ?_
          rcases g5 with g5 | g5
          · exact absurd g5 hb
          · refine g5 u op ?_
            obtain ⟨p, q1, q2⟩ := hu
            by_cases e : u = v
            · subst e
              rcases hv with hv | ⟨p', hv, _, hc⟩
              · rw [hv] at q1; cases q1
              · rw [hv] at q1; cases q1
                rcases hi.marked _ q2 with hm | ⟨d, hd, hm⟩
                · exact absurd hm hc
                · exact absurd (.inl ⟨_, g2 (p2 q2), d, g2 (p2 hd), hm⟩) hb
            · exact ⟨p, by rw [p4 u e]; exact q1, p2 q2⟩
      · rw [g6 u fun hm => hu (List.mem_cons_of_mem _ hm), p4 u fun e => hu (e ▸ List.mem_cons_self ..)]
    unfold solveIsCode at h
    cases hv : s.assignment v with
    | none => rw [hv] at h; exact place (.inl hv) h
    | some p =>
      rw [hv] at h
      dsimp only at h
      by_cases hlt : ¬ p.toNat < size
      · rw [if_pos hlt] at h; cases h
      rw [if_neg hlt] at h
      by_cases hc : s.used p.toNat = .isCode
      · rw [if_pos hc] at h
        obtain ⟨g1, g2, g3, g4, g5, g6⟩ := ih s t hi h
        refine ⟨g1, g2, fun u hu => ?_, g4, g5, fun u hu => g6 u fun hm => hu (List.mem_cons_of_mem _ hm)⟩
        rcases List.mem_cons.1 hu with rfl | hu
        · obtain ⟨c, hc, e⟩ := hi.code _ hc
          exact g4 _ ⟨p, hv, c, hc, e⟩
        · exact g3 u hu
      · rw [if_neg hc] at h
        exact place (.inr ⟨p, hv, by omega, hc⟩) h

theorem largestFit_ok {size : Nat} {used : Int → Used} {pos n : Nat} (h : n < largestFit size used pos) : pos + n < size ∧ n < 33 := by
  unfold largestFit at h
  have hle := (List.takeWhile_prefix (fun n => decide (pos + n < size ∧ used ((pos : Int) + n) = .isUnused)) (l := List.range 33))
  have hm : (List.takeWhile (fun n => decide (pos + n < size ∧ used ((pos : Int) + n) = .isUnused)) (List.range 33))[n] = n := by
    rw [List.IsPrefix.getElem hle h, List.getElem_range]
  have := List.all_eq_true.1 (List.all_takeWhile (p := fun n => decide (pos + n < size ∧ used ((pos : Int) + n) = .isUnused)) (l := List.range 33)) _ (List.getElem_mem h)
  rw [hm] at this
  have hl := hle.length_le
  rw [List.length_range] at hl
  exact ⟨(of_decide_eq_true this).1, by omega⟩

theorem placeData_ok {src : Source σ} (hs : SourceOk src) {size : Nat} (h0 : 0 < size) (h1 : size < 2 ^ 256) {v : Variable}
    {s t : CodeSolver σ} (hi : Inv s.ops s.used) (h : placeData src size v s = some t) :
    Inv t.ops t.used ∧ s.ops ⊆ t.ops ∧ SatData size t v ∧ ∀ u, u ≠ v → t.assignment u = s.assignment u := by
  unfold placeData at h
  dsimp only at h
  generalize hok : (fun pos : Nat => decide (s.used pos = .isData) || (decide (s.used pos = .isUnused) && decide (largestFit size s.used pos ≥ 2))) = ok at h
  cases hf : search ok size (src.intn size s.rnd).1 size (src.intn size s.rnd).1 with
  | none => rw [hf] at h; cases h
  | some pos =>
    rw [hf] at h
    dsimp only at h
    obtain ⟨hp, hk⟩ := search_ok _ _ _ (hs.intn size s.rnd h0) hf
    have hw := nat_word hp h1
    rw [← hok] at hk
    dsimp only at hk
    split at h
    · rename_i hun
      have hfit : largestFit size s.used pos ≥ 2 := by
        rw [hun] at hk; simpa using hk
      obtain ⟨r1, hr1⟩ : ∃ r1, r1 = src.intn (largestFit size s.used pos - 1) (src.intn size s.rnd).2 := ⟨_, rfl⟩
      obtain ⟨r2, hr2⟩ : ∃ r2, r2 = src.intn ((BitVec.ofNat 8 (0x60 + r1.1) : Byte).toNat - 0x60 + 1) r1.2 := ⟨_, rfl⟩
      have ht : t = ⟨s.ops ++ [⟨pos, BitVec.ofNat 8 (0x60 + r1.1)⟩], s.assignment.set v (BitVec.ofNat 256 (pos + 1 + r2.1)),
          markUsed s.used pos (BitVec.ofNat 8 (0x60 + r1.1)), r2.2⟩ := by
        subst hr2; subst hr1
        injection h with h
        exact h.symm
      have b1 : r1.1 < largestFit size s.used pos - 1 := by rw [hr1]; exact hs.intn _ _ (by omega)
      have b2 := largestFit_ok (n := r1.1 + 1) (show r1.1 + 1 < largestFit size s.used pos by omega)
      have eop : (BitVec.ofNat 8 (0x60 + r1.1) : Byte).toNat = 0x60 + r1.1 := by rw [BitVec.toNat_ofNat]; omega
      rw [eop] at hr2
      have b3 : r2.1 < r1.1 + 1 := by
        have := hs.intn (0x60 + r1.1 - 0x60 + 1) r1.2 (by omega)
        rw [← hr2] at this; omega
      subst ht
      have hw2 : (BitVec.ofNat 256 (pos + 1 + r2.1)).toNat = pos + 1 + r2.1 := nat_word (show pos + 1 + r2.1 < size by omega) h1
      have hwd : width (BitVec.ofNat 8 (0x60 + r1.1)) = r1.1 + 2 := by
        unfold width; rw [eop, if_pos (by omega)]; omega
      refine ⟨inv_mark hi _ _, fun x hx => List.mem_append_left _ hx,
        ⟨_, set_self _ _ _, by rw [hw2]; omega, _, List.mem_append_right _ (List.mem_singleton.2 rfl), ?_, ?_⟩, fun u hu => set_other _ _ hu⟩
      · rw [hw2]; dsimp only; omega
      · rw [hw2]; dsimp only; rw [hwd]; omega
    · rename_i hun
      cases h
      have hd : s.used pos = .isData := by
        by_cases hd : s.used pos = .isData
        · exact hd
        · simp [hd, hun] at hk
      obtain ⟨c, hc, e⟩ := hi.data _ hd
      exact ⟨hi, fun _ h => h, ⟨_, set_self _ _ _, by rw [hw]; exact hp, c, hc, by rw [hw]; exact e⟩, fun u hu => set_other _ _ hu⟩

theorem solveIsData_ok {src : Source σ} (hs : SourceOk src) {size : Nat} (h0 : 0 < size) (h1 : size < 2 ^ 256) :
    ∀ (l : List Variable) (s t : CodeSolver σ), Inv s.ops s.used → solveIsData src size l s = some t →
    Inv t.ops t.used ∧ s.ops ⊆ t.ops ∧ (∀ v ∈ l, SatData size t v) ∧ (∀ u, SatData size s u → SatData size t u) ∧
    (Bad size t.ops ∨ (∀ u op, SatOp s u op → SatOp t u op) ∧ (∀ u, SatCode s u → SatCode t u)) ∧
    ∀ u, u ∉ l → t.assignment u = s.assignment u := by
  intro l
  induction l with
  | nil =>
    intro s t hi h
    simp only [solveIsData, Option.some.injEq] at h
    subst h
    exact ⟨hi, fun _ h => h, fun c hc => by simp at hc, fun _ h => h, .inr ⟨fun _ _ h => h, fun _ h => h⟩, fun _ _ => rfl⟩
  | cons v rest ih =>
    intro s t hi h
    have hv : (s.assignment v = none ∨ ∃ p, s.assignment v = some p ∧ ¬ (p.toNat < size ∧ s.used p.toNat = .isCode)) ∧
        (placeData src size v s).bind (solveIsData src size rest) = some t := by
      unfold solveIsData at h
      cases hv : s.assignment v with
      | none => rw [hv] at h; exact ⟨.inl rfl, h⟩
      | some p =>
        rw [hv] at h
        dsimp only at h
        split at h
        · cases h
        · rename_i hc; exact ⟨.inr ⟨p, rfl, hc⟩, h⟩
    obtain ⟨hv, h⟩ := hv
    obtain ⟨s2, hp, h⟩ := Option.bind_eq_some_iff.1 h
    obtain ⟨p1, p2, p3, p4⟩ := placeData_ok hs h0 h1 hi hp
    obtain ⟨g1, g2, g3, g4, g5, g6⟩ := ih s2 t p1 h
    -- an operation at a variable that is placed again shows a conflict
    have clash : ∀ p, s.assignment v = some p → ∀ c ∈ s.ops, c.pos = (p.toNat : Nat) → Bad size t.ops := by
      intro p q1 c hc q2
      rcases hv with hv | ⟨p', hv, hn⟩
      · rw [hv] at q1; cases q1
      · rw [hv] at q1; cases q1
        by_cases hlt : p.toNat < size
        · rcases hi.marked _ hc with hm | ⟨d, hd, hm⟩
          · rw [q2] at hm; exact absurd ⟨hlt, hm⟩ hn
          · exact .inl ⟨_, g2 (p2 hc), d, g2 (p2 hd), hm⟩
        · exact .inr ⟨c, g2 (p2 hc), .inr (by omega)⟩
    refine ⟨g1, fun x hx => g2 (p2 hx), fun u hu => ?_, fun u hu => ?_, ?_, fun u hu => ?_⟩
    · rcases List.mem_cons.1 hu with rfl | hu
      · exact g4 _ p3
      · exact g3 u hu
    · refine g4 u ?_
      by_cases e : u = v
      · rw [e]; exact p3
      · obtain ⟨p, q1, q2, c, hc, q3⟩ := hu
        exact ⟨p, by rw [p4 u e]; exact q1, q2, c, p2 hc, q3⟩
    · by_cases hb : Bad size t.ops
      · exact .inl hb
      · rcases g5 with g5 | ⟨g5, g7⟩
        · exact absurd g5 hb
        · refine .inr ⟨fun u op hu => g5 u op ?_, fun u hu => g7 u ?_⟩
          · obtain ⟨p, q1, q2⟩ := hu
            by_cases e : u = v
            · subst e; exact absurd (clash p q1 _ q2 rfl) hb
            · exact ⟨p, by rw [p4 u e]; exact q1, p2 q2⟩
          · obtain ⟨p, q1, c, hc, q2⟩ := hu
            by_cases e : u = v
            · subst e; exact absurd (clash p q1 c hc q2) hb
            · exact ⟨p, by rw [p4 u e]; exact q1, c, p2 hc, q2⟩
    · rw [g6 u fun hm => hu (List.mem_cons_of_mem _ hm), p4 u fun e => hu (e ▸ List.mem_cons_self ..)]

end Tosca.Proofs.Gen

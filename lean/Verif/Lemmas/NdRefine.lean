import Verif.Lemmas.NdArray
import Verif.Lemmas.Rest

/-!
# The array model computes what the typed model computes

Arrays of the documented shapes, and arrays that broadcasting stretches to them.
-/

set_option linter.unusedSectionVars false

namespace PySwarms

open Arr

/-- The array is the matrix. -/
def IsMat {α : Type} {n d : Nat} (a : Arr α) (m : Fin n → Fin d → α) : Prop :=
  a.shape = [n, d] ∧ ∀ (i : Fin n) (j : Fin d), a.get [i, j] = m i j

/-- Broadcasting stretches the array to the matrix. -/
def Stretches {α : Type} {n d : Nat} (a : Arr α) (m : Fin n → Fin d → α) : Prop :=
  To a.shape [n, d] ∧ ∀ (i : Fin n) (j : Fin d), a.bget [(i : Nat), j] = m i j

/-- The array is the vector. -/
def IsVec {α : Type} {n : Nat} (a : Arr α) (v : Fin n → α) : Prop :=
  a.shape = [n] ∧ ∀ i : Fin n, a.get [i] = v i

/-- Broadcasting stretches the array to the vector. -/
def StretchesVec {α : Type} {n : Nat} (a : Arr α) (v : Fin n → α) : Prop :=
  To a.shape [n] ∧ ∀ i : Fin n, a.bget [(i : Nat)] = v i

theorem IsMat.stretches {α : Type} {n d : Nat} {a : Arr α} {m : Fin n → Fin d → α}
    (h : IsMat a m) : Stretches a m :=
  ⟨h.1 ▸ to_refl _, fun i j => by rw [bget_two a h.1 i.2 j.2]; exact h.2 i j⟩

theorem IsVec.stretches {α : Type} {n : Nat} {a : Arr α} {v : Fin n → α}
    (h : IsVec a v) : StretchesVec a v :=
  ⟨h.1 ▸ to_refl _, fun i => by rw [bget_one a h.1 i.2]; exact h.2 i⟩

theorem map2_mat {α β γ : Type} {n d : Nat} (f : α → β → γ) {a : Arr α} {b : Arr β}
    {x : Fin n → Fin d → α} {y : Fin n → Fin d → β} (ha : Stretches a x) (hb : Stretches b y)
    (h : a.shape = [n, d] ∨ b.shape = [n, d]) :
    ∃ c, map2 f a b = .ok c ∧ IsMat c fun i j => f (x i j) (y i j) := by
  refine ⟨_, map2_full f (s := [n, d]) ?_, rfl, ?_⟩
  · rcases h with h | h
    · exact Or.inl ⟨h, hb.1⟩
    · exact Or.inr ⟨ha.1, h⟩
  · intro i j
    simp only [ha.2, hb.2]

theorem whr_mat {α : Type} {n d : Nat} {c : Arr Bool} {a b : Arr α} {m : Fin n → Fin d → Bool}
    {x y : Fin n → Fin d → α} (hc : IsMat c m) (ha : Stretches a x) (hb : Stretches b y) :
    ∃ z, whr c a b = .ok z ∧ IsMat z fun i j => if m i j then x i j else y i j := by
  refine ⟨_, whr_full hc.1 ha.1 hb.1, rfl, ?_⟩
  intro i j
  simp only [hc.stretches.2, ha.2, hb.2]

theorem whr_vec {α : Type} {n : Nat} {c : Arr Bool} {a b : Arr α} {m : Fin n → Bool}
    {x y : Fin n → α} (hc : IsVec c m) (ha : StretchesVec a x) (hb : StretchesVec b y) :
    ∃ z, whr c a b = .ok z ∧ IsVec z fun i => if m i then x i else y i := by
  refine ⟨_, whr_full hc.1 ha.1 hb.1, rfl, ?_⟩
  intro i
  simp only [hc.stretches.2, ha.2, hb.2]

/-- `best_pos` as an array. -/
def IsBest {K : Type} {n d : Nat} (a : Arr K) : BestPos n d K → Prop
  | .empty => a.shape = [0]
  | .single v => IsVec a v
  | .perParticle m => IsMat a m

/-- The array swarm is the typed swarm, up to stretching of velocities and personal best costs. -/
structure AlmostIs {K : Type} {n d : Nat} (a : ASwarm K) (t : Swarm n d K) : Prop where
  position : IsMat a.position t.position
  velocity : Stretches a.velocity t.velocity
  dimensions : a.dimensions = d
  pbestPos : IsMat a.pbestPos t.pbestPos
  pbestCost : StretchesVec a.pbestCost t.pbestCost
  bestPos : IsBest a.bestPos t.bestPos
  bestCost : a.bestCost = t.bestCostVal

/-- The array swarm is the typed swarm. -/
structure Is {K : Type} {n d : Nat} (a : ASwarm K) (t : Swarm n d K) : Prop
    extends AlmostIs a t where
  velocity_shape : a.velocity.shape = [n, d]
  pbestCost_shape : a.pbestCost.shape = [n]

/-- The clamp as a pair of arrays that can be stretched to one row. -/
inductive IsClamp {K : Type} {d : Nat} : Option (Arr K × Arr K) → Option (Clamp d K) → Prop
  | none : IsClamp none none
  | some (lo hi : Arr K) (c : Clamp d K) (hlo : StretchesVec lo c.1) (hhi : StretchesVec hi c.2) :
      IsClamp (some (lo, hi)) (some c)

/-- A matrix as a function of indices. -/
def entries {K : Type} [Zero K] {n d : Nat} (m : Mat n d K) (idx : List Nat) : K :=
  match idx with
  | [i, j] => if h : i < n ∧ j < d then m ⟨i, h.1⟩ ⟨j, h.2⟩ else 0
  | _ => 0

theorem entries_isMat {K : Type} [Zero K] {n d : Nat} (m : Mat n d K) :
    IsMat ⟨[n, d], entries m⟩ m := by
  refine ⟨rfl, fun i j => ?_⟩
  simp [entries]

/-- A row stretched over the particles. -/
theorem StretchesVec.rows {α : Type} {n d : Nat} {a : Arr α} {v : Fin d → α}
    (h : StretchesVec a v) : Stretches (n := n) a fun _ j => v j := by
  refine ⟨h.1.trans ((to_row _ _ _).2 (Or.inl rfl)), fun i j => ?_⟩
  show a.bget [(i : Nat), (j : Nat)] = v j
  rw [← h.2 j]
  rcases (to_vector _ _).1 h.1 with h' | h' | h' <;> simp [bget, proj, h']

theorem computePbestA_is {K : Type} [Field K] [LinearOrder K] {n d : Nat} {a : ASwarm K}
    {t : Swarm n d K} (h : AlmostIs a t) (hc : StretchesVec a.currentCost t.currentCost)
    (hs : a.currentCost.shape = [n] ∨ a.pbestCost.shape = [n]) :
    ∃ pp pc, computePbestA a = .ok (pp, pc) ∧ IsMat pp (computePbest t).1 ∧
      IsVec pc (computePbest t).2 := by
  have hmask : ∃ mask, map2 XR.lt a.currentCost a.pbestCost = .ok mask ∧
      IsVec mask fun i => XR.lt (t.currentCost i) (t.pbestCost i) := by
    refine ⟨_, map2_full XR.lt (s := [n]) ?_, rfl, ?_⟩
    · rcases hs with hs | hs
      · exact Or.inl ⟨hs, h.pbestCost.1⟩
      · exact Or.inr ⟨hc.1, hs⟩
    · intro i
      simp only [hc.2, h.pbestCost.2]
  obtain ⟨mask, hm1, hm2⟩ := hmask
  have hmpos : ∃ mpos, (newaxis1 mask >>= fun col => repeat1 col a.dimensions) = .ok mpos ∧
      IsMat mpos fun (i : Fin n) (_ : Fin d) => XR.lt (t.currentCost i) (t.pbestCost i) := by
    unfold newaxis1
    rw [hm2.1]
    simp only [ok_bind, repeat1, h.dimensions, Nat.one_mul]
    refine ⟨_, rfl, rfl, ?_⟩
    intro i j
    simpa using hm2.2 i
  obtain ⟨mpos, hp1, hp2⟩ := hmpos
  rw [bind_ok] at hp1
  obtain ⟨col, hcol, hrep⟩ := hp1
  have hn1 : IsMat (mpos.map not)
      fun (i : Fin n) (_ : Fin d) => !XR.lt (t.currentCost i) (t.pbestCost i) :=
    ⟨hp2.1, fun i j => by simp only [Arr.map, hp2.2]⟩
  have hn2 : IsVec (mask.map not) fun i : Fin n => !XR.lt (t.currentCost i) (t.pbestCost i) :=
    ⟨hm2.1, fun i => by simp only [Arr.map, hm2.2]⟩
  obtain ⟨pp, w1, w2⟩ := whr_mat hn1 h.pbestPos.stretches h.position.stretches
  obtain ⟨pc, w3, w4⟩ := whr_vec hn2 h.pbestCost hc
  refine ⟨pp, pc, ?_, w2, w4⟩
  unfold computePbestA
  rw [hm1, ok_bind, hcol, ok_bind, hrep, ok_bind, w1, ok_bind, w3]
  rfl

theorem argmin_flat {K : Type} [Field K] [LinearOrder K] {n : Nat} {a : Arr (XR K)}
    {c : Costs n K} (h : IsVec a c) : argminList a.flat = (npArgmin c).map Fin.val := by
  have hf := flat_vector a h.1
  refine argminList_eq _ _ (by simp [hf]) ?_
  intro i hi
  simp only [hf, List.getElem_map, List.getElem_range]
  exact h.2 ⟨i, hi⟩

theorem starGbestA_is {K : Type} [Field K] [LinearOrder K] {n d : Nat} {a : ASwarm K}
    {t : Swarm n d K} (h : AlmostIs a t) (hv : a.pbestCost.shape = [n]) (top : TopState n) :
    match (starGbest top t).2 with
    | .error e => starGbestA a = .error e
    | .ok g => ∃ bp, starGbestA a = .ok (bp, g.2.getD XR.pinf) ∧ IsBest bp g.1 := by
  have hvec : IsVec a.pbestCost t.pbestCost :=
    ⟨hv, fun i => by rw [← bget_one _ hv i.2]; exact h.pbestCost.2 i⟩
  unfold starGbestA starGbest
  rw [argmin_flat hvec]
  cases hk : npArgmin t.pbestCost with
  | none => rfl
  | some k =>
    have hg : a.pbestCost.flat.getD (k : Nat) XR.nan = t.pbestCost k := by
      rw [flat_vector _ hv]
      simp [hvec.2 k]
    simp only [Option.map_some]
    rw [hg, h.bestCost]
    by_cases hlt : XR.lt (t.pbestCost k) t.bestCostVal = true
    · simp only [hlt, if_true]
      refine ⟨⟨[d], fun idx => a.pbestPos.get ((k : Nat) :: idx)⟩, ?_, rfl, ?_⟩
      · simp only [index0, h.pbestPos.1, k.2, if_true]
        rfl
      · intro j
        exact h.pbestPos.2 k j
    · simp only [hlt, if_false, Bool.false_eq_true]
      exact ⟨a.bestPos, rfl, h.bestPos⟩

theorem isBest_stretches {K : Type} [Field K] {n d : Nat} {a : Arr K} {b : BestPos n d K}
    (h : IsBest a b) (he : b = .empty → d = 0) (fb : Mat n d K) :
    Stretches a fun i j => b.row fb i j := by
  cases b with
  | empty =>
    have hd := he rfl
    subst hd
    have h : a.shape = [0] := h
    exact ⟨by rw [h]; exact (to_row _ _ _).2 (Or.inl rfl), fun _ j => j.elim0⟩
  | single v => exact (IsVec.stretches h).rows
  | perParticle m => exact IsMat.stretches h

theorem applyClampA_is {K : Type} [Field K] [LinearOrder K] {n d : Nat} {lo hi v : Arr K}
    {c : Clamp d K} {m : Mat n d K} (hlo : StretchesVec lo c.1) (hhi : StretchesVec hi c.2)
    (hv : IsMat v m) : ∃ v', applyClampA lo hi v = .ok v' ∧ IsMat v' (applyClamp c m) := by
  obtain ⟨b1, e1, g1⟩ := map2_mat (fun x y => decide (x ≤ y)) hv.stretches
    (hlo.rows (n := n)) (Or.inl hv.1)
  obtain ⟨b2, e2, g2⟩ := map2_mat (fun x y => decide (y ≤ x)) hv.stretches
    (hhi.rows (n := n)) (Or.inl hv.1)
  obtain ⟨v1, e3, g3⟩ := whr_mat g1 (hlo.rows (n := n)) hv.stretches
  obtain ⟨v2, e4, g4⟩ := whr_mat g2 (hhi.rows (n := n)) g3.stretches
  refine ⟨v2, ?_, g4⟩
  unfold applyClampA
  rw [e1, ok_bind, e2, ok_bind, e3, ok_bind, e4]

/-- Velocity and position update. -/
theorem move_is {K : Type} [Field K] [LinearOrder K] {n d : Nat} {a : ASwarm K} {t : Swarm n d K}
    (h : AlmostIs a t) {c1 c2 w : K} (h1 : t.options.lookup "c1" = some c1)
    (h2 : t.options.lookup "c2" = some c2) (h3 : t.options.lookup "w" = some w)
    {cl : Option (Arr K × Arr K)} {clamp : Option (Clamp d K)} (hcl : IsClamp cl clamp)
    (mem : Option (Mat n d K)) (bounds : Option (Bounds d K)) (r1 r2 : Mat n d K) :
    match (computeVelocity t clamp "unmodified" mem bounds r1 r2).2 with
    | .error e => (computeVelocityA c1 c2 w cl (entries r1) (entries r2) a >>= fun v =>
        computePositionA { a with velocity := v }) = .error e
    | .ok v => ∃ va p, computeVelocityA c1 c2 w cl (entries r1) (entries r2) a = .ok va ∧
        computePositionA { a with velocity := va } = .ok p ∧ IsMat va v ∧
        IsMat p fun i j => t.position i j + v i j := by
  by_cases he : t.bestPos = .empty → d = 0
  · -- regular case
    have hcall : (computeVelocity t clamp "unmodified" mem bounds r1 r2).2
        = .ok (clampOpt clamp (tempVelocity c1 c2 w r1 r2 t)) := by
      unfold computeVelocity
      simp only [h1, h2, h3]
      cases hb : t.bestPos with
      | empty => simp [he hb, vhCall, vhUnmodified]
      | single v => simp [vhCall, vhUnmodified]
      | perParticle m => simp [vhCall, vhUnmodified]
    rw [hcall]
    simp only
    have hR1 : IsMat (Arr.map (c1 * ·) ⟨a.position.shape, entries r1⟩)
        fun i j => c1 * r1 i j :=
      ⟨h.position.1, fun i j => by
        have := (entries_isMat r1).2 i j
        simp only at this
        simp only [Arr.map, this]⟩
    have hR2 : IsMat (Arr.map (c2 * ·) ⟨a.position.shape, entries r2⟩)
        fun i j => c2 * r2 i j :=
      ⟨h.position.1, fun i j => by
        have := (entries_isMat r2).2 i j
        simp only at this
        simp only [Arr.map, this]⟩
    have hwv : Stretches (a.velocity.map (w * ·)) fun i j => w * t.velocity i j :=
      ⟨h.velocity.1, fun i j => by
        have := h.velocity.2 i j
        simp only [bget] at this
        simp only [Arr.map, bget, this]⟩
    obtain ⟨x1, e1, g1⟩ := map2_mat (· - ·) h.pbestPos.stretches h.position.stretches
      (Or.inl h.pbestPos.1)
    obtain ⟨x2, e2, g2⟩ := map2_mat (· * ·) hR1.stretches g1.stretches (Or.inl hR1.1)
    obtain ⟨x3, e3, g3⟩ := map2_mat (· - ·) (isBest_stretches h.bestPos he t.position)
      h.position.stretches (Or.inr h.position.1)
    obtain ⟨x4, e4, g4⟩ := map2_mat (· * ·) hR2.stretches g3.stretches (Or.inl hR2.1)
    obtain ⟨x5, e5, g5⟩ := map2_mat (· + ·) hwv g2.stretches (Or.inr g2.1)
    obtain ⟨x6, e6, g6⟩ := map2_mat (· + ·) g5.stretches g4.stretches (Or.inl g5.1)
    have hvel : ∃ va, computeVelocityA c1 c2 w cl (entries r1) (entries r2) a = .ok va ∧
        IsMat va (clampOpt clamp (tempVelocity c1 c2 w r1 r2 t)) := by
      unfold computeVelocityA
      rw [e1, ok_bind, e2, ok_bind, e3, ok_bind, e4, ok_bind, e5, ok_bind, e6, ok_bind]
      cases hcl with
      | none => exact ⟨x6, rfl, g6⟩
      | some lo hi c hlo hhi => exact applyClampA_is hlo hhi g6
    obtain ⟨va, hva, gva⟩ := hvel
    refine ⟨va, ⟨[n, d], fun idx => a.position.bget idx + va.bget idx⟩, hva, ?_, gva, rfl, ?_⟩
    · simp only [computePositionA, addInPlace]
      have : bcast a.position.shape va.shape = some [n, d] := by
        rw [h.position.1, gva.1]; exact (bcast_of_to (to_refl _)).1
      rw [this]
      simp only [h.position.1, if_true]
    · intro i j
      simp only
      rw [h.position.stretches.2, gva.stretches.2]
  · -- the empty `best_pos`
    push Not at he
    obtain ⟨hb, hd⟩ := he
    have hcall : (computeVelocity t clamp "unmodified" mem bounds r1 r2).2 = .error .valueError := by
      unfold computeVelocity
      simp only [h1, h2, h3, hb, hd, if_false]
      by_cases hd1 : d = 1
      · simp [hd1, vhCall]
      · simp [hd1]
    rw [hcall]
    simp only
    have hbest := h.bestPos
    rw [hb] at hbest
    have hbest : a.bestPos.shape = [0] := hbest
    cases hv : computeVelocityA c1 c2 w cl (entries r1) (entries r2) a with
    | error e => rw [computeVelocityA_error hv]; rfl
    | ok v =>
      rw [ok_bind]
      cases hp : computePositionA { a with velocity := v } with
      | error e => rw [computePositionA_error hp]
      | ok p =>
        exfalso
        have := (computeVelocityA_to hv).2.1.trans (computePositionA_to hp).1
        simp only at this
        rw [hbest, h.position.1] at this
        have := (to_row _ _ _).1 this
        omega

end PySwarms

import Verif.Lemmas.Ieee
import Verif.Examples

/-!
# C95: `nan` in the initial position

With bounds the constructor refuses it.  Without bounds it is accepted: the coordinate stays `nan`
for ever.  An objective that gives `nan` to such a particle confines the damage to it.  An objective
that does not look at the coordinate lets the particle become the best one, and then the coordinate
of every particle becomes `nan` for ever.
-/

set_option linter.unusedSectionVars false

namespace PySwarms

variable {n d : Nat} {K : Type} [Field K] [LinearOrder K] [IsStrictOrderedRing K]

/-! ## Specification -/

/-- No bounds, or a boundary strategy that treats coordinates one by one. -/
def Coordinatewise (cfg : Config n d K) : Prop :=
  cfg.bounds = none ∨ cfg.bhStrategy ∈ ["nearest", "reflective", "intermediate", "periodic"]

/-- The objective answers `nan` for a particle with a `nan` coordinate, as arithmetic does. -/
def CallX.NanSeen (c : CallX n d K) : Prop :=
  ∀ t x costs, c.ev t x = .ok costs → ∀ i, (∃ j, x i j = .nan) → costs i = .nan

/-- The states reached from `s0` by calls of `optimize`, each of which may have returned or raised. -/
inductive CallsX [FloorRing K] (A : Fpu K) (cfg : Config n d K) (C : CallX n d K → Prop)
    (s0 : OptX n d K) : OptX n d K → Prop
  | start : CallsX A cfg C s0 s0
  | call (s : OptX n d K) (h : CallsX A cfg C s0 s) (c : CallX n d K) (hc : C c) (iters : Nat) :
      CallsX A cfg C s0 (optimizeX A cfg c iters s).1

/-! ## A `nan` coordinate stays `nan` -/

theorem reflective_keeps_nan (A : Fpu K) (b : Bounds d K) (m : Nat) (x p : Mat n d (XR K)) (i : Fin n)
    (j : Fin d) (hx : x i j = .nan) (h : bhReflectiveX A b m x = .ok p) : p i j = .nan := by
  induction m generalizing x with
  | zero =>
    unfold bhReflectiveX at h
    split at h
    · cases h
    · cases h; exact hx
  | succ m ih =>
    unfold bhReflectiveX at h
    split at h
    · refine ih _ ?_ h
      unfold reflectPassX isLowX isHighX
      simp [hx]
    · cases h; exact hx

theorem bhCallX_keeps_nan [FloorRing K] (A : Fpu K) {st : String}
    (hst : st ∈ ["nearest", "reflective", "intermediate", "periodic"]) (b : Bounds d K)
    (mem bm : Option (Mat n d (XR K))) (r : BHDraw d K) (x p : Mat n d (XR K)) (i : Fin n) (j : Fin d)
    (hx : x i j = .nan) (h : bhCallX A st mem b r x = (bm, .ok p)) : p i j = .nan := by
  unfold bhCallX at h
  simp only [List.mem_cons, List.not_mem_nil, or_false] at hst
  rcases hst with rfl | rfl | rfl | rfl
  · cases h
    simp [bhNearestX, isLowX, isHighX, hx]
  · rw [if_neg (by decide), if_pos rfl] at h
    exact reflective_keeps_nan A b _ x p i j hx (Prod.mk.inj h).2
  · rw [if_neg (by decide), if_neg (by decide), if_neg (by decide), if_neg (by decide),
      if_pos rfl] at h
    unfold bhIntermediateX at h
    cases mem with
    | none => cases h; exact hx
    | some m => cases h; simp [isLowX, isHighX, hx]
  · cases h
    simp [bhPeriodicX, isLowX, isHighX, hx]

theorem computePositionX_keeps_nan [FloorRing K] {A : Fpu K} {cfg : Config n d K}
    (hcfg : Coordinatewise cfg) {s : SwarmX n d K} {mem bm : Option (Mat n d (XR K))} {r : BHDraw d K}
    {p : Mat n d (XR K)} {i : Fin n} {j : Fin d} (hx : s.position i j = .nan ∨ s.velocity i j = .nan)
    (h : computePositionX A s cfg.bounds cfg.bhStrategy mem r = (bm, .ok p)) : p i j = .nan := by
  have hs : A.add (s.position i j) (s.velocity i j) = .nan := by
    rcases hx with hx | hx <;> rw [hx] <;> simp
  unfold computePositionX at h
  dsimp only at h
  cases hb : cfg.bounds with
  | none => rw [hb] at h; cases h; exact hs
  | some b =>
    rw [hb] at h
    rcases hcfg with hc | hc
    · rw [hb] at hc; cases hc
    · exact bhCallX_keeps_nan A hc b mem bm r _ p i j hs h

theorem iterateX_keeps_nan [FloorRing K] {A : Fpu K} {cfg : Config n d K} (hcfg : Coordinatewise cfg)
    (ev : Mat n d (XR K) → Except Err (Costs n K)) (r : Draw n d K) (o : Except Err (Opts K))
    (t : Nat) (q : List Bool) (s : OptX n d K) {i : Fin n} {j : Fin d}
    (hx : s.swarm.position i j = .nan) :
    (iterateX A cfg ev r o t q s).1.swarm.position i j = .nan ∧
      ∃ new, (iterateX A cfg ev r o t q s).1.evals = s.evals ++ new ∧
        ∀ e ∈ new, e.1 i j = .nan := by
  have hmove : ∀ (s : OptX n d K), s.swarm.position i j = .nan →
      (moveSwarmX A cfg r o s).1.swarm.position i j = .nan ∧
      (moveSwarmX A cfg r o s).1.evals = s.evals := by
    intro s hx
    rcases moveSwarmX_cases A cfg r o s with ⟨e, h⟩ | ⟨o', -, ⟨vm, e, -, h⟩ |
      ⟨vm, v, -, ⟨bm, e, -, h⟩ | ⟨bm, p, hp, h⟩⟩⟩
    · rw [h]; exact ⟨hx, rfl⟩
    · rw [h]; exact ⟨hx, rfl⟩
    · rw [h]; exact ⟨hx, rfl⟩
    · rw [h]
      exact ⟨computePositionX_keeps_nan (s := { s.swarm with velocity := v }) hcfg (.inl hx) hp, rfl⟩
  rcases iterateX_cases A cfg ev r o t q s with ⟨e, -, h1⟩ | ⟨c, -, ⟨-, h1⟩ | ⟨g, hg, h1 |
    ⟨s3, e, hm, h1⟩ | ⟨s3, q', hm, h1⟩⟩⟩
  · rw [h1]; exact ⟨hx, [], by simp, by simp⟩
  · rw [h1]; exact ⟨hx, [(s.swarm.position, c)], rfl, by simpa using hx⟩
  · rw [h1]; exact ⟨hx, [(s.swarm.position, c)], rfl, by simpa using hx⟩
  · have := hmove (recordBestX g (recordEvalX c s)) hx
    rw [hm] at this
    rw [h1]
    exact ⟨this.1, [(s.swarm.position, c)], this.2, by simpa using hx⟩
  · have := hmove (recordBestX g (recordEvalX c s)) hx
    rw [hm] at this
    rw [h1]
    exact ⟨this.1, [(s.swarm.position, c)], this.2, by simpa using hx⟩

theorem loopX_keeps_nan [FloorRing K] {A : Fpu K} {cfg : Config n d K} (hcfg : Coordinatewise cfg)
    (c : CallX n d K) (m t : Nat) (q : List Bool) (s : OptX n d K) {i : Fin n} {j : Fin d}
    (hx : s.swarm.position i j = .nan) :
    (loopX A cfg c m t q s).1.swarm.position i j = .nan ∧
      ∃ new, (loopX A cfg c m t q s).1.evals = s.evals ++ new ∧ ∀ e ∈ new, e.1 i j = .nan := by
  refine loopX_inv (P := fun s' => s'.swarm.position i j = .nan ∧
    ∃ new, s'.evals = s.evals ++ new ∧ ∀ e ∈ new, e.1 i j = .nan) ?_ m t q s
    ⟨hx, [], by simp, by simp⟩
  rintro t q s' ⟨h1, new, h2, h3⟩
  obtain ⟨h4, new', h5, h6⟩ := iterateX_keeps_nan hcfg (c.ev t) (c.env t) (c.oh t) t q s' (A := A) h1
  refine ⟨h4, new ++ new', by rw [h5, h2, List.append_assoc], fun e he => ?_⟩
  rcases List.mem_append.1 he with he | he
  · exact h3 e he
  · exact h6 e he

/-! ## Theorems -/

/-- **C95** (refused).  With bounds an initial position with a `nan` coordinate is a `ValueError`. -/
theorem C95_refused (A : Fpu K) (cfg : Config n d K) (b : Bounds d K) (hb : cfg.bounds = some b)
    (init : Mat n d (XR K)) (u : Mat n d K) (i : Fin n) (j : Fin d) (h : init i j = .nan) :
    constructX A cfg init u = .error .valueError := by
  unfold constructX
  rw [hb]
  dsimp only
  rw [if_neg]
  intro h1
  rw [Bool.and_eq_true] at h1
  have h2 := (List.all_eq_true.1 (List.all_eq_true.1 h1.1 i (List.mem_finRange i))) j
    (List.mem_finRange j)
  rw [h] at h2
  simp [XR.le, XR.isNan] at h2

/-- **C95** (accepted without bounds).  The given positions, `nan` or not, are taken as they are. -/
theorem C95_accepted (A : Fpu K) (cfg : Config n d K) (hb : cfg.bounds = none)
    (init : Mat n d (XR K)) (u : Mat n d K) :
    ∃ s, constructX A cfg init u = .ok s ∧ s.swarm.position = init := by
  unfold constructX
  rw [hb]
  exact ⟨_, rfl, rfl⟩

/-- **C95** (for ever).  A coordinate that is `nan` is `nan` in every later evaluation, in any float
arithmetic, for any objective, through any further calls. -/
theorem C95_forever [FloorRing K] (A : Fpu K) (cfg : Config n d K) (hcfg : Coordinatewise cfg)
    (C : CallX n d K → Prop) (s0 s : OptX n d K) (i : Fin n) (j : Fin d)
    (hx : s0.swarm.position i j = .nan) (h : CallsX A cfg C s0 s) :
    s.swarm.position i j = .nan ∧
      ∃ new, s.evals = s0.evals ++ new ∧ ∀ e ∈ new, e.1 i j = .nan := by
  induction h with
  | start => exact ⟨hx, [], by simp, by simp⟩
  | call s _ c hc iters ih =>
    obtain ⟨h1, new, h2, h3⟩ := ih
    rw [optimizeX_fst]
    obtain ⟨h4, new', h5, h6⟩ := loopX_keeps_nan hcfg c iters 0 [] (A := A) (s := { s with
      bhMem := some s.swarm.position
      vhMem := some s.swarm.position
      swarm := { s.swarm with pbestCost := fun _ => XR.pinf } }) (i := i) (j := j) h1
    refine ⟨h4, new ++ new', by rw [h5]; simp only [h2, List.append_assoc], fun e he => ?_⟩
    rcases List.mem_append.1 he with he | he
    · exact h3 e he
    · exact h6 e he

/-- **C95** (poisoned).  When an iteration ends with a best position that has a `nan` coordinate `j`,
coordinate `j` of every particle is `nan` in all following evaluations of the call. -/
theorem C95_poisoned [FloorRing K] (A : Fpu K) (cfg : Config n d K) (hcfg : Coordinatewise cfg)
    (hvh : cfg.vhStrategy = "unmodified" ∨ cfg.vhStrategy = "invert")
    (c : CallX n d K) (t : Nat) (q q' : List Bool) (s s' : OptX n d K)
    (hit : iterateX A cfg (c.ev t) (c.env t) (c.oh t) t q s = (s', .ok (.continue q')))
    (g : Vec d (XR K)) (hg : s'.swarm.bestPos = some g) (j : Fin d) (hj : g j = .nan)
    (m : Nat) (i : Fin n) :
    s'.swarm.position i j = .nan ∧
      ∃ new, (loopX A cfg c m (t + 1) q' s').1.evals = s'.evals ++ new ∧
        ∀ e ∈ new, e.1 i j = .nan := by
  have hpos : s'.swarm.position i j = .nan := by
    have hmove : ∀ (s1 s2 : OptX n d K), moveSwarmX A cfg (c.env t) (c.oh t) s1 = (s2, .ok ()) →
        s2.swarm.bestPos = some g → s2.swarm.position i j = .nan := by
      intro s1 s2 hm hb2
      rcases moveSwarmX_cases A cfg (c.env t) (c.oh t) s1 with ⟨e, h⟩ | ⟨o', -, ⟨vm, e, -, h⟩ |
        ⟨vm, v, hv, ⟨bm, e, -, h⟩ | ⟨bm, p, hp, h⟩⟩⟩
      · rw [h] at hm; cases hm
      · rw [h] at hm; cases hm
      · rw [h] at hm; cases hm
      · rw [h] at hm
        cases hm
        refine computePositionX_keeps_nan hcfg (.inr ?_) hp
        show v i j = .nan
        obtain ⟨c1, c2, w, -, -, -, hcall⟩ := computeVelocityX_ok hv
        have ht : tempVelocityX A c1 c2 w (c.env t).r1 (c.env t).r2 s1.swarm i j = .nan := by
          have h1 : s1.swarm.target i j = .nan := by
            have hb2' : s1.swarm.bestPos = some g := hb2
            unfold SwarmX.target
            rw [hb2']
            exact hj
          unfold tempVelocityX
          simp [h1]
        have hcl : ∀ v : Mat n d (XR K), v i j = .nan → clampOptX cfg.clamp v i j = .nan := by
          intro v hv
          unfold clampOptX
          cases cfg.clamp with
          | none => exact hv
          | some cl => simp [applyClampX, hv, XR.le, XR.isNan]
        unfold vhCallX at hcall
        rcases hvh with hvh | hvh
        · rw [hvh] at hcall
          cases hcall
          exact hcl _ ht
        · rw [hvh, if_neg (by decide), if_neg (by decide), if_pos rfl] at hcall
          unfold vhInvertX at hcall
          cases hb : cfg.bounds with
          | none => rw [hb] at hcall; cases hcall
          | some b =>
            rw [hb] at hcall
            cases hcall
            refine hcl _ ?_
            dsimp only
            simp [ht]
    rcases iterateX_cases A cfg (c.ev t) (c.env t) (c.oh t) t q s with ⟨e, -, h1⟩ |
      ⟨cost, -, ⟨-, h1⟩ | ⟨g', hg', h1 | ⟨s3, e, hm, h1⟩ | ⟨s3, q'', hm, h1⟩⟩⟩
    · rw [h1] at hit; cases hit
    · rw [h1] at hit; cases hit
    · rw [h1] at hit; cases hit
    · rw [h1] at hit; cases hit
    · rw [h1] at hit
      cases hit
      exact hmove _ _ hm hg
  exact ⟨hpos, (loopX_keeps_nan hcfg c m (t + 1) q' s' hpos).2⟩

/-! ## Confinement -/

/-- The state of a swarm whose `nan`s are those of the initial position. -/
structure Confined (init : Mat n d (XR K)) (s : OptX n d K) : Prop where
  posNan : ∀ i j, init i j = .nan → s.swarm.position i j = .nan
  pos : ∀ i j, init i j ≠ .nan → ∃ y, s.swarm.position i j = .fin y
  vel : ∀ i j, init i j ≠ .nan → ∃ y, s.swarm.velocity i j = .fin y
  pbest : ∀ i j, init i j ≠ .nan → ∃ y, s.swarm.pbestPos i j = .fin y
  mem : ∀ m, s.vhMem = some m → ∀ i j, init i j ≠ .nan → ∃ y, m i j = .fin y
  cost : ∀ i, XR.lt (s.swarm.pbestCost i) .pinf = true → ∀ j, ∃ y, s.swarm.pbestPos i j = .fin y
  best : ∀ g, s.swarm.bestPos = some g → ∀ j, ∃ y, g j = .fin y
  evals : ∀ e ∈ s.evals, ∀ i j, (init i j = .nan → e.1 i j = .nan) ∧
    (init i j ≠ .nan → ∃ y, e.1 i j = .fin y)

theorem confined_iterate [FloorRing K] {A : Fpu K} (hA : ∀ x, ∃ y, A.rnd x = .fin y)
    {cfg : Config n d K} (hb : cfg.bounds = none) {init : Mat n d (XR K)} {c : CallX n d K}
    (hc : c.NanSeen) (t : Nat) (q : List Bool) {s : OptX n d K} (hs : Confined init s) :
    Confined init (iterateX A cfg (c.ev t) (c.env t) (c.oh t) t q s).1 := by
  have hadd : ∀ {x y : XR K}, (∃ a, x = .fin a) → (∃ b, y = .fin b) → ∃ z, A.add x y = .fin z := by
    rintro _ _ ⟨a, rfl⟩ ⟨b, rfl⟩; exact hA _
  have hmul : ∀ {x y : XR K}, (∃ a, x = .fin a) → (∃ b, y = .fin b) → ∃ z, A.mul x y = .fin z := by
    rintro _ _ ⟨a, rfl⟩ ⟨b, rfl⟩; exact hA _
  have hsub : ∀ {x y : XR K}, (∃ a, x = .fin a) → (∃ b, y = .fin b) → ∃ z, A.sub x y = .fin z := by
    rintro _ _ ⟨a, rfl⟩ ⟨b, rfl⟩; rw [Fpu.sub_fin]; exact hA _
  have hmove : ∀ (s : OptX n d K), Confined init s →
      Confined init (moveSwarmX A cfg (c.env t) (c.oh t) s).1 := by
    intro s hs
    have hmem : ∀ {vm : Option (Mat n d (XR K))} {o y},
        computeVelocityX A o s.swarm cfg.clamp cfg.vhStrategy s.vhMem cfg.bounds (c.env t).r1
          (c.env t).r2 = (vm, y) →
        ∀ m, vm = some m → ∀ i j, init i j ≠ .nan → ∃ y, m i j = .fin y := by
      intro vm o y hv m hm i j hij
      have hk := computeVelocityX_mem (A := A) (o := o) (s := s.swarm) (clamp := cfg.clamp)
        (strategy := cfg.vhStrategy) (mem := s.vhMem) (bounds := cfg.bounds) (r1 := (c.env t).r1)
        (r2 := (c.env t).r2)
      rw [hv] at hk
      rcases hk with hk | hk
      · exact hs.mem m (hk.symm.trans hm) i j hij
      · have : some s.swarm.position = some m := hk.symm.trans hm
        cases this
        exact hs.pos i j hij
    have hclamp : ∀ (v : Mat n d (XR K)) (i : Fin n) (j : Fin d), (∃ y, v i j = .fin y) →
        ∃ y, clampOptX cfg.clamp v i j = .fin y := by
      intro v i j hv
      unfold clampOptX
      cases cfg.clamp with
      | none => exact hv
      | some cl =>
        unfold applyClampX
        dsimp only
        split_ifs
        · exact ⟨_, rfl⟩
        · exact ⟨_, rfl⟩
        · exact hv
    have hvel : ∀ {vm o v},
        computeVelocityX A o s.swarm cfg.clamp cfg.vhStrategy s.vhMem cfg.bounds (c.env t).r1
          (c.env t).r2 = (vm, .ok v) → ∀ i j, init i j ≠ .nan → ∃ y, v i j = .fin y := by
      intro vm o v hv i j hij
      obtain ⟨c1, c2, w, -, -, -, hcall⟩ := computeVelocityX_ok hv
      have htarget : ∃ y, s.swarm.target i j = .fin y := by
        unfold SwarmX.target
        cases hg : s.swarm.bestPos with
        | none => exact hs.pos i j hij
        | some g => exact hs.best g hg j
      have htemp : ∃ y, tempVelocityX A c1 c2 w (c.env t).r1 (c.env t).r2 s.swarm i j = .fin y := by
        unfold tempVelocityX
        exact hadd (hadd (hmul ⟨w, rfl⟩ (hs.vel i j hij))
          (hmul (hmul ⟨_, rfl⟩ ⟨_, rfl⟩) (hsub (hs.pbest i j hij) (hs.pos i j hij))))
          (hmul (hmul ⟨_, rfl⟩ ⟨_, rfl⟩) (hsub htarget (hs.pos i j hij)))
      unfold vhCallX at hcall
      rw [hb] at hcall
      split_ifs at hcall
      · cases hcall; exact hclamp _ i j htemp
      · unfold vhAdjustX at hcall
        cases hm : s.vhMem with
        | none => rw [hm] at hcall; cases hcall; exact htemp
        | some m =>
          rw [hm] at hcall
          cases hcall
          exact hclamp _ i j (hsub (hs.pos i j hij) (hs.mem m hm i j hij))
      · cases hcall
      · cases hcall
      · cases hcall
    rcases moveSwarmX_cases A cfg (c.env t) (c.oh t) s with ⟨e, h⟩ | ⟨o', -, ⟨vm, e, hv, h⟩ |
      ⟨vm, v, hv, ⟨bm, e, -, h⟩ | ⟨bm, p, hp, h⟩⟩⟩
    · rw [h]; exact hs
    · rw [h]
      exact { hs with mem := hmem hv }
    · rw [h]
      exact { hs with mem := hmem hv, vel := hvel hv }
    · rw [h]
      have hp' : p = fun i j => A.add (s.swarm.position i j) (v i j) := by
        unfold computePositionX at hp
        rw [hb] at hp
        cases hp
        rfl
      refine { hs with mem := hmem hv, vel := hvel hv, posNan := fun i j hij => ?_,
                       pos := fun i j hij => ?_ }
      · rw [hp']
        simp [hs.posNan i j hij]
      · rw [hp']
        exact hadd (hs.pos i j hij) (hvel hv i j hij)
  have heval : ∀ cost, c.ev t s.swarm.position = .ok cost → Confined init (recordEvalX cost s) := by
    intro cost hcost
    have hrow : ∀ i, XR.lt (cost i) (s.swarm.pbestCost i) = true → ∀ j,
        ∃ y, s.swarm.position i j = .fin y := by
      intro i hi j
      refine hs.pos i j fun hij => ?_
      have := hc t _ cost hcost i ⟨j, hs.posNan i j hij⟩
      rw [this] at hi
      simp at hi
    refine { hs with pbest := fun i j hij => ?_, cost := fun i hi j => ?_, evals := ?_ }
    · show ∃ y, (if XR.lt (cost i) (s.swarm.pbestCost i) then s.swarm.position i j
        else s.swarm.pbestPos i j) = .fin y
      split
      · exact hs.pos i j hij
      · exact hs.pbest i j hij
    · change XR.lt (if XR.lt (cost i) (s.swarm.pbestCost i) then cost i
        else s.swarm.pbestCost i) .pinf = true at hi
      show ∃ y, (if XR.lt (cost i) (s.swarm.pbestCost i) then s.swarm.position i j
        else s.swarm.pbestPos i j) = .fin y
      by_cases h : XR.lt (cost i) (s.swarm.pbestCost i) = true
      · rw [if_pos h]
        exact hrow i h j
      · rw [if_neg h] at hi ⊢
        exact hs.cost i hi j
    · intro e he
      rcases List.mem_append.1 he with he | he
      · exact hs.evals e he
      · simp only [List.mem_singleton] at he
        subst he
        exact fun i j => ⟨hs.posNan i j, hs.pos i j⟩
  have hbest : ∀ (s : OptX n d K) g, Confined init s → starX s.swarm = some g →
      Confined init (recordBestX g s) := by
    intro s g hs hg
    refine { hs with best := fun g' hg' => ?_ }
    rcases starX_cases hg with rfl | ⟨k, -, hlt, rfl⟩
    · exact hs.best g' hg'
    · cases hg'
      refine hs.cost k ?_
      have h1 := XR.left_ne_nan hlt
      revert hlt h1
      generalize s.swarm.pbestCost k = a
      generalize s.swarm.bestCostVal = b
      cases a <;> cases b <;> simp [XR.lt]
  rcases iterateX_cases A cfg (c.ev t) (c.env t) (c.oh t) t q s with ⟨e, -, h1⟩ |
    ⟨cost, hcost, ⟨-, h1⟩ | ⟨g, hg, h1 | ⟨s3, e, hm, h1⟩ | ⟨s3, q', hm, h1⟩⟩⟩
  · rw [h1]; exact hs
  · rw [h1]; exact heval cost hcost
  · rw [h1]; exact hbest _ g (heval cost hcost) hg
  · have := hmove _ (hbest _ g (heval cost hcost) hg)
    rw [hm] at this
    rw [h1]; exact this
  · have := hmove _ (hbest _ g (heval cost hcost) hg)
    rw [hm] at this
    rw [h1]; exact this

/-- **C95** (confined).  Without bounds and without overflow, when the objective answers `nan` for a
particle with a `nan` coordinate: at every evaluation the `nan` coordinates are exactly those of the
initial position, and the best position consists of numbers. -/
theorem C95_confined [FloorRing K] (A : Fpu K) (hA : ∀ x, ∃ y, A.rnd x = .fin y)
    (cfg : Config n d K) (hb : cfg.bounds = none) (init : Mat n d (XR K)) (u : Mat n d K)
    (hinit : ∀ i j, init i j = .nan ∨ ∃ y, init i j = .fin y) (s0 s : OptX n d K)
    (h0 : constructX A cfg init u = .ok s0) (h : CallsX A cfg CallX.NanSeen s0 s) :
    (∀ e ∈ s.evals, ∀ i j, (e.1 i j = .nan ↔ init i j = .nan) ∧
      (init i j ≠ .nan → ∃ y, e.1 i j = .fin y)) ∧
    ∀ g, s.swarm.bestPos = some g → ∀ j, ∃ y, g j = .fin y := by
  have hnum : ∀ i j, init i j ≠ .nan → ∃ y, init i j = .fin y := fun i j h =>
    (hinit i j).resolve_left h
  have key : Confined init s := by
    induction h with
    | start =>
      unfold constructX at h0
      rw [hb] at h0
      cases h0
      refine ⟨fun i j h => h, hnum, fun i j _ => ?_, hnum, fun m hm => (by cases hm),
        fun i hi => ?_, fun g hg => (by cases hg), fun e he => (by cases he)⟩
      · dsimp only
        obtain ⟨a, ha⟩ := hA ((cfg.clamp.getD (fun _ => 0, fun _ => 1)).2 j -
          (cfg.clamp.getD (fun _ => 0, fun _ => 1)).1 j)
        rw [Fpu.sub_fin, ha, Fpu.mul_fin]
        obtain ⟨a', ha'⟩ := hA (a * u i j)
        rw [ha', Fpu.add_fin]
        exact hA _
      · simp [XR.lt] at hi
    | call s _ c hc iters ih =>
      rw [optimizeX_fst]
      refine loopX_inv (P := Confined init) (fun t q s hs => confined_iterate hA hb hc t q hs) _ _ _ _
        { ih with mem := fun m hm => ?_, cost := fun i hi => ?_ }
      · cases hm; exact ih.pos
      · simp [XR.lt] at hi
  refine ⟨fun e he i j => ⟨⟨fun hn => ?_, (key.evals e he i j).1⟩, (key.evals e he i j).2⟩, key.best⟩
  by_contra hij
  obtain ⟨y, hy⟩ := (key.evals e he i j).2 hij
  rw [hy] at hn
  cases hn

/-! ## The hypotheses are satisfiable -/

namespace Ex

/-- Exact arithmetic, in which nothing overflows. -/
def exactFpu : Fpu ℚ := ⟨.fin⟩

/-- Two particles in two dimensions; the second coordinate of the first one is `nan`. -/
def nanInit : Mat 2 2 (XR ℚ) := fun i j =>
  if i = 0 ∧ j = 1 then .nan else .fin ((i : Nat) + (j : Nat) + 1)

/-- The optimizer without bounds constructed from it. -/
def nanStart : OptX 2 2 ℚ :=
  match constructX exactFpu (gcfg 2 2) nanInit (fun _ _ => 1 / 4) with
  | .ok s => s
  | .error _ => ⟨⟨fun _ _ => .nan, fun _ _ => .nan, fun _ _ => .nan, fun _ => .nan, none, none⟩,
      none, none, [], []⟩

/-- The sum of the coordinates. -/
def sumCall : CallX 2 2 ℚ where
  ev := fun _ x => .ok fun i => XR.add (x i 0) (x i 1)
  env := fun _ => draw 2 2
  oh := fun _ => .ok opts

/-- An objective that only looks at the first coordinate. -/
def blindCall : CallX 2 2 ℚ := { sumCall with ev := fun _ x => .ok fun i => x i 0 }

end Ex

theorem sumCall_sees : Ex.sumCall.NanSeen := by
  intro t x costs h i ⟨j, hj⟩
  cases h
  match j, hj with
  | 0, hj =>
    dsimp only
    rw [hj]
    cases x i 1 <;> rfl
  | 1, hj =>
    dsimp only
    rw [hj]
    cases x i 0 <;> rfl

/-- With the sum the second particle keeps its numbers; the first one moves in its first coordinate. -/
example : ((optimizeX Ex.exactFpu (Ex.gcfg 2 2) Ex.sumCall 3 Ex.nanStart).1.evals.map fun e =>
      (e.1 0 1, e.1 1 1)) = [(.nan, .fin 3), (.nan, .fin (25 / 8)), (.nan, .fin (301 / 96))] ∧
    ∀ e ∈ (optimizeX Ex.exactFpu (Ex.gcfg 2 2) Ex.sumCall 3 Ex.nanStart).1.evals,
      ∀ i j, e.1 i j = .nan ↔ Ex.nanInit i j = .nan := by
  refine ⟨by decide +kernel, fun e he i j => ?_⟩
  refine ((C95_confined Ex.exactFpu (fun x => ⟨x, rfl⟩) (Ex.gcfg 2 2) rfl Ex.nanInit
    (fun _ _ => 1 / 4) (fun i j => ?_) Ex.nanStart _ (by rfl)
    (.call _ .start Ex.sumCall sumCall_sees 3)).1 e he i j).1
  unfold Ex.nanInit
  split
  · exact .inl rfl
  · exact .inr ⟨_, rfl⟩

/-- With the blind objective the first particle is the best one, and from the second evaluation on
the second coordinate of both particles is `nan`. -/
example : ((optimizeX Ex.exactFpu (Ex.gcfg 2 2) Ex.blindCall 3 Ex.nanStart).1.evals.map fun e =>
      (e.1 0 1, e.1 1 1)) = [(.nan, .fin 3), (.nan, .nan), (.nan, .nan)] := by decide +kernel

example (m : Nat) : ∃ s' q', iterateX Ex.exactFpu (Ex.gcfg 2 2) (Ex.blindCall.ev 0) (Ex.blindCall.env 0)
      (Ex.blindCall.oh 0) 0 [] Ex.nanStart = (s', .ok (.continue q')) ∧
    ∃ new, (loopX Ex.exactFpu (Ex.gcfg 2 2) Ex.blindCall m 1 q' s').1.evals = s'.evals ++ new ∧
      ∀ e ∈ new, e.1 1 1 = .nan := by
  have h1 : (match (iterateX Ex.exactFpu (Ex.gcfg 2 2) (Ex.blindCall.ev 0) (Ex.blindCall.env 0)
      (Ex.blindCall.oh 0) 0 [] Ex.nanStart).2 with
      | .ok (.continue _) => true | _ => false) = true := by decide +kernel
  have h2 : ((iterateX Ex.exactFpu (Ex.gcfg 2 2) (Ex.blindCall.ev 0) (Ex.blindCall.env 0)
      (Ex.blindCall.oh 0) 0 [] Ex.nanStart).1.swarm.bestPos.map fun g => g 1) = some .nan := by
    decide +kernel
  cases hit : iterateX Ex.exactFpu (Ex.gcfg 2 2) (Ex.blindCall.ev 0) (Ex.blindCall.env 0)
      (Ex.blindCall.oh 0) 0 [] Ex.nanStart with
  | mk s' y =>
    rw [hit] at h1 h2
    match y, hit, h1 with
    | .ok (.continue q'), hit, _ =>
      obtain ⟨g, hg, hj⟩ := Option.map_eq_some_iff.1 h2
      exact ⟨s', q', rfl, (C95_poisoned Ex.exactFpu (Ex.gcfg 2 2) (.inl rfl) (.inl rfl) Ex.blindCall 0
        [] q' Ex.nanStart s' hit g hg 1 hj m 1).2⟩

/-- With bounds the same initial position is refused. -/
example : constructX Ex.exactFpu { Ex.gcfg 2 2 with bounds := some (fun _ => 0, fun _ => 9) }
    Ex.nanInit (fun _ _ => 1 / 4) = .error .valueError :=
  C95_refused _ _ _ rfl _ _ 0 1 rfl

end PySwarms

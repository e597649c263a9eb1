import Verif.Lemmas.NdRefine
import Verif.Props.Outcome
import Verif.Examples

/-!
# Objectives and initial positions of any shape (C77, C78)

Model: `Model/NdArray.lean`.  `IsMat`, `IsVec`, `StretchesVec`, `Is` (in `Lemmas/NdRefine.lean`) say
that an array has the documented shape and the given entries, or is stretched to it by broadcasting.
-/

set_option linter.unusedSectionVars false

namespace PySwarms

open Arr

variable {n d : Nat} {K : Type} [Field K] [LinearOrder K]

/-- The arrays of a swarm of `n` particles in `d` dimensions, at the top of the loop. -/
structure DocumentedShapes (n d : Nat) (s : ASwarm K) : Prop where
  position : s.position.shape = [n, d]
  velocity : s.velocity.shape = [n, d]
  dimensions : s.dimensions = d
  pbestPos : s.pbestPos.shape = [n, d]
  pbestCost : s.pbestCost.shape = [n]

/-- The `m`-th evaluation of a run, if the run gets there. -/
def stateBefore (gbest : ASwarm K → Except Err (Arr K × XR K))
    (obj : Arr K → Except Err (Arr (XR K))) (c1 c2 w : K) (clamp : Option (Arr K × Arr K))
    (rs : List ((List Nat → K) × (List Nat → K))) (m : Nat) (s : ASwarm K) :
    Except Err (ASwarm K) := loopA gbest obj c1 c2 w clamp (rs.take m) s

theorem accepted_shape {gbest : ASwarm K → Except Err (Arr K × XR K)}
    {obj : Arr K → Except Err (Arr (XR K))} {c1 c2 w : K} {clamp : Option (Arr K × Arr K)}
    {r : (List Nat → K) × (List Nat → K)} {s s' : ASwarm K} (hs : DocumentedShapes n d s)
    (h : iterationA gbest obj c1 c2 w clamp r s = .ok s') :
    ∃ cost, obj s.position = .ok cost ∧
      (cost.shape = [] ∨ cost.shape = [1] ∨ cost.shape = [n]) ∧ DocumentedShapes n d s' := by
  obtain ⟨cost, m, rest, h1, h2, h3, h4, h5, h6, h7, u, h8, h9⟩ := iterationA_shapes h
  obtain ⟨p1, p2⟩ := iterationA_position h
  rw [hs.position] at h3 h5 h6
  rw [hs.dimensions] at h3
  rw [hs.pbestCost] at h2 h8
  have hr : rest = [] := by
    have := h3.length_le
    simp only [List.length_cons, List.length_nil] at this
    exact List.eq_nil_of_length_eq_zero (by omega)
  subst hr
  have hm : m = n := by
    have e1 := ((to_two _ _ _ _).1 h3).1
    have e2 := (to_one _ _).1 (to_bcast h2).2
    omega
  subst hm
  have hc : To cost.shape [m] := (to_bcast h2).1
  refine ⟨cost, h1, (to_vector _ _).1 hc, ?_, ?_, ?_, ?_, ?_⟩
  · rw [p1, hs.position]
  · exact h5.antisymm (h6.trans h7)
  · rw [p2, hs.dimensions]
  · exact (h7.trans h5).antisymm h6
  · have hu : u = [m] := by
      have := (bcast_of_to (to_refl [m])).1
      rw [h8] at this
      exact Option.some.inj this
    rw [hu, (bcast_of_to hc).2] at h9
    exact (Option.some.inj h9).symm

/-- C77: an objective whose result does not have the shape `()`, `(1,)` or `(n_particles,)` raises
an exception in the same iteration: it is never mistaken for something else.  For every topology
(`gbest` is any function), with and without velocity clamp.  With the Star topology the exception
is a `ValueError` or an `IndexError`. -/
theorem C77_wrong_shape (gbest : ASwarm K → Except Err (Arr K × XR K))
    (obj : Arr K → Except Err (Arr (XR K))) (c1 c2 w : K) (clamp : Option (Arr K × Arr K))
    (r : (List Nat → K) × (List Nat → K)) (s : ASwarm K) (hs : DocumentedShapes n d s)
    (cost : Arr (XR K)) (hobj : obj s.position = .ok cost)
    (hbad : cost.shape ∉ [[], [1], [n]]) :
    (∃ e, iterationA gbest obj c1 c2 w clamp r s = .error e) ∧
    (∀ e, iterationA starGbestA obj c1 c2 w clamp r s = .error e →
      e = .valueError ∨ e = .indexError) := by
  constructor
  · cases h : iterationA gbest obj c1 c2 w clamp r s with
    | error e => exact ⟨e, rfl⟩
    | ok s' =>
      obtain ⟨cost', h1, h2, -⟩ := accepted_shape hs h
      rw [hobj] at h1
      cases h1
      simp at hbad
      tauto
  · intro e h
    unfold iterationA at h
    rw [hobj, ok_bind] at h
    simp only [bind_error] at h
    rcases h with h | ⟨_, -, h⟩
    · exact computePbestA_error h
    rcases h with h | ⟨_, -, h⟩
    · exact starGbestA_error h
    rcases h with h | ⟨_, -, h⟩
    · exact Or.inl (computeVelocityA_error h)
    rcases h with h | ⟨_, -, h⟩
    · exact Or.inl (computePositionA_error h)
    cases h

/-- C77, whole runs: if a run of any length comes to its end, every evaluation returned an array of
shape `()`, `(1,)` or `(n_particles,)`, and every array still has the documented shape. -/
theorem C77_completed_run (gbest : ASwarm K → Except Err (Arr K × XR K))
    (obj : Arr K → Except Err (Arr (XR K))) (c1 c2 w : K) (clamp : Option (Arr K × Arr K))
    (rs : List ((List Nat → K) × (List Nat → K))) (s s' : ASwarm K) (hs : DocumentedShapes n d s)
    (h : loopA gbest obj c1 c2 w clamp rs s = .ok s') :
    DocumentedShapes n d s' ∧ ∀ m < rs.length, ∃ sm cost,
      stateBefore gbest obj c1 c2 w clamp rs m s = .ok sm ∧ obj sm.position = .ok cost ∧
      (cost.shape = [] ∨ cost.shape = [1] ∨ cost.shape = [n]) := by
  induction rs generalizing s with
  | nil => cases h; exact ⟨hs, by simp⟩
  | cons r rs ih =>
    unfold loopA at h
    split at h
    · cases h
    · next s1 h1 =>
      obtain ⟨cost, c1', c2', c3'⟩ := accepted_shape hs h1
      obtain ⟨i1, i2⟩ := ih s1 c3' h
      refine ⟨i1, ?_⟩
      intro m hm
      cases m with
      | zero => exact ⟨s, cost, rfl, c1', c2'⟩
      | succ m =>
        obtain ⟨sm, cm, g1, g2⟩ := i2 m (by simpa using hm)
        refine ⟨sm, cm, ?_, g2⟩
        unfold stateBefore at g1 ⊢
        rw [List.take_succ_cons]
        unfold loopA
        rw [h1]
        exact g1

variable [IsStrictOrderedRing K] [Transc K] [FloorRing K]

/-- A `GlobalBestPSO` with constant options, strategy `unmodified`, no bounds, no early stop. -/
structure PlainGlobal (cfg : Config n d K) (c1 c2 w : K) : Prop where
  kind : cfg.kind = .globalBest
  bounds : cfg.bounds = none
  vh : cfg.vhStrategy = "unmodified"
  oh : cfg.ohStrategy = []
  ftol : cfg.ftol = XR.ninf
  window : 0 < cfg.window
  c1 : cfg.options.lookup "c1" = some c1
  c2 : cfg.options.lookup "c2" = some c2
  w : cfg.options.lookup "w" = some w

/-- The array objective `obj` computes the costs `ev`, as an array that broadcasting stretches to
one cost per particle: shape `()`, `(1,)` or `(n,)`. -/
def Evaluates (obj : Arr K → Except Err (Arr (XR K)))
    (ev : Mat n d K → Except Err (Costs n K)) : Prop :=
  ∀ a m, IsMat a m → match ev m with
    | .error e => obj a = .error e
    | .ok c => ∃ arr, obj a = .ok arr ∧ StretchesVec arr c

/-- The random matrices of a run as arrays. -/
def drawsOf (env : Nat → Draw n d K) (i m : Nat) : List ((List Nat → K) × (List Nat → K)) :=
  (List.range' i m).map fun t => (entries (env t).r1, entries (env t).r2)

theorem iterate_is {cfg : Config n d K} {c1 c2 w : K} (hP : PlainGlobal cfg c1 c2 w)
    {cl : Option (Arr K × Arr K)} (hcl : IsClamp cl cfg.clamp)
    {obj : Arr K → Except Err (Arr (XR K))} {ev : Mat n d K → Except Err (Costs n K)}
    (hobj : Evaluates obj ev) (r : Draw n d K) (iters i : Nat) (q : List Bool) {a : ASwarm K}
    {s : Opt n d K} (h : AlmostIs a s.swarm)
    (hs : (∀ x (m : Mat n d K), IsMat x m → ∀ arr, obj x = .ok arr → arr.shape = [n]) ∨
      a.pbestCost.shape = [n]) :
    match iterate cfg ev r iters i q s with
    | (_, .error e) => iterationA starGbestA obj c1 c2 w cl (entries r.r1, entries r.r2) a
        = .error e
    | (_, .ok .stop) => False
    | (s', .ok (.continue _)) => ∃ a',
        iterationA starGbestA obj c1 c2 w cl (entries r.r1, entries r.r2) a = .ok a' ∧
        Is a' s'.swarm := by
  have hev := hobj _ _ h.position
  unfold iterate
  cases hc : ev s.swarm.position with
  | error e =>
    rw [hc] at hev
    simp only at hev ⊢
    unfold iterationA
    rw [hev]; rfl
  | ok c =>
    rw [hc] at hev
    obtain ⟨arr, harr, hst⟩ := hev
    simp only
    -- personal bests
    have hpre : AlmostIs { a with currentCost := arr } { s.swarm with currentCost := c } :=
      ⟨h.position, h.velocity, h.dimensions, h.pbestPos, h.pbestCost, h.bestPos, h.bestCost⟩
    obtain ⟨pp, pc, e1, hpp, hpc⟩ := computePbestA_is hpre hst (by
      rcases hs with hs | hs
      · exact Or.inl (hs _ _ h.position _ harr)
      · exact Or.inr hs)
    have hpb : AlmostIs { a with currentCost := arr, pbestPos := pp, pbestCost := pc }
        (recordEval c s).swarm :=
      ⟨h.position, h.velocity, h.dimensions, hpp, hpc.stretches, h.bestPos, h.bestCost⟩
    -- swarm best
    have hg := starGbestA_is hpb hpc.1 (recordEval c s).top
    rw [callGbest_star cfg (by rw [hP.kind]; simp [Kind.isStar])]
    rcases hgb : starGbest (recordEval c s).top (recordEval c s).swarm with ⟨tt, e | g⟩
    · rw [hgb] at hg
      simp only at hg ⊢
      unfold iterationA
      rw [harr, ok_bind]
      dsimp only
      rw [e1, ok_bind]
      simp only
      rw [hg]; rfl
    · rw [hgb] at hg
      obtain ⟨bp, e2, hbp⟩ := hg
      simp only
      have hq : ∀ x y : XR K, ((dequeAppend cfg.window q (ftolDelta cfg.ftol x y)).all id)
          = false := by
        intro x y
        rw [hP.ftol, ftolDelta_ninf]
        unfold dequeAppend
        rw [List.all_eq_false]
        refine ⟨false, ?_, by simp⟩
        rw [List.drop_append_of_le_length (by have := hP.window; simp; omega)]
        simp
      rw [hq]
      simp only [Bool.and_false, Bool.false_eq_true, if_false]
      -- the move
      set s2 := recordBest tt g (recordEval c s) with hs2
      have ho : callOptions cfg iters i r s2.swarm = .ok cfg.options := by
        unfold callOptions ohCall
        rw [hP.oh, hP.kind]; simp
      have hb2 : AlmostIs
          { a with
            currentCost := arr, pbestPos := pp, pbestCost := pc
            bestPos := bp, bestCost := g.2.getD XR.pinf }
          { s2.swarm with options := cfg.options } :=
        ⟨h.position, h.velocity, h.dimensions, hpp, hpc.stretches, hbp, rfl⟩
      have hm := move_is hb2 hP.c1 hP.c2 hP.w hcl s2.vhMem (velBounds cfg) r.r1 r.r2
      unfold moveSwarm
      rw [ho, hP.vh]
      simp only
      rcases hvel : computeVelocity { s2.swarm with options := cfg.options } cfg.clamp "unmodified"
        s2.vhMem (velBounds cfg) r.r1 r.r2 with ⟨vm, e | v⟩
      · rw [hvel] at hm
        simp only at hm ⊢
        unfold iterationA
        rw [harr, ok_bind]
        dsimp only
        rw [e1, ok_bind]
        simp only
        rw [e2, ok_bind]
        simp only
        rw [bind_error] at hm ⊢
        rcases hm with hm | ⟨va, hm1, hm2⟩
        · exact Or.inl hm
        · refine Or.inr ⟨va, hm1, ?_⟩
          rw [hm2]; rfl
      · rw [hvel] at hm
        obtain ⟨va, p, hm1, hm2, hva, hp⟩ := hm
        simp only
        have hcp : ∀ (mem : Option (Mat n d K)) (sw : Swarm n d K), callPosition cfg r mem sw =
            (mem, .ok fun i j => sw.position i j + sw.velocity i j) := by
          intro mem sw
          unfold callPosition computePosition
          rw [hP.kind, hP.bounds]
        rw [hcp]
        simp only
        refine ⟨{ a with
            currentCost := arr, pbestPos := pp, pbestCost := pc
            bestPos := bp, bestCost := g.2.getD XR.pinf, velocity := va, position := p }, ?_, ?_⟩
        · unfold iterationA
          rw [harr, ok_bind]
          dsimp only
          rw [e1, ok_bind]
          simp only
          rw [e2, ok_bind]
          simp only
          rw [hm1, ok_bind, hm2]
          rfl
        · exact ⟨⟨hp, hva.stretches, h.dimensions, hpp, hpc.stretches, hbp, rfl⟩, hva.1, hpc.1⟩

theorem loop_is {cfg : Config n d K} {c1 c2 w : K} (hP : PlainGlobal cfg c1 c2 w)
    {cl : Option (Arr K × Arr K)} (hcl : IsClamp cl cfg.clamp)
    {obj : Arr K → Except Err (Arr (XR K))} {ev : Mat n d K → Except Err (Costs n K)}
    (hobj : Evaluates obj ev) (env : Nat → Draw n d K) (iters m i : Nat) (q : List Bool)
    {a : ASwarm K} {s : Opt n d K} (h : Is a s.swarm) :
    match loop cfg (fun _ => ev) env iters m i q s with
    | (_, .error e) => loopA starGbestA obj c1 c2 w cl (drawsOf env i m) a = .error e
    | (s', .ok ()) => ∃ a', loopA starGbestA obj c1 c2 w cl (drawsOf env i m) a = .ok a' ∧
        Is a' s'.swarm := by
  induction m generalizing i q a s with
  | zero => exact ⟨a, rfl, h⟩
  | succ m ih =>
    have hi := iterate_is hP hcl hobj (env i) iters i q h.toAlmostIs (Or.inr h.pbestCost_shape)
    unfold loop
    unfold drawsOf
    rw [List.range'_succ, List.map_cons]
    unfold loopA
    rcases hit : iterate cfg ev (env i) iters i q s with ⟨s1, e | f⟩
    · rw [hit] at hi
      simp only at hi ⊢
      rw [hi]
    · rw [hit] at hi
      cases f with
      | stop => exact hi.elim
      | «continue» q' =>
        obtain ⟨a1, h1, h2⟩ := hi
        simp only
        rw [h1]
        exact ih (i + 1) q' h2

/-- C77: with an accepted shape the run is the documented one.  If the objective returns one number
for the whole swarm (shape `()` or `(1,)`) or one per particle (shape `(n,)`), a call of `optimize`
on arrays ends like the call of the typed model in which every particle has the cost broadcasting
gives it: the same exception, or a swarm with the same entries and the documented shapes. -/
theorem C77_same_run (cfg : Config n d K) (c1 c2 w : K) (hP : PlainGlobal cfg c1 c2 w)
    (cl : Option (Arr K × Arr K)) (hcl : IsClamp cl cfg.clamp)
    (obj : Arr K → Except Err (Arr (XR K))) (ev : Mat n d K → Except Err (Costs n K))
    (hobj : Evaluates obj ev) (env : Nat → Draw n d K) (iters : Nat) (s : Opt n d K)
    (a : ASwarm K) (h : Is a s.swarm) :
    match loop cfg (fun _ => ev) env iters iters 0 [] (prepare cfg s) with
    | (_, .error e) => optimizeA n starGbestA obj c1 c2 w cl (drawsOf env 0 iters) a = .error e
    | (s', .ok ()) => ∃ a', optimizeA n starGbestA obj c1 c2 w cl (drawsOf env 0 iters) a = .ok a' ∧
        Is a' s'.swarm := by
  refine loop_is hP hcl hobj env iters iters 0 [] ?_
  exact ⟨⟨h.position, h.velocity, h.dimensions, h.pbestPos, ⟨to_refl _, fun i => rfl⟩, h.bestPos,
    h.bestCost⟩, h.velocity_shape, rfl⟩

/-- The objective returns one finite cost per row. -/
def OneCostPerRow {m e : Nat} (obj : Arr K → Except Err (Arr (XR K))) (f : Mat m e K → Fin m → K) :
    Prop :=
  ∀ a x, IsMat a x → ∃ arr, obj a = .ok arr ∧ IsVec arr fun i => XR.fin (f x i)

/-- The typed optimizer of `m` particles in `e` dimensions with the given initial positions. -/
def plainWith {m e : Nat} (c1 c2 w : K) (p : Mat m e K) : Config m e K where
  kind := .globalBest
  options := [("c1", c1), ("c2", c2), ("w", w)]
  center := fun _ => 1
  initPos := some p

theorem plainWith_plain {m e : Nat} (c1 c2 w : K) (p : Mat m e K) :
    PlainGlobal (plainWith c1 c2 w p) c1 c2 w := by
  constructor <;> first | rfl | simp [plainWith, Config.window]

/-- An array of shape `(n, d)` read at every index of a larger matrix. -/
def stretched (m e n d : Nat) (vel : List Nat → K) : Mat m e K := fun i j =>
  vel [if n = 1 then 0 else i, if d = 1 then 0 else j]

theorem loop_is_first {cfg : Config n d K} {c1 c2 w : K} (hP : PlainGlobal cfg c1 c2 w)
    {cl : Option (Arr K × Arr K)} (hcl : IsClamp cl cfg.clamp)
    {obj : Arr K → Except Err (Arr (XR K))} {ev : Mat n d K → Except Err (Costs n K)}
    (hobj : Evaluates obj ev) (env : Nat → Draw n d K) (iters m i : Nat) (q : List Bool)
    {a : ASwarm K} {s : Opt n d K} (h : AlmostIs a s.swarm)
    (hs : ∀ x (m : Mat n d K), IsMat x m → ∀ arr, obj x = .ok arr → arr.shape = [n])
    {s' : Opt n d K} (hl : loop cfg (fun _ => ev) env iters (m + 1) i q s = (s', .ok ())) :
    ∃ a', loopA starGbestA obj c1 c2 w cl (drawsOf env i (m + 1)) a = .ok a' ∧ Is a' s'.swarm := by
  have hi := iterate_is hP hcl hobj (env i) iters i q h (Or.inl hs)
  unfold loop at hl
  unfold drawsOf
  rw [List.range'_succ, List.map_cons]
  unfold loopA
  rcases hit : iterate cfg ev (env i) iters i q s with ⟨s1, e | f⟩
  · rw [hit] at hl; cases hl
  · rw [hit] at hi hl
    cases f with
    | stop => exact hi.elim
    | «continue» q' =>
      obtain ⟨a1, h1, h2⟩ := hi
      simp only at hl ⊢
      rw [h1]
      have := loop_is hP hcl hobj env iters m (i + 1) q' h2
      rw [hl] at this
      exact this

theorem createSwarmA_eq {n d m e : Nat} {initPos : Arr K} {p : Mat m e K} (hp : IsMat initPos p)
    (vel : List Nat → K) : createSwarmA n d initPos vel = .ok
      { position := initPos, velocity := ⟨[n, d], vel⟩, dimensions := e, pbestPos := initPos,
        pbestCost := ⟨[0], fun _ => XR.nan⟩, bestPos := ⟨[0], fun _ => 0⟩, bestCost := XR.pinf,
        currentCost := ⟨[0], fun _ => XR.nan⟩ } := by
  unfold createSwarmA
  rw [hp.1]
  rfl

/-- C78: whenever the shapes fit, the optimizer behaves as one constructed with `n_particles = m` and
`dimensions = e`, the shape of `init_pos`, whatever `n_particles` and `dimensions` were given; the
initial velocities are stretched to that shape.  The call returns normally, with the same best cost,
and the swarm has the same entries. -/
theorem C78_same_run (n d m e : Nat) (hm : 0 < m) (hn : n = m ∨ n = 1) (hd : d = e ∨ d = 1)
    (c1 c2 w : K) (p : Mat m e K) (obj : Arr K → Except Err (Arr (XR K)))
    (f : Mat m e K → Fin m → K) (hobj : OneCostPerRow obj f) (initPos : Arr K)
    (hp : IsMat initPos p) (vel : List Nat → K) (r : InitDraw m e K)
    (hr : r.vel = stretched m e n d vel) (env : Nat → Draw m e K) (iters : Nat) (hit : 0 < iters)
    (s0 : ASwarm K) (h0 : createSwarmA n d initPos vel = .ok s0) (o : Opt m e K)
    (ho : construct (plainWith c1 c2 w p) r r = .ok o) :
    ∃ a' o' c x, optimizeA n starGbestA obj c1 c2 w none (drawsOf env 0 iters) s0 = .ok a' ∧
      optimize (plainWith c1 c2 w p) (fun _ x => .ok fun i => .fin (f x i)) iters none env o
        = (o', .ok (c, x)) ∧
      Is a' o'.swarm ∧ a'.bestCost = c := by
  rw [createSwarmA_eq hp vel] at h0
  cases h0
  have hos : o.swarm = mkSwarm p (stretched m e n d vel) [("c1", c1), ("c2", c2), ("w", w)] := by
    unfold construct at ho
    simp only [plainWith, Kind.needsKP, Bool.false_and, Bool.false_eq_true, if_false, checkFtolIter,
      resetSwarm, createSwarm, Config.isBinary, generateSwarm] at ho
    simp only [gt_iff_lt, zero_lt_one, if_true, Except.ok.injEq] at ho
    rw [← ho]
    simp only
    congr 1
    funext i j
    simp [generateVelocity, hr]
  obtain ⟨⟨c, x⟩, hv⟩ := C58_returns hm (plainWith c1 c2 w p) (Or.inl (by simp [plainWith]))
    (Or.inr (Or.inl rfl)) rfl (by
      intro key hkey
      simp only [List.mem_cons, List.not_mem_nil, or_false] at hkey
      rcases hkey with rfl | rfl | rfl
      · exact ⟨c1, by simp [plainWith]⟩
      · exact ⟨c2, by simp [plainWith]⟩
      · exact ⟨w, by simp [plainWith]⟩) o ⟨r, r, o, [], ho, rfl⟩
    (fun _ x => .ok fun i => .fin (f x i)) iters hit none (by simp) env
    (fun _ x => ⟨_, rfl, fun _ => ⟨⟨0, hm⟩, rfl⟩⟩) (fun _ => trivial)
  rcases hopt : optimize (plainWith c1 c2 w p) (fun _ x => .ok fun i => .fin (f x i)) iters none env o
    with ⟨o', res⟩
  rw [hopt] at hv
  simp only at hv
  subst hv
  obtain ⟨s1, hl, hs1, hbc, -⟩ := optimize_ok _ _ _ _ _ _ _ _ _ hopt
  obtain ⟨k, rfl⟩ : ∃ k, iters = k + 1 := ⟨iters - 1, by omega⟩
  have hto : To [n, d] [m, e] := (to_two _ _ _ _).2 ⟨hn, hd⟩
  have hal : AlmostIs
      { position := initPos, velocity := ⟨[n, d], vel⟩, dimensions := e, pbestPos := initPos,
        pbestCost := ⟨[n], fun _ => XR.pinf⟩, bestPos := ⟨[0], fun _ => 0⟩, bestCost := XR.pinf,
        currentCost := ⟨[0], fun _ => XR.nan⟩ }
      (startState (plainWith c1 c2 w p) none o).swarm := by
    have hsw : (startState (plainWith c1 c2 w p) none o).swarm =
        { o.swarm with pbestCost := fun _ => XR.pinf } := rfl
    rw [hsw, hos]
    refine ⟨hp, ⟨hto, fun i j => ?_⟩, rfl, hp, ⟨(to_one _ _).2 hn, fun i => rfl⟩, rfl, rfl⟩
    simp [bget, proj, mkSwarm, stretched]
  obtain ⟨a', h1, h2⟩ := loop_is_first (plainWith_plain c1 c2 w p) IsClamp.none
    (ev := fun x => .ok fun i => .fin (f x i))
    (fun a x hax => by
      obtain ⟨arr, g1, g2⟩ := hobj a x hax
      exact ⟨arr, g1, g2.stretches⟩)
    env (k + 1) k 0 [] hal
    (fun a x hax arr harr => by
      obtain ⟨arr', g1, g2⟩ := hobj a x hax
      rw [harr] at g1; cases g1; exact g2.1) hl
  refine ⟨a', o', c, x, h1, rfl, ?_, ?_⟩
  · rw [hs1]; exact h2
  · rw [h2.bestCost]; simp [Swarm.bestCostVal, hbc]

/-- C78: `init_pos` is not checked against `n_particles` and `dimensions`; whether a shape `(m, e)`
works is decided by broadcasting.  A call with at least one iteration succeeds exactly if
`n_particles` is `m` or 1, and `dimensions` is `e` or 1; otherwise it raises an exception. -/
theorem C78_accepted_shapes (n d m e : Nat) (hm : 0 < m) (c1 c2 w : K) (p : Mat m e K)
    (obj : Arr K → Except Err (Arr (XR K))) (f : Mat m e K → Fin m → K)
    (hobj : OneCostPerRow obj f) (initPos : Arr K) (hp : IsMat initPos p) (vel : List Nat → K)
    (env : Nat → Draw m e K) (iters : Nat) (hit : 0 < iters) (s0 : ASwarm K)
    (h0 : createSwarmA n d initPos vel = .ok s0) :
    (∃ s', optimizeA n starGbestA obj c1 c2 w none (drawsOf env 0 iters) s0 = .ok s') ↔
      (n = m ∨ n = 1) ∧ (d = e ∨ d = 1) := by
  constructor
  · rintro ⟨s', h⟩
    rw [createSwarmA_eq hp vel] at h0
    cases h0
    obtain ⟨k, rfl⟩ : ∃ k, iters = k + 1 := ⟨iters - 1, by omega⟩
    unfold optimizeA drawsOf at h
    rw [List.range'_succ, List.map_cons] at h
    unfold loopA at h
    split at h
    · cases h
    · next s1 h1 =>
      obtain ⟨cost, k1, rest, g1, g2, g3, g4, g5, -⟩ := iterationA_shapes h1
      have := g4.trans g5
      simp only at this
      rw [hp.1] at this
      exact (to_two _ _ _ _).1 this
  · rintro ⟨hn, hd⟩
    have hc : ∃ o, construct (plainWith c1 c2 w p)
        ⟨fun _ _ => 0, fun _ _ => false, fun _ j => j, stretched m e n d vel⟩
        ⟨fun _ _ => 0, fun _ _ => false, fun _ j => j, stretched m e n d vel⟩ = .ok o := by
      unfold construct
      simp [plainWith, Kind.needsKP, checkFtolIter, resetSwarm, createSwarm, Config.isBinary,
        generateSwarm]
    obtain ⟨o, ho⟩ := hc
    obtain ⟨a', _, _, _, h1, -⟩ := C78_same_run n d m e hm hn hd c1 c2 w p obj f hobj initPos hp vel _
      rfl env iters hit s0 h0 o ho
    exact ⟨a', h1⟩

namespace Ex

/-- Initial positions. -/
def grid (m : Nat) : Mat m 2 ℚ := fun i j => ((i : ℕ) : ℚ) + ((j : ℕ) : ℚ)

/-- `x ↦ x[:, 0]**2 + x[:, 1]**2`, one cost per row. -/
def rowSquares (a : Arr ℚ) : Except Err (Arr (XR ℚ)) :=
  .ok ⟨a.shape.take 1, fun idx =>
    XR.fin (a.get [idx.headD 0, 0] ^ 2 + a.get [idx.headD 0, 1] ^ 2)⟩

/-- The same with `keepdims`: a column. -/
def columnSquares (a : Arr ℚ) : Except Err (Arr (XR ℚ)) :=
  .ok ⟨a.shape.take 1 ++ [1], fun idx =>
    XR.fin (a.get [idx.headD 0, 0] ^ 2 + a.get [idx.headD 0, 1] ^ 2)⟩

theorem rowSquares_rows (m : Nat) :
    OneCostPerRow rowSquares fun (x : Mat m 2 ℚ) i => x i 0 ^ 2 + x i 1 ^ 2 := by
  intro a x h
  refine ⟨_, rfl, by simp [h.1], fun i => ?_⟩
  have h0 := h.2 i 0
  have h1 := h.2 i 1
  simp at h0 h1
  simp [h0, h1]

/-- `GlobalBestPSO(n_particles=1, dimensions=2, init_pos=<3 rows>)` silently runs three particles,
and `n_particles=2` with three rows fails. -/
example : (∃ s', optimizeA 1 starGbestA rowSquares (1 / 2) (1 / 3) (1 / 2) none
      (drawsOf (fun _ => draw 3 2) 0 5)
      { position := ⟨[3, 2], entries (grid 3)⟩
        velocity := ⟨[1, 2], fun _ => 1 / 2⟩, dimensions := 2
        pbestPos := ⟨[3, 2], entries (grid 3)⟩
        pbestCost := ⟨[0], fun _ => XR.nan⟩, bestPos := ⟨[0], fun _ => 0⟩
        bestCost := XR.pinf, currentCost := ⟨[0], fun _ => XR.nan⟩ } = .ok s') ∧
    ¬ (∃ s', optimizeA 2 starGbestA rowSquares (1 / 2) (1 / 3) (1 / 2) none
      (drawsOf (fun _ => draw 3 2) 0 5)
      { position := ⟨[3, 2], entries (grid 3)⟩
        velocity := ⟨[2, 2], fun _ => 1 / 2⟩, dimensions := 2
        pbestPos := ⟨[3, 2], entries (grid 3)⟩
        pbestCost := ⟨[0], fun _ => XR.nan⟩, bestPos := ⟨[0], fun _ => 0⟩
        bestCost := XR.pinf, currentCost := ⟨[0], fun _ => XR.nan⟩ } = .ok s') := by
  have key := fun n => C78_accepted_shapes n 2 3 2 (by norm_num) (1 / 2 : ℚ) (1 / 3) (1 / 2)
    (grid 3) rowSquares _ (rowSquares_rows 3)
    ⟨[3, 2], entries (grid 3)⟩ (entries_isMat _) (fun _ => 1 / 2)
    (fun _ => draw 3 2) 5 (by norm_num) _ (createSwarmA_eq (entries_isMat _) _)
  exact ⟨(key 1).2 (by simp), fun h => by have := (key 2).1 h; omega⟩

/-- A state with the documented shapes, and an objective that returns a column for it. -/
def smallArrays : ASwarm ℚ where
  position := ⟨[2, 2], entries (grid 2)⟩
  velocity := ⟨[2, 2], fun _ => 1 / 2⟩
  dimensions := 2
  pbestPos := ⟨[2, 2], entries (grid 2)⟩
  pbestCost := ⟨[2], fun _ => XR.pinf⟩
  bestPos := ⟨[0], fun _ => 0⟩
  bestCost := XR.pinf
  currentCost := ⟨[0], fun _ => XR.nan⟩

/-- A column of costs, with two particles in two dimensions, passes `compute_pbest` (the personal
bests become three-dimensional) but not the position update. -/
example : (∃ pp pc, computePbestA { smallArrays with
      currentCost := ⟨[2, 1], fun idx => XR.fin (idx.headD 0 : ℚ)⟩ } = .ok (pp, pc) ∧
      pp.shape = [2, 2, 2]) ∧
    ∃ e, iterationA starGbestA columnSquares (1 / 2) (1 / 3) (1 / 2) none
      (fun _ => 1 / 2, fun _ => 1 / 2) smallArrays = .error e := by
  refine ⟨⟨_, _, rfl, rfl⟩, ?_⟩
  exact (C77_wrong_shape (n := 2) (d := 2) starGbestA columnSquares (1 / 2) (1 / 3) (1 / 2) none _
    smallArrays ⟨rfl, rfl, rfl, rfl, rfl⟩ _ rfl (by decide)).1

/-- The hypotheses of `C77_same_run` hold for an objective that returns one number for the whole
swarm. -/
example : PlainGlobal (gcfg 3 2) (1 / 2) (1 / 3) (1 / 2) ∧
    Evaluates (n := 3) (d := 2) (fun a : Arr ℚ => .ok ⟨[], fun _ => XR.fin (a.get [0, 0])⟩)
      (fun x => .ok fun _ => XR.fin (x 0 0)) := by
  constructor
  · constructor <;> first | rfl | simp [gcfg, Config.window]
  · intro a m h
    refine ⟨_, rfl, to_nil _, fun i => ?_⟩
    have := h.2 0 0
    simp at this
    simp [bget, this]

end Ex

end PySwarms

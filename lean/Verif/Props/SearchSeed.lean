import Verif.Model.SearchRng
import Verif.Props.Seed
import Verif.Props.Search

/-!
# The random numbers met by a hyperparameter search (C86)
-/

set_option linter.unusedSectionVars false
set_option linter.unusedSimpArgs false

namespace PySwarms

variable {n d : Nat} {K G : Type} [Field K] [LinearOrder K] [Transc K] [FloorRing K]

/-! ### Specification -/

/-- The number of doubles the constructor of a continuous optimizer reads: two swarms, each with a
matrix of positions (unless `init_pos` is given) and one of velocities. -/
def Config.perConstruct (cfg : Config n d K) : Nat :=
  2 * ((if cfg.initPos.isNone then n * d else 0) + n * d)

/-! ### Helper lemmas -/

/-- What one `reset` reads. -/
def initRead (base : Config n d K) (rng : Rng n d K G) (g : G) : InitDraw n d K × G :=
  let b := rng.bits g
  let u := sampleMat rng g
  let g1 := if base.initPos.isSome then g else if base.isBinary then b.2 else u.2
  let v := sampleMat rng g1
  (⟨u.1, b.1, fun _ j => j, v.1⟩, v.2)

theorem resetSwarmG_read (base : Config n d K) (rng : Rng n d K G) (g : G)
    (o : Opts K × TopArgs) :
    (resetSwarmG (base.withOptions o) rng g).2 =
        resetSwarm (base.withOptions o) (initRead base rng g).1 ∧
      ∀ s, (resetSwarmG (base.withOptions o) rng g).2 = .ok s →
        (resetSwarmG (base.withOptions o) rng g).1 = (initRead base rng g).2 := by
  unfold resetSwarmG resetSwarm createSwarm initRead
  change _ = _ ∧ ∀ s, _ = _ → _ = _
  have h1 : (base.withOptions o).isBinary = base.isBinary := rfl
  have h2 : (base.withOptions o).initPos = base.initPos := rfl
  rw [h1, h2]
  cases base.isBinary with
  | true =>
    cases base.initPos with
    | none => simp [generateDiscreteSwarm]
    | some p =>
      simp only [generateDiscreteSwarm, if_true, Option.isSome_some]
      by_cases h : (!(atMostTwoValues p)) = true
      · simp [h]
      · simp [h]
  | false =>
    have he : ∀ p u, generateSwarm (base.withOptions o).bounds (base.withOptions o).center (some p) u =
      generateSwarm (n := n) (base.withOptions o).bounds (base.withOptions o).center (some p) (fun _ _ => 0) := by
      intro p u
      unfold generateSwarm
      cases (base.withOptions o).bounds <;> rfl
    cases base.initPos with
    | none =>
      simp only [Bool.false_eq_true, if_false, Option.isSome_none]
      cases generateSwarm (base.withOptions o).bounds (base.withOptions o).center none
        (sampleMat rng g).1 <;> simp
    | some p =>
      simp only [Bool.false_eq_true, if_false, Option.isSome_some, if_true]
      rw [he p (sampleMat rng g).1]
      cases generateSwarm (base.withOptions o).bounds (base.withOptions o).center (some p)
        (fun _ _ => 0) <;> simp

theorem constructG_read (base : Config n d K) (rng : Rng n d K G) (g : G) (o : Opts K × TopArgs) :
    let a := initRead base rng g
    let b := initRead base rng a.2
    (constructG (base.withOptions o) rng g).2 = construct (base.withOptions o) a.1 b.1 ∧
      ∀ s, (constructG (base.withOptions o) rng g).2 = .ok s →
        (constructG (base.withOptions o) rng g).1 = b.2 := by
  dsimp only
  unfold constructG construct
  split
  · simp
  · cases checkFtolIter (base.withOptions o).ftolIter with
    | error e => simp
    | ok u =>
      dsimp only
      obtain ⟨h1, h2⟩ := resetSwarmG_read base rng g o
      rw [← h1]
      generalize resetSwarmG (base.withOptions o) rng g = R at h2 ⊢
      obtain ⟨g1, e | sw⟩ := R
      · simp
      · have hg : g1 = _ := h2 sw rfl
        subst hg
        dsimp only
        obtain ⟨k1, k2⟩ := resetSwarmG_read base rng (initRead base rng g).2 o
        rw [← k1]
        generalize resetSwarmG (base.withOptions o) rng (initRead base rng g).2 = R at k2 ⊢
        obtain ⟨g2, e | sw2⟩ := R
        · simp
        · have hg : g2 = _ := k2 sw2 rfl
          subst hg
          simp

theorem batchAt_withOptions (base : Config n d K) (hk : base.kind.notRandom) (rng : Rng n d K G)
    (ext : Libs n d K) (b : Bool) (g : G) (t : Nat) (o : Opts K × TopArgs) :
    (batchAt (base.withOptions o) rng ext b g t).draw = (batchAt base rng ext b g t).draw := by
  have hk' : (base.withOptions o).kind.notRandom := hk
  unfold batchAt
  rw [genAt_skip _ hk, genAt_skip _ hk']
  unfold batch
  rw [drawsChoices_notRandom _ hk, drawsChoices_notRandom _ hk']
  rfl

/-- The state before candidate `k`. -/
def genBefore (base : Config n d K) (rng : Rng n d K G) (iters : Nat) (g : G) : Nat → G
  | 0 => g
  | k + 1 =>
    rng.skip (iters * base.perIteration)
      (initRead base rng (initRead base rng (genBefore base rng iters g k)).2).2

theorem construct_noLists (cfg : Config n d K) (r1 r2 : InitDraw n d K) (s : Opt n d K)
    (h : construct cfg r1 r2 = .ok s) : s.top.neighbor.isNone = true := by
  unfold construct at h
  split at h
  · cases h
  · split at h
    · cases h
    · split at h
      · cases h
      · split at h
        · cases h
        · cases h; rfl

theorem generateScoreG_read [IsStrictOrderedRing K] (base : Config n d K)
    (hk : base.kind.notRandom) (hw : 0 < base.window)
    (hf : ∀ a, base.ftol = XR.fin a → a ≤ 0) (hp : base.ftol ≠ XR.pinf) (rng : Rng n d K G)
    (ext : Libs n d K) (iters : Nat) (g : G) (ev : Nat → ObjG n d K G)
    (f : Nat → Mat n d K → Except Err (Costs n K)) (hq : Quiet ev f) (o : Opts K × TopArgs) :
    let a := initRead base rng g
    let b := initRead base rng a.2
    (generateScoreG (base.withOptions o) ev rng ext iters g).2 =
        generateScore (base.withOptions o) f iters a.1 b.1
          (fun t => (batchAt base rng ext true b.2 t).draw) ∧
      ∀ c, (generateScoreG (base.withOptions o) ev rng ext iters g).2 = .ok c →
        (generateScoreG (base.withOptions o) ev rng ext iters g).1 =
          rng.skip (iters * base.perIteration) b.2 := by
  dsimp only
  obtain ⟨h1, h2⟩ := constructG_read base rng g o
  unfold generateScoreG generateScore
  rw [← h1]
  have hno := construct_noLists (base.withOptions o) (initRead base rng g).1
    (initRead base rng (initRead base rng g).2).1
  rw [← h1] at hno
  generalize constructG (base.withOptions o) rng g = R at h2 hno ⊢
  obtain ⟨g1, e | s⟩ := R
  · simp
  · have hg : g1 = _ := h2 s rfl
    subst hg
    have hno' := hno s rfl
    dsimp only
    obtain ⟨k1, k2⟩ := optimizeG_eq (base.withOptions o) ev f hq rng ext
      (initRead base rng (initRead base rng g).2).2 iters none s
    rw [hno'] at k1 k2
    simp only [batchAt_withOptions base hk] at k1
    rw [← k1]
    generalize optimizeG (base.withOptions o) ev rng ext iters none
      (initRead base rng (initRead base rng g).2).2 s = R at k1 k2 ⊢
    obtain ⟨g2, s', e | ⟨c, x⟩⟩ := R
    · simp
    · refine ⟨rfl, fun _ _ => ?_⟩
      dsimp only at k2 ⊢
      rcases k2 (c, x) rfl with ⟨-, b⟩ | ⟨k, a, b, -, i, q, s1, r, hst⟩
      · rw [b, genAt_skip _ (show (base.withOptions o).kind.notRandom from hk)]; rfl
      · exfalso
        have hcs := iterate_cases (base.withOptions o) (f i) r iters i q s1
        rw [hst] at hcs
        generalize (iterate (base.withOptions o) (f i) r iters i q s1).1 = s2 at hcs
        cases hcs with
        | stop c t best hc hg h1 h2 =>
          have : ftolDelta (base.withOptions o).ftol
              (recordBest t best (recordEval c s1)).swarm.bestCostVal
              s1.swarm.bestCostVal = false :=
            Bool.eq_false_iff.2 (not_small (K := K) (ftol := base.ftol) hf hp _ _)
          rw [this, dequeAppend_false _ (show 0 < (base.withOptions o).window from hw)] at h2
          cases h2

/-- Threading a generator whose state after candidate `k` does not depend on the candidate. -/
theorem scoreAllG_read {O : Type} (score : O → G → G × Except Err (XR K)) (st : Nat → G)
    (sc : Nat → O → Except Err (XR K))
    (h : ∀ k o, (score o (st k)).2 = sc k o ∧
      ∀ c, (score o (st k)).2 = .ok c → (score o (st k)).1 = st (k + 1))
    (k : Nat) (grid : List O) :
    (scoreAllG score grid (st k)).2 = (scoreAll sc k grid).2 ∧
      ∀ cs, (scoreAllG score grid (st k)).2 = .ok cs →
        (scoreAllG score grid (st k)).1 = st (k + grid.length) := by
  induction grid generalizing k with
  | nil => simp [scoreAllG, scoreAll]
  | cons o rest ih =>
    unfold scoreAllG scoreAll
    obtain ⟨h1, h2⟩ := h k o
    rw [← h1]
    generalize score o (st k) = R at h2 ⊢
    obtain ⟨g1, e | c⟩ := R
    · simp
    · have hg : g1 = _ := h2 c rfl
      subst hg
      dsimp only
      obtain ⟨k1, k2⟩ := ih (k + 1)
      generalize scoreAllG score rest (st (k + 1)) = R at k1 k2 ⊢
      generalize scoreAll sc (k + 1) rest = R' at k1 ⊢
      obtain ⟨g2, r⟩ := R
      obtain ⟨log, r'⟩ := R'
      dsimp only at k1 k2
      subst k1
      cases r with
      | error e => simp
      | ok cs =>
        refine ⟨rfl, fun _ _ => ?_⟩
        dsimp only
        rw [k2 cs rfl, List.length_cons]
        congr 1
        omega

theorem searchG_read {O : Type} (score : O → G → G × Except Err (XR K)) (st : Nat → G)
    (sc : Nat → O → Except Err (XR K))
    (h : ∀ k o, (score o (st k)).2 = sc k o ∧
      ∀ c, (score o (st k)).2 = .ok c → (score o (st k)).1 = st (k + 1))
    (maximum : Bool) (grid : List O) :
    (searchG score maximum grid (st 0)).2 = (search sc maximum grid).2 ∧
      ∀ v, (searchG score maximum grid (st 0)).2 = .ok v →
        (searchG score maximum grid (st 0)).1 = st grid.length := by
  unfold searchG search
  obtain ⟨k1, k2⟩ := scoreAllG_read score st sc h 0 grid
  generalize scoreAllG score grid (st 0) = R at k1 k2 ⊢
  generalize scoreAll sc 0 grid = R' at k1 ⊢
  obtain ⟨g2, r⟩ := R
  obtain ⟨log, r'⟩ := R'
  dsimp only at k1 k2
  subst k1
  cases r with
  | error e => simp
  | ok cs =>
    have hg : g2 = _ := k2 cs rfl
    subst hg
    dsimp only
    rw [Nat.zero_add]
    cases pyMin (enumerate cs) with
    | none => simp
    | some m =>
      dsimp only
      generalize (if maximum = true then pyMax (enumerate cs) else some m) = M
      cases M with
      | none => simp
      | some m =>
        obtain ⟨idx, c⟩ := m
        dsimp only
        cases grid[idx]? <;> simp

theorem scoreAll_get {O : Type} (sc : Nat → O → Except Err (XR K)) (k : Nat) (grid : List O)
    (cs : List (XR K)) (h : (scoreAll sc k grid).2 = .ok cs) (j : Nat) :
    (grid[j]?).map (sc (k + j)) = (cs[j]?).map .ok := by
  induction grid generalizing k cs j with
  | nil => cases h; rfl
  | cons o rest ih =>
    unfold scoreAll at h
    split at h
    · cases h
    · next c hc =>
      split at h
      · cases h
      · next log cs' hl =>
        cases h
        cases j with
        | zero => simp [hc]
        | succ j =>
          have := ih (k + 1) cs' (by rw [hl]) j
          simp only [List.getElem?_cons_succ]
          rw [← this]
          congr 2
          omega

theorem initRead_skip (base : Config n d K) (hb : base.isBinary = false) (rng : Rng n d K G)
    (g : G) :
    (initRead base rng (initRead base rng g).2).2 = rng.skip base.perConstruct g := by
  have one : ∀ g, (initRead base rng g).2 =
      rng.skip ((if base.initPos.isNone then n * d else 0) + n * d) g := by
    intro g
    unfold initRead
    rw [hb]
    cases base.initPos <;> simp [sampleMat_skip, Rng.skip_skip]
  rw [one, one, Rng.skip_skip]
  unfold Config.perConstruct
  congr 1
  ring

/-! ### The theorems -/

/-- C86: the random numbers a search meets are fixed before its options are.  The numbers of the
initial swarms (`r1`, `r2`) and of the iterations (`env`) of the candidate at place `k` of the grid,
and the generator `after k` candidates, are chosen before the objective, the grid and the option
values.  If the objective does not use the generator, the search is the search in which candidate
`k` runs with these numbers. -/
theorem C86_fixed_numbers [IsStrictOrderedRing K] (base : Config n d K)
    (hk : base.kind.notRandom) (hw : 0 < base.window)
    (hf : ∀ a, base.ftol = XR.fin a → a ≤ 0) (hp : base.ftol ≠ XR.pinf) (rng : Rng n d K G)
    (ext : Libs n d K) (iters : Nat) (g : G) :
    ∃ (r1 r2 : Nat → InitDraw n d K) (env : Nat → Nat → Draw n d K) (after : Nat → G),
      (rng.Legal → ∀ k t, (env k t).Legal) ∧
      ∀ (ev : Nat → ObjG n d K G) (f : Nat → Mat n d K → Except Err (Costs n K)), Quiet ev f →
      ∀ (maximum : Bool) (grid : List (Opts K × TopArgs)),
        let found := searchG
          (fun o => generateScoreG (base.withOptions o) ev rng ext iters) maximum grid g
        found.2 = (search (fun k o =>
            generateScore (base.withOptions o) f iters (r1 k) (r2 k) (env k)) maximum grid).2 ∧
          ∀ v, found.2 = .ok v → found.1 = after grid.length := by
  refine ⟨fun k => (initRead base rng (genBefore base rng iters g k)).1,
    fun k => (initRead base rng (initRead base rng (genBefore base rng iters g k)).2).1,
    fun k t => (batchAt base rng ext true
      (initRead base rng (initRead base rng (genBefore base rng iters g k)).2).2 t).draw,
    genBefore base rng iters g, fun hr k t => batch_legal base rng hr ext _ _, ?_⟩
  intro ev f hq maximum grid
  exact searchG_read _ (genBefore base rng iters g) _
    (fun k o => generateScoreG_read base hk hw hf hp rng ext iters _ ev f hq o) maximum grid

/-- C86: the score of a candidate depends on its own options and its place in the grid, not on the
options of the other candidates.  Two searches from the same seed, over grids that agree at place
`j`, give that candidate the same score. -/
theorem C86_independent_scores [IsStrictOrderedRing K] (base : Config n d K)
    (hk : base.kind.notRandom) (hw : 0 < base.window)
    (hf : ∀ a, base.ftol = XR.fin a → a ≤ 0) (hp : base.ftol ≠ XR.pinf) (rng : Rng n d K G)
    (ext : Libs n d K) (iters : Nat) (g : G) (ev : Nat → ObjG n d K G)
    (f : Nat → Mat n d K → Except Err (Costs n K)) (hq : Quiet ev f)
    (grid grid' : List (Opts K × TopArgs)) (scores scores' : List (XR K))
    (h : (scoreAllG (fun o => generateScoreG (base.withOptions o) ev rng ext iters) grid g).2 =
      .ok scores)
    (h' : (scoreAllG (fun o => generateScoreG (base.withOptions o) ev rng ext iters) grid' g).2 =
      .ok scores')
    (j : Nat) (hj : grid[j]? = grid'[j]?) : scores[j]? = scores'[j]? := by
  have key := fun k o => generateScoreG_read base hk hw hf hp rng ext iters
    (genBefore base rng iters g k) ev f hq o
  have a := (scoreAllG_read _ (genBefore base rng iters g) _ key 0 grid).1
  have a' := (scoreAllG_read _ (genBefore base rng iters g) _ key 0 grid').1
  have b := scoreAll_get _ 0 grid scores (a.symm.trans h) j
  have b' := scoreAll_get _ 0 grid' scores' (a'.symm.trans h') j
  rw [hj, b'] at b
  revert b
  cases scores[j]? <;> cases scores'[j]? <;> intro b <;> simp_all

/-- C86: a search over a continuous optimizer that returns has read
`perConstruct + iters * perIteration` doubles per candidate, whatever the options. -/
theorem C86_consumption [IsStrictOrderedRing K] (base : Config n d K)
    (hk : base.kind.notRandom) (hb : base.isBinary = false) (hw : 0 < base.window)
    (hf : ∀ a, base.ftol = XR.fin a → a ≤ 0) (hp : base.ftol ≠ XR.pinf) (rng : Rng n d K G)
    (ext : Libs n d K) (iters : Nat) (g g' : G) (ev : Nat → ObjG n d K G)
    (f : Nat → Mat n d K → Except Err (Costs n K)) (hq : Quiet ev f) (maximum : Bool)
    (grid : List (Opts K × TopArgs)) (v : XR K × (Opts K × TopArgs))
    (h : searchG (fun o => generateScoreG (base.withOptions o) ev rng ext iters) maximum grid g =
      (g', .ok v)) :
    g' = rng.skip (grid.length * (base.perConstruct + iters * base.perIteration)) g := by
  have key := fun k o => generateScoreG_read base hk hw hf hp rng ext iters
    (genBefore base rng iters g k) ev f hq o
  have a := (searchG_read _ (genBefore base rng iters g) _ key maximum grid).2
  change ∀ v, (searchG _ maximum grid g).2 = .ok v → (searchG _ maximum grid g).1 = _ at a
  rw [h] at a
  have hs : ∀ k, genBefore base rng iters g k =
      rng.skip (k * (base.perConstruct + iters * base.perIteration)) g := by
    intro k
    induction k with
    | zero => simp [genBefore, Rng.skip]
    | succ k ih =>
      unfold genBefore
      rw [initRead_skip base hb, ih, Rng.skip_skip, Rng.skip_skip]
      congr 1
      ring
  rw [← hs]
  exact a v rfl

/-! ### Examples -/

namespace Ex

/-- Two combinations that differ in the inertia weight. -/
def slow : Opts ℚ × TopArgs := ([("c1", 1), ("c2", 1), ("w", 1/2)], {})
def fast : Opts ℚ × TopArgs := ([("c1", 1), ("c2", 1), ("w", 2)], {})

/-- A generator with state `m`: the double read is `(m² mod 7) / 7`. -/
def squares (n d : Nat) : Rng n d ℚ Nat where
  real := fun m => (((m * m % 7 : Nat) : ℚ) / 7, m + 1)
  bits := fun m => (fun _ _ => m % 2 = 0, m + 1)
  choice := fun k i m => (((List.finRange n).filter (· ≠ i)).take k, m + 1)

/-- The score of a combination from the state `g`. -/
def score (g : Nat) (o : Opts ℚ × TopArgs) : Nat × Except Err (XR ℚ) :=
  generateScoreG ((gcfg 2 1).withOptions o) (quietSphere 2 1) (squares 2 1) (libs 2 1) 2 g

end Ex

/-- The hypotheses are met by a search over two combinations, which reads
`2 * (8 + 2 * 4) = 32` doubles. -/
example : (Ex.gcfg 2 1).kind.notRandom ∧ (Ex.gcfg 2 1).isBinary = false ∧
    0 < (Ex.gcfg 2 1).window ∧ (Ex.gcfg 2 1).ftol = XR.ninf ∧
    Quiet (Ex.quietSphere 2 1) (Ex.sphere 2 1) ∧
    (searchG (fun o g => Ex.score g o) false [Ex.slow, Ex.fast] 0).1 = 32 ∧
    (searchG (fun o g => Ex.score g o) false [Ex.slow, Ex.fast] 0).2.isOk = true := by
  exact ⟨trivial, by decide, by decide, rfl, Ex.quietSphere_quiet 2 1, by decide +kernel,
    by decide +kernel⟩

/-- Two finite scores that differ. -/
def twoDiffer : Except Err (List (XR ℚ)) → Bool
  | .ok [.fin a, .fin b] => decide (a ≠ b)
  | _ => false

theorem twoDiffer_ok (r : Except Err (List (XR ℚ))) (h : twoDiffer r = true) :
    ∃ a b, r = .ok [XR.fin a, XR.fin b] ∧ a ≠ b := by
  unfold twoDiffer at h
  split at h
  · next a b => exact ⟨a, b, rfl, of_decide_eq_true h⟩
  · cases h

/-- C86: the candidates are not compared on common random numbers.  A combination that occurs twice
in the grid can get two different scores, so the score also depends on the place. -/
theorem C86_place_matters :
    ∃ a b, (scoreAllG (fun o g => Ex.score g o) [Ex.slow, Ex.slow] 0).2 =
      .ok [XR.fin a, XR.fin b] ∧ a ≠ b :=
  twoDiffer_ok _ (by decide +kernel)

end PySwarms

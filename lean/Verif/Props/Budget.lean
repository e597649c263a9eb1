import Verif.Props.SearchSeed
import Verif.Props.RandomSeed
import Verif.Props.Search
import Verif.Props.CustomLoop

/-!
# C129: how often the objective is called
-/

set_option linter.unusedSectionVars false

namespace PySwarms

variable {n d : Nat} {K G : Type} [Field K] [LinearOrder K] [IsStrictOrderedRing K] [Transc K]
  [FloorRing K]

/-- `count` of the state of the world is how often the objective has been called: drawing random
numbers leaves it as it is, and every call of the objective, also one that raises, adds one. -/
structure Counts (count : G → Nat) (rng : Rng n d K G) (ev : Nat → ObjG n d K G) : Prop where
  real : ∀ g, count (rng.real g).2 = count g
  bits : ∀ g, count (rng.bits g).2 = count g
  choice : ∀ k i g, count (rng.choice k i g).2 = count g
  call : ∀ t x g, count (ev t x g).1 = count g + 1

theorem sampleFam_count {α : Type} {count : G → Nat} {m : Nat} {next : Fin m → G → α × G}
    (h : ∀ i g, count (next i g).2 = count g) (g : G) :
    count (sampleFam m next g).2 = count g := by
  induction m generalizing g with
  | zero => rfl
  | succ m ih =>
    rw [sampleFam]
    simp only []
    rw [ih (fun i g => h i.succ g), h]

namespace Counts
variable {count : G → Nat} {rng : Rng n d K G} {ev : Nat → ObjG n d K G}

theorem vec (h : Counts count rng ev) (g : G) : count (sampleVec rng g).2 = count g :=
  sampleFam_count (fun _ => h.real) g

theorem mat (h : Counts count rng ev) (g : G) : count (sampleMat rng g).2 = count g :=
  sampleFam_count (fun _ => h.vec) g

theorem resetSwarm (h : Counts count rng ev) (cfg : Config n d K) (g : G) :
    count (resetSwarmG cfg rng g).1 = count g := by
  have key : ∀ (p : G × Except Err (Mat n d K)), count p.1 = count g →
      count (match p with
        | (g1, .error e) => (g1, .error e)
        | (g1, .ok p) =>
          let u := sampleMat rng g1
          (u.2, .ok (mkSwarm p (generateVelocity cfg.clamp u.1) cfg.options)) :
            G × Except Err (Swarm n d K)).1 = count g := by
    rintro ⟨g1, e | p⟩ hp
    · exact hp
    · exact (h.mat g1).trans hp
  unfold resetSwarmG
  refine key _ ?_
  split
  · split
    · rfl
    · exact h.bits g
  · split
    · rfl
    · exact h.mat g

theorem construct (h : Counts count rng ev) (cfg : Config n d K) (g : G) :
    count (constructG cfg rng g).1 = count g := by
  unfold constructG
  split
  · rfl
  · split
    · rfl
    · have h1 := h.resetSwarm cfg g
      split
      · next g1 e he => rw [he] at h1; exact h1
      · next g1 sw he =>
        rw [he] at h1
        have h2 := h.resetSwarm cfg g1
        split
        · next g2 e he2 => rw [he2] at h2; exact h2.trans h1
        · next g2 sw he2 => rw [he2] at h2; exact h2.trans h1

theorem gbest (h : Counts count rng ev) (cfg : Config n d K) (ext : Libs n d K) (g : G)
    (t : TopState n) (s : Swarm n d K) : count (callGbestG cfg rng ext g t s).1 = count g := by
  unfold callGbestG
  split
  · exact sampleFam_count (fun i g => h.choice _ i g) g
  · rfl

theorem velocity (h : Counts count rng ev) (cfg : Config n d K) (g : G) (s : Swarm n d K)
    (mem : Option (Mat n d K)) (b : Option (Bounds d K)) :
    count (computeVelocityG cfg rng g s mem b).1 = count g := by
  unfold computeVelocityG
  split
  · exact (h.mat _).trans (h.mat g)
  · rfl

theorem position (h : Counts count rng ev) (cfg : Config n d K) (ext : Libs n d K) (g : G)
    (mem : Option (Mat n d K)) (s : Swarm n d K) :
    count (callPositionG cfg rng ext g mem s).1 = count g := by
  unfold callPositionG
  split
  · exact h.vec g
  · split
    · exact (h.vec _).trans (h.vec g)
    · rfl

theorem move (h : Counts count rng ev) (cfg : Config n d K) (ext : Libs n d K) (iters i : Nat)
    (g : G) (s : Opt n d K) : count (moveSwarmG cfg rng ext iters i g s).1 = count g := by
  unfold moveSwarmG
  split
  · rfl
  · next o ho =>
    simp only []
    have h1 := h.velocity cfg g { s.swarm with options := o } s.vhMem (velBounds cfg)
    split
    · next g1 vm e he => rw [he] at h1; exact h1
    · next g1 vm v he =>
      rw [he] at h1
      split
      · next g2 bm e he2 =>
        have h2 := h.position cfg ext g1 s.bhMem
          { s.swarm with options := o, velocity := v }
        rw [he2] at h2
        exact h2.trans h1
      · next g2 bm p he2 =>
        have h2 := h.position cfg ext g1 s.bhMem
          { s.swarm with options := o, velocity := v }
        rw [he2] at h2
        exact h2.trans h1

/-- One iteration calls the objective once; it ends the loop only from iteration `ftol_iter` on, and
never if the tolerance is not positive. -/
theorem iterate (h : Counts count rng ev) (cfg : Config n d K) (ext : Libs n d K) (iters i : Nat)
    (q : List Bool) (g : G) (s : Opt n d K) :
    count (iterateG cfg (ev i) rng ext iters i q g s).1 = count g + 1 ∧
      ((iterateG cfg (ev i) rng ext iters i q g s).2.2 = .ok .stop → cfg.window ≤ i ∧
        ((∀ a, cfg.ftol = XR.fin a → a ≤ 0) → cfg.ftol ≠ XR.pinf → cfg.window = 0)) := by
  unfold iterateG
  have h1 := h.call i s.swarm.position g
  split
  · next g1 e he => rw [he] at h1; exact ⟨h1, fun hh => by cases hh⟩
  · next g1 c he =>
    rw [he] at h1
    simp only []
    have h2 := h.gbest cfg ext g1 (recordEval c s).top (recordEval c s).swarm
    split
    · next g2 t e he2 => rw [he2] at h2; exact ⟨h2.trans h1, fun hh => by cases hh⟩
    · next g2 t b he2 =>
      rw [he2] at h2
      split
      · next hst =>
        refine ⟨h2.trans h1, fun _ => ?_⟩
        rw [Bool.and_eq_true, decide_eq_true_eq] at hst
        refine ⟨Nat.le_of_not_lt hst.1, fun hf hp => ?_⟩
        by_contra hw
        have hz : ftolDelta cfg.ftol (recordBest t b (recordEval c s)).swarm.bestCostVal
            (recordEval c s).swarm.bestCostVal = false :=
          Bool.eq_false_iff.2 (not_small hf hp _ _)
        rw [hz, dequeAppend_not_all (Nat.pos_of_ne_zero hw)] at hst
        cases hst.2
      · have h3 := h.move cfg ext iters i g2 (recordBest t b (recordEval c s))
        split
        · next g3 s3 e he3 =>
          rw [he3] at h3
          exact ⟨h3.trans (h2.trans h1), fun hh => by cases hh⟩
        · next g3 s3 he3 =>
          rw [he3] at h3
          exact ⟨h3.trans (h2.trans h1), fun hh => by cases hh⟩

theorem loop (h : Counts count rng ev) (cfg : Config n d K) (ext : Libs n d K) (iters m i : Nat)
    (q : List Bool) (g : G) (s : Opt n d K) :
    count (loopG cfg ev rng ext iters m i q g s).1 ≤ count g + m ∧
      ((loopG cfg ev rng ext iters m i q g s).2.2 = .ok () →
        count g + min m (cfg.window + 1 - i) ≤ count (loopG cfg ev rng ext iters m i q g s).1 ∧
        (0 < cfg.window → (∀ a, cfg.ftol = XR.fin a → a ≤ 0) → cfg.ftol ≠ XR.pinf →
          count (loopG cfg ev rng ext iters m i q g s).1 = count g + m)) := by
  induction m generalizing i q g s with
  | zero => exact ⟨le_refl _, fun _ => ⟨by simp [loopG], fun _ _ _ => rfl⟩⟩
  | succ m ih =>
    obtain ⟨h1, h2⟩ := h.iterate cfg ext iters i q g s
    rw [loopG]
    split
    · next g' s' e he =>
      rw [he] at h1
      exact ⟨by simp only at h1 ⊢; omega, fun hh => by cases hh⟩
    · next g' s' he =>
      rw [he] at h1 h2
      obtain ⟨h3, h4⟩ := h2 rfl
      simp only at h1 ⊢
      refine ⟨by omega, fun _ => ⟨by omega, fun hw hf hp => ?_⟩⟩
      have := h4 hf hp
      omega
    · next g' s' q' he =>
      rw [he] at h1
      simp only at h1
      obtain ⟨a, b⟩ := ih (i + 1) q' g' s'
      refine ⟨by omega, fun hh => ?_⟩
      obtain ⟨c, e⟩ := b hh
      exact ⟨by omega, fun hw hf hp => by have := e hw hf hp; omega⟩

end Counts

/-- **C129** (one call).  A call of `optimize` calls the objective at most `iters` times.  If it
returns, at least `min(iters, ftol_iter + 1)` times, and exactly `iters` times if `ftol` is not
positive (the default is `-inf`). -/
theorem C129_call (count : G → Nat) (rng : Rng n d K G) (ev : Nat → ObjG n d K G)
    (h : Counts count rng ev) (cfg : Config n d K) (ext : Libs n d K) (iters : Nat) (g : G)
    (s : Opt n d K) :
    count (optimizeG cfg ev rng ext iters none g s).1 ≤ count g + iters ∧
    ∀ v, (optimizeG cfg ev rng ext iters none g s).2.2 = .ok v →
      count g + min iters (cfg.window + 1) ≤ count (optimizeG cfg ev rng ext iters none g s).1 ∧
      (0 < cfg.window → (∀ a, cfg.ftol = XR.fin a → a ≤ 0) → cfg.ftol ≠ XR.pinf →
        count (optimizeG cfg ev rng ext iters none g s).1 = count g + iters) := by
  have hl := h.loop cfg ext iters iters 0 [] g { prepare cfg s with openPools := s.openPools + 0 }
  unfold optimizeG
  rw [if_neg (by simp)]
  simp only [Option.isSome_none, Bool.false_eq_true, if_false]
  split
  · next g1 s1 e he => rw [he] at hl; exact ⟨hl.1, fun v hh => by cases hh⟩
  · next g1 s1 he =>
    rw [he] at hl
    obtain ⟨a, b⟩ := hl
    obtain ⟨b, c⟩ := b rfl
    split
    · exact ⟨a, fun v hh => by cases hh⟩
    · exact ⟨a, fun v _ => ⟨by simpa using b, c⟩⟩

/-- Making an optimizer does not call the objective, so a score costs what its run costs. -/
theorem generateScore_count (count : G → Nat) (rng : Rng n d K G) (ev : Nat → ObjG n d K G)
    (h : Counts count rng ev) (cfg : Config n d K) (ext : Libs n d K) (iters : Nat) (g : G) :
    count (generateScoreG cfg ev rng ext iters g).1 ≤ count g + iters ∧
    ∀ c, (generateScoreG cfg ev rng ext iters g).2 = .ok c → 0 < cfg.window →
      (∀ a, cfg.ftol = XR.fin a → a ≤ 0) → cfg.ftol ≠ XR.pinf →
        count (generateScoreG cfg ev rng ext iters g).1 = count g + iters := by
  have h1 := h.construct cfg g
  unfold generateScoreG
  split
  · next g1 e he => rw [he] at h1; exact ⟨by simp only at h1 ⊢; omega, fun c hh => by cases hh⟩
  · next g1 s he =>
    rw [he] at h1
    simp only at h1
    obtain ⟨h2, h3⟩ := C129_call count rng ev h cfg ext iters g1 s
    split
    · next g2 s2 e he2 => rw [he2] at h2; exact ⟨by simp only at h2 ⊢; omega, fun c hh => by cases hh⟩
    · next g2 s2 c p he2 =>
      rw [he2] at h2 h3
      refine ⟨by simp only at h2 ⊢; omega, fun c _ hw hf hp => ?_⟩
      have := (h3 _ rfl).2 hw hf hp
      simp only at this ⊢
      omega

theorem scoreAll_count {O : Type} (count : G → Nat) (rng : Rng n d K G) (ev : Nat → ObjG n d K G)
    (h : Counts count rng ev) (mk : O → Config n d K) (ext : Libs n d K) (iters : Nat)
    (grid : List O) (g : G) :
    count (scoreAllG (fun o => generateScoreG (mk o) ev rng ext iters) grid g).1 ≤
        count g + grid.length * iters ∧
    ∀ cs, (scoreAllG (fun o => generateScoreG (mk o) ev rng ext iters) grid g).2 = .ok cs →
      (∀ o ∈ grid, 0 < (mk o).window ∧ (∀ a, (mk o).ftol = XR.fin a → a ≤ 0) ∧
        (mk o).ftol ≠ XR.pinf) →
      count (scoreAllG (fun o => generateScoreG (mk o) ev rng ext iters) grid g).1 =
        count g + grid.length * iters := by
  induction grid generalizing g with
  | nil => exact ⟨by simp [scoreAllG], fun _ _ _ => by simp [scoreAllG]⟩
  | cons o rest ih =>
    obtain ⟨h1, h2⟩ := generateScore_count count rng ev h (mk o) ext iters g
    have e : (o :: rest).length * iters = iters + rest.length * iters := by
      rw [List.length_cons]; ring
    rw [e, scoreAllG]
    split
    · next g1 e he =>
      rw [he] at h1
      exact ⟨by simp only at h1 ⊢; omega, fun c hh => by cases hh⟩
    · next g1 c he =>
      rw [he] at h1 h2
      obtain ⟨h3, h4⟩ := ih g1
      split
      · next g2 e he2 =>
        rw [he2] at h3
        exact ⟨by simp only at h1 h3 ⊢; omega, fun c hh => by cases hh⟩
      · next g2 cs he2 =>
        rw [he2] at h3 h4
        refine ⟨by simp only at h1 h3 ⊢; omega, fun _ _ hall => ?_⟩
        obtain ⟨a1, a2, a3⟩ := hall o (by simp)
        have h5 := h2 c rfl a1 a2 a3
        have h6 := h4 cs rfl fun o' ho' => hall o' (by simp [ho'])
        simp only at h5 h6 ⊢
        omega

theorem searchG_fst {O : Type} {score : O → G → G × Except Err (XR K)} {maximum : Bool}
    {grid : List O} {g : G} :
    (searchG score maximum grid g).1 = (scoreAllG score grid g).1 ∧
      ∀ v, (searchG score maximum grid g).2 = .ok v →
        ∃ cs, (scoreAllG score grid g).2 = .ok cs := by
  unfold searchG
  rcases scoreAllG score grid g with ⟨g1, e | cs⟩
  · exact ⟨rfl, fun v hh => by cases hh⟩
  · refine ⟨?_, fun _ _ => ⟨cs, rfl⟩⟩
    simp only []
    split
    · rfl
    · split
      · rfl
      · split <;> rfl

/-- **C129** (search).  A hyperparameter search over a grid calls the objective at most
`len(grid) * iters` times, and exactly so often if it returns (the optimizers it makes have the
default `ftol`, which is not positive). -/
theorem C129_search {O : Type} (count : G → Nat) (rng : Rng n d K G) (ev : Nat → ObjG n d K G)
    (h : Counts count rng ev) (mk : O → Config n d K) (ext : Libs n d K) (iters : Nat)
    (maximum : Bool) (grid : List O) (g : G) :
    count (searchG (fun o => generateScoreG (mk o) ev rng ext iters) maximum grid g).1 ≤
        count g + grid.length * iters ∧
    ∀ v, (searchG (fun o => generateScoreG (mk o) ev rng ext iters) maximum grid g).2 = .ok v →
      (∀ o ∈ grid, 0 < (mk o).window ∧ (∀ a, (mk o).ftol = XR.fin a → a ≤ 0) ∧
        (mk o).ftol ≠ XR.pinf) →
      count (searchG (fun o => generateScoreG (mk o) ev rng ext iters) maximum grid g).1 =
        count g + grid.length * iters := by
  obtain ⟨h1, h2⟩ := scoreAll_count count rng ev h mk ext iters grid g
  obtain ⟨e1, e2⟩ := searchG_fst (score := fun o => generateScoreG (mk o) ev rng ext iters)
    (maximum := maximum) (grid := grid) (g := g)
  rw [e1]
  refine ⟨h1, fun v hv hall => ?_⟩
  obtain ⟨cs, hcs⟩ := e2 v hv
  exact h2 cs hcs hall

/-- **C129** (`GridSearch`).  It calls the objective `iters` times the product of the numbers of
values given for the options. -/
theorem C129_grid_search {V : Type} (count : G → Nat) (rng : Rng n d K G)
    (ev : Nat → ObjG n d K G) (h : Counts count rng ev)
    (mk : List (String × V) → Config n d K) (ext : Libs n d K) (iters : Nat) (maximum : Bool)
    (options : List (String × GridVal V)) (grid : List (List (String × V)))
    (hg : gridSearchGrid options = .ok grid)
    (hmk : ∀ o, 0 < (mk o).window ∧ (∀ a, (mk o).ftol = XR.fin a → a ≤ 0) ∧
      (mk o).ftol ≠ XR.pinf) (g : G) (v : XR K × List (String × V))
    (hv : (searchG (fun o => generateScoreG (mk o) ev rng ext iters) maximum grid g).2 = .ok v) :
    count (searchG (fun o => generateScoreG (mk o) ev rng ext iters) maximum grid g).1 =
      count g + (options.map fun o => o.2.items.length).prod * iters := by
  have hne : options ≠ [] := by rintro rfl; cases hg
  obtain ⟨grid', h1, h2, -⟩ := (C42_grid options).2 hne
  rw [hg] at h1
  cases h1
  rw [← h2]
  exact (C129_search count rng ev h mk ext iters maximum grid g).2 v hv fun o _ => hmk o

theorem combos_length {params : List (String × ParamArray K)} {p : RandVal K} {i m : Nat}
    {l : List (Combo K)} (h : combos params p i m = .ok l) : l.length = m := by
  induction m generalizing i l with
  | zero => cases h; rfl
  | succ m ih =>
    rw [combos] at h
    split at h
    · cases h
    · split at h
      · cases h
      · next cs hcs =>
        cases h
        rw [List.length_cons, ih hcs]

theorem genParams_count {count : G → Nat} {grng : GridRng K G}
    (hr : ∀ g, count (grng.real g).2 = count g) (hi : ∀ w g, count (grng.int w g).2 = count g)
    (m : Int) (l : List (String × RandVal K)) (g : G) :
    count (genParamsG grng m l g).1 = count g := by
  have iter : ∀ (f : G → G), (∀ g, count (f g) = count g) → ∀ k g, count (f^[k] g) = count g := by
    intro f hf k
    induction k with
    | zero => intro g; rfl
    | succ k ih => intro g; rw [Function.iterate_succ_apply, ih, hf]
  have one : ∀ key b g, count (genParamG grng m key b g).1 = count g := by
    intro key b g
    unfold genParamG
    split
    · rfl
    · simp only []
      split
      · exact iter _ (hi _) _ _
      · exact iter _ hr _ _
  induction l generalizing g with
  | nil => rfl
  | cons o rest ih =>
    have h1 := one o.1 o.2 g
    rw [genParamsG]
    split
    · next g1 e he => rw [he] at h1; exact h1
    · next g1 a he =>
      rw [he] at h1
      have h2 := ih g1
      split
      · next g2 e he2 => rw [he2] at h2; exact h2.trans h1
      · next g2 as he2 => rw [he2] at h2; exact h2.trans h1

/-- **C129** (`RandomSearch`).  If it returns it has called the objective `n_selection_iters * iters`
times, whatever the ranges of the options. -/
theorem C129_random_search (count : G → Nat) (rng : Rng n d K G) (ev : Nat → ObjG n d K G)
    (h : Counts count rng ev) (grng : GridRng K G) (hr : ∀ g, count (grng.real g).2 = count g)
    (hi : ∀ w g, count (grng.int w g).2 = count g) (mk : Combo K → Config n d K)
    (hmk : ∀ o, 0 < (mk o).window ∧ (∀ a, (mk o).ftol = XR.fin a → a ≤ 0) ∧
      (mk o).ftol ≠ XR.pinf) (ext : Libs n d K) (iters : Nat) (maximum : Bool)
    (m : Int) (options : List (String × RandVal K)) (g : G) (v : XR K × Combo K)
    (hv : (randomSearchG grng (fun o => generateScoreG (mk o) ev rng ext iters) m options maximum
      g).2 = .ok v) :
    count (randomSearchG grng (fun o => generateScoreG (mk o) ev rng ext iters) m options maximum
      g).1 = count g + m.toNat * iters := by
  have key : count (randomSearchGridG grng m options g).1 = count g ∧
      ∀ l, (randomSearchGridG grng m options g).2 = .ok l → l.length = m.toNat := by
    unfold randomSearchGridG
    split
    · exact ⟨rfl, fun l hl => by cases hl⟩
    · next p hp =>
      have h1 := genParams_count hr hi m (options.filter fun o => o.1 ≠ "p") g
      split
      · next g1 e he => rw [he] at h1; exact ⟨h1, fun l hl => by cases hl⟩
      · next g1 params he => rw [he] at h1; exact ⟨h1, fun l hl => combos_length hl⟩
  unfold randomSearchG at hv ⊢
  generalize randomSearchGridG grng m options g = o at key hv ⊢
  obtain ⟨g1, e | grid⟩ := o
  · cases hv
  · simp only at key hv ⊢
    rw [← key.1, ← key.2 grid rfl]
    exact (C129_search count rng ev h mk ext iters maximum grid g1).2 v hv fun o _ => hmk o

/-! ## A counter -/

/-- The generator, with a counter beside it that it does not touch. -/
def Rng.withCounter (rng : Rng n d K G) : Rng n d K (G × Nat) where
  real g := ((rng.real g.1).1, (rng.real g.1).2, g.2)
  bits g := ((rng.bits g.1).1, (rng.bits g.1).2, g.2)
  choice k i g := ((rng.choice k i g.1).1, (rng.choice k i g.1).2, g.2)

/-- An objective that counts its calls, as users write it. -/
def counted (ev : Nat → ObjG n d K G) : Nat → ObjG n d K (G × Nat) := fun t x g =>
  (((ev t x g.1).1, g.2 + 1), (ev t x g.1).2)

/-- The hypothesis is met by every generator and every objective that counts its calls. -/
theorem counted_counts (rng : Rng n d K G) (ev : Nat → ObjG n d K G) :
    Counts Prod.snd rng.withCounter (counted ev) :=
  ⟨fun _ => rfl, fun _ => rfl, fun _ _ _ => rfl, fun _ _ _ => rfl⟩

/-- Non-vacuity: a search over two combinations with two iterations each calls the objective four
times and returns. -/
example :
    let found := searchG (fun o => generateScoreG ((Ex.gcfg 2 1).withOptions o)
      (counted (Ex.quietSphere 2 1)) (Ex.squares 2 1).withCounter (Ex.libs 2 1) 2) false
      [Ex.slow, Ex.fast] (0, 0)
    found.1.2 = 4 ∧ found.2.isOk = true := by
  decide +kernel

end PySwarms

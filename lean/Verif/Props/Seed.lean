import Verif.Model.Rng
import Verif.Props.Prefix
import Verif.Examples

/-!
# The random numbers do not depend on the objective (C85)
-/

set_option linter.unusedSectionVars false
set_option linter.unusedSimpArgs false

namespace PySwarms

variable {n d : Nat} {K G : Type} [Field K] [LinearOrder K] [Transc K] [FloorRing K]

/-! ### Specification -/

/-- The objective does not use the global generator. -/
def Quiet (ev : Nat → ObjG n d K G) (f : Nat → Mat n d K → Except Err (Costs n K)) : Prop :=
  ∀ i x g, ev i x g = (g, f i x)

/-- The number of doubles one iteration reads: `2 n d` for the velocities, and `d` for BinaryPSO,
`2 d` for the boundary strategy `random`. -/
def Config.perIteration (cfg : Config n d K) : Nat :=
  n * d + n * d + (match cfg.kind with
    | .binary => d
    | _ => if cfg.bounds.isSome ∧ cfg.bhStrategy = "random" then d + d else 0)

/-- The state after `m` doubles. -/
def Rng.skip (rng : Rng n d K G) (m : Nat) (g : G) : G := (fun g => (rng.real g).2)^[m] g

/-- The topology is not `Random`. -/
def Kind.notRandom : Kind → Prop
  | .general (.random _) => False
  | _ => True

/-- The doubles of the generator lie in `[0, 1)`. -/
def Rng.Legal (rng : Rng n d K G) : Prop := ∀ g, Unit01 (rng.real g).1

/-! ### Helper lemmas -/

theorem ohStrategy_rand (name : String) (start : Opts K) (opt : String) (i m : Option K)
    (u u' : K) : ohStrategy name start opt { iternow := i, itermax := m } u =
      ohStrategy name start opt { iternow := i, itermax := m } u' := by
  unfold ohStrategy
  split
  · rfl
  · split
    · rfl
    · split
      · unfold ohRandom; cases start.lookup opt <;> rfl
      · rfl

theorem ohLoop_rand (st : List (String × String)) (start : Opts K) (i m : Option K)
    (u u' : String → K) (l : Opts K) :
    ohLoop st start { iternow := i, itermax := m } u l =
      ohLoop st start { iternow := i, itermax := m } u' l := by
  induction l with
  | nil => rfl
  | cons a l ih =>
    obtain ⟨opt, v⟩ := a
    unfold ohLoop
    rw [ih]
    cases st.lookup opt with
    | none => rfl
    | some name =>
      dsimp only
      rw [ohStrategy_rand name start opt i m (u opt) (u' opt)]

/-- The options update uses no random numbers: the strategy `random` raises before it draws. -/
theorem callOptions_oh (cfg : Config n d K) (iters i : Nat) (r : Draw n d K) (s : Swarm n d K) :
    callOptionsG cfg iters i s = callOptions cfg iters i r s := by
  unfold callOptionsG callOptions
  cases cfg.kind <;> try rfl
  all_goals
    dsimp only
    unfold ohCall
    split
    · rfl
    · exact ohLoop_rand _ _ _ _ _ _ _

/-- What one complete iteration reads from the generator. -/
structure Batch (n d : Nat) (K G : Type) where
  draw : Draw n d K
  chosen : G
  moved : G

/-- The batch read from the state `g`. -/
def batch (cfg : Config n d K) (rng : Rng n d K G) (ext : Libs n d K) (b : Bool) (g : G) :
    Batch n d K G :=
  let c : (Fin n → List (Fin n)) × G :=
    match drawsChoices cfg b with
    | some k => sampleFam n (rng.choice k) g
    | none => (fun _ => [], g)
  let r1 := sampleMat rng c.2
  let r2 := sampleMat rng r1.2
  let u := sampleVec rng r2.2
  let l := sampleVec rng u.2
  let bh : BHDraw d K × G :=
    if cfg.bounds.isSome && decide (cfg.bhStrategy = "random") then (⟨u.1, l.1, ext.passes⟩, l.2)
    else (⟨fun _ => 0, fun _ => 0, ext.passes⟩, r2.2)
  { draw :=
      { r1 := r1.1, r2 := r2.1, bh := bh.1, oracle := ⟨ext.knn, ext.delaunay, fun _ => c.1⟩
        oh := fun _ => 0, thr := u.1 }
    chosen := c.2
    moved := match cfg.kind with
      | .binary => u.2
      | _ => bh.2 }

/-- The generator before iteration `t`, and whether the topology still lacks neighbour lists. -/
def genAt (cfg : Config n d K) (rng : Rng n d K G) (ext : Libs n d K) (b : Bool) (g : G) :
    Nat → Bool × G
  | 0 => (b, g)
  | t + 1 => (false, (batch cfg rng ext (genAt cfg rng ext b g t).1 (genAt cfg rng ext b g t).2).moved)

/-- The batch read by iteration `t`. -/
def batchAt (cfg : Config n d K) (rng : Rng n d K G) (ext : Libs n d K) (b : Bool) (g : G) (t : Nat) :
    Batch n d K G :=
  batch cfg rng ext (genAt cfg rng ext b g t).1 (genAt cfg rng ext b g t).2

theorem callGbestG_eq (cfg : Config n d K) (rng : Rng n d K G) (ext : Libs n d K) (b : Bool) (g : G)
    (t : TopState n) (s : Swarm n d K)
    (hb : drawsChoices cfg b = drawsChoices cfg t.neighbor.isNone) :
    callGbestG cfg rng ext g t s =
      ((batch cfg rng ext b g).chosen, callGbest cfg (batch cfg rng ext b g).draw.oracle t s) := by
  unfold callGbestG batch
  rw [← hb]
  cases drawsChoices cfg b <;> rfl

theorem computeVelocityG_eq (cfg : Config n d K) (rng : Rng n d K G) (ext : Libs n d K) (b : Bool)
    (g : G) (s : Swarm n d K) (mem : Option (Mat n d K)) :
    (computeVelocityG cfg rng (batch cfg rng ext b g).chosen s mem (velBounds cfg)).2 =
        computeVelocity s cfg.clamp cfg.vhStrategy mem (velBounds cfg)
          (batch cfg rng ext b g).draw.r1 (batch cfg rng ext b g).draw.r2 ∧
      (∀ v, (computeVelocityG cfg rng (batch cfg rng ext b g).chosen s mem (velBounds cfg)).2.2 =
          .ok v →
        (computeVelocityG cfg rng (batch cfg rng ext b g).chosen s mem (velBounds cfg)).1 =
          (sampleMat rng (sampleMat rng (batch cfg rng ext b g).chosen).2).2) := by
  unfold computeVelocityG computeVelocity
  cases s.options.lookup "c1" with
  | none => simp
  | some x =>
    cases s.options.lookup "c2" with
    | none => simp
    | some y =>
      cases s.options.lookup "w" with
      | none => simp
      | some z => exact ⟨rfl, fun _ _ => rfl⟩

theorem callPositionG_eq (cfg : Config n d K) (rng : Rng n d K G) (ext : Libs n d K) (b : Bool)
    (g : G) (s : Swarm n d K) (mem : Option (Mat n d K)) :
    callPositionG cfg rng ext (sampleMat rng (sampleMat rng (batch cfg rng ext b g).chosen).2).2
        mem s =
      ((batch cfg rng ext b g).moved, callPosition cfg (batch cfg rng ext b g).draw mem s) := by
  unfold callPositionG callPosition batch
  cases cfg.kind <;> dsimp only <;> split <;> rfl

theorem moveSwarmG_eq (cfg : Config n d K) (rng : Rng n d K G) (ext : Libs n d K) (b : Bool) (g : G)
    (iters i : Nat) (s : Opt n d K) :
    (moveSwarmG cfg rng ext iters i (batch cfg rng ext b g).chosen s).2 =
        moveSwarm cfg (batch cfg rng ext b g).draw iters i s ∧
      ((moveSwarm cfg (batch cfg rng ext b g).draw iters i s).2 = .ok () →
        (moveSwarmG cfg rng ext iters i (batch cfg rng ext b g).chosen s).1 =
          (batch cfg rng ext b g).moved) := by
  unfold moveSwarmG moveSwarm
  rw [callOptions_oh cfg iters i (batch cfg rng ext b g).draw s.swarm]
  cases callOptions cfg iters i (batch cfg rng ext b g).draw s.swarm with
  | error e => simp
  | ok o =>
    dsimp only
    obtain ⟨h1, h2⟩ := computeVelocityG_eq cfg rng ext b g { s.swarm with options := o } s.vhMem
    rw [← h1]
    generalize computeVelocityG cfg rng (batch cfg rng ext b g).chosen _ s.vhMem (velBounds cfg) = V
      at h2 ⊢
    obtain ⟨g1, vm, e | v⟩ := V
    · simp
    · have hg : g1 = _ := h2 v rfl
      subst hg
      dsimp only
      rw [callPositionG_eq]
      generalize callPosition cfg (batch cfg rng ext b g).draw s.bhMem _ = P
      obtain ⟨bm, e | p⟩ := P <;> simp

/-- One iteration: the state and outcome are those of `iterate` with the batch, and the generator is
left after the batch (or, when the call stops, after the choices). -/
theorem iterateG_eq (cfg : Config n d K) (ev : ObjG n d K G) (f : Mat n d K → Except Err (Costs n K))
    (hq : ∀ x g, ev x g = (g, f x)) (rng : Rng n d K G) (ext : Libs n d K) (b : Bool)
    (iters i : Nat) (q : List Bool) (g : G) (s : Opt n d K)
    (hb : drawsChoices cfg b = drawsChoices cfg s.top.neighbor.isNone) :
    (iterateG cfg ev rng ext iters i q g s).2 =
        iterate cfg f (batch cfg rng ext b g).draw iters i q s ∧
      (∀ q', (iterateG cfg ev rng ext iters i q g s).2.2 = .ok (.continue q') →
        (iterateG cfg ev rng ext iters i q g s).1 = (batch cfg rng ext b g).moved) ∧
      ((iterateG cfg ev rng ext iters i q g s).2.2 = .ok .stop →
        (iterateG cfg ev rng ext iters i q g s).1 = (batch cfg rng ext b g).chosen) := by
  unfold iterateG iterate
  rw [hq]
  cases f s.swarm.position with
  | error e => simp
  | ok c =>
    dsimp only
    rw [callGbestG_eq cfg rng ext b g (recordEval c s).top (recordEval c s).swarm hb]
    generalize callGbest cfg (batch cfg rng ext b g).draw.oracle (recordEval c s).top
      (recordEval c s).swarm = R
    obtain ⟨t, e | best⟩ := R
    · simp
    · dsimp only
      split
      · simp
      · obtain ⟨h1, h2⟩ := moveSwarmG_eq cfg rng ext b g iters i (recordBest t best (recordEval c s))
        generalize moveSwarmG cfg rng ext iters i (batch cfg rng ext b g).chosen
          (recordBest t best (recordEval c s)) = M at h1 h2 ⊢
        obtain ⟨g3, s3, r3⟩ := M
        dsimp only at h1
        rw [← h1] at h2 ⊢
        cases r3 with
        | error e => simp
        | ok u => simpa using h2

theorem randomGbest_lists (st : Bool) (k : Nat) (o : Oracle n d K) (t t' : TopState n)
    (s : Swarm n d K) (b : GBest n d K) (h : randomGbest st k o t s = (t', .ok b)) :
    t'.neighbor.isNone = false := by
  unfold randomGbest at h
  dsimp only at h
  split at h
  · cases h
  · next t1 _ =>
    split at h
    · cases h
    · next nbr hn =>
      have := congrArg Prod.fst h
      dsimp only at this
      rw [← this, hn]; rfl

/-- After a continued iteration the topology has neighbour lists if it needs them. -/
theorem iterate_lists (cfg : Config n d K) (f : Mat n d K → Except Err (Costs n K)) (r : Draw n d K)
    (iters i : Nat) (q q' : List Bool) (s s' : Opt n d K)
    (h : iterate cfg f r iters i q s = (s', .ok (.continue q'))) :
    drawsChoices cfg false = drawsChoices cfg s'.top.neighbor.isNone := by
  have hcs := iterate_cases cfg f r iters i q s
  rw [h] at hcs
  cases hcs with
  | moved c t g _ hc hg hns hm =>
    have ht : s'.top = t := by
      have := moveSwarm_frame cfg r iters i (recordBest t g (recordEval c s))
      rw [hm] at this
      simp only at this
      obtain ⟨-, -, -, -, -, h6, -⟩ := this
      exact h6
    rw [ht]
    cases hk : cfg.kind with
    | general top =>
      cases top with
      | random st =>
        unfold callGbest computeGbest at hg
        rw [hk] at hg
        dsimp only at hg
        unfold drawsChoices
        cases ha : cfg.args.k with
        | none => simp [hk]
        | some k =>
          rw [ha] at hg
          rw [randomGbest_lists st k _ _ _ _ _ hg]
      | _ => simp [drawsChoices, hk]
    | _ => simp [drawsChoices, hk]

theorem loopG_eq (cfg : Config n d K) (ev : Nat → ObjG n d K G)
    (f : Nat → Mat n d K → Except Err (Costs n K)) (hq : Quiet ev f) (rng : Rng n d K G)
    (ext : Libs n d K) (b : Bool) (g : G) (iters m i : Nat) (q : List Bool) (s : Opt n d K)
    (hb : drawsChoices cfg (genAt cfg rng ext b g i).1 = drawsChoices cfg s.top.neighbor.isNone) :
    (loopG cfg ev rng ext iters m i q (genAt cfg rng ext b g i).2 s).2 =
        loop cfg f (fun t => (batchAt cfg rng ext b g t).draw) iters m i q s ∧
      ((loopG cfg ev rng ext iters m i q (genAt cfg rng ext b g i).2 s).2.2 = .ok () →
        (loop cfg f (fun t => (batchAt cfg rng ext b g t).draw) iters m i q s).1.costHistory.length =
            s.costHistory.length + m ∧
          (loopG cfg ev rng ext iters m i q (genAt cfg rng ext b g i).2 s).1 =
            (genAt cfg rng ext b g (i + m)).2 ∨
        ∃ k < m, (loop cfg f (fun t => (batchAt cfg rng ext b g t).draw) iters m i q
              s).1.costHistory.length = s.costHistory.length + k + 1 ∧
          (loopG cfg ev rng ext iters m i q (genAt cfg rng ext b g i).2 s).1 =
            (batchAt cfg rng ext b g (i + k)).chosen ∧
          ∃ i q s r, (iterate cfg (f i) r iters i q s).2 = .ok .stop) := by
  induction m generalizing i q s with
  | zero => simp [loopG, loop]
  | succ m ih =>
    unfold loopG loop
    obtain ⟨h1, h2, h3⟩ := iterateG_eq cfg (ev i) (f i) (hq i) rng ext (genAt cfg rng ext b g i).1
      iters i q (genAt cfg rng ext b g i).2 s hb
    have hcs := iterate_cases cfg (f i) (batchAt cfg rng ext b g i).draw iters i q s
    have hl := iterate_lists cfg (f i) (batchAt cfg rng ext b g i).draw iters i q
    change _ = iterate cfg (f i) (batchAt cfg rng ext b g i).draw iters i q s at h1
    change _ → _ = (batchAt cfg rng ext b g i).chosen at h3
    generalize iterateG cfg (ev i) rng ext iters i q (genAt cfg rng ext b g i).2 s = R at h1 h2 h3 ⊢
    obtain ⟨g', s', r⟩ := R
    dsimp only at h1 h2 h3
    rw [← h1] at hcs ⊢
    cases r with
    | error e => simp
    | ok fl =>
      cases fl with
      | stop =>
        refine ⟨rfl, fun _ => .inr ⟨0, by omega, ?_, h3 rfl, i, q, s, _, by rw [← h1]⟩⟩
        cases hcs with
        | stop c t best hc hg _ _ => simp [recordBest, recordEval, Opt.populateHistory]
      | «continue» q' =>
        dsimp only
        have hlen : s'.costHistory.length = s.costHistory.length + 1 := by
          cases hcs with
          | moved c t best _ hc hg hns hm =>
            have := (moveSwarm_records cfg (batchAt cfg rng ext b g i).draw iters i
              (recordBest t best (recordEval c s))).cost
            rw [hm] at this
            rw [this]
            simp [recordBest, recordEval, Opt.populateHistory]
        have hg' : g' = (genAt cfg rng ext b g (i + 1)).2 := h2 q' rfl
        obtain ⟨k1, k2⟩ := ih (i + 1) q' s' (hl q' s s' h1.symm)
        rw [hg']
        refine ⟨k1, fun hok => ?_⟩
        rcases k2 hok with ⟨a1, a2⟩ | ⟨k, a0, a1, a2, a3⟩
        · exact .inl ⟨by rw [a1, hlen]; omega, by rw [a2]; congr 2; omega⟩
        · exact .inr ⟨k + 1, by omega, by rw [a1, hlen]; omega, by rw [a2]; congr 2; omega, a3⟩

theorem optimizeG_eq (cfg : Config n d K) (ev : Nat → ObjG n d K G)
    (f : Nat → Mat n d K → Except Err (Costs n K)) (hq : Quiet ev f) (rng : Rng n d K G)
    (ext : Libs n d K) (g : G) (iters : Nat) (nproc : Option Nat) (s : Opt n d K) :
    let b := s.top.neighbor.isNone
    let o := optimizeG cfg ev rng ext iters nproc g s
    o.2 = optimize cfg f iters nproc (fun t => (batchAt cfg rng ext b g t).draw) s ∧
      (∀ v, o.2.2 = .ok v →
        o.2.1.costHistory.length = s.costHistory.length + iters ∧
          o.1 = (genAt cfg rng ext b g iters).2 ∨
        ∃ k < iters, o.2.1.costHistory.length = s.costHistory.length + k + 1 ∧
          o.1 = (batchAt cfg rng ext b g k).chosen ∧
          ∃ i q s r, (iterate cfg (f i) r iters i q s).2 = .ok .stop) := by
  dsimp only
  by_cases hp : nproc = some 0
  · subst hp; simp [optimizeG, optimize]
  · unfold optimizeG optimize
    rw [if_neg hp, if_neg hp]
    dsimp only
    generalize hs0 : ({ prepare cfg s with
      openPools := s.openPools + (if nproc.isSome then 1 else 0) } : Opt n d K) = s0
    have hc0 : s0.costHistory = s.costHistory := by rw [← hs0]; rfl
    have ht0 : s0.top = s.top := by rw [← hs0]; rfl
    obtain ⟨h1, h2⟩ := loopG_eq cfg ev f hq rng ext s.top.neighbor.isNone g iters iters 0 [] s0
      (by rw [ht0]; rfl)
    change (loopG cfg ev rng ext iters iters 0 [] g s0).2 = _ at h1
    change (loopG cfg ev rng ext iters iters 0 [] g s0).2.2 = _ → _ ∧
      (loopG cfg ev rng ext iters iters 0 [] g s0).1 = _ ∨ ∃ k < iters, _ ∧
      (loopG cfg ev rng ext iters iters 0 [] g s0).1 = _ ∧ _ at h2
    rw [← h1] at h2 ⊢
    generalize loopG cfg ev rng ext iters iters 0 [] g s0 = L at h2 ⊢
    obtain ⟨g1, s1, e | ⟨⟩⟩ := L
    · simp
    · dsimp only at h2 ⊢
      cases finish s1 with
      | error e => simp
      | ok r =>
        refine ⟨rfl, fun v _ => ?_⟩
        rw [hc0] at h2
        simpa only [Nat.zero_add] using h2 rfl

theorem sampleFam_all {α : Type} (P : α → Prop) (m : Nat) (next : Fin m → G → α × G)
    (h : ∀ i g, P (next i g).1) (g : G) (i : Fin m) : P ((sampleFam m next g).1 i) := by
  induction m generalizing g with
  | zero => exact i.elim0
  | succ m ih =>
    unfold sampleFam
    refine Fin.cases ?_ (fun i => ?_) i
    · exact h 0 g
    · exact ih (fun i => next i.succ) (fun i g => h i.succ g) _ i

theorem sampleFam_skip {α : Type} (rng : Rng n d K G) (m c : Nat) (next : Fin m → G → α × G)
    (h : ∀ i g, (next i g).2 = rng.skip c g) (g : G) :
    (sampleFam m next g).2 = rng.skip (m * c) g := by
  induction m generalizing g with
  | zero => simp [sampleFam, Rng.skip]
  | succ m ih =>
    unfold sampleFam
    dsimp only
    rw [ih _ (fun i g => h i.succ g), h]
    unfold Rng.skip
    rw [← Function.iterate_add_apply]
    congr 1
    ring

theorem sampleVec_skip (rng : Rng n d K G) (g : G) : (sampleVec rng g).2 = rng.skip d g := by
  have := sampleFam_skip rng d 1 (fun _ => rng.real) (fun _ _ => rfl) g
  rwa [Nat.mul_one] at this

theorem sampleMat_skip (rng : Rng n d K G) (g : G) : (sampleMat rng g).2 = rng.skip (n * d) g :=
  sampleFam_skip rng n d (fun _ => sampleVec rng) (fun _ g => sampleVec_skip rng g) g

theorem Rng.skip_skip (rng : Rng n d K G) (a b : Nat) (g : G) :
    rng.skip b (rng.skip a g) = rng.skip (a + b) g := by
  unfold Rng.skip
  rw [← Function.iterate_add_apply, Nat.add_comm]

theorem drawsChoices_notRandom (cfg : Config n d K) (h : cfg.kind.notRandom) (b : Bool) :
    drawsChoices cfg b = none := by
  unfold drawsChoices
  cases hk : cfg.kind with
  | general top =>
    rw [hk] at h
    cases top with
    | random st => exact h.elim
    | _ => rfl
  | _ => rfl

theorem batch_chosen (cfg : Config n d K) (h : cfg.kind.notRandom) (rng : Rng n d K G)
    (ext : Libs n d K) (b : Bool) (g : G) : (batch cfg rng ext b g).chosen = g := by
  unfold batch
  rw [drawsChoices_notRandom cfg h]

theorem batch_moved (cfg : Config n d K) (h : cfg.kind.notRandom) (rng : Rng n d K G)
    (ext : Libs n d K) (b : Bool) (g : G) :
    (batch cfg rng ext b g).moved = rng.skip cfg.perIteration g := by
  unfold batch Config.perIteration
  rw [drawsChoices_notRandom cfg h]
  dsimp only
  cases cfg.kind <;> dsimp only
  all_goals
    first
    | (by_cases hb : cfg.bounds.isSome ∧ cfg.bhStrategy = "random"
       · simp only [hb.1, hb.2, decide_true, Bool.and_self, if_true, and_self, sampleMat_skip,
          sampleVec_skip, Rng.skip_skip, Nat.add_assoc]
       · have hb' : (cfg.bounds.isSome && decide (cfg.bhStrategy = "random")) = false := by
          simpa using hb
         simp only [hb, hb', if_false, Bool.false_eq_true, sampleMat_skip, Rng.skip_skip,
           Nat.add_assoc, Nat.add_zero])
    | simp only [sampleMat_skip, sampleVec_skip, Rng.skip_skip, Nat.add_assoc]

theorem genAt_skip (cfg : Config n d K) (h : cfg.kind.notRandom) (rng : Rng n d K G)
    (ext : Libs n d K) (b : Bool) (g : G) (t : Nat) :
    (genAt cfg rng ext b g t).2 = rng.skip (t * cfg.perIteration) g := by
  induction t with
  | zero => simp [genAt, Rng.skip]
  | succ t ih =>
    unfold genAt
    dsimp only
    rw [batch_moved cfg h, ih, Rng.skip_skip]
    congr 1
    ring

theorem sampleFam_get {α : Type} (rng : Rng n d K G) (m c : Nat) (next : G → α × G)
    (h : ∀ g, (next g).2 = rng.skip c g) (g : G) (i : Fin m) :
    (sampleFam m (fun _ => next) g).1 i = (next (rng.skip (i * c) g)).1 := by
  induction m generalizing g with
  | zero => exact i.elim0
  | succ m ih =>
    unfold sampleFam
    refine Fin.cases ?_ (fun i => ?_) i
    · simp [Rng.skip]
    · simp only [Fin.cons_succ, Fin.val_succ]
      rw [ih, h, Rng.skip_skip]
      congr 3
      ring

theorem sampleVec_get (rng : Rng n d K G) (g : G) (j : Fin d) :
    (sampleVec rng g).1 j = (rng.real (rng.skip j g)).1 := by
  have := sampleFam_get rng d 1 rng.real (fun _ => rfl) g j
  rwa [Nat.mul_one] at this

theorem sampleMat_get (rng : Rng n d K G) (g : G) (i : Fin n) (j : Fin d) :
    (sampleMat rng g).1 i j = (rng.real (rng.skip (i * d + j) g)).1 := by
  have := sampleFam_get rng n d (sampleVec rng) (sampleVec_skip rng) g i
  unfold sampleMat
  rw [this, sampleVec_get, Rng.skip_skip]

theorem batch_legal [IsStrictOrderedRing K] (cfg : Config n d K) (rng : Rng n d K G)
    (hr : rng.Legal) (ext : Libs n d K) (b : Bool) (g : G) : (batch cfg rng ext b g).draw.Legal := by
  have hv : ∀ g j, Unit01 ((sampleVec rng g).1 j) := fun g j => by rw [sampleVec_get]; exact hr _
  have hm : ∀ g i j, Unit01 ((sampleMat rng g).1 i j) :=
    fun g i j => by rw [sampleMat_get]; exact hr _
  have h0 : Unit01 (0 : K) := ⟨le_rfl, zero_lt_one⟩
  unfold batch
  refine ⟨fun i j => hm _ i j, fun i j => hm _ i j, ?_, fun _ => h0, fun j => hv _ j⟩
  dsimp only
  split
  · exact ⟨fun j => hv _ j, fun j => hv _ j⟩
  · exact ⟨fun j => h0, fun j => h0⟩

/-! ### The theorems -/

/-- C85: the random numbers read by every iteration, and the generator left behind, are determined
by the configuration and the generator before the call.  `env`, `full` and `early` are chosen
before the objective, the number of iterations, the worker count and the optimizer object (only
whether it already has neighbour lists matters).  If the objective does not use the generator, the
call is the call of `optimize` with the numbers `env`; a call that returns has either completed all
iterations, leaving the generator `full iters`, or stopped early in iteration `k`, leaving
`early k`. -/
theorem C85_same_numbers [IsStrictOrderedRing K] (cfg : Config n d K) (rng : Rng n d K G)
    (ext : Libs n d K) (noLists : Bool) (g : G) :
    ∃ (env : Nat → Draw n d K) (full early : Nat → G),
      (rng.Legal → ∀ t, (env t).Legal) ∧
      ∀ (ev : Nat → ObjG n d K G) (f : Nat → Mat n d K → Except Err (Costs n K)), Quiet ev f →
      ∀ (iters : Nat) (nproc : Option Nat) (s : Opt n d K), s.top.neighbor.isNone = noLists →
        ∀ (g' : G) (s' : Opt n d K) (r : Except Err (XR K × Vec d K)),
          optimizeG cfg ev rng ext iters nproc g s = (g', s', r) →
          optimize cfg f iters nproc env s = (s', r) ∧
          ∀ v, r = .ok v →
            s'.costHistory.length = s.costHistory.length + iters ∧ g' = full iters ∨
            ∃ k < iters, s'.costHistory.length = s.costHistory.length + k + 1 ∧ g' = early k := by
  refine ⟨fun t => (batchAt cfg rng ext noLists g t).draw,
    fun t => (genAt cfg rng ext noLists g t).2, fun t => (batchAt cfg rng ext noLists g t).chosen,
    fun hr t => batch_legal cfg rng hr ext _ _, ?_⟩
  intro ev f hq iters nproc s hs g' s' r h
  obtain ⟨h1, h2⟩ := optimizeG_eq cfg ev f hq rng ext g iters nproc s
  rw [h, hs] at h1 h2
  refine ⟨h1.symm, fun v hv => ?_⟩
  rcases h2 v hv with a | ⟨k, a, b, c, -⟩
  · exact .inl a
  · exact .inr ⟨k, a, b, c⟩

/-- C85: except for the Random topology, iteration `t` reads exactly `perIteration` consecutive
doubles, starting `t * perIteration` doubles after the state before the call: first the matrix
`r1`, then `r2`, row by row, then (BinaryPSO) the thresholds or (strategy `random`) the two vectors
of the boundary handler.  A call that returns after `k` complete iterations leaves the generator
`k * perIteration` doubles further. -/
theorem C85_consumption (cfg : Config n d K) (hk : cfg.kind.notRandom) (rng : Rng n d K G)
    (ext : Libs n d K) (g : G) :
    ∃ env : Nat → Draw n d K,
      (∀ t i j, (env t).r1 i j =
          (rng.real (rng.skip (t * cfg.perIteration + (i * d + j)) g)).1 ∧
        (env t).r2 i j =
          (rng.real (rng.skip (t * cfg.perIteration + n * d + (i * d + j)) g)).1) ∧
      (∀ t j, (env t).thr j =
          (rng.real (rng.skip (t * cfg.perIteration + (n * d + n * d) + j) g)).1) ∧
      (cfg.bounds.isSome ∧ cfg.bhStrategy = "random" → ∀ t j,
        (env t).bh.u j =
          (rng.real (rng.skip (t * cfg.perIteration + (n * d + n * d) + j) g)).1 ∧
        (env t).bh.l j =
          (rng.real (rng.skip (t * cfg.perIteration + (n * d + n * d) + d + j) g)).1) ∧
      ∀ (ev : Nat → ObjG n d K G) (f : Nat → Mat n d K → Except Err (Costs n K)), Quiet ev f →
      ∀ (iters : Nat) (nproc : Option Nat) (s : Opt n d K)
        (g' : G) (s' : Opt n d K) (r : Except Err (XR K × Vec d K)),
          optimizeG cfg ev rng ext iters nproc g s = (g', s', r) →
          optimize cfg f iters nproc env s = (s', r) ∧
          ∀ v, r = .ok v → ∃ k ≤ iters, g' = rng.skip (k * cfg.perIteration) g ∧
            (k = iters ∧ s'.costHistory.length = s.costHistory.length + k ∨
              k < iters ∧ s'.costHistory.length = s.costHistory.length + k + 1) := by
  have hb : ∀ b t, batchAt cfg rng ext b g t = batchAt cfg rng ext false g t := by
    intro b t
    unfold batchAt
    rw [genAt_skip cfg hk, genAt_skip cfg hk]
    unfold batch
    rw [drawsChoices_notRandom cfg hk, drawsChoices_notRandom cfg hk]
  have hd : ∀ t, batchAt cfg rng ext false g t =
      batch cfg rng ext false (rng.skip (t * cfg.perIteration) g) := by
    intro t
    rw [← hb true t]
    unfold batchAt
    rw [genAt_skip cfg hk]
    unfold batch
    rw [drawsChoices_notRandom cfg hk, drawsChoices_notRandom cfg hk]
  refine ⟨fun t => (batchAt cfg rng ext false g t).draw, fun t i j => ?_, fun t j => ?_,
    fun hbr t j => ?_, ?_⟩
  · dsimp only
    rw [hd]
    unfold batch
    rw [drawsChoices_notRandom cfg hk]
    dsimp only
    constructor
    · rw [sampleMat_get, Rng.skip_skip]
    · rw [sampleMat_get, sampleMat_skip, Rng.skip_skip, Rng.skip_skip, Nat.add_assoc]
  · dsimp only
    rw [hd]
    unfold batch
    rw [drawsChoices_notRandom cfg hk]
    dsimp only
    simp only [sampleVec_get, sampleMat_skip, Rng.skip_skip, Nat.add_assoc]
  · dsimp only
    rw [hd]
    unfold batch
    rw [drawsChoices_notRandom cfg hk]
    simp only [hbr.1, hbr.2, decide_true, Bool.and_self, if_true]
    simp only [sampleVec_get, sampleVec_skip, sampleMat_skip, Rng.skip_skip, Nat.add_assoc,
      and_self]
  · intro ev f hq iters nproc s g' s' r h
    obtain ⟨h1, h2⟩ := optimizeG_eq cfg ev f hq rng ext g iters nproc s
    rw [h] at h1 h2
    simp only [hb] at h1 h2
    refine ⟨h1.symm, fun v hv => ?_⟩
    rcases h2 v hv with ⟨a, b⟩ | ⟨k, a, b, c, -⟩
    · exact ⟨iters, le_rfl, by rw [← genAt_skip cfg hk rng ext]; exact b, .inl ⟨rfl, a⟩⟩
    · refine ⟨k, a.le, ?_, .inr ⟨a, b⟩⟩
      rw [hd, batch_chosen cfg hk] at c
      exact c

/-- C85: without early stopping, two calls with different objectives (from generators in the same
state, on optimizers of the same configuration) that both return leave the generator in the same
state. -/
theorem C85_common_numbers [IsStrictOrderedRing K] (cfg : Config n d K) (hw : 0 < cfg.window)
    (hf : ∀ a, cfg.ftol = XR.fin a → a ≤ 0) (hp : cfg.ftol ≠ XR.pinf) (rng : Rng n d K G)
    (ext : Libs n d K) (g : G) (ev ev' : Nat → ObjG n d K G)
    (f f' : Nat → Mat n d K → Except Err (Costs n K)) (hq : Quiet ev f) (hq' : Quiet ev' f')
    (iters : Nat) (nproc nproc' : Option Nat) (s s' : Opt n d K)
    (hs : s.top.neighbor.isNone = s'.top.neighbor.isNone) (v v' : XR K × Vec d K)
    (h : (optimizeG cfg ev rng ext iters nproc g s).2.2 = .ok v)
    (h' : (optimizeG cfg ev' rng ext iters nproc' g s').2.2 = .ok v') :
    (optimizeG cfg ev rng ext iters nproc g s).1 =
      (optimizeG cfg ev' rng ext iters nproc' g s').1 := by
  have one : ∀ (ev : Nat → ObjG n d K G) (f : Nat → Mat n d K → Except Err (Costs n K)),
      Quiet ev f → ∀ (nproc : Option Nat) (s0 : Opt n d K) (v : XR K × Vec d K),
      s0.top.neighbor.isNone = s.top.neighbor.isNone →
      (optimizeG cfg ev rng ext iters nproc g s0).2.2 = .ok v →
      (optimizeG cfg ev rng ext iters nproc g s0).1 =
        (genAt cfg rng ext s.top.neighbor.isNone g iters).2 := by
    intro ev f hq nproc s0 v h0 h
    obtain ⟨-, k2⟩ := optimizeG_eq cfg ev f hq rng ext g iters nproc s0
    rw [h0] at k2
    rcases k2 v h with ⟨-, b⟩ | ⟨k, a, b, -, i, q, s1, r, hst⟩
    · exact b
    · exfalso
      have hcs := iterate_cases cfg (f i) r iters i q s1
      rw [hst] at hcs
      generalize (iterate cfg (f i) r iters i q s1).1 = s2 at hcs
      cases hcs with
      | stop c t best hc hg h1 h2 =>
        have : ftolDelta cfg.ftol (recordBest t best (recordEval c s1)).swarm.bestCostVal
            s1.swarm.bestCostVal = false := Bool.eq_false_iff.2 (not_small hf hp _ _)
        rw [this, dequeAppend_false _ hw] at h2
        cases h2
  rw [one ev f hq nproc s v rfl h, one ev' f' hq' nproc' s' v' hs.symm h']

/-- C85: after `np.random.seed(…)`, asking for more iterations only continues the run (the seeded
form of C79). -/
theorem C85_seeded_prefix [IsStrictOrderedRing K] (cfg : Config n d K) (hcfg : cfg.ConstOptions)
    (rng : Rng n d K G) (ext : Libs n d K) (g : G) (ev : Nat → ObjG n d K G)
    (f : Nat → Mat n d K → Except Err (Costs n K)) (hq : Quiet ev f) (k m : Nat) (hkm : k ≤ m)
    (nproc : Option Nat) (s : Opt n d K) :
    RecordsPrefix (optimizeG cfg ev rng ext k nproc g s).2.1
      (optimizeG cfg ev rng ext m nproc g s).2.1 := by
  obtain ⟨env, full, early, -, key⟩ := C85_same_numbers cfg rng ext s.top.neighbor.isNone g
  have h1 := (key ev f hq k nproc s rfl _ _ _ rfl).1
  have h2 := (key ev f hq m nproc s rfl _ _ _ rfl).1
  have := C79_prefix cfg hcfg f k m hkm nproc env s
  rwa [h1, h2] at this

/-- C85: after `np.random.seed(…)`, early stopping only truncates the run (the seeded form of
C80). -/
theorem C85_seeded_truncation [IsStrictOrderedRing K] (cfg : Config n d K)
    (hcfg : cfg.ConstOptions) (hw : 0 < cfg.window)
    (rng : Rng n d K G) (ext : Libs n d K) (g : G) (ev : Nat → ObjG n d K G)
    (f : Nat → Mat n d K → Except Err (Costs n K)) (hq : Quiet ev f) (iters : Nat)
    (nproc : Option Nat) (s : Opt n d K) (v : XR K × Vec d K)
    (h : (optimizeG cfg ev rng ext iters nproc g s).2.2 = .ok v) :
    RecordsPrefix (optimizeG cfg ev rng ext iters nproc g s).2.1
      (optimizeG { cfg with ftol := XR.ninf } ev rng ext iters nproc g s).2.1 := by
  have h1 := (optimizeG_eq cfg ev f hq rng ext g iters nproc s).1
  have h2 := (optimizeG_eq { cfg with ftol := XR.ninf } ev f hq rng ext g iters nproc s).1
  have he : ∀ t, batchAt { cfg with ftol := XR.ninf } rng ext s.top.neighbor.isNone g t =
      batchAt cfg rng ext s.top.neighbor.isNone g t := by
    have hg : ∀ t, genAt { cfg with ftol := XR.ninf } rng ext s.top.neighbor.isNone g t =
        genAt cfg rng ext s.top.neighbor.isNone g t := by
      intro t
      induction t with
      | zero => rfl
      | succ t ih => unfold genAt; rw [ih]; rfl
    intro t
    unfold batchAt
    rw [hg]
    rfl
  simp only [he] at h2
  rw [h2]
  have := C80_prefix cfg hcfg hw f iters nproc _ s _ v (h1.symm.trans (Prod.ext rfl h))
  exact this

/-! ### Constructors -/

theorem resetSwarmG_ok (cfg : Config n d K) (hk : cfg.isBinary = false) (rng : Rng n d K G)
    (g g' : G) (sw : Swarm n d K) (h : resetSwarmG cfg rng g = (g', .ok sw)) :
    let p := if cfg.initPos.isNone then n * d else 0
    g' = rng.skip (p + n * d) g ∧
      resetSwarm cfg ⟨(sampleMat rng g).1, fun _ _ => false, fun _ j => j,
        (sampleMat rng (rng.skip p g)).1⟩ = .ok sw := by
  unfold resetSwarmG at h
  unfold resetSwarm createSwarm
  rw [hk] at h ⊢
  dsimp only at h ⊢
  simp only [Bool.false_eq_true, if_false] at h ⊢
  cases hp : cfg.initPos with
  | none =>
    rw [hp] at h
    dsimp only at h
    simp only [Option.isNone_none, if_true]
    rw [sampleMat_skip] at h
    cases hg : generateSwarm cfg.bounds cfg.center none (sampleMat rng g).1 with
    | error e => rw [hg] at h; cases h
    | ok x =>
      rw [hg] at h
      simp only [Prod.mk.injEq] at h
      exact ⟨by rw [← h.1, sampleMat_skip, Rng.skip_skip], h.2⟩
  | some q =>
    rw [hp] at h
    dsimp only at h
    simp only [Option.isNone_some, Bool.false_eq_true, if_false]
    have he : generateSwarm cfg.bounds cfg.center (some q) (sampleMat rng g).1 =
      generateSwarm cfg.bounds cfg.center (some q) (fun _ _ => 0) := by
      unfold generateSwarm
      cases cfg.bounds <;> rfl
    rw [he]
    cases hg : generateSwarm cfg.bounds cfg.center (some q) (fun _ _ => 0) with
    | error e => rw [hg] at h; cases h
    | ok x =>
      rw [hg] at h
      simp only [Prod.mk.injEq] at h
      exact ⟨by rw [← h.1, sampleMat_skip, Nat.zero_add], h.2⟩

/-- C85: the constructor of a continuous optimizer that succeeds has created two swarms, each
reading `n d` doubles for the positions (none if `init_pos` is given) and `n d` for the
velocities; the optimizer starts from the second one. -/
theorem C85_construct (cfg : Config n d K) (hk : cfg.isBinary = false) (rng : Rng n d K G) (g g' : G)
    (s : Opt n d K) (h : constructG cfg rng g = (g', .ok s)) :
    let p := if cfg.initPos.isNone then n * d else 0
    g' = rng.skip (p + n * d + (p + n * d)) g ∧
      ∃ r1 r2 : InitDraw n d K, construct cfg r1 r2 = .ok s ∧
        (∀ i j, cfg.initPos = none → r2.pos i j =
          (rng.real (rng.skip (p + n * d + (i * d + j)) g)).1) ∧
        ∀ i j, r2.vel i j = (rng.real (rng.skip (p + n * d + p + (i * d + j)) g)).1 := by
  dsimp only
  unfold constructG at h
  split at h
  · cases h
  · next hkp =>
    split at h
    · cases h
    · next hft =>
      split at h
      · cases h
      · next g1 sw1 h1 =>
        split at h
        · cases h
        · next g2 sw2 h2 =>
          simp only [Prod.mk.injEq, Except.ok.injEq] at h
          obtain ⟨a1, a2⟩ := resetSwarmG_ok cfg hk rng g g1 sw1 h1
          obtain ⟨b1, b2⟩ := resetSwarmG_ok cfg hk rng g1 g2 sw2 h2
          subst a1
          have hcon : ∀ r1 r2, resetSwarm cfg r1 = .ok sw1 → resetSwarm cfg r2 = .ok sw2 →
              construct cfg r1 r2 = .ok s := by
            intro r1 r2 k1 k2
            unfold construct
            rw [if_neg hkp, hft]
            dsimp only
            rw [k1]
            dsimp only
            rw [k2, ← h.2]
          refine ⟨by rw [← h.1, b1, Rng.skip_skip], _, _, hcon _ _ a2 b2, fun i j _ => ?_,
            fun i j => ?_⟩
          · dsimp only
            rw [sampleMat_get, Rng.skip_skip]
          · dsimp only
            rw [sampleMat_get, Rng.skip_skip, Rng.skip_skip]
            simp only [Nat.add_assoc]

/-! ### Examples -/

namespace Ex

/-- A generator whose state counts the doubles read; double number `m` is `(m mod 4) / 4`. -/
def counter (n d : Nat) : Rng n d ℚ Nat where
  real := fun m => (((m % 4 : Nat) : ℚ) / 4, m + 1)
  bits := fun m => (fun _ _ => m % 2 = 0, m + 1)
  choice := fun k i m => (((List.finRange n).filter (· ≠ i)).take k, m + 1)

def libs (n d : Nat) : Libs n d ℚ := ⟨(draw n d).oracle.knn, (draw n d).oracle.delaunay, 8⟩

theorem counter_legal (n d : Nat) : (counter n d).Legal := by
  intro g
  have h : g % 4 < 4 := Nat.mod_lt _ (by norm_num)
  have h' : ((g % 4 : Nat) : ℚ) < 4 := by exact_mod_cast h
  refine ⟨?_, ?_⟩
  · show 0 ≤ ((g % 4 : Nat) : ℚ) / 4
    positivity
  · show ((g % 4 : Nat) : ℚ) / 4 < 1
    rw [div_lt_one (by norm_num)]; exact h'

/-- The sphere function as an objective that leaves the generator alone. -/
def quietSphere (n d : Nat) : Nat → ObjG n d ℚ Nat := fun i x g => (g, sphere n d i x)

/-- The same costs, but the objective reads one double at every call. -/
def loudSphere (n d : Nat) : Nat → ObjG n d ℚ Nat := fun i x g => (g + 1, sphere n d i x)

theorem quietSphere_quiet (n d : Nat) : Quiet (quietSphere n d) (sphere n d) := fun _ _ _ => rfl

end Ex

theorem ok_and_of_check {α : Type} {r : Except Err α} {P : Prop} (h : r.isOk = true) (hp : P) :
    ∃ v, r = .ok v ∧ P := by
  cases r with
  | error e => cases h
  | ok v => exact ⟨v, rfl, hp⟩

/-- The hypotheses are met, and the consumption is what the theorem says: two particles in two
dimensions read `2 * 2 * 2 = 8` doubles per iteration. -/
example : (Ex.gcfg 2 2).perIteration = 8 ∧ (Ex.gcfg 2 2).kind.notRandom ∧
    (Ex.gcfg 2 2).isBinary = false ∧ (Ex.counter 2 2).Legal ∧
    (∃ s, constructG (Ex.gcfg 2 2) (Ex.counter 2 2) 0 = (16, .ok s) ∧
      ∃ v, (optimizeG (Ex.gcfg 2 2) (Ex.quietSphere 2 2) (Ex.counter 2 2) (Ex.libs 2 2) 3 none 16
          s).2.2 = .ok v ∧
        (optimizeG (Ex.gcfg 2 2) (Ex.quietSphere 2 2) (Ex.counter 2 2) (Ex.libs 2 2) 3 none 16
          s).1 = 40) := by
  refine ⟨by decide, trivial, by decide, Ex.counter_legal 2 2, ?_⟩
  have hc : ∃ s, constructG (Ex.gcfg 2 2) (Ex.counter 2 2) 0 = (16, .ok s) := ⟨_, rfl⟩
  obtain ⟨s, hc⟩ := hc
  refine ⟨s, hc, ?_⟩
  cases hc
  exact ok_and_of_check (by decide +kernel) (by decide +kernel)

/-- C85: that the objective leaves the generator alone is needed.  An objective that reads one double at every call, and otherwise
returns the same costs, gives another run. -/
theorem C85_loud_objective : ∃ s : Opt 2 1 ℚ, constructG (Ex.gcfg 2 1) (Ex.counter 2 1) 0 = (8, .ok s) ∧
    (optimizeG (Ex.gcfg 2 1) (Ex.quietSphere 2 1) (Ex.counter 2 1) (Ex.libs 2 1) 2 none 8
        s).2.1.swarm.position 0 0 ≠
      (optimizeG (Ex.gcfg 2 1) (Ex.loudSphere 2 1) (Ex.counter 2 1) (Ex.libs 2 1) 2 none 8
        s).2.1.swarm.position 0 0 := by
  have hc : ∃ s, constructG (Ex.gcfg 2 1) (Ex.counter 2 1) 0 = (8, .ok s) := ⟨_, rfl⟩
  obtain ⟨s, hc⟩ := hc
  refine ⟨s, hc, ?_⟩
  cases hc
  decide +kernel

end PySwarms

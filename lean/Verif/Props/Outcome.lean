import Verif.Props.Moves
import Verif.Props.Topology

/-!
# When calls fail and when they return (C32, C58)
-/

set_option linter.unusedSectionVars false

namespace PySwarms

variable {n d : Nat} {K : Type} [Field K] [LinearOrder K] [IsStrictOrderedRing K] [Transc K]
  [FloorRing K]

/-! ## C32 -/

/-- C32: on an optimizer just constructed or reset, `optimize(iters=0)` raises `AttributeError`, for
every class. -/
theorem C32_no_iterations (cfg : Config n d K) (s : Opt n d K) (hf : Fresh cfg s)
    (ev : Nat → Mat n d K → Except Err (Costs n K)) (nproc : Option Nat) (hp : nproc ≠ some 0)
    (env : Nat → Draw n d K) : (optimize cfg ev 0 nproc env s).2 = .error .attributeError := by
  obtain ⟨r, sw, t, a, b, p, hsw, rfl⟩ := fresh_cases cfg s hf
  have hb := (fresh_reachable_init cfg r sw hsw).2.1
  unfold optimize
  rw [if_neg hp]
  simp only [loop, prepare, finish, hb]

/-- With Star, no personal best below `+inf` and no earlier best, the best position stays unset. -/
theorem star_unset (cfg : Config n d K) (hk : cfg.kind.isStar) (o : Oracle n d K) (t t' : TopState n)
    (sw : Swarm n d K) (g : GBest n d K) (hpb : ∀ i, sw.pbestCost i = XR.pinf)
    (hb : sw.bestCost = none) (hbp : sw.bestPos = .empty)
    (h : callGbest cfg o t sw = (t', .ok g)) : g = (.empty, none) := by
  rw [callGbest_star cfg hk] at h
  unfold starGbest at h
  dsimp only at h
  split at h
  · cases h
  · next i hi =>
    have : XR.lt (sw.pbestCost i) sw.bestCostVal = false := by
      rw [hpb i]; exact XR.not_pinf_lt _
    simp only [this, Bool.false_eq_true, if_false, hb, hbp] at h
    cases h
    rfl

theorem recordEval_all_inf (cfg : Config n d K) (nproc : Option Nat) (s : Opt n d K)
    (c : Costs n K) (hc : ∀ i, c i = XR.nan ∨ c i = XR.pinf) (i : Fin n) :
    (recordEval c (startState cfg nproc s)).swarm.pbestCost i = XR.pinf := by
  rw [recordEval_pbestCost]
  have : (startState cfg nproc s).swarm.pbestCost i = XR.pinf := rfl
  rw [this]
  rcases hc i with h | h
  · rw [h]; split <;> simp_all [XR.lt]
  · rw [h]; simp

/-- C32: an optimizer with the Star topology, just constructed or reset, in a problem of dimension
at least 2, never returns from `optimize` if the first evaluation contains no cost below `+inf`; the
exception is a `ValueError` if the options contain `c1`, `c2`, `w` and are not scheduled. -/
theorem C32_star_all_inf (cfg : Config n d K) (hk : cfg.kind.isStar) (hn : 0 < n) (hd : 2 ≤ d)
    (s : Opt n d K) (hf : Fresh cfg s) (hr : Reachable cfg s)
    (ev : Nat → Mat n d K → Except Err (Costs n K)) (iters : Nat) (hit : 1 ≤ iters)
    (nproc : Option Nat) (env : Nat → Draw n d K) (c : Costs n K)
    (h : ev 0 s.swarm.position = .ok c) (hc : ∀ i, c i = XR.nan ∨ c i = XR.pinf) :
    (∀ v, (optimize cfg ev iters nproc env s).2 ≠ .ok v) ∧
    (cfg.ohStrategy = [] → (∀ key ∈ ["c1", "c2", "w"], ∃ v, (key, v) ∈ cfg.options) →
      (optimize cfg ev iters nproc env s).2 = .error .valueError) := by
  have hinit : s.swarm.bestCost = none ∧ s.swarm.bestPos = .empty := by
    obtain ⟨r, sw, t, a, b, p, hsw, rfl⟩ := fresh_cases cfg s hf
    have := fresh_reachable_init cfg r sw hsw
    exact ⟨this.2.1, this.2.2.1⟩
  have hkb : cfg.kind ≠ .binary := by
    intro hb; rw [hb] at hk; exact hk
  have hgb : ∀ t g, callGbest cfg (env 0).oracle s.top
      (recordEval c (startState cfg nproc s)).swarm = (t, .ok g) → g = (.empty, none) := by
    intro t g hg
    exact star_unset cfg hk _ _ _ _ _ (recordEval_all_inf cfg nproc s c hc) hinit.1 hinit.2 hg
  have hvel : ∀ (sw : Swarm n d K) (o : Opts K) mem, sw.bestPos = .empty →
      ∃ m e, computeVelocity { sw with options := o } cfg.clamp cfg.vhStrategy mem (velBounds cfg)
        (env 0).r1 (env 0).r2 = (m, .error e) ∧
        (∀ c1 c2 w, o.lookup "c1" = some c1 → o.lookup "c2" = some c2 → o.lookup "w" = some w →
          e = .valueError) := by
    intro sw o mem hemp
    unfold computeVelocity
    dsimp only
    split
    · rw [hemp]
      dsimp only
      rw [if_neg (by omega), if_neg (by omega)]
      exact ⟨_, _, rfl, fun _ _ _ _ _ _ => rfl⟩
    · next hno =>
      refine ⟨_, _, rfl, fun c1 c2 w h1 h2 h3 => ?_⟩
      exact (hno c1 c2 w h1 h2 h3).elim
  constructor
  · apply optimize_first_not_ok cfg (reachable_window hr) ev iters hit nproc env s
    intro c' t g hc' hg
    rw [h] at hc'
    cases hc'
    obtain rfl := hgb t g hg
    unfold moveSwarm
    split
    · exact ⟨_, _, rfl⟩
    · next o ho =>
      obtain ⟨m, e, hv, -⟩ := hvel (recordBest t (.empty, none)
        (recordEval c (startState cfg nproc s))).swarm o (recordBest t (.empty, none)
        (recordEval c (startState cfg nproc s))).vhMem rfl
      dsimp only
      rw [hv]
      exact ⟨_, _, rfl⟩
  · intro hoh hkeys
    by_cases hp : nproc = some 0
    · unfold optimize; rw [if_pos hp]
    have hex : ∃ t g, callGbest cfg (env 0).oracle s.top
        (recordEval c (startState cfg nproc s)).swarm = (t, .ok g) := by
      rw [callGbest_star cfg hk]
      obtain ⟨t', k, -, -, -, ⟨-, h⟩ | ⟨-, h⟩⟩ := starGbest_spec hn s.top
        (recordEval c (startState cfg nproc s)).swarm
        (fun i => by rw [recordEval_all_inf cfg nproc s c hc i]; simp)
      · exact ⟨_, _, h⟩
      · exact ⟨_, _, h⟩
    obtain ⟨t, g, hg⟩ := hex
    obtain rfl := hgb t g hg
    have ho : ∀ sw, callOptions cfg iters 0 (env 0) sw = .ok cfg.options := by
      intro sw
      unfold callOptions ohCall
      rw [hoh]
      cases hkk : cfg.kind <;> first
        | exact absurd hkk hkb
        | rfl
    have hl : ∀ key ∈ ["c1", "c2", "w"], ∃ v, cfg.options.lookup key = some v := by
      intro key hkey
      obtain ⟨v, hv⟩ := hkeys key hkey
      have : (cfg.options.lookup key).isSome := by
        rw [lookup_isSome_iff, List.mem_map]; exact ⟨_, hv, rfl⟩
      exact Option.isSome_iff_exists.1 this
    obtain ⟨c1, h1⟩ := hl "c1" (by simp)
    obtain ⟨c2, h2⟩ := hl "c2" (by simp)
    obtain ⟨w, h3⟩ := hl "w" (by simp)
    have hm : ∃ s', moveSwarm cfg (env 0) iters 0 (recordBest t (.empty, none)
        (recordEval c (startState cfg nproc s))) = (s', .error .valueError) := by
      unfold moveSwarm
      rw [ho]
      obtain ⟨m, e, hv, he⟩ := hvel (recordBest t (.empty, none)
        (recordEval c (startState cfg nproc s))).swarm cfg.options (recordBest t (.empty, none)
        (recordEval c (startState cfg nproc s))).vhMem rfl
      dsimp only
      rw [hv, he c1 c2 w h1 h2 h3]
      exact ⟨_, rfl⟩
    obtain ⟨s', hm⟩ := hm
    rw [optimize_first_error cfg (reachable_window hr) ev iters hit nproc hp env s c t _ s' _ h hg
      hm]

/-- Non-vacuity of C32. -/
example : (match construct (Ex.gcfg 2 2) (Ex.init 2 2) (Ex.init 2 2) with
    | .ok s => match optimize (Ex.gcfg 2 2) (fun _ _ => .ok fun _ => .pinf) 3 none
        (fun _ => Ex.draw 2 2) s with
      | (_, .error e) => decide (e = .valueError)
      | _ => false
    | _ => false) = true := by decide +kernel

/-! ## C58 -/

/-- The topology of the configuration is usable and external libraries answer: `k`, `p` in range and
non-empty neighbour lists. -/
def TopologyWorks (cfg : Config n d K) (o : Oracle n d K) : Prop :=
  match cfg.kind.top with
  | .star => True
  | .ring false => ∃ k p, cfg.args.k = some k ∧ cfg.args.p = some p ∧ 1 ≤ k ∧ k ≤ n ∧ p ≠ 0 ∧
      ∀ x i, o.knn k p x i ≠ []
  | .random false => ∃ k, cfg.args.k = some k ∧ k < n
  | .pyramid false => n < d + 1 ∨ ∀ x, ∃ nbr, o.delaunay x = .ok nbr ∧ ∀ i, nbr i ≠ []
  | _ => False

/-- The velocity strategy is usable: `invert` and `zero` need bounds. -/
def VelocityWorks (cfg : Config n d K) : Prop :=
  cfg.vhStrategy ∈ ["unmodified", "adjust"] ∨
    (cfg.vhStrategy ∈ ["invert", "zero"] ∧ cfg.kind ≠ .binary ∧ cfg.bounds ≠ none)

/-- The boundary strategy is usable: it is not needed, or it is one of the four that cannot fail. -/
def BoundaryWorks (cfg : Config n d K) : Prop :=
  cfg.kind = .binary ∨ cfg.bounds = none ∨ ∃ b, cfg.bounds = some b ∧ ProperBounds b ∧
    cfg.bhStrategy ∈ ["nearest", "random", "intermediate", "periodic"]

theorem nbrBest_works (hn : 0 < n) (nbr : Fin n → List (Fin n)) (s : Swarm n d K)
    (h : ∀ i, nbr i ≠ []) : ∃ rows c, nbrBest nbr s = .ok (.perParticle rows, some c) := by
  unfold nbrBest
  rw [if_neg]
  · unfold gatherBest
    split
    · next hm => unfold npMin at hm; rw [Option.map_eq_none_iff, npArgmin_none] at hm; omega
    · exact ⟨_, _, rfl⟩
  · rw [Bool.not_eq_true, List.any_eq_false]
    intro i _ hne
    rw [Option.isNone_iff_eq_none] at hne
    exact h i ((argminOver_eq_none_iff _ _).1 hne)

theorem gatherBest_ok (hn : 0 < n) (bn : Fin n → Fin n) (s : Swarm n d K) :
    ∃ rows c, gatherBest bn s = .ok (.perParticle rows, some c) := by
  unfold gatherBest
  split
  · next hm => unfold npMin at hm; rw [Option.map_eq_none_iff, npArgmin_none] at hm; omega
  · exact ⟨_, _, rfl⟩

theorem callGbest_works (hn : 0 < n) (cfg : Config n d K) (o : Oracle n d K)
    (ht : TopologyWorks cfg o) (hk : ¬ cfg.kind.isStar) (t : TopState n) (s : Swarm n d K) :
    ∃ t' b c, callGbest cfg o t s = (t', .ok (b, some c)) ∧ b ≠ .empty := by
  have hring : ∀ k p, 1 ≤ k → k ≤ n → p ≠ 0 → (∀ x i, o.knn k p x i ≠ []) →
      ∃ t' b c, ringGbest false k p o t s = (t', .ok (b, some c)) ∧ b ≠ .empty := by
    intro k p hk1 hk2 hp hne
    have h0 : ¬ (k = 0 ∨ p = 0) := by omega
    have h1 : ¬ (k > n ∧ k ≠ 1) := by omega
    simp only [ringGbest, ringQuery, Bool.not_false, Bool.or_true, if_true, h0, h1, if_false]
    by_cases hk1 : k = 1
    · simp only [hk1, if_true]
      rw [if_neg (by decide)]
      obtain ⟨rows, c, h⟩ := gatherBest_ok hn (fun i => i) s
      exact ⟨_, _, c, by rw [h], by simp⟩
    · simp only [hk1, if_false]
      obtain ⟨rows, c, h⟩ := nbrBest_works hn (o.knn k p s.position) s (hne _)
      exact ⟨_, _, c, by rw [h], by simp⟩
  have hgen : ∀ top, (match top with
      | .star => False
      | .ring false => ∃ k p, cfg.args.k = some k ∧ cfg.args.p = some p ∧ 1 ≤ k ∧ k ≤ n ∧ p ≠ 0 ∧
          ∀ x i, o.knn k p x i ≠ []
      | .random false => ∃ k, cfg.args.k = some k ∧ k < n
      | .pyramid false => n < d + 1 ∨ ∀ x, ∃ nbr, o.delaunay x = .ok nbr ∧ ∀ i, nbr i ≠ []
      | _ => False : Prop) →
      ∃ t' b c, computeGbest top cfg.args o t s = (t', .ok (b, some c)) ∧ b ≠ .empty := by
    intro top h
    split at h
    · exact h.elim
    · obtain ⟨k, p, h1, h2, h3, h4, h5, h6⟩ := h
      simp only [computeGbest, h1, h2]
      exact hring k p h3 h4 h5 h6
    · obtain ⟨k, h1, h2⟩ := h
      obtain ⟨t', g, nbr, h3, -⟩ := C10_random_graph hn false k h2 o t (Or.inl rfl) s
      have h4 : randomGbest false k o t s = (t', .ok g) := by simpa only [computeGbest] using h3
      simp only [computeGbest, h1]
      obtain ⟨-, nbr, -, hb⟩ := randomGbest_cases h4
      rw [h4]
      unfold nbrBest gatherBest at hb
      split at hb
      · cases hb
      · split at hb
        · cases hb
        · cases hb; exact ⟨_, _, _, rfl, by simp⟩
    · simp only [computeGbest, pyramidGbest]
      by_cases hnd : n < d + 1
      · simp only [hnd, if_true]
        cases hm : npArgmin s.pbestCost with
        | none => rw [npArgmin_none] at hm; omega
        | some i => exact ⟨_, _, _, rfl, by simp⟩
      · rcases h with h | h
        · exact absurd h hnd
        · obtain ⟨nbr, h1, h2⟩ := h s.position
          simp only [hnd, if_false, Bool.not_false, Bool.or_true, if_true, h1]
          obtain ⟨rows, c, h⟩ := nbrBest_works hn nbr s h2
          exact ⟨_, _, c, by rw [h], by simp⟩
    · exact h.elim
  unfold TopologyWorks at ht
  unfold callGbest
  rcases hkk : cfg.kind with _ | st | top | _ <;> rw [hkk] at hk ht <;>
    simp only [Kind.isStar, Kind.top, not_true_eq_false] at hk ht ⊢
  · cases st
    · obtain ⟨k, p, h1, h2, h3, h4, h5, h6⟩ := ht
      simp only [computeGbest, h1, h2]
      exact hring k p h3 h4 h5 h6
    · exact ht.elim
  · apply hgen
    revert ht hk
    rcases top with _ | (_ | _) | _ | (_ | _) | (_ | _) <;> simp [Kind.isStar]
  · obtain ⟨k, p, h1, h2, h3, h4, h5, h6⟩ := ht
    simp only [computeGbest, h1, h2]
    exact hring k p h3 h4 h5 h6

/-- What a run keeps true while nothing has failed. -/
structure Healthy (cfg : Config n d K) (s : Opt n d K) : Prop where
  keys : s.swarm.options.map Prod.fst = cfg.options.map Prod.fst
  unset : s.swarm.bestPos = .empty → s.swarm.bestCost = none
  pb : ∀ i, s.swarm.pbestCost i ≠ XR.nan

theorem reachable_healthy (hn : 0 < n) (cfg : Config n d K) (s : Opt n d K) (h : Reachable cfg s) :
    (s.swarm.bestCost = none ↔ s.swarm.bestPos = .empty) ∧
      ∀ i, s.swarm.pbestCost i ≠ XR.nan := by
  have hset : ∀ (o : Oracle n d K) t (sw : Swarm n d K) t' g,
      (sw.bestCost = none ↔ sw.bestPos = .empty) →
      callGbest cfg o t sw = (t', .ok g) → (g.2 = none ↔ g.1 = .empty) := by
    have hnb : ∀ nbr (sw : Swarm n d K) g, nbrBest nbr sw = .ok g → (g.2 = none ↔ g.1 = .empty) := by
      intro nbr sw g hg
      unfold nbrBest gatherBest at hg
      split at hg
      · cases hg
      · split at hg <;> cases hg
        simp
    have hgb : ∀ bn (sw : Swarm n d K) g, gatherBest bn sw = .ok g →
        (g.2 = none ↔ g.1 = .empty) := by
      intro bn sw g hg
      unfold gatherBest at hg
      split at hg <;> cases hg
      simp
    have hgen : ∀ top args (o : Oracle n d K) t (sw : Swarm n d K) t' g,
        (sw.bestCost = none ↔ sw.bestPos = .empty) →
        computeGbest top args o t sw = (t', .ok g) → (g.2 = none ↔ g.1 = .empty) := by
      intro top args o t sw t' g hs hg
      cases top with
      | star =>
        simp only [computeGbest, starGbest] at hg
        split at hg
        · cases hg
        · split at hg
          · cases hg; simp
          · cases hg; exact hs
      | ring st =>
        simp only [computeGbest] at hg
        split at hg
        · obtain ⟨t1, -, ⟨-, -, -, h⟩ | ⟨-, -, nbr, -, h⟩⟩ := ringGbest_cases hg
          · exact hgb _ _ _ h
          · exact hnb _ _ _ h
        · cases hg
      | vonNeumann =>
        simp only [computeGbest] at hg
        split at hg
        · obtain ⟨t1, -, ⟨-, -, -, h⟩ | ⟨-, -, nbr, -, h⟩⟩ := ringGbest_cases hg
          · exact hgb _ _ _ h
          · exact hnb _ _ _ h
        · cases hg
      | pyramid st =>
        simp only [computeGbest] at hg
        rcases pyramidGbest_cases hg with ⟨-, -, i, -, rfl⟩ | ⟨-, -, nbr, -, h⟩
        · simp
        · exact hnb _ _ _ h
      | random st =>
        simp only [computeGbest] at hg
        split at hg
        · obtain ⟨-, nbr, -, h⟩ := randomGbest_cases hg
          exact hnb _ _ _ h
        · cases hg
    intro o t sw t' g hs hg
    unfold callGbest at hg
    split at hg <;> exact hgen _ _ _ _ _ _ _ hs hg
  refine reachable_inv cfg (fun s => (s.swarm.bestCost = none ↔ s.swarm.bestPos = .empty) ∧
      ∀ i, s.swarm.pbestCost i ≠ XR.nan) ?_ ?_ s h
  · intro r sw t a b p hsw
    have := fresh_reachable_init cfg r sw hsw
    simp [this]
  · intro ev iters nproc env s hs
    refine optimize_inv cfg ev iters nproc env
      (fun s => (s.swarm.bestCost = none ↔ s.swarm.bestPos = .empty) ∧
        ∀ i, s.swarm.pbestCost i ≠ XR.nan) (fun s _ _ _ h => h) (fun s h => ⟨h.1, by simp⟩) ?_ s hs
    intro i q s hs
    have hev : ∀ c : Costs n K, ((recordEval c s).swarm.bestCost = none ↔
        (recordEval c s).swarm.bestPos = .empty) ∧
        ∀ i, (recordEval c s).swarm.pbestCost i ≠ XR.nan := by
      intro c
      refine ⟨hs.1, fun i => ?_⟩
      rw [recordEval_pbestCost]
      split
      · next hl => exact XR.left_ne_nan hl
      · exact hs.2 i
    have hrb : ∀ (c : Costs n K) t g, callGbest cfg (env i).oracle (recordEval c s).top
        (recordEval c s).swarm = (t, .ok g) →
        (((recordBest t g (recordEval c s)).swarm.bestCost = none ↔
          (recordBest t g (recordEval c s)).swarm.bestPos = .empty) ∧
        ∀ i, (recordBest t g (recordEval c s)).swarm.pbestCost i ≠ XR.nan) := by
      intro c t g hg
      exact ⟨hset _ _ _ _ _ (hev c).1 hg, (hev c).2⟩
    have hc := iterate_cases cfg (ev i) (env i) iters i q s
    generalize (iterate cfg (ev i) (env i) iters i q s).1 = s' at hc ⊢
    generalize (iterate cfg (ev i) (env i) iters i q s).2 = o at hc
    cases hc with
    | evalError e h => exact hs
    | gbestError c t e h hg => exact hev c
    | stop c t g h hg hi hq => exact hrb c t g hg
    | moveError c t g _ e h hg hns hm =>
      have hf := moveSwarm_frame cfg (env i) iters i (recordBest t g (recordEval c s))
      rw [hm] at hf
      simp only at hf
      rw [hf.2.1, hf.2.2.1, hf.2.2.2.1]
      exact hrb c t g hg
    | moved c t g _ h hg hns hm =>
      have hf := moveSwarm_frame cfg (env i) iters i (recordBest t g (recordEval c s))
      rw [hm] at hf
      simp only at hf
      rw [hf.2.1, hf.2.2.1, hf.2.2.2.1]
      exact hrb c t g hg

/-- If the configuration works, the move step succeeds. -/
theorem moveSwarm_works {cfg : Config n d K} (hv : VelocityWorks cfg) (hb : BoundaryWorks cfg)
    (hoh : cfg.ohStrategy = []) (hkeys : ∀ key ∈ ["c1", "c2", "w"], ∃ v, (key, v) ∈ cfg.options)
    (r : Draw n d K) (iters i : Nat) (s : Opt n d K)
    (hk : s.swarm.options.map Prod.fst = cfg.options.map Prod.fst)
    (hbp : s.swarm.bestPos ≠ .empty) : ∃ s', moveSwarm cfg r iters i s = (s', .ok ()) := by
  have ho : ∃ o, callOptions cfg iters i r s.swarm = .ok o ∧
      o.map Prod.fst = cfg.options.map Prod.fst := by
    unfold callOptions ohCall
    rw [hoh]
    cases hkk : cfg.kind
    · exact ⟨_, rfl, rfl⟩
    · exact ⟨_, rfl, rfl⟩
    · exact ⟨_, rfl, rfl⟩
    · exact ⟨_, rfl, hk⟩
  obtain ⟨o, ho, hok⟩ := ho
  have hl : ∀ key ∈ ["c1", "c2", "w"], ∃ v, o.lookup key = some v := by
    intro key hkey
    obtain ⟨v, hv⟩ := hkeys key hkey
    have : (o.lookup key).isSome := by
      rw [lookup_isSome_iff, hok, List.mem_map]; exact ⟨_, hv, rfl⟩
    exact Option.isSome_iff_exists.1 this
  obtain ⟨c1, h1⟩ := hl "c1" (by simp)
  obtain ⟨c2, h2⟩ := hl "c2" (by simp)
  obtain ⟨w, h3⟩ := hl "w" (by simp)
  have hvel : ∃ m v, computeVelocity { s.swarm with options := o } cfg.clamp cfg.vhStrategy s.vhMem
      (velBounds cfg) r.r1 r.r2 = (m, .ok v) := by
    have hcall : ∀ v0, ∃ m v, vhCall cfg.vhStrategy s.vhMem cfg.clamp
        { position := some s.swarm.position, bounds := some (velBounds cfg) } v0 = (m, .ok v) := by
      intro v0
      rcases hv with hv | ⟨hv, hk, hbd⟩
      · simp only [List.mem_cons, List.not_mem_nil, or_false] at hv
        rcases hv with hv | hv
        · rw [hv, vhCall, if_pos rfl]; exact ⟨_, _, rfl⟩
        · rw [hv, vhCall, if_neg (by decide), if_pos rfl, vhAdjust]
          dsimp only
          cases s.vhMem
          · exact ⟨_, _, rfl⟩
          · exact ⟨_, _, rfl⟩
      · obtain ⟨b, hbb⟩ := Option.ne_none_iff_exists'.1 hbd
        have hvb : velBounds cfg = some b := by
          unfold velBounds
          cases hkk : cfg.kind <;> first
            | exact absurd hkk hk
            | exact hbb
        rw [hvb]
        simp only [List.mem_cons, List.not_mem_nil, or_false] at hv
        rcases hv with hv | hv
        · rw [hv, vhCall, if_neg (by decide), if_neg (by decide), if_pos rfl, vhInvert]
          exact ⟨_, _, rfl⟩
        · rw [hv, vhCall, if_neg (by decide), if_neg (by decide), if_neg (by decide), if_pos rfl,
            vhZero]
          exact ⟨_, _, rfl⟩
    unfold computeVelocity
    simp only [h1, h2, h3]
    exact hcall _
  obtain ⟨m, v, hvel⟩ := hvel
  have hpos : ∃ m p, callPosition cfg r s.bhMem { s.swarm with options := o, velocity := v } =
      (m, .ok p) := by
    unfold callPosition
    by_cases hkb : cfg.kind = .binary
    · rw [hkb]; exact ⟨_, _, rfl⟩
    have hcp : ∃ m p, computePosition { s.swarm with options := o, velocity := v } cfg.bounds
        cfg.bhStrategy s.bhMem r.bh = (m, .ok p) := by
      unfold computePosition
      rcases hb with hb | hb | ⟨b, hb, hpb, hs⟩
      · exact absurd hb hkb
      · rw [hb]; exact ⟨_, _, rfl⟩
      · rw [hb]
        dsimp only
        simp only [List.mem_cons, List.not_mem_nil, or_false] at hs
        rcases hs with hs | hs | hs | hs
        · rw [hs, bhCall, if_pos rfl]; exact ⟨_, _, rfl⟩
        · rw [hs, bhCall, if_neg (by decide), if_neg (by decide), if_neg (by decide), if_pos rfl]
          exact ⟨_, _, rfl⟩
        · rw [hs, bhCall, if_neg (by decide), if_neg (by decide), if_neg (by decide),
            if_neg (by decide), if_pos rfl]
          cases s.bhMem
          · exact ⟨_, _, rfl⟩
          · exact ⟨_, _, rfl⟩
        · rw [hs, bhCall, if_neg (by decide), if_neg (by decide), if_neg (by decide),
            if_neg (by decide), if_neg (by decide), if_pos rfl]
          obtain ⟨y, hy⟩ := (bhPeriodic_ok_iff b (fun i j => s.swarm.position i j + v i j)).2
            (fun i j _ => ne_of_lt (hpb j))
          exact ⟨_, y, by rw [hy]⟩
    cases hkk : cfg.kind <;> first
      | exact absurd hkk hkb
      | exact hcp
  obtain ⟨m', p, hpos⟩ := hpos
  unfold moveSwarm
  rw [ho]
  dsimp only
  rw [hvel]
  dsimp only
  rw [hpos]
  exact ⟨_, rfl⟩

/-- `C58_returns` for any state with the option keys in place and a best position wherever there is a
best cost. -/
theorem optimize_returns (hn : 0 < n) (cfg : Config n d K) (hv : VelocityWorks cfg)
    (hb : BoundaryWorks cfg) (hoh : cfg.ohStrategy = [])
    (hkeys : ∀ key ∈ ["c1", "c2", "w"], ∃ v, (key, v) ∈ cfg.options) (s : Opt n d K)
    (hopts : s.swarm.options.map Prod.fst = cfg.options.map Prod.fst)
    (h1 : s.swarm.bestPos = .empty → s.swarm.bestCost = none)
    (ev : Nat → Mat n d K → Except Err (Costs n K)) (iters : Nat)
    (hit : 1 ≤ iters) (nproc : Option Nat) (hp : nproc ≠ some 0) (env : Nat → Draw n d K)
    (hev : ∀ i x, ∃ c, ev i x = .ok c ∧ (cfg.kind.isStar → ∃ a, XR.lt (c a) XR.pinf = true))
    (ht : ∀ i, TopologyWorks cfg (env i).oracle) :
    ∃ v, (optimize cfg ev iters nproc env s).2 = .ok v := by
  -- one iteration succeeds and leaves a set best
  have hstep : ∀ i q s, Healthy cfg s → ∃ s' f, iterate cfg (ev i) (env i) iters i q s =
      (s', .ok f) ∧ Healthy cfg s' ∧ s'.swarm.bestCost ≠ none := by
    intro i q s hs
    obtain ⟨c, hc, hstar⟩ := hev i s.swarm.position
    have hpb : ∀ a, (recordEval c s).swarm.pbestCost a ≠ XR.nan := by
      intro a
      rw [recordEval_pbestCost]
      split
      · next hl => exact XR.left_ne_nan hl
      · exact hs.pb a
    have hg : ∃ t b x, callGbest cfg (env i).oracle (recordEval c s).top (recordEval c s).swarm =
        (t, .ok (b, some x)) ∧ b ≠ .empty := by
      by_cases hk : cfg.kind.isStar
      · obtain ⟨a, ha⟩ := hstar hk
        rw [callGbest_star cfg hk]
        obtain ⟨t', k, -, hmin, -, ⟨-, h⟩ | ⟨hnb, h⟩⟩ := starGbest_spec hn (recordEval c s).top
          (recordEval c s).swarm hpb
        · exact ⟨_, _, _, h, by simp⟩
        · have hset : (recordEval c s).swarm.bestCost ≠ none := by
            intro hnone
            have h1 : XR.lt (c a) ((recordEval c s).swarm.pbestCost a) = false := by
              rw [recordEval_pbestCost]
              split
              · exact XR.lt_irrefl _
              · next hl => simpa using hl
            have h2 := hmin a
            unfold Swarm.bestCostVal at hnb
            rw [hnone] at hnb
            have h3 : (recordEval c s).swarm.pbestCost k = XR.pinf := by
              apply XR.eq_of_not_lt (hpb k) (by simp) hnb (XR.not_pinf_lt _)
            rw [h3] at h2
            have h4 : (recordEval c s).swarm.pbestCost a = XR.pinf :=
              XR.eq_of_not_lt (hpb a) (by simp) h2 (XR.not_pinf_lt _)
            rw [h4, ha] at h1
            cases h1
          obtain ⟨x, hx⟩ := Option.ne_none_iff_exists'.1 hset
          rw [hx] at h
          refine ⟨_, _, x, h, fun he => hset ?_⟩
          exact hs.unset he
      · exact callGbest_works hn cfg _ (ht i) hk _ _
    obtain ⟨t, b, x, hg, hbe⟩ := hg
    have hgood : Healthy cfg (recordBest t (b, some x) (recordEval c s)) :=
      ⟨hs.keys, by simp [recordBest, Opt.populateHistory, hbe], hpb⟩
    unfold iterate
    rw [hc]
    dsimp only
    rw [hg]
    dsimp only
    split
    · exact ⟨_, _, rfl, hgood, by simp [recordBest, Opt.populateHistory]⟩
    · obtain ⟨s', hm⟩ := moveSwarm_works hv hb hoh hkeys (env i) iters i
        (recordBest t (b, some x) (recordEval c s)) hs.keys (by exact hbe)
      rw [hm]
      have hf := moveSwarm_frame cfg (env i) iters i (recordBest t (b, some x) (recordEval c s))
      rw [hm] at hf
      simp only at hf
      refine ⟨s', _, rfl, ⟨?_, ?_, ?_⟩, ?_⟩
      · have hms := moveSwarm_cases cfg (env i) iters i (recordBest t (b, some x) (recordEval c s))
        rw [hm] at hms
        simp only at hms
        cases hms with
        | ok o vm v bm p h' hv' hp' => exact callOptions_keys hs.keys h'
      · rw [hf.2.2.1, hf.2.2.2.1]; exact hgood.unset
      · rw [hf.2.1]; exact hpb
      · rw [hf.2.2.2.1]; simp [recordBest, Opt.populateHistory]
  have hloop : ∀ m i q s, Healthy cfg s → ∃ s', loop cfg ev env iters m i q s = (s', .ok ()) ∧
      (0 < m ∨ s.swarm.bestCost ≠ none → s'.swarm.bestCost ≠ none) := by
    intro m
    induction m with
    | zero => intro i q s _; exact ⟨s, rfl, by simp⟩
    | succ m ih =>
      intro i q s hs
      obtain ⟨s', f, h1, h2, h3⟩ := hstep i q s hs
      rw [loop, h1]
      cases f with
      | stop => exact ⟨s', rfl, fun _ => h3⟩
      | «continue» q' =>
        obtain ⟨s'', h4, h5⟩ := ih (i + 1) q' s' h2
        exact ⟨s'', h4, fun _ => h5 (Or.inr h3)⟩
  obtain ⟨s', hl, hset⟩ := hloop iters 0 [] (startState cfg nproc s)
    ⟨hopts, h1, by simp [startState, prepare]⟩
  have hset := hset (Or.inl hit)
  have hfin : ∃ v, finish s' = .ok v := by
    unfold finish
    obtain ⟨x, hx⟩ := Option.ne_none_iff_exists'.1 hset
    rw [hx]
    dsimp only
    cases hm : npArgmin s'.swarm.pbestCost with
    | none => rw [npArgmin_none] at hm; omega
    | some i => exact ⟨_, rfl⟩
  obtain ⟨v, hfin⟩ := hfin
  unfold optimize
  rw [if_neg hp]
  dsimp only
  unfold startState at hl
  rw [hl]
  dsimp only
  rw [hfin]
  exact ⟨_, rfl⟩

/-- C58: a working configuration never fails: with `c1`, `c2`, `w` among the options, no options
strategies, and usable velocity, boundary and topology settings, a call with `iters >= 1` returns
whatever the objective returns – for the Star topology provided every evaluation contains some cost
below `+inf`.  For the other topologies this includes evaluations that are entirely `inf` or `nan`. -/
theorem C58_returns (hn : 0 < n) (cfg : Config n d K) (hv : VelocityWorks cfg)
    (hb : BoundaryWorks cfg) (hoh : cfg.ohStrategy = [])
    (hkeys : ∀ key ∈ ["c1", "c2", "w"], ∃ v, (key, v) ∈ cfg.options) (s : Opt n d K)
    (hr : Reachable cfg s) (ev : Nat → Mat n d K → Except Err (Costs n K)) (iters : Nat)
    (hit : 1 ≤ iters) (nproc : Option Nat) (hp : nproc ≠ some 0) (env : Nat → Draw n d K)
    (hev : ∀ i x, ∃ c, ev i x = .ok c ∧ (cfg.kind.isStar → ∃ a, XR.lt (c a) XR.pinf = true))
    (ht : ∀ i, TopologyWorks cfg (env i).oracle) :
    ∃ v, (optimize cfg ev iters nproc env s).2 = .ok v :=
  optimize_returns hn cfg hv hb hoh hkeys s (reachable_options hr)
    (reachable_healthy hn cfg s hr).1.2 ev iters hit nproc hp env hev ht

/-- C32: LocalBestPSO (with `1 ≤ k ≤ n`, a k-d tree that answers and otherwise standard settings)
returns even if no evaluation is ever below `+inf`. -/
theorem C32_local_all_inf (hn : 0 < n) (cfg : Config n d K) (hk : cfg.kind = .localBest false)
    (k p : Nat) (hak : cfg.args.k = some k) (hap : cfg.args.p = some p) (hk1 : 1 ≤ k) (hkn : k ≤ n)
    (hp0 : p ≠ 0) (hb : cfg.bounds = none) (hv : cfg.vhStrategy = "unmodified")
    (hoh : cfg.ohStrategy = []) (hkeys : ∀ key ∈ ["c1", "c2", "w"], ∃ v, (key, v) ∈ cfg.options)
    (s : Opt n d K) (hr : Reachable cfg s) (iters : Nat) (hit : 1 ≤ iters)
    (nproc : Option Nat) (hp : nproc ≠ some 0) (env : Nat → Draw n d K)
    (ht : ∀ i x, ∃ dist, IsKnn dist k x ((env i).oracle.knn k p x)) :
    ∃ v, (optimize cfg (fun _ _ => .ok fun _ => XR.pinf) iters nproc env s).2 = .ok v := by
  refine C58_returns hn cfg (Or.inl (by rw [hv]; simp)) (Or.inr (Or.inl hb)) hoh hkeys s hr _ iters
    hit nproc hp env (fun i x => ⟨_, rfl, fun hs => by rw [hk] at hs; exact hs.elim⟩) ?_
  intro i
  unfold TopologyWorks
  rw [hk]
  refine ⟨k, p, hak, hap, hk1, hkn, hp0, fun x a hnil => ?_⟩
  obtain ⟨dist, hd⟩ := ht i x
  have := (hd a).1
  rw [hnil] at this
  simp at this
  omega

/-- Non-vacuity of C58 and C32: LocalBestPSO with all costs `+inf`; GlobalBestPSO on the sphere. -/
example : (match construct (Ex.rcfg 3 2 false 2) (Ex.init 3 2) (Ex.init 3 2) with
    | .ok s => match optimize (Ex.rcfg 3 2 false 2) (fun _ _ => .ok fun _ => .pinf) 3 none
        (fun _ => Ex.draw 3 2) s with
      | (_, .ok (c, _)) => decide (c = .pinf)
      | _ => false
    | _ => false) = true := by decide +kernel

example : VelocityWorks (Ex.gcfg 3 2) ∧ BoundaryWorks (Ex.gcfg 3 2) ∧
    (∀ key ∈ ["c1", "c2", "w"], ∃ v, (key, v) ∈ (Ex.gcfg 3 2).options) ∧
    (∀ i x, ∃ c, Ex.sphere 3 2 i x = .ok c ∧ ∃ a, XR.lt (c a) XR.pinf = true) ∧
    TopologyWorks (Ex.gcfg 3 2) (Ex.draw 3 2).oracle := by
  refine ⟨Or.inl (by simp [Ex.gcfg]), Or.inr (Or.inl rfl), ?_, fun i x => ⟨_, rfl, 0, rfl⟩, trivial⟩
  simp [Ex.gcfg, Ex.opts]

end PySwarms

import Verif.Props.Outcome
import Verif.Props.Handlers
import Verif.Props.Options
import Verif.Lemmas.Cover

/-!
# Well-configured runs return, for every strategy and topology (C58)
-/

set_option linter.unusedSectionVars false

namespace PySwarms

variable {n d : Nat} {K : Type} [Field K] [LinearOrder K] [IsStrictOrderedRing K] [Transc K]
  [FloorRing K]

/-- Every particle has a neighbour. -/
def NoneAlone (nbr : Fin n → List (Fin n)) : Prop := ∀ i, nbr i ≠ []

/-- The topology arguments are in range and the external library gives an answer; static
topologies included. -/
def TopologyUsable (cfg : Config n d K) (o : Oracle n d K) : Prop :=
  match cfg.kind.top with
  | .star => True
  | .ring st => ∃ k p, cfg.args.k = some k ∧ cfg.args.p = some p ∧ 1 ≤ k ∧ k ≤ n ∧ p ≠ 0 ∧
      (st = true → k ≠ 1) ∧ ∀ x, NoneAlone (o.knn k p x)
  | .vonNeumann => ∃ p r, cfg.args.p = some p ∧ cfg.args.r = some r ∧ 2 ≤ delannoy d r ∧
      delannoy d r ≤ n ∧ p ≠ 0 ∧ ∀ x, NoneAlone (o.knn (delannoy d r) p x)
  | .random _ => ∃ k, cfg.args.k = some k ∧ k < n
  | .pyramid _ => n < d + 1 ∨ ∀ x, ∃ nbr, o.delaunay x = .ok nbr ∧ NoneAlone nbr

/-- The boundary strategy is usable; `shrink` needs a dimension and a swarm that starts inside. -/
def BoundaryUsable (cfg : Config n d K) (x : Mat n d K) : Prop :=
  cfg.kind = .binary ∨ cfg.bounds = none ∨ ∃ b, cfg.bounds = some b ∧ ProperBounds b ∧
    (cfg.bhStrategy ∈ ["nearest", "reflective", "random", "intermediate", "periodic"] ∨
      (cfg.bhStrategy = "shrink" ∧ 0 < d ∧ InBox b x))

/-- Only `c1`, `c2`, `w` have a schedule, and it is one that needs no further arguments. -/
def ScheduleUsable (cfg : Config n d K) : Prop :=
  ∀ opt name, cfg.ohStrategy.lookup opt = some name → opt ∈ cfg.options.map Prod.fst →
    opt ∈ ["c1", "c2", "w"] ∧ name ∈ ["exp_decay", "lin_variation", "nonlin_mod"]

/-- The same draws, with the allowance of `N` passes for the `while` loop of `reflective`. -/
def Draw.allow (r : Draw n d K) (N : Nat) : Draw n d K := { r with bh := { r.bh with passes := N } }

theorem nbrBest_some (hn : 0 < n) {nbr : Fin n → List (Fin n)} (h : NoneAlone nbr)
    (s : Swarm n d K) (t : TopState n) (ht : TopInv NoneAlone t) :
    ∃ t' b c, (t, nbrBest nbr s) = (t', .ok (b, some c)) ∧ b ≠ .empty ∧ TopInv NoneAlone t' := by
  obtain ⟨rows, c, h⟩ := nbrBest_works hn nbr s h
  exact ⟨t, _, c, by rw [h], by simp, ht⟩

theorem ringGbest_some (hn : 0 < n) {st : Bool} {k p : Nat} {o : Oracle n d K} (hk : 1 ≤ k)
    (hkn : k ≤ n) (hp : p ≠ 0) (hst : st = true → k ≠ 1) (ho : ∀ x, NoneAlone (o.knn k p x))
    (s : Swarm n d K) (t : TopState n) (ht : TopInv NoneAlone t) :
    ∃ t' b c, ringGbest st k p o t s = (t', .ok (b, some c)) ∧ b ≠ .empty ∧
      TopInv NoneAlone t' := by
  have h0 : ¬ (k = 0 ∨ p = 0) := by omega
  have h1 : ¬ (k > n ∧ k ≠ 1) := by omega
  unfold ringGbest ringQuery
  simp only [h0, h1, if_false]
  by_cases hc : ((st && t.neighbor.isNone) || !st) = true
  · simp only [hc, if_true]
    by_cases hk1 : k = 1
    · simp only [hk1, if_true]
      rw [if_neg (by decide)]
      obtain ⟨rows, c, h⟩ := gatherBest_ok hn (fun i => i) s
      refine ⟨_, _, c, by rw [h], by simp, ?_⟩
      intro nbr hnb
      cases hnb
      have := ho s.position
      rwa [hk1] at this
    · simp only [hk1, if_false]
      exact nbrBest_some hn (ho _) s _ (by intro nbr hnb; cases hnb; exact ho _)
  · have hst' : st = true := by
      cases st
      · simp at hc
      · rfl
    have hk1 : ¬ k = 1 := hst hst'
    simp only [hc, hk1, if_false]
    cases hnb : t.neighbor with
    | none => simp [hnb, hst'] at hc
    | some nbr =>
      have := nbrBest_some hn (ht nbr hnb) s t ht
      simpa [hnb] using this

theorem callGbest_usable (hn : 0 < n) (cfg : Config n d K) (o : Oracle n d K)
    (hu : TopologyUsable cfg o) (hk : ¬ cfg.kind.isStar) (t : TopState n)
    (ht : TopInv NoneAlone t) (s : Swarm n d K) :
    ∃ t' b c, callGbest cfg o t s = (t', .ok (b, some c)) ∧ b ≠ .empty ∧
      TopInv NoneAlone t' := by
  have hgen : ∀ top, cfg.kind.top = top → top ≠ .star → ∀ args : TopArgs,
      args.k = cfg.args.k → args.p = cfg.args.p → (top = .vonNeumann → args.r = cfg.args.r) →
      ∃ t' b c, computeGbest top args o t s = (t', .ok (b, some c)) ∧ b ≠ .empty ∧
        TopInv NoneAlone t' := by
    intro top htop hne args hak hap har
    unfold TopologyUsable at hu
    rw [htop] at hu
    cases top with
    | star => exact absurd rfl hne
    | ring st =>
      obtain ⟨k, p, h1, h2, h3, h4, h5, h6, h7⟩ := hu
      simp only [computeGbest, hak, hap, h1, h2]
      exact ringGbest_some hn h3 h4 h5 h6 h7 s t ht
    | vonNeumann =>
      obtain ⟨p, r, h1, h2, h3, h4, h5, h6⟩ := hu
      simp only [computeGbest, hap, har rfl, h1, h2]
      exact ringGbest_some hn (by omega) h4 h5 (by omega) h6 s t ht
    | pyramid st =>
      simp only [computeGbest, pyramidGbest]
      by_cases hnd : n < d + 1
      · simp only [hnd, if_true]
        cases hm : npArgmin s.pbestCost with
        | none => rw [npArgmin_none] at hm; omega
        | some i =>
          refine ⟨_, _, _, rfl, by simp, ?_⟩
          intro nbr hnb
          cases hnb
          intro i h
          have := congrArg List.length h
          simp [allNeighbors] at this
          omega
      · rcases hu with hu | hu
        · exact absurd hu hnd
        · obtain ⟨nbr, h1, h2⟩ := hu s.position
          simp only [hnd, if_false, h1]
          by_cases hc : ((st && t.neighbor.isNone) || !st) = true
          · simp only [hc, if_true]
            exact nbrBest_some hn h2 s _ (by intro nbr' hnb; cases hnb; exact h2)
          · simp only [hc]
            cases hnb : t.neighbor with
            | none => simp [hnb] at hc
            | some nbr' =>
              have := nbrBest_some hn (ht nbr' hnb) s t ht
              simpa [hnb] using this
    | random st =>
      obtain ⟨k, h1, h2⟩ := hu
      simp only [computeGbest, hak, h1, randomGbest]
      by_cases hc : ((st && t.neighbor.isNone) || !st) = true
      · have hok := randomNeighbors_ok k (o.choice k) hn h2
        simp only [hc, if_true, hok]
        have hna : NoneAlone (adjLists (if isConnected (drawnAdj (o.choice k)) then
            drawnAdj (o.choice k) else addMissing (drawnAdj (o.choice k)) (drawnAdj (o.choice k)))) := by
          intro i h
          have := randomNeighbors_refl hok i
          rw [h] at this
          cases this
        exact nbrBest_some hn hna s _ (by intro nbr hnb; cases hnb; exact hna)
      · simp only [hc]
        cases hnb : t.neighbor with
        | none => simp [hnb] at hc
        | some nbr =>
          have := nbrBest_some hn (ht nbr hnb) s t ht
          simpa [hnb] using this
  unfold callGbest
  rcases hkk : cfg.kind with _ | st | top | _
  · rw [hkk] at hk; exact absurd trivial hk
  · exact hgen (.ring st) (by rw [hkk]; rfl) (by simp) _ rfl rfl (by simp)
  · refine hgen top (by rw [hkk]; rfl) ?_ _ rfl rfl (fun _ => rfl)
    rintro rfl
    rw [hkk] at hk
    exact hk trivial
  · exact hgen (.ring false) (by rw [hkk]; rfl) (by simp) _ rfl rfl (by simp)

/-! ### The options -/

theorem startEnd_ok {start : Opts K} {opt : String} {kw : OHKw K} (ho : opt ∈ ["c1", "c2", "w"])
    (hkeys : ∀ key ∈ ["c1", "c2", "w"], (start.lookup key).isSome) (he : kw.endOpts = none) :
    ∃ v, startEnd start opt kw = .ok v := by
  obtain ⟨c1, h1⟩ := Option.isSome_iff_exists.1 (hkeys "c1" (by simp))
  obtain ⟨c2, h2⟩ := Option.isSome_iff_exists.1 (hkeys "c2" (by simp))
  obtain ⟨v, hv⟩ := Option.isSome_iff_exists.1 (hkeys opt ho)
  unfold startEnd
  simp only [h1, h2, he, hv]
  simp only [List.mem_cons, List.not_mem_nil, or_false] at ho
  rcases ho with rfl | rfl | rfl <;> exact ⟨_, rfl⟩

theorem ohStrategy_ok {start : Opts K} {opt name : String} {i iters : Nat} (hi : i < iters)
    (ho : opt ∈ ["c1", "c2", "w"]) (hname : name ∈ ["exp_decay", "lin_variation", "nonlin_mod"])
    (hkeys : ∀ key ∈ ["c1", "c2", "w"], (start.lookup key).isSome) (u : K) :
    ∃ v, ohStrategy name start opt { iternow := some (i : K), itermax := some (iters : K) } u =
      .ok v := by
  obtain ⟨⟨s, e⟩, hse⟩ := startEnd_ok (kw := { iternow := some (i : K), itermax := some (iters : K) })
    ho hkeys rfl
  have hm : (0 : K) < iters := by exact_mod_cast (by omega : 0 < iters)
  have hi0 : (0 : K) ≤ i := Nat.cast_nonneg i
  have hlt : (i : K) < iters := by exact_mod_cast hi
  simp only [List.mem_cons, List.not_mem_nil, or_false] at hname
  unfold ohStrategy
  rcases hname with rfl | rfl | rfl
  · rw [if_pos rfl]
    unfold ohExpDecay
    rw [hse]
    dsimp only
    rw [if_neg (ne_of_gt hm), if_neg]
    · exact ⟨_, rfl⟩
    · apply ne_of_gt
      dsimp only [Option.getD_none]
      positivity
  · rw [if_neg (by decide), if_pos rfl]
    unfold ohLinVariation
    rw [hse]
    dsimp only
    rw [if_neg (ne_of_gt hm)]
    exact ⟨_, rfl⟩
  · rw [if_neg (by decide), if_neg (by decide), if_neg (by decide), if_pos rfl]
    unfold ohNonlinMod
    rw [hse]
    dsimp only
    rw [if_neg, if_neg]
    · exact ⟨_, rfl⟩
    · rintro (⟨h, -⟩ | ⟨h, -⟩)
      · linarith
      · linarith
    · rintro (h | h) <;> linarith

theorem ohLoop_ok {strategy : List (String × String)} {start : Opts K} {kw : OHKw K}
    {u : String → K} (rest : Opts K)
    (h : ∀ opt ∈ rest.map Prod.fst, ∀ name, strategy.lookup opt = some name →
      ∃ v, ohStrategy name start opt kw (u opt) = .ok v) :
    ∃ r, ohLoop strategy start kw u rest = .ok r := by
  induction rest with
  | nil => exact ⟨[], rfl⟩
  | cons p rest ih =>
    obtain ⟨opt, v⟩ := p
    obtain ⟨r, hr⟩ := ih (fun o ho => h o (by simp at ho ⊢; exact Or.inr ho))
    unfold ohLoop
    cases hl : strategy.lookup opt with
    | none => simp only [hr]; exact ⟨_, rfl⟩
    | some name =>
      obtain ⟨v', hv'⟩ := h opt (by simp) name hl
      simp only [hv', hr]
      exact ⟨_, rfl⟩

theorem callOptions_ok {cfg : Config n d K} (hs : ScheduleUsable cfg)
    (hkeys : ∀ key ∈ ["c1", "c2", "w"], key ∈ cfg.options.map Prod.fst) {i iters : Nat}
    (hi : i < iters) (r : Draw n d K) {s : Swarm n d K}
    (hk : s.options.map Prod.fst = cfg.options.map Prod.fst) :
    ∃ o, callOptions cfg iters i r s = .ok o ∧ o.map Prod.fst = cfg.options.map Prod.fst := by
  have main : ∃ o, ohCall cfg.ohStrategy cfg.options
      { iternow := some (i : K), itermax := some (iters : K) } r.oh = .ok o ∧
      o.map Prod.fst = cfg.options.map Prod.fst := by
    have : ∃ o, ohCall cfg.ohStrategy cfg.options
        { iternow := some (i : K), itermax := some (iters : K) } r.oh = .ok o := by
      unfold ohCall
      split
      · exact ⟨_, rfl⟩
      · apply ohLoop_ok
        intro opt hopt name hname
        obtain ⟨h1, h2⟩ := hs opt name hname hopt
        refine ohStrategy_ok hi h1 h2 ?_ _
        intro key hkey
        rw [lookup_isSome_iff]
        exact hkeys key hkey
    obtain ⟨o, ho⟩ := this
    exact ⟨o, ho, (C33_keys_and_values _ _ _ _ _ ho).1⟩
  unfold callOptions
  cases cfg.kind
  · exact main
  · exact main
  · exact main
  · exact ⟨_, rfl, hk⟩

/-! ### The move -/

theorem bhReflective_mono {b : Bounds d K} {k : Nat} {x y : Mat n d K}
    (h : bhReflective b k x = .ok y) (N : Nat) (hN : k ≤ N) : bhReflective b N x = .ok y := by
  induction k generalizing x N with
  | zero =>
    unfold bhReflective at h
    split at h
    · cases h
    · next ho => cases h; cases N <;> simp [bhReflective, ho]
  | succ k ih =>
    unfold bhReflective at h
    split at h
    · next ho =>
      obtain ⟨N, rfl⟩ : ∃ M, N = M + 1 := ⟨N - 1, by omega⟩
      unfold bhReflective
      rw [if_pos ho]
      exact ih h N (by omega)
    · next ho => cases h; cases N <;> simp [bhReflective, ho]

/-- The memory of `shrink` is inside the bounds. -/
def Home (cfg : Config n d K) (s : Opt n d K) : Prop :=
  cfg.bhStrategy = "shrink" → cfg.kind ≠ .binary → ∀ b, cfg.bounds = some b →
    0 < d ∧ ∃ m, s.bhMem = some m ∧ InBox b m

theorem callPosition_ok {cfg : Config n d K} {x0 : Mat n d K} (hb : BoundaryUsable cfg x0)
    (r : Draw n d K) (s : Opt n d K) (hh : Home cfg s) (sw : Swarm n d K) :
    ∃ N0 m p, (∀ N, N0 ≤ N → callPosition cfg (r.allow N) s.bhMem sw = (m, .ok p)) ∧
      ∀ s' : Opt n d K, s'.bhMem = m → Home cfg s' := by
  by_cases hkb : cfg.kind = .binary
  · have : ∃ p, ∀ N, callPosition cfg (r.allow N) s.bhMem sw = (s.bhMem, .ok p) := by
      unfold callPosition
      rw [hkb]
      exact ⟨binaryPosition r.thr sw.velocity, fun _ => rfl⟩
    obtain ⟨p, h⟩ := this
    exact ⟨0, s.bhMem, p, fun N _ => h N, fun s' _ _ h => absurd hkb h⟩
  have hred : ∀ N, callPosition cfg (r.allow N) s.bhMem sw =
      computePosition sw cfg.bounds cfg.bhStrategy s.bhMem (r.allow N).bh := by
    intro N
    unfold callPosition
    cases hkk : cfg.kind <;> first
      | exact absurd hkk hkb
      | rfl
  simp only [hred]
  have hu : ∀ N, (r.allow N).bh.u = r.bh.u := fun _ => rfl
  have hl : ∀ N, (r.allow N).bh.l = r.bh.l := fun _ => rfl
  unfold computePosition
  rcases hb with hb | hb | ⟨b, hb, hpb, hs⟩
  · exact absurd hb hkb
  · rw [hb]
    exact ⟨0, _, _, fun N _ => rfl, fun s' _ _ _ b' h => by rw [hb] at h; cases h⟩
  · rw [hb]
    dsimp only
    rcases hs with hs | ⟨hs, hd, -⟩
    · have hno : ∀ s' : Opt n d K, Home cfg s' := by
        intro s' h
        rw [h] at hs
        simp at hs
      simp only [List.mem_cons, List.not_mem_nil, or_false] at hs
      rcases hs with hs | hs | hs | hs | hs
      · rw [hs]
        exact ⟨0, _, _, fun N _ => by rw [bhCall, if_pos rfl], fun s' _ => hno s'⟩
      · obtain ⟨k, y, hk⟩ := exists_passes (b := b)
          (x := fun i j => sw.position i j + sw.velocity i j) (fun i j _ => hpb j)
        rw [hs]
        refine ⟨k, s.bhMem, y, fun N hN => ?_, fun s' _ => hno s'⟩
        rw [bhCall, if_neg (by decide), if_pos rfl]
        have : (r.allow N).bh.passes = N := rfl
        rw [this, bhReflective_mono hk N hN]
      · rw [hs]
        exact ⟨0, _, _, fun N _ => by
          rw [bhCall, if_neg (by decide), if_neg (by decide), if_neg (by decide), if_pos rfl, hu, hl],
          fun s' _ => hno s'⟩
      · rw [hs]
        cases hm : s.bhMem with
        | none =>
          exact ⟨0, _, _, fun N _ => by
            rw [bhCall, if_neg (by decide), if_neg (by decide), if_neg (by decide),
              if_neg (by decide), if_pos rfl]; rfl, fun s' _ => hno s'⟩
        | some m =>
          exact ⟨0, _, _, fun N _ => by
            rw [bhCall, if_neg (by decide), if_neg (by decide), if_neg (by decide),
              if_neg (by decide), if_pos rfl]; rfl, fun s' _ => hno s'⟩
      · rw [hs]
        obtain ⟨y, hy⟩ := (bhPeriodic_ok_iff b
          (fun i j => sw.position i j + sw.velocity i j)).2 (fun i j _ => ne_of_lt (hpb j))
        exact ⟨0, _, y, fun N _ => by
          rw [bhCall, if_neg (by decide), if_neg (by decide), if_neg (by decide),
            if_neg (by decide), if_neg (by decide), if_pos rfl, hy], fun s' _ => hno s'⟩
    · obtain ⟨-, m, hm, hin⟩ := hh hs hkb b hb
      rw [hs, hm]
      obtain ⟨y, hy, hyin⟩ := bhShrink_inBox hd hin (fun i j => sw.position i j + sw.velocity i j)
      refine ⟨0, some y, y, fun N _ => ?_, fun s' h' _ _ b' hb' => ?_⟩
      · rw [bhCall, if_neg (by decide), if_neg (by decide), if_pos rfl, hy]
      · rw [hb] at hb'
        cases hb'
        exact ⟨hd, y, h', hyin⟩

theorem vhCall_usable {cfg : Config n d K} (hv : VelocityWorks cfg) (mem : Option (Mat n d K))
    (x v0 : Mat n d K) :
    ∃ m v, vhCall cfg.vhStrategy mem cfg.clamp
      { position := some x, bounds := some (velBounds cfg) } v0 = (m, .ok v) := by
  rcases hv with hv | ⟨hv, hk, hbd⟩
  · simp only [List.mem_cons, List.not_mem_nil, or_false] at hv
    rcases hv with hv | hv
    · rw [hv, vhCall, if_pos rfl]; exact ⟨_, _, rfl⟩
    · rw [hv, vhCall, if_neg (by decide), if_pos rfl, vhAdjust]
      dsimp only
      cases mem
      · exact ⟨_, _, rfl⟩
      · exact ⟨_, _, rfl⟩
  · obtain ⟨b, hbb⟩ := Option.ne_none_iff_exists'.1 hbd
    have hvb : velBounds cfg = some b := by
      unfold velBounds
      cases hkk : cfg.kind <;> first
        | exact absurd hkk hk
        | exact hbb
    rw [hvb]
    simp only [List.mem_cons, List.not_mem_nil, or_false] at hv
    rcases hv with hv | hv
    · rw [hv, vhCall, if_neg (by decide), if_neg (by decide), if_pos rfl, vhInvert]
      exact ⟨_, _, rfl⟩
    · rw [hv, vhCall, if_neg (by decide), if_neg (by decide), if_neg (by decide), if_pos rfl,
        vhZero]
      exact ⟨_, _, rfl⟩

theorem moveSwarm_usable {cfg : Config n d K} (hv : VelocityWorks cfg) {x0 : Mat n d K}
    (hb : BoundaryUsable cfg x0) (hs : ScheduleUsable cfg)
    (hkeys : ∀ key ∈ ["c1", "c2", "w"], key ∈ cfg.options.map Prod.fst)
    (r : Draw n d K) (iters i : Nat) (hi : i < iters) (s : Opt n d K) (hh : Home cfg s)
    (hk : s.swarm.options.map Prod.fst = cfg.options.map Prod.fst)
    (hbp : s.swarm.bestPos ≠ .empty) :
    ∃ N0 s', (∀ N, N0 ≤ N → moveSwarm cfg (r.allow N) iters i s = (s', .ok ())) ∧ Home cfg s' := by
  obtain ⟨o, ho, hok⟩ := callOptions_ok hs hkeys hi r hk
  have hl : ∀ key ∈ ["c1", "c2", "w"], ∃ v, o.lookup key = some v := by
    intro key hkey
    have : (o.lookup key).isSome := by
      rw [lookup_isSome_iff, hok]; exact hkeys key hkey
    exact Option.isSome_iff_exists.1 this
  obtain ⟨c1, h1⟩ := hl "c1" (by simp)
  obtain ⟨c2, h2⟩ := hl "c2" (by simp)
  obtain ⟨w, h3⟩ := hl "w" (by simp)
  have hvel : ∃ m v, computeVelocity { s.swarm with options := o } cfg.clamp cfg.vhStrategy s.vhMem
      (velBounds cfg) r.r1 r.r2 = (m, .ok v) := by
    unfold computeVelocity
    simp only [h1, h2, h3]
    exact vhCall_usable hv _ _ _
  obtain ⟨m, v, hvel⟩ := hvel
  obtain ⟨N0, bm, p, hpos, hhome⟩ := callPosition_ok hb r s hh
    { s.swarm with options := o, velocity := v }
  refine ⟨N0,
    { s with vhMem := m, bhMem := bm,
             swarm := { s.swarm with options := o, velocity := v, position := p } },
    fun N hN => ?_, hhome _ rfl⟩
  · have ho' : callOptions cfg iters i (r.allow N) s.swarm = .ok o := ho
    have hvel' : computeVelocity { s.swarm with options := o } cfg.clamp cfg.vhStrategy s.vhMem
      (velBounds cfg) (r.allow N).r1 (r.allow N).r2 = (m, .ok v) := hvel
    unfold moveSwarm
    rw [ho']
    dsimp only
    rw [hvel']
    dsimp only
    rw [hpos N hN]

/-- What a run keeps true while nothing has failed. -/
structure Sound (cfg : Config n d K) (s : Opt n d K) : Prop where
  healthy : Healthy cfg s
  top : TopInv NoneAlone s.top
  home : Home cfg s

/-- C58, all strategies and topologies.  With `c1`, `c2`, `w` among the options, schedules only for
these and not `random`, and usable velocity, boundary and topology settings (static topologies with
more than one neighbour and `shrink` from inside the bounds included), a call with `iters >= 1`
returns whatever the objective returns – for the Star topology provided every evaluation contains
some cost below `+inf`.  `reflective`'s `while` loop may need passes: there is a number of passes
from which on the outcome no longer depends on it, and that outcome is a regular return. -/
theorem C58_all_strategies (hn : 0 < n) (cfg : Config n d K) (hv : VelocityWorks cfg)
    (hs : ScheduleUsable cfg) (hkeys : ∀ key ∈ ["c1", "c2", "w"], key ∈ cfg.options.map Prod.fst)
    (s : Opt n d K) (hr : Reachable cfg s) (hb : BoundaryUsable cfg s.swarm.position)
    (htop : ∀ nbr, s.top.neighbor = some nbr → ∀ i, nbr i ≠ [])
    (ev : Nat → Mat n d K → Except Err (Costs n K)) (iters : Nat)
    (hit : 1 ≤ iters) (nproc : Option Nat) (hp : nproc ≠ some 0) (env : Nat → Draw n d K)
    (hev : ∀ i x, ∃ c, ev i x = .ok c ∧ (cfg.kind.isStar → ∃ a, XR.lt (c a) XR.pinf = true))
    (ht : ∀ i, TopologyUsable cfg (env i).oracle) :
    ∃ N0 s' v, ∀ N, N0 ≤ N →
      optimize cfg ev iters nproc (fun i => (env i).allow N) s = (s', .ok v) := by
  have hstep : ∀ i q s, i < iters → Sound cfg s → ∃ N0 s' f, (∀ N, N0 ≤ N →
      iterate cfg (ev i) ((env i).allow N) iters i q s = (s', .ok f)) ∧ Sound cfg s' ∧
      s'.swarm.bestCost ≠ none := by
    intro i q s hi ⟨hs', htop, hhome⟩
    obtain ⟨c, hc, hstar⟩ := hev i s.swarm.position
    have hpb : ∀ a, (recordEval c s).swarm.pbestCost a ≠ XR.nan := by
      intro a
      rw [recordEval_pbestCost]
      split
      · next hl => exact XR.left_ne_nan hl
      · exact hs'.pb a
    have hg : ∃ t b x, callGbest cfg (env i).oracle (recordEval c s).top (recordEval c s).swarm =
        (t, .ok (b, some x)) ∧ b ≠ .empty ∧ TopInv NoneAlone t := by
      by_cases hk : cfg.kind.isStar
      · obtain ⟨a, ha⟩ := hstar hk
        have htt : TopInv NoneAlone (starGbest (recordEval c s).top (recordEval c s).swarm).1 := by
          have hall : NoneAlone (allNeighbors n) := by
            intro i h
            have := congrArg List.length h
            simp [allNeighbors] at this
            omega
          have : ∀ t : TopState n, TopInv NoneAlone t → TopInv NoneAlone (match t.neighbor with
              | none => ({ neighbor := some (allNeighbors n), ndim := 2 } : TopState n)
              | some _ => t) := by
            intro t htt
            cases hnb : t.neighbor with
            | none => intro nbr h; cases h; exact hall
            | some nbr => exact htt
          have := this s.top htop
          unfold starGbest
          dsimp only
          split
          · exact this
          · split <;> exact this
        rw [callGbest_star cfg hk]
        obtain ⟨t', k, -, hmin, -, ⟨-, h⟩ | ⟨hnb, h⟩⟩ := starGbest_spec hn (recordEval c s).top
          (recordEval c s).swarm hpb
        · rw [h] at htt
          exact ⟨_, _, _, h, by simp, htt⟩
        · have hset : (recordEval c s).swarm.bestCost ≠ none := by
            intro hnone
            have h1 : XR.lt (c a) ((recordEval c s).swarm.pbestCost a) = false := by
              rw [recordEval_pbestCost]
              split
              · exact XR.lt_irrefl _
              · next hl => simpa using hl
            have h2 := hmin a
            unfold Swarm.bestCostVal at hnb
            rw [hnone] at hnb
            have h3 : (recordEval c s).swarm.pbestCost k = XR.pinf := by
              apply XR.eq_of_not_lt (hpb k) (by simp) hnb (XR.not_pinf_lt _)
            rw [h3] at h2
            have h4 : (recordEval c s).swarm.pbestCost a = XR.pinf :=
              XR.eq_of_not_lt (hpb a) (by simp) h2 (XR.not_pinf_lt _)
            rw [h4, ha] at h1
            cases h1
          obtain ⟨x, hx⟩ := Option.ne_none_iff_exists'.1 hset
          rw [h] at htt
          rw [hx] at h
          exact ⟨_, _, x, h, fun he => hset (hs'.unset he), htt⟩
      · exact callGbest_usable hn cfg _ (ht i) hk _ htop _
    obtain ⟨t, b, x, hg, hbe, htt⟩ := hg
    have hgood : Healthy cfg (recordBest t (b, some x) (recordEval c s)) :=
      ⟨hs'.keys, by simp [recordBest, Opt.populateHistory, hbe], hpb⟩
    have hhome2 : Home cfg (recordBest t (b, some x) (recordEval c s)) := hhome
    obtain ⟨N0, s3, hm, hhome3⟩ := moveSwarm_usable hv hb hs hkeys (env i) iters i hi
      (recordBest t (b, some x) (recordEval c s)) hhome2 hs'.keys hbe
    have hg' : ∀ N, callGbest cfg ((env i).allow N).oracle (recordEval c s).top
      (recordEval c s).swarm = (t, .ok (b, some x)) := fun _ => hg
    unfold iterate
    rw [hc]
    dsimp only
    simp only [hg']
    split
    · exact ⟨0, _, _, fun N _ => rfl, ⟨hgood, htt, hhome2⟩, by simp [recordBest, Opt.populateHistory]⟩
    · have hf := moveSwarm_frame cfg ((env i).allow N0) iters i
        (recordBest t (b, some x) (recordEval c s))
      have hms := moveSwarm_cases cfg ((env i).allow N0) iters i
        (recordBest t (b, some x) (recordEval c s))
      rw [hm N0 le_rfl] at hf hms
      simp only at hf hms
      refine ⟨N0, s3, _, fun N hN => by rw [hm N hN], ⟨⟨?_, ?_, ?_⟩, ?_, hhome3⟩, ?_⟩
      · cases hms with
        | ok o vm v bm p h' hv' hp' => exact callOptions_keys hs'.keys h'
      · rw [hf.2.2.1, hf.2.2.2.1]; exact hgood.unset
      · rw [hf.2.1]; exact hpb
      · rw [hf.2.2.2.2.2.1]; exact htt
      · rw [hf.2.2.2.1]; simp [recordBest, Opt.populateHistory]
  have hloop : ∀ m i q s, i + m ≤ iters → Sound cfg s → ∃ N0 s', (∀ N, N0 ≤ N →
      loop cfg ev (fun i => (env i).allow N) iters m i q s = (s', .ok ())) ∧
      (0 < m ∨ s.swarm.bestCost ≠ none → s'.swarm.bestCost ≠ none) := by
    intro m
    induction m with
    | zero => intro i q s _ _; exact ⟨0, s, fun _ _ => rfl, by simp⟩
    | succ m ih =>
      intro i q s hi hs
      obtain ⟨N1, s', f, h1, h2, h3⟩ := hstep i q s (by omega) hs
      cases f with
      | stop => exact ⟨N1, s', fun N hN => by rw [loop, h1 N hN], fun _ => h3⟩
      | «continue» q' =>
        obtain ⟨N2, s'', h4, h5⟩ := ih (i + 1) q' s' (by omega) h2
        refine ⟨max N1 N2, s'', fun N hN => ?_, fun _ => h5 (Or.inr h3)⟩
        rw [loop, h1 N (le_trans (le_max_left _ _) hN)]
        exact h4 N (le_trans (le_max_right _ _) hN)
  obtain ⟨h1, h2⟩ := reachable_healthy hn cfg s hr
  have hopts := reachable_options hr
  have hhome : Home cfg (startState cfg nproc s) := by
    intro hsh hkb b hbb
    rcases hb with hb | hb | ⟨b', hb, -, hs'⟩
    · exact absurd hb hkb
    · rw [hb] at hbb; cases hbb
    · rw [hb] at hbb
      cases hbb
      rcases hs' with hs' | ⟨-, hd, hin⟩
      · rw [hsh] at hs'; simp at hs'
      · refine ⟨hd, s.swarm.position, ?_, hin⟩
        unfold startState prepare
        cases hkk : cfg.kind <;> first
          | exact absurd hkk hkb
          | rfl
  obtain ⟨N0, s', hl, hset⟩ := hloop iters 0 [] (startState cfg nproc s) (by omega)
    ⟨⟨hopts, h1.2, by simp [startState, prepare]⟩, htop, hhome⟩
  have hset := hset (Or.inl hit)
  have hfin : ∃ v, finish s' = .ok v := by
    unfold finish
    obtain ⟨x, hx⟩ := Option.ne_none_iff_exists'.1 hset
    rw [hx]
    dsimp only
    cases hm : npArgmin s'.swarm.pbestCost with
    | none => rw [npArgmin_none] at hm; omega
    | some i => exact ⟨_, rfl⟩
  obtain ⟨v, hfin⟩ := hfin
  refine ⟨N0, { s' with openPools := s'.openPools - (if nproc.isSome then 1 else 0) }, v,
    fun N hN => ?_⟩
  · have := hl N hN
    unfold optimize
    rw [if_neg hp]
    dsimp only
    unfold startState at this
    rw [this]
    dsimp only
    rw [hfin]

/-- A LocalBestPSO with a static ring, bounds, `shrink`, `invert` and a schedule for each option. -/
def Ex.fullCfg : Config 3 2 ℚ :=
  { Ex.rcfg 3 2 true 2 with
    bounds := some (fun _ => 0, fun _ => 5)
    center := fun _ => 1
    bhStrategy := "shrink"
    vhStrategy := "invert"
    ohStrategy := [("w", "exp_decay"), ("c1", "nonlin_mod"), ("c2", "lin_variation")] }

/-- Non-vacuity: the settings above are usable from the constructed state, and the run returns. -/
example : VelocityWorks Ex.fullCfg ∧ ScheduleUsable Ex.fullCfg ∧
    (∀ key ∈ ["c1", "c2", "w"], key ∈ Ex.fullCfg.options.map Prod.fst) ∧
    TopologyUsable Ex.fullCfg (Ex.draw 3 2).oracle := by
  refine ⟨Or.inr ⟨by simp [Ex.fullCfg], by simp [Ex.fullCfg, Ex.rcfg], by simp [Ex.fullCfg]⟩, ?_,
    by simp [Ex.fullCfg, Ex.rcfg, Ex.opts], ⟨2, 2, rfl, rfl, by decide, by decide, by decide,
      by decide, fun x i => ?_⟩⟩
  · intro opt name h _
    simp only [Ex.fullCfg, List.lookup] at h
    repeat' split at h
    all_goals simp_all
  · simp [Ex.draw]

example : (match construct Ex.fullCfg (Ex.init 3 2) (Ex.init 3 2) with
    | .ok s => decide (∀ i j, (0 : ℚ) ≤ s.swarm.position i j ∧ s.swarm.position i j ≤ 5) &&
      (match optimize Ex.fullCfg (Ex.sphere 3 2) 3 none (fun _ => Ex.draw 3 2) s with
      | (_, .ok _) => true
      | _ => false)
    | _ => false) = true := by decide +kernel

end PySwarms

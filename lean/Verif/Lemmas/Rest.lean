import Verif.Lemmas.Star

/-!
Runs in which no personal best ever improves: all particles start at global minimisers.  Helper
lemmas; the properties are in `Props/MeanPath.lean`.
-/

set_option linter.unusedSectionVars false

namespace PySwarms

variable {n d : Nat} {K : Type} [Field K] [LinearOrder K] [IsStrictOrderedRing K] [Transc K]
  [FloorRing K]

/-- Positions and velocities at iteration `t` of a swarm that starts at `x0` with velocities `v0`
and whose bests stay at `x0` (own) and `g` (common). -/
def restPath (c1 c2 w : K) (x0 v0 : Mat n d K) (g : Vec d K) (env : Nat → Draw n d K) :
    Nat → Mat n d K × Mat n d K
  | 0 => (x0, v0)
  | t + 1 =>
    let x := (restPath c1 c2 w x0 v0 g env t).1
    let v := (restPath c1 c2 w x0 v0 g env t).2
    let v' : Mat n d K := fun i j => w * v i j + c1 * (env t).r1 i j * (x0 i j - x i j)
      + c2 * (env t).r2 i j * (g j - x i j)
    (fun i j => x i j + v' i j, v')

/-- What the swarm looks like at the start of iteration `t`. -/
structure RestInv (cfg : Config n d K) (x0 : Mat n d K) (g : Vec d K) (c : K)
    (xv : Nat → Mat n d K × Mat n d K) (t : Nat) (s : Opt n d K) : Prop where
  pos : s.swarm.position = (xv t).1
  vel : s.swarm.velocity = (xv t).2
  opts : s.swarm.options = cfg.options
  pb : s.swarm.pbestPos = x0
  first : t = 0 → s.swarm.bestCost = none ∧ s.swarm.pbestCost = fun _ => XR.pinf
  later : t ≠ 0 → s.swarm.bestCost = some (.fin c) ∧ (s.swarm.pbestCost = fun _ => XR.fin c) ∧
    s.swarm.bestPos = .single g
  hist : s.posHistory = (List.range t).map fun k => (xv k).1

theorem npArgmin_const (hn : 0 < n) (c : K) :
    npArgmin (fun _ : Fin n => XR.fin c) = some ⟨0, hn⟩ := by
  obtain ⟨k, h1, h2, h3⟩ := npArgmin_spec (fun _ : Fin n => XR.fin c) hn (by simp)
  rw [h1]
  congr 1
  by_contra hk
  have : (⟨0, hn⟩ : Fin n) < k := by
    rw [Fin.lt_def]; simp only
    rcases Nat.eq_zero_or_pos k.val with h | h
    · exact absurd (Fin.ext h) hk
    · exact h
  have := h3 _ this
  simp [XR.lt] at this

theorem ftolDelta_ninf (a b : XR K) : ftolDelta XR.ninf a b = false := by
  unfold ftolDelta
  generalize XR.abs (XR.sub a b) = x
  have h : XR.mul XR.ninf (XR.add (XR.fin 1) (XR.abs b)) = XR.ninf ∨
      XR.mul XR.ninf (XR.add (XR.fin 1) (XR.abs b)) = XR.nan := by
    cases b with
    | nan => right; rfl
    | pinf => left; rfl
    | ninf => left; rfl
    | fin y =>
      left
      simp only [XR.abs]
      split
      · simp only [XR.add, XR.mul, XR.infTimes]
        rw [if_pos (by linarith)]; rfl
      · simp only [XR.add, XR.mul, XR.infTimes]
        rw [if_pos (by linarith)]; rfl
  rcases h with h | h <;> rw [h] <;> cases x <;> rfl

theorem rest_iterate {cfg : Config n d K} (hn : 0 < n) (hk : cfg.kind.isStar)
    (hb : cfg.bounds = none) (hcl : cfg.clamp = none) (hvh : cfg.vhStrategy = "unmodified")
    (hoh : cfg.ohStrategy = []) (hft : cfg.ftol = XR.ninf) (hw : 0 < cfg.window)
    {c1 c2 w : K} (hc1 : cfg.options.lookup "c1" = some c1)
    (hc2 : cfg.options.lookup "c2" = some c2) (hw' : cfg.options.lookup "w" = some w)
    {x0 v0 : Mat n d K} {f : Vec d K → K} {c : K} (hf0 : ∀ i, f (x0 i) = c) (hf : ∀ y, c ≤ f y)
    (env : Nat → Draw n d K) (iters t : Nat) (q : List Bool) (s : Opt n d K)
    (h : RestInv cfg x0 (x0 ⟨0, hn⟩) c (restPath c1 c2 w x0 v0 (x0 ⟨0, hn⟩) env) t s) :
    ∃ s' q', iterate cfg (fun x => .ok fun i => .fin (f (x i))) (env t) iters t q s =
      (s', .ok (.continue q')) ∧
      RestInv cfg x0 (x0 ⟨0, hn⟩) c (restPath c1 c2 w x0 v0 (x0 ⟨0, hn⟩) env) (t + 1) s' := by
  set g := x0 ⟨0, hn⟩
  set xv := restPath c1 c2 w x0 v0 g env
  set cost : Costs n K := fun i => .fin (f (s.swarm.position i)) with hcost
  set s1 := recordEval cost s with hs1
  -- personal bests after the evaluation
  have hpc : s1.swarm.pbestCost = fun _ => XR.fin c := by
    funext i
    simp only [hs1, recordEval, computePbest]
    by_cases ht : t = 0
    · subst ht
      rw [(h.first rfl).2]
      have hx : s.swarm.position i = x0 i := by rw [h.pos]; rfl
      simp [hcost, XR.lt, hx, hf0]
    · rw [(h.later ht).2.1]
      simp [hcost, XR.lt, not_lt.2 (hf _)]
  have hpp : s1.swarm.pbestPos = x0 := by
    funext i j
    simp only [hs1, recordEval, computePbest]
    by_cases ht : t = 0
    · subst ht
      have hx : s.swarm.position = x0 := by rw [h.pos]; rfl
      rw [h.pb, hx]; simp
    · rw [(h.later ht).2.1, h.pb]
      simp [hcost, XR.lt, not_lt.2 (hf _)]
  have hgb : ∃ tt, starGbest s1.top s1.swarm = (tt, .ok (.single g, some (.fin c))) := by
    refine ⟨(starGbest s1.top s1.swarm).1, ?_⟩
    unfold starGbest
    simp only [hpc, npArgmin_const hn, hpp]
    by_cases ht : t = 0
    · have : s1.swarm.bestCostVal = XR.pinf := by
        unfold Swarm.bestCostVal
        have : s1.swarm.bestCost = s.swarm.bestCost := rfl
        rw [this, (h.first ht).1]; rfl
      rw [this]
      simp [XR.lt]
      rfl
    · have h1 : s1.swarm.bestCost = some (.fin c) := (h.later ht).1
      have h2 : s1.swarm.bestPos = .single g := (h.later ht).2.2
      simp only [Swarm.bestCostVal, h1, h2]
      simp [XR.lt]
  obtain ⟨tt, hgb⟩ := hgb
  set s2 := recordBest tt (.single g, some (.fin c)) s1 with hs2
  have hmove : ∃ s3, moveSwarm cfg (env t) iters t s2 = (s3, .ok ()) ∧
      RestInv cfg x0 g c xv (t + 1) s3 := by
    have hkb : cfg.kind ≠ .binary := by intro h; rw [h] at hk; exact hk
    have ho : callOptions cfg iters t (env t) s2.swarm = .ok cfg.options := by
      unfold callOptions ohCall
      rw [hoh]
      cases hkk : cfg.kind <;> simp_all
    have hv : computeVelocity { s2.swarm with options := cfg.options } cfg.clamp cfg.vhStrategy
        s2.vhMem (velBounds cfg) (env t).r1 (env t).r2 = (s2.vhMem, .ok (xv (t + 1)).2) := by
      unfold computeVelocity
      simp only [hc1, hc2, hw', hvh, hcl]
      have : s2.swarm.bestPos = .single g := rfl
      simp only [this, vhCall, vhUnmodified]
      simp only [if_true]
      congr 2
      funext i j
      have e1 : s2.swarm.pbestPos = x0 := hpp
      have e2 : s2.swarm.position = (xv t).1 := h.pos
      have e3 : s2.swarm.velocity = (xv t).2 := h.vel
      simp only [clampOpt, tempVelocity, this, BestPos.row, e1, e2, e3]
      rfl
    unfold moveSwarm
    simp only [ho, hv]
    have hp : ∀ sw : Swarm n d K, callPosition cfg (env t) s2.bhMem sw =
        (s2.bhMem, .ok fun i j => sw.position i j + sw.velocity i j) := by
      intro sw
      unfold callPosition computePosition
      rw [hb]
      cases hkk : cfg.kind <;> simp_all
    simp only [hp]
    refine ⟨_, rfl, ?_⟩
    have e2 : s2.swarm.position = (xv t).1 := h.pos
    refine ⟨?_, rfl, rfl, hpp, by omega, fun _ => ⟨rfl, hpc, rfl⟩, ?_⟩
    · dsimp only; rw [e2]; rfl
    · dsimp only
      have : s2.posHistory = s.posHistory ++ [s.swarm.position] := rfl
      rw [this, h.hist, h.pos, List.range_succ, List.map_append]; rfl
  obtain ⟨s3, hm, hinv⟩ := hmove
  refine ⟨s3, dequeAppend cfg.window q
      (ftolDelta cfg.ftol s2.swarm.bestCostVal s1.swarm.bestCostVal), ?_, hinv⟩
  unfold iterate
  simp only [callGbest_star cfg hk]
  rw [← hcost, ← hs1, hgb]
  simp only [← hs2]
  have hq : ((dequeAppend cfg.window q
      (ftolDelta cfg.ftol s2.swarm.bestCostVal s1.swarm.bestCostVal)).all id) = false := by
    have hd : ftolDelta cfg.ftol s2.swarm.bestCostVal s1.swarm.bestCostVal = false := by
      rw [hft]; exact ftolDelta_ninf _ _
    rw [hd]
    unfold dequeAppend
    rw [List.all_eq_false]
    refine ⟨false, ?_, by simp⟩
    rw [List.drop_append_of_le_length (by simp; omega)]
    simp
  rw [hq]
  simp only [Bool.and_false, Bool.false_eq_true, if_false, hm]

theorem rest_loop {cfg : Config n d K} (hn : 0 < n) (hk : cfg.kind.isStar)
    (hb : cfg.bounds = none) (hcl : cfg.clamp = none) (hvh : cfg.vhStrategy = "unmodified")
    (hoh : cfg.ohStrategy = []) (hft : cfg.ftol = XR.ninf) (hw : 0 < cfg.window)
    {c1 c2 w : K} (hc1 : cfg.options.lookup "c1" = some c1)
    (hc2 : cfg.options.lookup "c2" = some c2) (hw' : cfg.options.lookup "w" = some w)
    {x0 v0 : Mat n d K} {f : Vec d K → K} {c : K} (hf0 : ∀ i, f (x0 i) = c) (hf : ∀ y, c ≤ f y)
    (env : Nat → Draw n d K) (iters m t : Nat) (q : List Bool) (s : Opt n d K)
    (h : RestInv cfg x0 (x0 ⟨0, hn⟩) c (restPath c1 c2 w x0 v0 (x0 ⟨0, hn⟩) env) t s) :
    ∃ s', loop cfg (fun _ x => .ok fun i => .fin (f (x i))) env iters m t q s = (s', .ok ()) ∧
      RestInv cfg x0 (x0 ⟨0, hn⟩) c (restPath c1 c2 w x0 v0 (x0 ⟨0, hn⟩) env) (t + m) s' := by
  induction m generalizing t q s with
  | zero => exact ⟨s, rfl, h⟩
  | succ m ih =>
    obtain ⟨s', q', h1, h2⟩ := rest_iterate hn hk hb hcl hvh hoh hft hw hc1 hc2 hw' hf0 hf env iters
      t q s h
    obtain ⟨s'', h3, h4⟩ := ih (t + 1) q' s' h2
    refine ⟨s'', ?_, by rw [Nat.add_right_comm] at h4; exact h4⟩
    unfold loop
    rw [h1]
    exact h3

/-- The recorded positions of a run from a fresh state in which the bests rest. -/
theorem rest_optimize {cfg : Config n d K} (hn : 0 < n) (hk : cfg.kind.isStar)
    (hb : cfg.bounds = none) (hcl : cfg.clamp = none) (hvh : cfg.vhStrategy = "unmodified")
    (hoh : cfg.ohStrategy = []) (hft : cfg.ftol = XR.ninf) (hw : 0 < cfg.window)
    {c1 c2 w : K} (hc1 : cfg.options.lookup "c1" = some c1)
    (hc2 : cfg.options.lookup "c2" = some c2) (hw' : cfg.options.lookup "w" = some w)
    (s : Opt n d K) (hs : Fresh cfg s) {f : Vec d K → K} {c : K}
    (hf0 : ∀ i, f (s.swarm.position i) = c) (hf : ∀ y, c ≤ f y)
    (env : Nat → Draw n d K) (iters : Nat) :
    (optimize cfg (fun _ x => .ok fun i => .fin (f (x i))) iters none env s).1.posHistory =
      (List.range iters).map fun k => (restPath c1 c2 w s.swarm.position s.swarm.velocity
        (s.swarm.position ⟨0, hn⟩) env k).1 := by
  obtain ⟨r, sw, t, a, b, p, hsw, rfl⟩ := fresh_cases cfg s hs
  have hsw' : ∃ x v, sw = mkSwarm x v cfg.options := by
    unfold resetSwarm createSwarm at hsw
    simp only at hsw
    split at hsw
    · cases hsw
    · cases hsw; exact ⟨_, _, rfl⟩
  obtain ⟨x, v, rfl⟩ := hsw'
  have h0 : ∀ S : Opt n d K, S.swarm = mkSwarm x v cfg.options → S.posHistory = [] →
      RestInv cfg x (x ⟨0, hn⟩) c (restPath c1 c2 w x v (x ⟨0, hn⟩) env) 0
        (startState cfg none S) := by
    intro S h1 h2
    refine ⟨?_, ?_, ?_, ?_, fun _ => ⟨?_, rfl⟩, by simp, ?_⟩ <;>
      simp [startState, prepare, h1, h2, mkSwarm, restPath]
  obtain ⟨s', h1, h2⟩ := rest_loop hn hk hb hcl hvh hoh hft hw hc1 hc2 hw' hf0 hf env iters iters 0 []
    _ (h0 { swarm := mkSwarm x v cfg.options, top := t, bhMem := a, vhMem := b, openPools := p }
      rfl rfl)
  have h3 := h2.hist
  rw [Nat.zero_add] at h3
  unfold optimize
  simp only [reduceCtorEq, if_false]
  unfold startState at h1
  simp only at h1
  rw [h1]
  dsimp only
  split <;> exact h3

end PySwarms

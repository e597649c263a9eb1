import Verif.Props.Stopping
import Verif.Props.Prefix
import Verif.Props.Symmetry

/-!
# C120: the unit and the zero of the objective decide when a run stops early

The stop test compares the change of the best cost with `ftol * (1 + |best|)`.  Multiplying the objective
by a constant or adding a constant does not change the swarm (C51), but it changes this test.
-/

set_option linter.unusedSectionVars false

namespace PySwarms

variable {n d : Nat} {K : Type} [Field K] [LinearOrder K] [IsStrictOrderedRing K] [Transc K]
  [FloorRing K]

/-! ## Specification -/

/-- The objective `ev` with its finite costs changed by `g`: `lambda x: g(f(x))`. -/
def changedCost (g : K → K) (ev : Nat → Mat n d K → Except Err (Costs n K)) :
    Nat → Mat n d K → Except Err (Costs n K) :=
  fun k x => (ev k x).map fun c i =>
    match c i with
    | .fin a => .fin (g a)
    | z => z

/-! ## Helper lemmas -/

theorem changedCost_lift (g : K → K) (ev : Nat → Mat n d K → Except Err (Costs n K)) :
    changedCost g ev = fun k x => (ev k x).map fun c i => XR.lift g (c i) := by
  funext k x
  unfold changedCost
  congr 1

theorem changedCost_comp (g h : K → K) (ev : Nat → Mat n d K → Except Err (Costs n K))
    (hgh : ∀ a, g (h a) = a) : changedCost g (changedCost h ev) = ev := by
  funext k x
  unfold changedCost
  cases ev k x with
  | error e => rfl
  | ok c =>
    show Except.ok _ = Except.ok c
    congr 1
    funext i
    dsimp only
    cases c i <;> simp [hgh]

theorem smallChange_iff {a : K} {x y : XR K} : SmallChange (XR.fin a) x y ↔
    ∃ p q, x = .fin p ∧ y = .fin q ∧ |q - p| < a * (1 + |p|) := by
  have habs : ∀ p : K, XR.abs (XR.fin p) = XR.fin |p| := by
    intro p
    by_cases h : p < 0
    · simp [XR.abs, h, abs_of_neg h]
    · simp [XR.abs, h, abs_of_nonneg (not_lt.1 h)]
  unfold SmallChange
  cases x with
  | fin p =>
    cases y with
    | fin q =>
      have hs : XR.sub (XR.fin q) (XR.fin p) = XR.fin (q - p) := by
        simp [XR.sub, XR.neg, XR.add, sub_eq_add_neg]
      rw [hs, habs, habs]
      simp [XR.add, XR.mul, XR.lt]
    | nan => simp [XR.sub, XR.add, XR.abs, XR.lt]
    | pinf =>
      simp only [habs]
      simp [XR.sub, XR.neg, XR.add, XR.abs, XR.lt, XR.mul]
    | ninf =>
      simp only [habs]
      simp [XR.sub, XR.neg, XR.add, XR.abs, XR.lt, XR.mul]
  | nan =>
    generalize XR.mul (XR.fin a) (XR.add (XR.fin 1) (XR.abs XR.nan)) = r
    cases y <;> cases r <;> simp [XR.sub, XR.neg, XR.add, XR.abs, XR.lt]
  | pinf =>
    generalize XR.mul (XR.fin a) (XR.add (XR.fin 1) (XR.abs XR.pinf)) = r
    cases y <;> cases r <;> simp [XR.sub, XR.neg, XR.add, XR.abs, XR.lt]
  | ninf =>
    generalize XR.mul (XR.fin a) (XR.add (XR.fin 1) (XR.abs XR.ninf)) = r
    cases y <;> cases r <;> simp [XR.sub, XR.neg, XR.add, XR.abs, XR.lt]

theorem prefix_length_le {α : Type} {A B C : List α} (h1 : A <+: C) (h2 : B <+: C)
    (h : A.length ≤ B.length) : A <+: B := List.prefix_of_prefix_length_le h1 h2 h

/-- The comparison of two first calls, with objectives `f` and `g ∘ f`. -/
theorem stop_compare (cfg : Config n d K) (hcfg : cfg.ConstOptions) (hw : 0 < cfg.window) (g : K → K)
    (hg : StrictMono g) (r1 r2 : InitDraw n d K) (s0 : Opt n d K) (hc : construct cfg r1 r2 = .ok s0)
    (ev : Nat → Mat n d K → Except Err (Costs n K)) (iters : Nat) (nproc : Option Nat)
    (env : Nat → Draw n d K) (s s' : Opt n d K) (v v' : XR K × Vec d K)
    (h : optimize cfg ev iters nproc env s0 = (s, .ok v))
    (h' : optimize cfg (changedCost g ev) iters nproc env s0 = (s', .ok v'))
    (hsmall : ∀ x ∈ s.costHistory, ∀ y ∈ s.costHistory, SmallChange cfg.ftol x y →
      SmallChange cfg.ftol (XR.lift g x) (XR.lift g y)) :
    s'.costHistory.length ≤ s.costHistory.length ∧
      s'.costHistory <+: s.costHistory.map (XR.lift g) ∧ s'.posHistory <+: s.posHistory := by
  have hH0 : s0.costHistory = [] ∧ s0.posHistory = [] := by
    obtain ⟨sw, -, rfl⟩ := construct_ok cfg r1 r2 s0 hc
    exact ⟨rfl, rfl⟩
  have p1 := C80_prefix cfg hcfg hw ev iters nproc env s0 s v h
  have p2 := C80_prefix cfg hcfg hw (changedCost g ev) iters nproc env s0 s' v' h'
  have hc' : construct { cfg with ftol := XR.ninf } r1 r2 = .ok s0 := hc
  obtain ⟨-, -, -, e1, -, -, -, e2, -⟩ := C51_monotone { cfg with ftol := XR.ninf } rfl (XR.lift g)
    (costMap_lift g hg) r1 r2 s0 hc' [.optimize ev iters nproc env]
    (optimize { cfg with ftol := XR.ninf } ev iters nproc env s0).1
    (optimize { cfg with ftol := XR.ninf } (changedCost g ev) iters nproc env s0).1 rfl
    (by rw [changedCost_lift]; rfl)
  obtain ⟨H, a1, a2, a3, a4⟩ := C27_exact cfg ev iters nproc env s0 s v h
  obtain ⟨H', b1, b2, b3, b4⟩ := C27_exact cfg (changedCost g ev) iters nproc env s0 s' v' h'
  rw [hH0.1, List.nil_append] at a1 b1
  have q1 : s.costHistory.map (XR.lift g) <+:
      (optimize { cfg with ftol := XR.ninf } (changedCost g ev) iters nproc env s0).1.costHistory := by
    rw [e2]; exact p1.cost.map _
  have hlen : s'.costHistory.length ≤ s.costHistory.length := by
    by_contra hlt
    rw [a1, b1, not_le] at hlt
    obtain ⟨hne, hst⟩ := a4 (by omega)
    have hpos : 0 < H.length := List.length_pos_iff.2 hne
    have hpre : H.map (XR.lift g) <+: H' := by
      have := prefix_length_le q1 p2.cost (by rw [a1, b1, List.length_map]; omega)
      rwa [a1, b1] at this
    have htake : H'.take H.length = H.map (XR.lift g) := by
      have := List.prefix_iff_eq_take.1 hpre
      rw [List.length_map] at this
      exact this.symm
    apply b3 (H.length - 1) (by omega)
    rw [show H.length - 1 + 1 = H.length by omega, htake]
    refine ⟨hst.1, fun t ht h1 h2 => ?_⟩
    rw [List.length_map] at ht
    rw [List.getElem_map, List.getElem_map]
    refine hsmall _ ?_ _ ?_ (hst.2 t ht h1 h2) <;> rw [a1] <;> exact List.getElem_mem _
  refine ⟨hlen, prefix_length_le p2.cost q1 (by rw [List.length_map]; exact hlen), ?_⟩
  refine prefix_length_le p2.pos (by rw [e1]; exact p1.pos) ?_
  have l1 := (C28_equal_lengths cfg s ⟨r1, r2, s0, [.optimize ev iters nproc env], hc, by
    show s = _; exact (congrArg Prod.fst h).symm⟩).2.2.1
  have l2 := (C28_equal_lengths cfg s' ⟨r1, r2, s0, [.optimize (changedCost g ev) iters nproc env], hc, by
    show s' = _; exact (congrArg Prod.fst h').symm⟩).2.2.1
  rw [l1, l2]
  exact hlen

/-! ## Theorems -/

/-- **C120** (zero point).  Adding a nonnegative constant to the objective never lets the first call after
construction stop later, if the best costs recorded without the constant are not negative: what it
records is the beginning of what is recorded without the constant, the costs increased by the constant. -/
theorem C120_shift (cfg : Config n d K) (hcfg : cfg.ConstOptions) (hw : 0 < cfg.window) (a : K)
    (ha : cfg.ftol = .fin a) (C : K) (hC : 0 ≤ C) (r1 r2 : InitDraw n d K) (s0 : Opt n d K)
    (hc : construct cfg r1 r2 = .ok s0)
    (ev : Nat → Mat n d K → Except Err (Costs n K)) (iters : Nat) (nproc : Option Nat)
    (env : Nat → Draw n d K) (s s' : Opt n d K) (v v' : XR K × Vec d K)
    (h : optimize cfg ev iters nproc env s0 = (s, .ok v))
    (h' : optimize cfg (changedCost (fun y => y + C) ev) iters nproc env s0 = (s', .ok v'))
    (hpos : ∀ y, XR.fin y ∈ s.costHistory → 0 ≤ y) :
    s'.costHistory.length ≤ s.costHistory.length ∧
      s'.costHistory <+: s.costHistory.map (XR.lift fun y => y + C) ∧ s'.posHistory <+: s.posHistory := by
  refine stop_compare cfg hcfg hw (fun y => y + C) (fun x y hxy => by simpa using hxy) r1 r2 s0 hc ev
    iters nproc env s s' v v' h h' fun x hx y hy hsm => ?_
  rw [ha, smallChange_iff] at hsm ⊢
  obtain ⟨p, q, rfl, rfl, hlt⟩ := hsm
  have hp := hpos p hx
  refine ⟨p + C, q + C, rfl, rfl, ?_⟩
  have ha0 : 0 < a := by
    by_contra hna
    have : a * (1 + |p|) ≤ 0 := mul_nonpos_of_nonpos_of_nonneg (not_lt.1 hna) (by positivity)
    linarith [abs_nonneg (q - p)]
  rw [abs_of_nonneg hp] at hlt
  rw [show q + C - (p + C) = q - p by ring, abs_of_nonneg (show 0 ≤ p + C by linarith)]
  have : 0 ≤ a * C := mul_nonneg (le_of_lt ha0) hC
  linarith

/-- **C120** (unit).  Multiplying the objective by a positive constant of at most 1 (measuring it in a
larger unit) never lets the first call after construction stop later. -/
theorem C120_scale_down (cfg : Config n d K) (hcfg : cfg.ConstOptions) (hw : 0 < cfg.window) (a : K)
    (ha : cfg.ftol = .fin a) (C : K) (hC : 0 < C) (hC1 : C ≤ 1) (r1 r2 : InitDraw n d K)
    (s0 : Opt n d K) (hc : construct cfg r1 r2 = .ok s0)
    (ev : Nat → Mat n d K → Except Err (Costs n K)) (iters : Nat) (nproc : Option Nat)
    (env : Nat → Draw n d K) (s s' : Opt n d K) (v v' : XR K × Vec d K)
    (h : optimize cfg ev iters nproc env s0 = (s, .ok v))
    (h' : optimize cfg (changedCost (fun y => C * y) ev) iters nproc env s0 = (s', .ok v')) :
    s'.costHistory.length ≤ s.costHistory.length ∧
      s'.costHistory <+: s.costHistory.map (XR.lift fun y => C * y) ∧ s'.posHistory <+: s.posHistory := by
  refine stop_compare cfg hcfg hw (fun y => C * y) (fun x y hxy => mul_lt_mul_of_pos_left hxy hC) r1 r2
    s0 hc ev iters nproc env s s' v v' h h' fun x hx y hy hsm => ?_
  rw [ha, smallChange_iff] at hsm ⊢
  obtain ⟨p, q, rfl, rfl, hlt⟩ := hsm
  refine ⟨C * p, C * q, rfl, rfl, ?_⟩
  have ha0 : 0 < a := by
    by_contra hna
    have : a * (1 + |p|) ≤ 0 := mul_nonpos_of_nonpos_of_nonneg (not_lt.1 hna) (by positivity)
    linarith [abs_nonneg (q - p)]
  rw [← mul_sub, abs_mul, abs_mul, abs_of_pos hC]
  calc C * |q - p| < C * (a * (1 + |p|)) := mul_lt_mul_of_pos_left hlt hC
    _ = a * (C + C * |p|) := by ring
    _ ≤ a * (1 + C * |p|) := mul_le_mul_of_nonneg_left (by linarith) (le_of_lt ha0)

/-- **C120** (unit).  Multiplying the objective by a constant of at least 1 never lets it stop earlier. -/
theorem C120_scale_up (cfg : Config n d K) (hcfg : cfg.ConstOptions) (hw : 0 < cfg.window) (a : K)
    (ha : cfg.ftol = .fin a) (C : K) (hC1 : 1 ≤ C) (r1 r2 : InitDraw n d K)
    (s0 : Opt n d K) (hc : construct cfg r1 r2 = .ok s0)
    (ev : Nat → Mat n d K → Except Err (Costs n K)) (iters : Nat) (nproc : Option Nat)
    (env : Nat → Draw n d K) (s s' : Opt n d K) (v v' : XR K × Vec d K)
    (h : optimize cfg ev iters nproc env s0 = (s, .ok v))
    (h' : optimize cfg (changedCost (fun y => C * y) ev) iters nproc env s0 = (s', .ok v')) :
    s.costHistory.length ≤ s'.costHistory.length ∧ s.posHistory <+: s'.posHistory := by
  have hC : 0 < C := lt_of_lt_of_le one_pos hC1
  have he : changedCost (fun y => C⁻¹ * y) (changedCost (fun y => C * y) ev) = ev :=
    changedCost_comp _ _ ev fun y => by rw [← mul_assoc, inv_mul_cancel₀ (ne_of_gt hC), one_mul]
  have := C120_scale_down cfg hcfg hw a ha C⁻¹ (inv_pos.2 hC) (inv_le_one_of_one_le₀ hC1) r1 r2 s0 hc
    (changedCost (fun y => C * y) ev) iters nproc env s' s v' v h' (by rw [he]; exact h)
  exact ⟨this.1, this.2.2⟩

/-- **C120** (narrow range).  If the best costs that a call records lie in an interval shorter than
`ftol * (1 + m)`, where `m` is a lower bound of their absolute values, it stops after `ftol_iter + 1`
iterations, whatever the progress.  So does every objective whose values differ by less than `ftol`, and
every objective with a large enough constant added. -/
theorem C120_narrow (cfg : Config n d K) (a lo hi m : K) (ha : cfg.ftol = .fin a) (hm : 0 ≤ m)
    (hr : hi - lo < a * (1 + m)) (ev : Nat → Mat n d K → Except Err (Costs n K)) (iters : Nat)
    (nproc : Option Nat) (env : Nat → Draw n d K) (s s' : Opt n d K) (v : XR K × Vec d K)
    (h : optimize cfg ev iters nproc env s = (s', .ok v)) (H : List (XR K))
    (hH : s'.costHistory = s.costHistory ++ H)
    (hin : ∀ x ∈ H, ∃ y, x = .fin y ∧ lo ≤ y ∧ y ≤ hi ∧ m ≤ |y|) :
    H.length = min iters (cfg.window + 1) := by
  obtain ⟨H', h1, h2, h3, h4⟩ := C27_exact cfg ev iters nproc env s s' v h
  rw [hH] at h1
  obtain rfl := List.append_cancel_left h1
  have hlow : min iters (cfg.window + 1) ≤ H.length := by
    have := C27_at_least cfg ev iters nproc env s s' v h
    rw [hH, List.length_append] at this
    omega
  by_contra hne
  have hgt : cfg.window + 1 < H.length := by omega
  refine h3 cfg.window hgt ⟨le_refl _, fun t ht _ _ => ?_⟩
  rw [List.length_take] at ht
  rw [List.getElem_take, List.getElem_take, ha, smallChange_iff]
  obtain ⟨p, hp, p1, p2, p3⟩ := hin _ (List.getElem_mem (l := H) (n := t) (by omega))
  obtain ⟨q, hq, q1, q2, -⟩ := hin _ (List.getElem_mem (l := H) (n := t + 1) (by omega))
  refine ⟨p, q, hp, hq, ?_⟩
  have ha0 : 0 < a := by
    by_contra hna
    have : a * (1 + m) ≤ 0 := mul_nonpos_of_nonpos_of_nonneg (not_lt.1 hna) (by linarith)
    linarith
  have h5 : |q - p| ≤ hi - lo := abs_le.2 ⟨by linarith, by linarith⟩
  have h6 : a * (1 + m) ≤ a * (1 + |p|) := mul_le_mul_of_nonneg_left (by linarith) (le_of_lt ha0)
  linarith

namespace Ex

/-- Stops when one change is below `a * (1 + |best|)`. -/
def unitCfg (a : ℚ) : Config 2 1 ℚ := { gcfg 2 1 with ftol := .fin a, ftolIter := .int 1 }

/-- The cost of a position is its distance from 8. -/
def fromEight : Nat → Mat 2 1 ℚ → Except Err (Costs 2 ℚ) := fun _ x => .ok fun i => .fin |x i 0 - 8|

/-- The best costs recorded by a call asked for three iterations, with the objective changed by `g`. -/
def unitHistory (a : ℚ) (g : ℚ → ℚ) : List (Option ℚ) :=
  match construct (unitCfg a) (init 2 1) (init 2 1) with
  | .error _ => []
  | .ok s =>
    match optimize (unitCfg a) (changedCost g fromEight) 3 none (fun _ => draw 2 1) s with
    | (s', .ok _) => s'.costHistory.map fun c => match c with
      | XR.fin y => some y
      | _ => none
    | _ => []

end Ex

/-- **C120** (the inequalities can be strict).  A configuration, an objective and one stream of random
numbers for which adding 1000 to the objective, or dividing it by 1000, ends the run after two iterations
instead of three, and one for which multiplying by 1000 prolongs it. -/
theorem C120_strict :
    Ex.unitHistory (1 / 100) (fun y => y) = [some 7, some (27 / 4), some (53 / 8)] ∧
    Ex.unitHistory (1 / 100) (fun y => y + 1000) = [some 1007, some (4027 / 4)] ∧
    Ex.unitHistory (1 / 100) (fun y => 1 / 1000 * y) = [some (7 / 1000), some (27 / 4000)] ∧
    Ex.unitHistory (1 / 30) (fun y => y) = [some 7, some (27 / 4)] ∧
    Ex.unitHistory (1 / 30) (fun y => 1000 * y) = [some 7000, some 6750, some 6625] := by
  decide +kernel

-- the hypotheses of `C120_shift`, `C120_scale_down` and `C120_scale_up` hold for these runs
example : (Ex.unitCfg (1 / 100)).ConstOptions ∧ 0 < (Ex.unitCfg (1 / 100)).window ∧
    (Ex.unitCfg (1 / 100)).ftol = .fin (1 / 100) ∧
    (match construct (Ex.unitCfg (1 / 100)) (Ex.init 2 1) (Ex.init 2 1) with
    | .ok _ => true
    | .error _ => false) = true ∧
    ∀ c ∈ Ex.unitHistory (1 / 100) (fun y => y), ∃ y, c = some y ∧ 0 ≤ y :=
  ⟨.inr rfl, by decide +kernel, rfl, by decide +kernel, by
    rw [C120_strict.1]
    simp
    norm_num⟩

-- the hypotheses of `C120_narrow`: costs between 1006 and 1007, tolerance 1/100
example : (1007 : ℚ) - 1006 < 1 / 100 * (1 + 1006) ∧
    ∀ c ∈ Ex.unitHistory (1 / 100) (fun y => y + 1000), ∃ y, c = some y ∧ 1006 ≤ y ∧ y ≤ 1007 ∧ 1006 ≤ |y| := by
  rw [C120_strict.2.1]
  refine ⟨by norm_num, ?_⟩
  simp
  norm_num [abs_of_pos]

end PySwarms

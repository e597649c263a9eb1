import Verif.Model.BinaryIeee
import Verif.Lemmas.Runs
import Verif.Lemmas.IeeeLink
import Verif.Props.Binary
import Verif.Props.Overflow

/-! # Lemmas about BinaryPSO with the special values of floating point -/

set_option linter.unusedSectionVars false

namespace PySwarms

variable {n d : Nat} {K : Type} [Field K] [LinearOrder K] [IsStrictOrderedRing K]

/-! ## What every iteration keeps -/

theorem iterateBx_inv (A : Fpu K) (E : K → XR K) (cfg : Config n d K)
    (ev : Mat n d K → Except Err (Costs n K)) (r : Draw n d K) (i : Nat) (q : List Bool)
    (I : OptBx n d K → Prop)
    (h1 : ∀ s c, I s → ev s.opt.swarm.position = .ok c → I { s with opt := recordEval c s.opt })
    (h2 : ∀ s t, I s → I { s with opt := { s.opt with top := t } })
    (h3 : ∀ s t g, I s → GbestFrom s.opt.swarm g →
      I { s with opt := recordBest t g s.opt, velocityHistory := s.velocityHistory ++ [s.velocity] })
    (h4 : ∀ s, I s → I (moveBx A E cfg r s).1)
    (s : OptBx n d K) (hs : I s) : I (iterateBx A E cfg ev r i q s).1 := by
  unfold iterateBx
  cases hc : ev s.opt.swarm.position with
  | error e => exact hs
  | ok c =>
    have ha := h1 s c hs hc
    simp only
    cases hg : callGbest cfg r.oracle (recordEval c s.opt).top (recordEval c s.opt).swarm with
    | mk t y =>
      cases y with
      | error e => exact h2 _ t ha
      | ok g =>
        have hb := h3 _ t g ha (callGbest_from hg)
        simp only
        split
        · exact hb
        · have hm := h4 _ hb
          revert hm
          simp only
          generalize moveBx A E cfg r _ = z
          obtain ⟨z1, z2⟩ := z
          intro hm
          cases z2 with
          | error e => exact hm
          | ok u => exact hm

theorem loopBx_inv (A : Fpu K) (E : K → XR K) (cfg : Config n d K)
    (ev : Nat → Mat n d K → Except Err (Costs n K)) (env : Nat → Draw n d K)
    (I : OptBx n d K → Prop)
    (h : ∀ i q s, I s → I (iterateBx A E cfg (ev i) (env i) i q s).1)
    (m i : Nat) (q : List Bool) (s : OptBx n d K) (hs : I s) :
    I (loopBx A E cfg ev env m i q s).1 := by
  induction m generalizing i q s with
  | zero => exact hs
  | succ m ih =>
    have h1 := h i q s hs
    unfold loopBx
    split
    · next s' e he => rw [he] at h1; exact h1
    · next s' he => rw [he] at h1; exact h1
    · next s' q' he => rw [he] at h1; exact ih _ _ _ h1

theorem optimizeBx_state (A : Fpu K) (E : K → XR K) (cfg : Config n d K)
    (ev : Nat → Mat n d K → Except Err (Costs n K)) (iters : Nat) (env : Nat → Draw n d K)
    (s : OptBx n d K) : (optimizeBx A E cfg ev iters env s).1 =
      (loopBx A E cfg ev env iters 0 [] (prepareBx s)).1 := by
  unfold optimizeBx
  generalize loopBx A E cfg ev env iters 0 [] (prepareBx s) = z
  obtain ⟨z1, z2⟩ := z
  cases z2 <;> rfl

theorem optimizeBx_inv (A : Fpu K) (E : K → XR K) (cfg : Config n d K)
    (ev : Nat → Mat n d K → Except Err (Costs n K)) (iters : Nat) (env : Nat → Draw n d K)
    (I : OptBx n d K → Prop) (h0 : ∀ s, I s → I (prepareBx s))
    (h : ∀ i q s, I s → I (iterateBx A E cfg (ev i) (env i) i q s).1)
    (s : OptBx n d K) (hs : I s) : I (optimizeBx A E cfg ev iters env s).1 := by
  rw [optimizeBx_state]
  exact loopBx_inv A E cfg ev env I h iters 0 [] _ (h0 s hs)

/-- A returned pair is the best cost and a personal best of the state left behind. -/
theorem optimizeBx_ok {A : Fpu K} {E : K → XR K} {cfg : Config n d K}
    {ev : Nat → Mat n d K → Except Err (Costs n K)} {iters : Nat} {env : Nat → Draw n d K}
    {s s' : OptBx n d K} {c : XR K} {p : Vec d K}
    (h : optimizeBx A E cfg ev iters env s = (s', .ok (c, p))) :
    s'.opt.swarm.bestCost = some c ∧
      ∃ k, npArgmin s'.opt.swarm.pbestCost = some k ∧ p = s'.opt.swarm.pbestPos k := by
  unfold optimizeBx at h
  revert h
  generalize loopBx A E cfg ev env iters 0 [] (prepareBx s) = z
  obtain ⟨z1, z2⟩ := z
  intro h
  cases z2 with
  | error e => cases h
  | ok u =>
    obtain ⟨h1, h2⟩ := Prod.mk.inj h
    subst h1
    unfold finish at h2
    split at h2
    · cases h2
    · next c' hc =>
      split at h2
      · cases h2
      · next k hk =>
        cases h2
        exact ⟨hc, k, hk, rfl⟩

/-- What `compute_velocity` returns comes from the handler. -/
theorem computeVelocityBx_ok {A : Fpu K} {s : Swarm n d K} {v v' : Mat n d (XR K)}
    {clamp : Option (Clamp d K)} {strategy : String} {mem vm : Option (Mat n d (XR K))}
    {r1 r2 : Mat n d K}
    (h : computeVelocityBx A s v clamp strategy mem r1 r2 = (vm, .ok v')) :
    ∃ c1 c2 w, s.options.lookup "c1" = some c1 ∧ s.options.lookup "c2" = some c2 ∧
      s.options.lookup "w" = some w ∧
      vhCallX A strategy mem clamp none (fun i j => .fin (s.position i j))
        (tempVelocityBx A c1 c2 w r1 r2 s v) = (vm, .ok v') := by
  unfold computeVelocityBx at h
  split at h
  · next c1 c2 w h1 h2 h3 =>
    refine ⟨c1, c2, w, h1, h2, h3, ?_⟩
    simp only at h
    split at h
    · split_ifs at h
      · exact h
      · exact h
      · revert h
        generalize vhCallX A strategy mem clamp none _ _ = z
        obtain ⟨z1, z2⟩ := z
        intro h
        cases z2 <;> cases (Prod.mk.inj h).2
      · cases (Prod.mk.inj h).2
    · exact h
  · cases (Prod.mk.inj h).2

/-- The memory of the velocity handler is what it was or the position. -/
theorem vhCallX_mem {A : Fpu K} {strategy : String} {mem : Option (Mat n d (XR K))}
    {c : Option (Clamp d K)} {bounds : Option (Bounds d K)} (p v : Mat n d (XR K)) :
    (vhCallX A strategy mem c bounds p v).1 = mem ∨
      (vhCallX A strategy mem c bounds p v).1 = some p := by
  unfold vhCallX
  split_ifs
  · exact .inl rfl
  · right
    unfold vhAdjustX
    split <;> rfl
  · exact .inl rfl
  · exact .inl rfl
  · exact .inl rfl

theorem computeVelocityBx_mem {A : Fpu K} {s : Swarm n d K} {v : Mat n d (XR K)}
    {clamp : Option (Clamp d K)} {strategy : String} {mem : Option (Mat n d (XR K))}
    {r1 r2 : Mat n d K} :
    (computeVelocityBx A s v clamp strategy mem r1 r2).1 = mem ∨
      (computeVelocityBx A s v clamp strategy mem r1 r2).1 = some fun i j => .fin (s.position i j) := by
  unfold computeVelocityBx
  split
  · next c1 c2 w h1 h2 h3 =>
    have key := vhCallX_mem (A := A) (strategy := strategy) (mem := mem) (c := clamp)
      (bounds := none) (fun i j => .fin (s.position i j)) (tempVelocityBx A c1 c2 w r1 r2 s v)
    simp only
    revert key
    generalize vhCallX A strategy mem clamp none _ _ = z
    obtain ⟨z1, z2⟩ := z
    intro key
    split
    · split_ifs
      · exact key
      · exact key
      · cases z2 <;> exact key
      · exact .inl rfl
    · exact key
  · exact .inl rfl

/-! ## Bits everywhere, and a property of all velocities -/

/-- A best position of bits. -/
def BestBits : BestPos n d K → Prop
  | .empty => True
  | .single v => ∀ j, v j = 0 ∨ v j = 1
  | .perParticle m => Bits m

/-- Everything but the velocities is made of bits, and every velocity satisfies `V`. -/
structure GoodBx (cfg : Config n d K) (V : Fin d → XR K → Prop) (s : OptBx n d K) : Prop where
  pos : Bits s.opt.swarm.position
  pb : Bits s.opt.swarm.pbestPos
  best : BestBits s.opt.swarm.bestPos
  opts : s.opt.swarm.options = cfg.options
  hist : ∀ x ∈ s.opt.posHistory, Bits x
  evals : ∀ e ∈ s.opt.evals, Bits e.1
  mem : ∀ m, s.vhMem = some m → ∃ b : Mat n d K, Bits b ∧ m = up b
  vel : ∀ i j, V j (s.velocity i j)
  vhist : ∀ v ∈ s.velocityHistory, ∀ i j, V j (v i j)

theorem BestBits.row {b : BestPos n d K} (h : BestBits b) {x : Mat n d K} (hx : Bits x) (i : Fin n)
    (j : Fin d) : b.row x i j = 0 ∨ b.row x i j = 1 := by
  cases b with
  | empty => exact hx i j
  | single v => exact h j
  | perParticle m => exact h i j

theorem binaryPositionX_bits (A : Fpu K) (E : K → XR K) (thr : Vec d K) (v : Mat n d (XR K)) :
    Bits (binaryPositionX A E thr v) := by
  intro i j
  unfold binaryPositionX
  split <;> simp

/-- What the velocity update has to keep, for draws satisfying `D`. -/
def KeepsV (A : Fpu K) (cfg : Config n d K) (V : Fin d → XR K → Prop) (D : Draw n d K → Prop) :
    Prop :=
  ∀ r, D r → ∀ (s : Swarm n d K) (v v' : Mat n d (XR K)) (mem vm : Option (Mat n d (XR K))),
    Bits s.position → Bits s.pbestPos → BestBits s.bestPos → s.options = cfg.options →
    (∀ m, mem = some m → ∃ b : Mat n d K, Bits b ∧ m = up b) → (∀ i j, V j (v i j)) →
    computeVelocityBx A s v cfg.clamp cfg.vhStrategy mem r.r1 r.r2 = (vm, .ok v') →
    ∀ i j, V j (v' i j)

section good
variable {A : Fpu K} {E : K → XR K} {cfg : Config n d K} {V : Fin d → XR K → Prop}
  {D : Draw n d K → Prop}

theorem goodBx_move (hV : KeepsV A cfg V D) {r : Draw n d K} (hr : D r) {s : OptBx n d K}
    (h : GoodBx cfg V s) : GoodBx cfg V (moveBx A E cfg r s).1 := by
  unfold moveBx
  have hm := computeVelocityBx_mem (A := A) (s := s.opt.swarm) (v := s.velocity)
    (clamp := cfg.clamp) (strategy := cfg.vhStrategy) (mem := s.vhMem) (r1 := r.r1) (r2 := r.r2)
  have hv := hV r hr s.opt.swarm s.velocity
  obtain ⟨h1, h2, h3, h4, h5, h6, h7, h8, h9⟩ := h
  cases hc : computeVelocityBx A s.opt.swarm s.velocity cfg.clamp cfg.vhStrategy s.vhMem r.r1 r.r2
    with
  | mk vm y =>
    rw [hc] at hm
    have hmem : ∀ m, vm = some m → ∃ b : Mat n d K, Bits b ∧ m = up b := by
      intro m hvm
      rcases hm with hm | hm
      · exact h7 m (hm.symm.trans hvm)
      · rw [hvm] at hm
        cases hm
        exact ⟨_, h1, rfl⟩
    cases y with
    | error e => exact ⟨h1, h2, h3, h4, h5, h6, hmem, h8, h9⟩
    | ok v =>
      exact ⟨binaryPositionX_bits _ _ _ _, h2, h3, h4, h5, h6, hmem,
        hv v s.vhMem vm h1 h2 h3 h4 h7 h8 hc, h9⟩

theorem goodBx_record (c : Costs n K) {s : OptBx n d K} (h : GoodBx cfg V s) :
    GoodBx cfg V { s with opt := recordEval c s.opt } := by
  obtain ⟨h1, h2, h3, h4, h5, h6, h7, h8, h9⟩ := h
  refine ⟨h1, ?_, h3, h4, h5, ?_, h7, h8, h9⟩
  · intro i j
    by_cases h : XR.lt (c i) (s.opt.swarm.pbestCost i) = true
    · simpa [recordEval, computePbest, h] using h1 i j
    · simpa [recordEval, computePbest, h] using h2 i j
  · intro e he
    simp only [recordEval, List.mem_append, List.mem_singleton] at he
    rcases he with he | rfl
    · exact h6 e he
    · exact h1

theorem goodBx_best (t : TopState n) {g : GBest n d K} {s : OptBx n d K} (h : GoodBx cfg V s)
    (hg : GbestFrom s.opt.swarm g) :
    GoodBx cfg V { s with opt := recordBest t g s.opt,
                          velocityHistory := s.velocityHistory ++ [s.velocity] } := by
  obtain ⟨h1, h2, h3, h4, h5, h6, h7, h8, h9⟩ := h
  refine ⟨h1, h2, ?_, h4, ?_, h6, h7, h8, ?_⟩
  · show BestBits g.1
    cases hg with
    | prev => exact h3
    | single i => exact h2 i
    | rows bn i => exact fun j => h2 (bn j)
  · intro x hx
    simp only [recordBest, Opt.populateHistory, List.mem_append, List.mem_singleton] at hx
    rcases hx with hx | rfl
    · exact h5 x hx
    · exact h1
  · intro v hv
    simp only [List.mem_append, List.mem_singleton] at hv
    rcases hv with hv | rfl
    · exact h9 v hv
    · exact h8

theorem goodBx_iterate (hV : KeepsV A cfg V D) (ev : Mat n d K → Except Err (Costs n K))
    {r : Draw n d K} (hr : D r) (i : Nat) (q : List Bool) {s : OptBx n d K} (h : GoodBx cfg V s) :
    GoodBx cfg V (iterateBx A E cfg ev r i q s).1 := by
  refine iterateBx_inv A E cfg ev r i q (GoodBx cfg V) ?_ ?_ ?_ ?_ s h
  · intro s c hs _
    exact goodBx_record c hs
  · rintro s t ⟨h1, h2, h3, h4, h5, h6, h7, h8, h9⟩
    exact ⟨h1, h2, h3, h4, h5, h6, h7, h8, h9⟩
  · intro s t g hs hg
    exact goodBx_best t hs hg
  · intro s hs
    exact goodBx_move hV hr hs

theorem goodBx_optimize (hV : KeepsV A cfg V D) (ev : Nat → Mat n d K → Except Err (Costs n K))
    (iters : Nat) {env : Nat → Draw n d K} (hr : ∀ i, D (env i)) {s : OptBx n d K}
    (h : GoodBx cfg V s) : GoodBx cfg V (optimizeBx A E cfg ev iters env s).1 := by
  refine optimizeBx_inv A E cfg ev iters env (GoodBx cfg V) ?_ ?_ s h
  · rintro s ⟨h1, h2, h3, h4, h5, h6, h7, h8, h9⟩
    refine ⟨h1, h2, h3, h4, h5, h6, ?_, h8, h9⟩
    intro m hm
    cases hm
    exact ⟨_, h1, rfl⟩
  · intro i q s hs
    exact goodBx_iterate hV (ev i) (hr i) i q hs

/-- A swarm created for a BinaryPSO. -/
theorem resetSwarm_bits (hk : cfg.kind = .binary) (hinit : ∀ p, cfg.initPos = some p → Bits p)
    {r : InitDraw n d K} {sw : Swarm n d K} (h : resetSwarm cfg r = .ok sw) :
    Bits sw.position ∧ sw.pbestPos = sw.position ∧ sw.bestPos = .empty ∧
      sw.options = cfg.options := by
  unfold resetSwarm createSwarm at h
  have hb : cfg.isBinary = true := by simp [Config.isBinary, hk]
  simp only [hb, if_true] at h
  split at h
  · cases h
  · next p hp =>
    cases h
    refine ⟨?_, rfl, rfl, rfl⟩
    show Bits p
    unfold generateDiscreteSwarm at hp
    cases hi : cfg.initPos with
    | none =>
      rw [hi] at hp
      cases hp
      intro i j
      dsimp only
      split <;> simp
    | some q =>
      rw [hi] at hp
      simp only at hp
      split at hp
      · cases hp
      · cases hp
        exact hinit _ hi

theorem goodBx_reset (hk : cfg.kind = .binary) (hinit : ∀ p, cfg.initPos = some p → Bits p)
    {r : InitDraw n d K} (hv : ∀ i j, V j (generateVelocityX A cfg.clamp r.vel i j))
    {s : OptBx n d K} (h : GoodBx cfg V s) : GoodBx cfg V (resetBx A cfg r s).1 := by
  unfold resetBx reset
  obtain ⟨h1, h2, h3, h4, h5, h6, h7, h8, h9⟩ := h
  cases hr : resetSwarm cfg r with
  | error e => exact ⟨h1, h2, h3, h4, by simp, h6, h7, h8, by simp⟩
  | ok sw =>
    obtain ⟨k1, k2, k3, k4⟩ := resetSwarm_bits hk hinit hr
    refine ⟨k1, ?_, ?_, k4, by simp, by simp, h7, hv, by simp⟩
    · show Bits sw.pbestPos; rw [k2]; exact k1
    · show BestBits sw.bestPos; rw [k3]; trivial

theorem goodBx_construct (hk : cfg.kind = .binary) (hinit : ∀ p, cfg.initPos = some p → Bits p)
    {r1 r2 : InitDraw n d K} (hv : ∀ i j, V j (generateVelocityX A cfg.clamp r2.vel i j))
    {s : OptBx n d K} (h : constructBx A cfg r1 r2 = .ok s) : GoodBx cfg V s := by
  unfold constructBx at h
  split at h
  · cases h
  · next o ho =>
    cases h
    unfold construct at ho
    split at ho
    · cases ho
    · split at ho
      · cases ho
      · split at ho
        · cases ho
        · split at ho
          · cases ho
          · next sw hs =>
            cases ho
            obtain ⟨k1, k2, k3, k4⟩ := resetSwarm_bits hk hinit hs
            refine ⟨k1, ?_, ?_, k4, by simp, by simp, by simp, hv, by simp⟩
            · show Bits sw.pbestPos; rw [k2]; exact k1
            · show BestBits sw.bestPos; rw [k3]; trivial

end good

/-! ## One velocity update in float64 -/

theorem bits_bounds : ModerateBounds (d := d) (fun _ => (0 : ℚ), fun _ => 1) := by
  have h1 : (1 : ℚ) ≤ 2 ^ 1000 := one_le_pow₀ (by norm_num)
  refine ⟨⟨fun j => by norm_num, fun j => ⟨?_, ?_⟩⟩, fun j => ⟨?_, ?_⟩⟩
  · exact ⟨0, 0, by norm_num, by norm_num, by norm_num⟩
  · exact ⟨1, 0, by norm_num, by norm_num, by norm_num⟩
  · simp
  · simpa using h1

theorem bit_range {x : ℚ} (h : x = 0 ∨ x = 1) : 0 ≤ x ∧ x ≤ 1 := by
  rcases h with rfl | rfl <;> norm_num

/-- An attraction term between bits is a number of moderate size. -/
theorem attraction_bits {c u p x : ℚ} (hc : |c| ≤ 2 ^ 20) (hu : IsSample u) (hp : p = 0 ∨ p = 1)
    (hx : x = 0 ∨ x = 1) :
    ∃ y, fpu64.mul (fpu64.mul (.fin c) (.fin u)) (fpu64.sub (.fin p) (.fin x)) = .fin y ∧
      |y| ≤ 2 ^ 21 := by
  rw [Fpu.mul_fin, Fpu.sub_fin]
  obtain ⟨h1, h2⟩ := rnd_small (by norm_num) (abs_mul_sample hc hu)
  obtain ⟨h3, h4⟩ := rnd_small (x := p - x) (k := 1) (by norm_num) (by
    obtain ⟨a, b⟩ := bit_range hp
    obtain ⟨a', b'⟩ := bit_range hx
    rw [abs_le]
    constructor <;> norm_num <;> linarith)
  rw [h1, h3, Fpu.mul_fin]
  obtain ⟨h5, h6⟩ := rnd_small (x := f64 (c * u) * f64 (p - x)) (k := 21) (by norm_num) (by
    rw [abs_mul]
    have h : (2 : ℚ) ^ 21 = 2 ^ 20 * 2 ^ 1 := by rw [← pow_add]
    rw [h]
    exact mul_le_mul h2 h4 (abs_nonneg _) (by positivity))
  exact ⟨_, h5, h6⟩

end PySwarms

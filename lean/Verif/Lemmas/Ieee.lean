import Verif.Model.Ieee
import Verif.Lemmas.XR
import Verif.Lemmas.Float
import Mathlib.Tactic.NormNum

/-! # Lemmas about arithmetic with special values -/

set_option linter.unusedSectionVars false

namespace PySwarms

variable {n d : Nat} {K : Type} [Field K] [LinearOrder K] [IsStrictOrderedRing K]

/-- What is used of rounding: it never makes a `nan`, is monotone and symmetric. -/
structure Fpu.Lawful (A : Fpu K) : Prop where
  notNan : ∀ x, A.rnd x ≠ .nan
  mono : ∀ {x y}, x ≤ y → XR.lt (A.rnd y) (A.rnd x) = false
  odd : ∀ {x y}, A.rnd x = .fin y → A.rnd (-x) = .fin (-y)

theorem fpu64_fin {x : ℚ} (h : |f64 x| < 2 ^ 1024) : fpu64.rnd x = .fin (f64 x) := by
  obtain ⟨h1, h2⟩ := abs_lt.1 h
  simp only [fpu64, not_le.2 h2, not_le.2 h1, if_false]

theorem fpu64_lawful : fpu64.Lawful where
  notNan x := by
    simp only [fpu64]
    split
    · simp
    · split <;> simp
  mono {x y} h := by
    have hm := f64_mono h
    simp only [fpu64]
    have hp : (0 : ℚ) < 2 ^ 1024 := by positivity
    generalize (2 : ℚ) ^ 1024 = M at hp ⊢
    split_ifs <;> simp only [XR.lt, decide_eq_false_iff_not, not_lt] <;> first | rfl | linarith
  odd {x y} h := by
    have hp : (0 : ℚ) < 2 ^ 1024 := by positivity
    simp only [fpu64, f64_neg] at h ⊢
    generalize (2 : ℚ) ^ 1024 = M at hp h ⊢
    split_ifs at h with h1 h2
    cases h
    rw [if_neg (by linarith), if_neg (by linarith)]

namespace Fpu.Lawful
variable {A : Fpu K} (hA : A.Lawful)
include hA

/-- Rounding between two finite results is finite and between them. -/
theorem between {a b a' b' x : K} (ha : A.rnd a = .fin a') (hb : A.rnd b = .fin b')
    (h1 : a ≤ x) (h2 : x ≤ b) : ∃ y, A.rnd x = .fin y ∧ a' ≤ y ∧ y ≤ b' := by
  have h3 := hA.mono h1
  have h4 := hA.mono h2
  have h5 := hA.notNan x
  rw [ha] at h3
  rw [hb] at h4
  cases hx : A.rnd x with
  | nan => exact absurd hx h5
  | pinf => rw [hx] at h4; simp [XR.lt] at h4
  | ninf => rw [hx] at h3; simp [XR.lt] at h3
  | fin y =>
    rw [hx] at h3 h4
    simp only [XR.lt, decide_eq_false_iff_not, not_lt] at h3 h4
    exact ⟨y, rfl, h3, h4⟩

theorem within {t t' x : K} (ht : A.rnd t = .fin t') (h : |x| ≤ t) :
    ∃ y, A.rnd x = .fin y ∧ |y| ≤ t' := by
  obtain ⟨h1, h2⟩ := abs_le.1 h
  obtain ⟨y, h3, h4, h5⟩ := hA.between (hA.odd ht) ht h1 h2
  exact ⟨y, h3, abs_le.2 ⟨h4, h5⟩⟩

theorem round_ne_nan {x : XR K} (h : x ≠ .nan) : A.round x ≠ .nan := by
  cases x with
  | fin a => exact hA.notNan a
  | nan => exact absurd rfl h
  | pinf => simp [Fpu.round]
  | ninf => simp [Fpu.round]

theorem add_fin_ne_nan {x : XR K} (h : x ≠ .nan) (y : K) : A.add x (.fin y) ≠ .nan := by
  apply hA.round_ne_nan
  cases x <;> simp_all [XR.add]

theorem fin_add_ne_nan {x : XR K} (h : x ≠ .nan) (y : K) : A.add (.fin y) x ≠ .nan := by
  apply hA.round_ne_nan
  cases x <;> simp_all [XR.add]

theorem mul_ne_nan {x : XR K} (h : x ≠ .nan) {w : K} (hw : w ≠ 0) : A.mul (.fin w) x ≠ .nan := by
  apply hA.round_ne_nan
  cases x with
  | fin a => simp [XR.mul]
  | nan => exact absurd rfl h
  | pinf =>
    rcases lt_or_gt_of_ne hw with h | h
    · simp [XR.mul, XR.infTimes, h, not_lt.2 h.le]
    · simp [XR.mul, XR.infTimes, h]
  | ninf =>
    rcases lt_or_gt_of_ne hw with h | h
    · simp [XR.mul, XR.infTimes, h, not_lt.2 h.le]
    · simp [XR.mul, XR.infTimes, h]

theorem sub_fin_fin_ne_nan (x y : K) : A.sub (.fin x) (.fin y) ≠ .nan := by
  apply hA.round_ne_nan
  simp [XR.sub, XR.add, XR.neg]

end Fpu.Lawful

section nan
variable (A : Fpu K)

@[simp] theorem Fpu.nan_add (x : XR K) : A.add .nan x = .nan := by cases x <;> rfl
@[simp] theorem Fpu.add_nan (x : XR K) : A.add x .nan = .nan := by cases x <;> rfl
@[simp] theorem Fpu.nan_sub (x : XR K) : A.sub .nan x = .nan := by cases x <;> rfl
@[simp] theorem Fpu.sub_nan (x : XR K) : A.sub x .nan = .nan := by cases x <;> rfl
@[simp] theorem Fpu.nan_mul (x : XR K) : A.mul .nan x = .nan := by cases x <;> rfl
@[simp] theorem Fpu.mul_nan (x : XR K) : A.mul x .nan = .nan := by cases x <;> rfl
@[simp] theorem XR.nan_lt (x : XR K) : XR.lt .nan x = false := by cases x <;> rfl
@[simp] theorem XR.lt_nan (x : XR K) : XR.lt x .nan = false := by cases x <;> rfl

theorem Fpu.add_fin (a b : K) : A.add (.fin a) (.fin b) = A.rnd (a + b) := rfl
theorem Fpu.mul_fin (a b : K) : A.mul (.fin a) (.fin b) = A.rnd (a * b) := rfl
theorem Fpu.sub_fin (a b : K) : A.sub (.fin a) (.fin b) = A.rnd (a - b) := by
  show A.rnd (a + -b) = _
  rw [sub_eq_add_neg]

end nan

/-! ## What each part of an iteration keeps -/

section steps
variable [FloorRing K]

theorem iterateX_cases (A : Fpu K) (cfg : Config n d K)
    (ev : Mat n d (XR K) → Except Err (Costs n K)) (r : Draw n d K) (o : Except Err (Opts K))
    (i : Nat) (q : List Bool) (s : OptX n d K) :
    (∃ e, ev s.swarm.position = .error e ∧ iterateX A cfg ev r o i q s = (s, .error e)) ∨
    ∃ c, ev s.swarm.position = .ok c ∧
      ((starX (recordEvalX c s).swarm = none ∧
        iterateX A cfg ev r o i q s = (recordEvalX c s, .error .valueError)) ∨
      ∃ g, starX (recordEvalX c s).swarm = some g ∧
        (iterateX A cfg ev r o i q s = (recordBestX g (recordEvalX c s), .ok .stop) ∨
        (∃ s3 e, moveSwarmX A cfg r o (recordBestX g (recordEvalX c s)) = (s3, .error e) ∧
          iterateX A cfg ev r o i q s = (s3, .error e)) ∨
        ∃ s3 q', moveSwarmX A cfg r o (recordBestX g (recordEvalX c s)) = (s3, .ok ()) ∧
          iterateX A cfg ev r o i q s = (s3, .ok (.continue q')))) := by
  unfold iterateX
  cases ev s.swarm.position with
  | error e => exact .inl ⟨e, rfl, rfl⟩
  | ok c =>
    refine .inr ⟨c, rfl, ?_⟩
    cases hg : starX (recordEvalX c s).swarm with
    | none => exact .inl ⟨rfl, by simp only [hg]⟩
    | some g =>
      refine .inr ⟨g, rfl, ?_⟩
      simp only [hg]
      split
      · exact .inl rfl
      · cases hm : moveSwarmX A cfg r o (recordBestX g (recordEvalX c s)) with
        | mk s3 y =>
          cases y with
          | error e => exact .inr (.inl ⟨s3, e, rfl, rfl⟩)
          | ok u => exact .inr (.inr ⟨s3, _, rfl, rfl⟩)

theorem moveSwarmX_cases (A : Fpu K) (cfg : Config n d K) (r : Draw n d K)
    (o : Except Err (Opts K)) (s : OptX n d K) :
    (∃ e, moveSwarmX A cfg r o s = (s, .error e)) ∨
    ∃ o', o = .ok o' ∧
      ((∃ vm e, computeVelocityX A o' s.swarm cfg.clamp cfg.vhStrategy s.vhMem cfg.bounds r.r1 r.r2
          = (vm, .error e) ∧ moveSwarmX A cfg r o s = ({ s with vhMem := vm }, .error e)) ∨
      ∃ vm v, computeVelocityX A o' s.swarm cfg.clamp cfg.vhStrategy s.vhMem cfg.bounds r.r1 r.r2
          = (vm, .ok v) ∧
        ((∃ bm e, computePositionX A { s.swarm with velocity := v } cfg.bounds cfg.bhStrategy s.bhMem
            r.bh = (bm, .error e) ∧ moveSwarmX A cfg r o s =
            ({ s with vhMem := vm, bhMem := bm, swarm := { s.swarm with velocity := v } },
              .error e)) ∨
        ∃ bm p, computePositionX A { s.swarm with velocity := v } cfg.bounds cfg.bhStrategy s.bhMem
            r.bh = (bm, .ok p) ∧ moveSwarmX A cfg r o s =
            ({ s with vhMem := vm, bhMem := bm,
                      swarm := { s.swarm with velocity := v, position := p } }, .ok ()))) := by
  unfold moveSwarmX
  cases o with
  | error e => exact .inl ⟨e, rfl⟩
  | ok o =>
    refine .inr ⟨o, rfl, ?_⟩
    simp only
    cases computeVelocityX A o s.swarm cfg.clamp cfg.vhStrategy s.vhMem cfg.bounds r.r1 r.r2 with
    | mk vm y =>
      cases y with
      | error e => exact .inl ⟨vm, e, rfl, rfl⟩
      | ok v =>
        refine .inr ⟨vm, v, rfl, ?_⟩
        simp only
        cases computePositionX A { s.swarm with velocity := v } cfg.bounds cfg.bhStrategy s.bhMem
            r.bh with
        | mk bm z =>
          cases z with
          | error e => exact .inl ⟨bm, e, rfl, rfl⟩
          | ok p => exact .inr ⟨bm, p, rfl, rfl⟩

/-- A velocity computed by `compute_velocity` comes from the handler. -/
theorem computeVelocityX_ok {A : Fpu K} {o : Opts K} {s : SwarmX n d K} {clamp : Option (Clamp d K)}
    {strategy : String} {mem : Option (Mat n d (XR K))} {bounds : Option (Bounds d K)}
    {r1 r2 : Mat n d K} {vm : Option (Mat n d (XR K))} {v : Mat n d (XR K)}
    (h : computeVelocityX A o s clamp strategy mem bounds r1 r2 = (vm, .ok v)) :
    ∃ c1 c2 w, o.lookup "c1" = some c1 ∧ o.lookup "c2" = some c2 ∧ o.lookup "w" = some w ∧
      vhCallX A strategy mem clamp bounds s.position (tempVelocityX A c1 c2 w r1 r2 s) =
        (vm, .ok v) := by
  unfold computeVelocityX at h
  split at h
  · next c1 c2 w h1 h2 h3 =>
    refine ⟨c1, c2, w, h1, h2, h3, ?_⟩
    dsimp only at h
    split at h
    · split at h
      · exact h
      · split at h
        · split at h
          · exact h
          · split at h <;> cases h
        · cases h
    · exact h
  · cases h

theorem computeVelocityX_mem {A : Fpu K} {o : Opts K} {s : SwarmX n d K}
    {clamp : Option (Clamp d K)} {strategy : String} {mem : Option (Mat n d (XR K))}
    {bounds : Option (Bounds d K)} {r1 r2 : Mat n d K} :
    (computeVelocityX A o s clamp strategy mem bounds r1 r2).1 = mem ∨
      (computeVelocityX A o s clamp strategy mem bounds r1 r2).1 = some s.position := by
  have key : ∀ v, (vhCallX A strategy mem clamp bounds s.position v).1 = mem ∨
      (vhCallX A strategy mem clamp bounds s.position v).1 = some s.position := by
    intro v
    unfold vhCallX vhAdjustX
    split_ifs
    · exact .inl rfl
    · cases mem <;> exact .inr rfl
    · exact .inl rfl
    · exact .inl rfl
    · exact .inl rfl
  unfold computeVelocityX
  split
  · next c1 c2 w h1 h2 h3 =>
    have hk := key (tempVelocityX A c1 c2 w r1 r2 s)
    dsimp only
    split
    · split
      · exact hk
      · split
        · split
          · exact hk
          · split
            · next h => rw [h] at hk; exact hk
            · next h => rw [h] at hk; exact hk
        · exact .inl rfl
    · exact hk
  · exact .inl rfl

/-- An invariant of the states between iterations, kept by evaluation and move, holds at the end of
a call whatever way it ends. -/
theorem loopX_inv {A : Fpu K} {cfg : Config n d K} {c : CallX n d K} {P : OptX n d K → Prop}
    (h : ∀ i q s, P s → P (iterateX A cfg (c.ev i) (c.env i) (c.oh i) i q s).1) (m i : Nat)
    (q : List Bool) (s : OptX n d K) (hs : P s) : P (loopX A cfg c m i q s).1 := by
  induction m generalizing i q s with
  | zero => exact hs
  | succ m ih =>
    have h1 := h i q s hs
    unfold loopX
    generalize iterateX A cfg (c.ev i) (c.env i) (c.oh i) i q s = y at h1
    obtain ⟨s', y⟩ := y
    match y with
    | .error e => exact h1
    | .ok .stop => exact h1
    | .ok (.continue q') => exact ih (i + 1) q' s' h1

theorem optimizeX_fst (A : Fpu K) (cfg : Config n d K) (c : CallX n d K) (iters : Nat)
    (s : OptX n d K) :
    (optimizeX A cfg c iters s).1 = (loopX A cfg c iters 0 [] { s with
      bhMem := some s.swarm.position
      vhMem := some s.swarm.position
      swarm := { s.swarm with pbestCost := fun _ => XR.pinf } }).1 := by
  unfold optimizeX
  dsimp only
  generalize loopX A cfg c iters 0 [] { s with
      bhMem := some s.swarm.position
      vhMem := some s.swarm.position
      swarm := { s.swarm with pbestCost := fun _ => XR.pinf } } = y
  obtain ⟨s1, y⟩ := y
  cases y with
  | error e => rfl
  | ok u =>
    dsimp only
    split <;> rfl

/-- What `Star` answers: the old best or the personal best of a particle with a cost below it. -/
theorem starX_cases {s : SwarmX n d K} {g : Option (Vec d (XR K)) × Option (XR K)}
    (h : starX s = some g) : g = (s.bestPos, s.bestCost) ∨
      ∃ i, npArgmin s.pbestCost = some i ∧ XR.lt (s.pbestCost i) s.bestCostVal = true ∧
        g = (some (s.pbestPos i), some (s.pbestCost i)) := by
  unfold starX at h
  split at h
  · cases h
  · next i hi =>
    split at h
    · next hlt => cases h; exact .inr ⟨i, hi, hlt, rfl⟩
    · cases h; exact .inl rfl

end steps

end PySwarms

import Verif.Props.Search
import Verif.Lemmas.Float
import Verif.Model.SearchFloat

/-!
# C44 in double precision
-/

namespace PySwarms

section
variable {K : Type} [Field K]

theorem genParamR_id (r : SearchDraw K) (m : Int) (key : String) (b : RandVal K) :
    genParamR id r m key b = genParam r m key b := by
  have hu : ∀ (u : Nat → K) l, npUniformR id u m l = npUniform u m l := by
    intro u l
    rcases l with _ | ⟨x, _ | ⟨y, _ | ⟨z, l⟩⟩⟩ <;> simp [npUniformR, npUniform]
  unfold genParamR genParam
  rcases b with l | l | c <;> simp only [hu, id]

/-- C44: without rounding the floating-point model is the exact one. -/
theorem C44_exact (r : SearchDraw K) (m : Int) (options : List (String × RandVal K)) :
    randomSearchGridR id r m options = randomSearchGrid r m options := by
  have h : ∀ l, genParamsR id r m l = genParams r m l := by
    intro l
    induction l with
    | nil => rfl
    | cons x l ih =>
      obtain ⟨k, b⟩ := x
      rw [genParamsR, genParams, genParamR_id, ih]
      rcases genParam r m k b with e | a
      · rfl
      · rcases genParams r m l with e | l' <;> rfl
  unfold randomSearchGridR randomSearchGrid
  simp only [h]
  rcases options.lookup "p" with _ | p
  · rfl
  · dsimp only
    rcases genParams r m (options.filter fun o => o.1 ≠ "p") with e | ps <;> rfl

theorem genParamsR_ok (fl : K → K) (r : SearchDraw K) (m : Int) (l : List (String × RandVal K))
    (ps : List (String × ParamArray K)) (h : genParamsR fl r m l = .ok ps) (key : String) :
    ∀ b, l.lookup key = some b → ∃ a, ps.lookup key = some a ∧ genParamR fl r m key b = .ok a := by
  induction l generalizing ps with
  | nil => intro b hb; cases hb
  | cons x l ih =>
    obtain ⟨k, b⟩ := x
    rw [genParamsR] at h
    rcases hg : genParamR fl r m k b with e | a
    · rw [hg] at h; cases h
    · rw [hg] at h
      dsimp only at h
      rcases hr : genParamsR fl r m l with e | ps'
      · rw [hr] at h; cases h
      · rw [hr] at h
        cases h
        have ih := ih ps' hr
        by_cases hk : key = k
        · subst hk
          simp only [List.lookup_cons_self, Option.some.injEq]
          rintro b' rfl
          exact ⟨a, rfl, hg⟩
        · have hk' : (key == k) = false := by simpa using hk
          rw [List.lookup_cons, List.lookup_cons, hk']
          exact ih

end

theorem uniform_between {lo hi u : ℚ} (hl : f64 lo = lo) (hh : f64 hi = hi) (hu : IsSample u) :
    min lo hi ≤ f64 (lo + f64 (f64 (hi - lo) * u)) ∧
      f64 (lo + f64 (f64 (hi - lo) * u)) ≤ max lo hi := by
  have hu0 : 0 ≤ u := by
    obtain ⟨k, -, rfl⟩ := hu
    positivity
  rcases lt_trichotomy lo hi with h | h | h
  · rw [min_eq_left h.le, max_eq_right h.le]
    have h1 := f64_sample h hl hh hu
    have h2 : 0 ≤ f64 (f64 (hi - lo) * u) :=
      f64_nonneg (mul_nonneg (f64_nonneg (by linarith)) hu0)
    constructor
    · have := f64_mono (show lo ≤ lo + f64 (f64 (hi - lo) * u) by linarith)
      rwa [hl] at this
    · have := f64_mono (show lo + f64 (f64 (hi - lo) * u) ≤ hi by linarith)
      rwa [hh] at this
  · subst h
    have h0 : f64 0 = 0 := by simp [f64, f64pos_zero]
    simp [h0, hl]
  · rw [min_eq_right h.le, max_eq_left h.le]
    have h1 := f64_sample h hh hl hu
    have h2 : 0 ≤ f64 (f64 (lo - hi) * u) :=
      f64_nonneg (mul_nonneg (f64_nonneg (by linarith)) hu0)
    have h3 : f64 (f64 (hi - lo) * u) = -f64 (f64 (lo - hi) * u) := by
      rw [← f64_neg, ← neg_mul, ← f64_neg, neg_sub]
    rw [h3]
    constructor
    · have := f64_mono (show hi ≤ lo + -f64 (f64 (lo - hi) * u) by linarith)
      rwa [hh] at this
    · have := f64_mono (show lo + -f64 (f64 (lo - hi) * u) ≤ lo by linarith)
      rwa [hl] at this

/-- A number lies between two others, given in either order. -/
def BetweenEnds (lo hi v : ℚ) : Prop := (lo ≤ v ∧ v ≤ hi) ∨ (hi ≤ v ∧ v ≤ lo)

/-- C44 in double precision: with double bounds, in either order, and the samples of NumPy's
generator (multiples of `2^-53` below 1) every real parameter is a double between the bounds, both
included; the number of combinations, `p` and `k` are as in the exact model. -/
theorem C44_double (r : SearchDraw ℚ) (hr : ∀ key i, IsSample (r.u key i)) (m : Int)
    (options : List (String × RandVal ℚ)) (grid : List (Combo ℚ))
    (h : randomSearchGridR f64 r m options = .ok grid) :
    grid.length = m.toNat ∧ ∀ g ∈ grid,
      options.lookup "p" = some g.p ∧
      (∀ b, options.lookup "c1" = some b → ∀ lo hi, b.range? = some (lo, hi) →
        IsDouble lo → IsDouble hi → BetweenEnds lo hi g.c1 ∧ IsDouble g.c1) ∧
      (∀ b, options.lookup "c2" = some b → ∀ lo hi, b.range? = some (lo, hi) →
        IsDouble lo → IsDouble hi → BetweenEnds lo hi g.c2 ∧ IsDouble g.c2) ∧
      (∀ b, options.lookup "w" = some b → ∀ lo hi, b.range? = some (lo, hi) →
        IsDouble lo → IsDouble hi → BetweenEnds lo hi g.w ∧ IsDouble g.w) ∧
      ∀ lo hi, options.lookup "k" = some (.ints [lo, hi]) → lo ≤ g.k ∧ g.k < hi := by
  unfold randomSearchGridR at h
  rcases hp : options.lookup "p" with _ | p
  · rw [hp] at h; cases h
  · rw [hp] at h
    dsimp only at h
    rcases hps : genParamsR f64 r m (options.filter fun o => o.1 ≠ "p") with e | ps
    · rw [hps] at h; cases h
    · rw [hps] at h
      dsimp only at h
      obtain ⟨h1, h2⟩ := combos_ok ps p 0 m.toNat grid h
      refine ⟨h1, ?_⟩
      intro g hg
      obtain ⟨j, hj, rfl⟩ := List.getElem_of_mem hg
      have hcj := h2 j hj
      rw [Nat.zero_add] at hcj
      generalize grid[j] = g at hcj
      unfold comboAt at hcj
      rcases e1 : realAt ps "c1" j with e | c1
      · rw [e1] at hcj; cases hcj
      rcases e2 : realAt ps "c2" j with e | c2
      · rw [e1, e2] at hcj; cases hcj
      rcases e3 : realAt ps "w" j with e | w
      · rw [e1, e2, e3] at hcj; cases hcj
      rcases e4 : intAt ps "k" j with e | k
      · rw [e1, e2, e3, e4] at hcj; cases hcj
      rw [e1, e2, e3, e4] at hcj
      cases hcj
      have hreal : ∀ key, (key = "c1" ∨ key = "c2" ∨ key = "w") → ∀ v, realAt ps key j = .ok v →
          ∀ b, options.lookup key = some b → ∀ lo hi, b.range? = some (lo, hi) →
            IsDouble lo → IsDouble hi → BetweenEnds lo hi v ∧ IsDouble v := by
        intro key hkey v hv b hb lo hi hrange hlo hhi
        have hkp : key ≠ "p" := by rcases hkey with rfl | rfl | rfl <;> decide
        obtain ⟨a, ha, hga⟩ := genParamsR_ok f64 r m _ ps hps key b (by
          rw [lookup_filter_ne _ _ _ hkp]; exact hb)
        unfold realAt at hv
        rw [ha] at hv
        unfold genParamR at hga
        rw [if_pos hkey] at hga
        have hm : ∀ l, (npUniformR f64 (r.u key) m l).map ParamArray.reals = .ok a → l = [lo, hi] →
            BetweenEnds lo hi v ∧ IsDouble v := by
          rintro l hl rfl
          unfold npUniformR at hl
          dsimp only at hl
          split at hl
          · cases hl
          · cases hl
            cases hv
            refine ⟨?_, isDouble_f64 _⟩
            obtain ⟨h3, h4⟩ := uniform_between (f64_of_isDouble hlo) (f64_of_isDouble hhi) (hr key j)
            rcases le_total lo hi with hle | hle
            · rw [min_eq_left hle] at h3
              rw [max_eq_right hle] at h4
              exact Or.inl ⟨h3, h4⟩
            · rw [min_eq_right hle] at h3
              rw [max_eq_left hle] at h4
              exact Or.inr ⟨h3, h4⟩
        rcases b with l | l | c
        · rcases l with _ | ⟨x, _ | ⟨y, _ | ⟨z, l⟩⟩⟩ <;> simp only [RandVal.range?, reduceCtorEq,
            Option.some.injEq, Prod.mk.injEq] at hrange
          obtain ⟨rfl, rfl⟩ := hrange
          exact hm _ hga rfl
        · rcases l with _ | ⟨x, _ | ⟨y, _ | ⟨z, l⟩⟩⟩ <;> simp only [RandVal.range?, reduceCtorEq,
            Option.some.injEq, Prod.mk.injEq] at hrange
          obtain ⟨rfl, rfl⟩ := hrange
          exact hm _ hga (by simp [f64_of_isDouble hlo, f64_of_isDouble hhi])
        · simp [RandVal.range?] at hrange
      refine ⟨rfl, hreal "c1" (by simp) c1 e1, hreal "c2" (by simp) c2 e2, hreal "w" (by simp) w e3,
        ?_⟩
      intro lo hi hk
      obtain ⟨a, ha, hga⟩ := genParamsR_ok f64 r m _ ps hps "k" _ (by
          rw [lookup_filter_ne _ _ _ (by decide)]; exact hk)
      unfold intAt at e4
      rw [ha] at e4
      unfold genParamR at hga
      rw [if_neg (by decide), if_pos rfl] at hga
      dsimp only [npRandint] at hga
      split at hga
      · cases hga
      · next hlt =>
        split at hga
        · cases hga
        · cases hga
          cases e4
          have hpos : 0 < hi - lo := by omega
          have h1 := Int.emod_nonneg (r.z j : Int) (by omega : hi - lo ≠ 0)
          have h2 := Int.emod_lt_of_pos (r.z j : Int) hpos
          constructor <;> dsimp only <;> omega

/-- The options of the example in the documentation of `RandomSearch`
(random_search.py:18-22). -/
def docOptions : List (String × RandVal ℚ) :=
  [("c1", .ints [1, 5]), ("c2", .ints [6, 10]), ("w", .ints [2, 5]), ("k", .ints [11, 15]),
    ("p", .const 1)]

/-- The largest sample of NumPy's generator. -/
def topDraw : SearchDraw ℚ := ⟨fun _ _ => (2 ^ 53 - 1) / 2 ^ 53, fun _ => 0⟩

theorem topDraw_isSample (key : String) (i : Nat) : IsSample (topDraw.u key i) :=
  ⟨2 ^ 53 - 1, by norm_num, by norm_num [topDraw]⟩

/-- C44: in double precision the upper end of the half-open range can be reached: with the options
of the documentation's example and the largest sample, `c1` is `5.0`. -/
theorem C44_upper_end_reached : ∃ g, randomSearchGridR f64 topDraw 1 docOptions = .ok [g] ∧
    g.c1 = 5 ∧ g.c2 = 10 := by
  refine ⟨_, rfl, ?_, ?_⟩ <;> decide +kernel

/-- Both hypotheses and conclusion on the example: three combinations. -/
example : ∃ grid, randomSearchGridR f64 topDraw 3 docOptions = .ok grid ∧ grid.length = 3 ∧
    ∀ g ∈ grid, BetweenEnds 1 5 g.c1 ∧ 11 ≤ g.k ∧ g.k < 15 := by
  refine ⟨_, rfl, rfl, ?_⟩
  intro g hg
  obtain ⟨-, h⟩ := C44_double topDraw topDraw_isSample 3 docOptions _ rfl
  obtain ⟨-, h1, -, -, h2⟩ := h g hg
  exact ⟨(h1 (.ints [1, 5]) rfl 1 5 (by norm_num [RandVal.range?]) ⟨1, 0, by norm_num⟩ ⟨5, 0, by norm_num⟩).1,
    h2 11 15 rfl⟩

end PySwarms

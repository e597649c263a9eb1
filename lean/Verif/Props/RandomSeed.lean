import Verif.Model.RandomRng
import Verif.Props.SearchSeed
import Verif.Props.Search

/-!
# RandomSearch draws its grid from the generator of the runs (C125)
-/

namespace PySwarms

section
variable {K O G : Type} [Field K]

/-! ## Specification -/

/-- The doubles are in `[0, 1)`. -/
def GridRng.Legal [LinearOrder K] (rng : GridRng K G) : Prop := ∀ g, 0 ≤ (rng.real g).1 ∧ (rng.real g).1 < 1

/-- The documented options of a random search, in the documentation's order. -/
def docDict (a1 b1 a2 b2 aw bw : K) (lo hi : Int) (p : RandVal K) : List (String × RandVal K) :=
  [("c1", .nums [a1, b1]), ("c2", .nums [a2, b2]), ("w", .nums [aw, bw]), ("k", .ints [lo, hi]),
    ("p", p)]

/-! ## Lemmas -/

theorem genParam_congr (r r' : SearchDraw K) (m : Int) (key : String) (b : RandVal K)
    (hu : r.u key = r'.u key) (hz : key = "k" → r.z = r'.z) : genParam r m key b = genParam r' m key b := by
  unfold genParam
  split
  · rw [hu]
  · split
    · next h => rw [hz h]
    · rfl

theorem genParams_congr (r r' : SearchDraw K) (m : Int) (l : List (String × RandVal K))
    (h : ∀ o ∈ l, r.u o.1 = r'.u o.1 ∧ (o.1 = "k" → r.z = r'.z)) : genParams r m l = genParams r' m l := by
  induction l with
  | nil => rfl
  | cons o l ih =>
    obtain ⟨key, b⟩ := o
    have h1 := h (key, b) List.mem_cons_self
    rw [genParams, genParams, genParam_congr r r' m key b h1.1 h1.2,
      ih fun o ho => h o (List.mem_cons_of_mem _ ho)]

theorem genParamsG_refines [LinearOrder K] (rng : GridRng K G) (m : Int) (l : List (String × RandVal K))
    (hl : (l.map Prod.fst).Nodup) (g : G) :
    ∃ r : SearchDraw K, (rng.Legal → 0 < (1 : K) → r.Legal) ∧ (genParamsG rng m l g).2 = genParams r m l := by
  induction l generalizing g with
  | nil => exact ⟨⟨fun _ _ => 0, fun _ => 0⟩, fun _ h _ _ => ⟨le_refl _, h⟩, rfl⟩
  | cons o l ih =>
    obtain ⟨key, b⟩ := o
    rw [List.map_cons, List.nodup_cons] at hl
    obtain ⟨r', hr', h'⟩ := ih hl.2 (genParamG rng m key b g).1
    refine ⟨⟨fun x => if x = key then fun i => rng.realAt i g else r'.u x,
      if key = "k" then fun i => rng.intAt b.width i g else r'.z⟩, ?_, ?_⟩
    · intro hrng h0 x i
      show 0 ≤ (if x = key then fun i => rng.realAt i g else r'.u x) i ∧
        (if x = key then fun i => rng.realAt i g else r'.u x) i < 1
      by_cases hx : x = key
      · rw [if_pos hx]; exact hrng _
      · rw [if_neg hx]; exact hr' hrng h0 x i
    · rw [genParams, genParams_congr _ r' m l ?_, ← h', genParam_congr _
        ⟨fun _ i => rng.realAt i g, fun i => rng.intAt b.width i g⟩ m key b (if_pos rfl)
        (fun hk => if_pos hk)]
      · rw [genParamsG]
        rcases hp : genParam ⟨fun _ i => rng.realAt i g, fun i => rng.intAt b.width i g⟩ m key b
          with e | a
        · simp only [genParamG, hp]
        · simp only [genParamG, hp]
          rcases genParamsG rng m l (if key = "k" then rng.afterInts b.width m.toNat g
            else rng.afterReals m.toNat g) with ⟨g2, e | l'⟩ <;> rfl
      · intro o ho
        have hne : o.1 ≠ key := fun e => hl.1 (List.mem_map.2 ⟨o, ho, e⟩)
        exact ⟨if_neg hne, fun hk => if_neg fun hk' => hne (hk.trans hk'.symm)⟩

/-- C125: whatever the generator, the grid drawn from it is a grid of C44, for some numbers of `[0, 1)`
(the keys of a dictionary are distinct). -/
theorem C125_refines [LinearOrder K] [IsStrictOrderedRing K] (rng : GridRng K G) (hr : rng.Legal) (m : Int)
    (options : List (String × RandVal K)) (hk : (options.map Prod.fst).Nodup) (g : G) :
    ∃ r : SearchDraw K, r.Legal ∧ (randomSearchGridG rng m options g).2 = randomSearchGrid r m options := by
  have hk' : ((options.filter fun o => o.1 ≠ "p").map Prod.fst).Nodup :=
    hk.sublist (List.filter_sublist.map _)
  obtain ⟨r, h1, h2⟩ := genParamsG_refines rng m _ hk' g
  refine ⟨r, h1 hr one_pos, ?_⟩
  unfold randomSearchGridG randomSearchGrid
  rcases options.lookup "p" with _ | p
  · rfl
  · dsimp only
    rw [← h2]
    rcases genParamsG rng m (options.filter fun o => o.1 ≠ "p") g with ⟨g1, e | ps⟩ <;> rfl

omit [Field K] in
theorem combos_map (params : List (String × ParamArray K)) (p : RandVal K) (f : Nat → Combo K)
    (h : ∀ i, comboAt params p i = .ok (f i)) (i m : Nat) :
    combos params p i m = .ok ((List.range m).map fun t => f (i + t)) := by
  induction m generalizing i with
  | zero => rfl
  | succ m ih =>
    rw [combos, h i, ih (i + 1), List.range_succ_eq_map, List.map_cons, List.map_map]
    simp only [Nat.add_zero]
    congr 2
    apply List.map_congr_left
    intro t _
    show f (i + 1 + t) = f (i + (t + 1))
    congr 1; omega

omit [Field K] in
theorem afterReals_add (rng : GridRng K G) (a b : Nat) (g : G) :
    rng.afterReals b (rng.afterReals a g) = rng.afterReals (a + b) g := by
  unfold GridRng.afterReals
  rw [Nat.add_comm a b, Function.iterate_add_apply]

/-- C125: which random number becomes which value.  With `m` combinations the `c1` values are made from
the first `m` doubles, `c2` from the next `m`, `w` from the next `m`, and then `m` integers are drawn
for `k`; the optimizers go on from there. -/
theorem C125_blocks (rng : GridRng K G) (m : Nat) (a1 b1 a2 b2 aw bw : K) (lo hi : Int) (hk : lo < hi)
    (p : RandVal K) (g : G) :
    randomSearchGridG rng m (docDict a1 b1 a2 b2 aw bw lo hi p) g =
      (rng.afterInts (hi - lo).toNat m (rng.afterReals (3 * m) g),
        .ok ((List.range m).map fun i =>
          { c1 := a1 + (b1 - a1) * rng.realAt i g
            c2 := a2 + (b2 - a2) * rng.realAt (m + i) g
            w := aw + (bw - aw) * rng.realAt (2 * m + i) g
            k := lo + (rng.intAt (hi - lo).toNat i (rng.afterReals (3 * m) g) : Int) % (hi - lo)
            p := p })) := by
  have h0 : ¬ ((m : Int) < 0) := by omega
  have hk' : ¬ hi ≤ lo := by omega
  have hf : (docDict a1 b1 a2 b2 aw bw lo hi p).filter (fun o => o.1 ≠ "p") =
      [("c1", .nums [a1, b1]), ("c2", .nums [a2, b2]), ("w", .nums [aw, bw]),
        ("k", .ints [lo, hi])] := rfl
  have hl : (docDict a1 b1 a2 b2 aw bw lo hi p).lookup "p" = some p := rfl
  unfold randomSearchGridG
  rw [hf, hl]
  have e1 : m + m + m = 3 * m := by omega
  have e2 : m + m = 2 * m := by omega
  simp [genParamsG, genParamG, genParam, npUniform, npRandint, h0, hk', Except.map, RandVal.width,
    GridRng.realAt, afterReals_add, e1]
  rw [combos_map _ _ (fun i =>
          { c1 := a1 + (b1 - a1) * rng.realAt i g
            c2 := a2 + (b2 - a2) * rng.realAt (m + i) g
            w := aw + (bw - aw) * rng.realAt (2 * m + i) g
            k := lo + (rng.intAt (hi - lo).toNat i (rng.afterReals (3 * m) g) : Int) % (hi - lo)
            p := p }) ?_]
  · simp [GridRng.realAt]
  · intro i
    simp [comboAt, realAt, intAt, List.lookup, GridRng.realAt, e2]

/-- C125: asking for more combinations keeps the `c1` values of the first ones. -/
theorem C125_more_c1 (rng : GridRng K G) (m more : Nat) (a1 b1 a2 b2 aw bw : K) (lo hi : Int) (hk : lo < hi)
    (p : RandVal K) (g : G) :
    ∃ grid grid', (randomSearchGridG rng m (docDict a1 b1 a2 b2 aw bw lo hi p) g).2 = .ok grid ∧
      (randomSearchGridG rng (m + more : Nat) (docDict a1 b1 a2 b2 aw bw lo hi p) g).2 = .ok grid' ∧
      grid'.length = m + more ∧ (grid'.map Combo.c1).take m = grid.map Combo.c1 := by
  refine ⟨_, _, by rw [C125_blocks rng m a1 b1 a2 b2 aw bw lo hi hk p g],
    by rw [C125_blocks rng (m + more) a1 b1 a2 b2 aw bw lo hi hk p g], by simp, ?_⟩
  simp only [List.map_map, Function.comp_def, ← List.map_take]
  congr 1
  rw [List.take_range, Nat.min_eq_left (by omega)]

/-- C125: one combination has the same `c1` as the first of two, but its `c2` is drawn with the number
that makes the `c1` of the second. -/
theorem C125_shift (rng : GridRng K G) (a b aw bw : K) (lo hi : Int) (hk : lo < hi)
    (p : RandVal K) (g : G) (x y z : Combo K)
    (h1 : (randomSearchGridG rng 1 (docDict a b a b aw bw lo hi p) g).2 = .ok [x])
    (h2 : (randomSearchGridG rng 2 (docDict a b a b aw bw lo hi p) g).2 = .ok [y, z]) :
    y.c1 = x.c1 ∧ z.c1 = x.c2 := by
  have e1 := C125_blocks rng 1 a b a b aw bw lo hi hk p g
  have e2 := C125_blocks rng 2 a b a b aw bw lo hi hk p g
  simp only [Nat.cast_one, Nat.cast_ofNat] at e1 e2
  rw [e1] at h1; rw [e2] at h2
  cases h1; cases h2
  exact ⟨rfl, rfl⟩

end

/-- C125: so the values of every combination lie in their ranges (C44), whatever the generator. -/
theorem C125_in_range {K G : Type} [Field K] [LinearOrder K] [IsStrictOrderedRing K] (rng : GridRng K G)
    (hr : rng.Legal) (m : Nat) (a1 b1 a2 b2 aw bw : K) (lo hi : Int) (p : RandVal K)
    (h1 : a1 < b1) (h2 : a2 < b2) (hw : aw < bw) (g : G) (grid : List (Combo K))
    (h : (randomSearchGridG rng m (docDict a1 b1 a2 b2 aw bw lo hi p) g).2 = .ok grid) :
    grid.length = m ∧ ∀ c ∈ grid, (a1 ≤ c.c1 ∧ c.c1 < b1) ∧ (a2 ≤ c.c2 ∧ c.c2 < b2) ∧
      (aw ≤ c.w ∧ c.w < bw) ∧ lo ≤ c.k ∧ c.k < hi := by
  obtain ⟨r, hr', e⟩ := C125_refines rng hr m (docDict a1 b1 a2 b2 aw bw lo hi p)
    (by simp only [docDict, List.map_cons, List.map_nil]; decide) g
  rw [e] at h
  obtain ⟨hlen, hc⟩ := C44_in_range r hr' m _ grid h
  refine ⟨by simpa using hlen, fun c hmem => ?_⟩
  obtain ⟨-, q1, q2, q3, q4⟩ := hc c hmem
  exact ⟨q1 (.nums [a1, b1]) rfl a1 b1 rfl h1, q2 (.nums [a2, b2]) rfl a2 b2 rfl h2,
    q3 (.nums [aw, bw]) rfl aw bw rfl hw, q4 lo hi rfl⟩

namespace Ex

/-- A generator whose 9th to 12th double are 0, the others 1/2. -/
def late (n d : Nat) : Rng n d ℚ Nat where
  real := fun m => (if 8 ≤ m ∧ m < 12 then 0 else 1 / 2, m + 1)
  bits := fun m => (fun _ _ => m % 2 = 0, m + 1)
  choice := fun k i m => (((List.finRange n).filter (· ≠ i)).take k, m + 1)

/-- The same generator as `generate_grid` uses it. -/
def lateGrid : GridRng ℚ Nat where
  real := (late 2 1).real
  int := fun width m => (m % width, m + 1)

/-- RandomSearch with two particles minimising `x ** 2` in two iterations. -/
def lateSearch (m : Int) : Option ℚ :=
  match (randomSearchG lateGrid (fun o => generateScoreG
      ((gcfg 2 1).withOptions ([("c1", o.c1), ("c2", o.c2), ("w", o.w)], {})) (quietSphere 2 1) (late 2 1)
      (libs 2 1) 2) m (docDict 0 2 0 2 0 1 1 3 (.const 2)) false 0).2 with
  | .ok (.fin c, _) => some c
  | _ => none

end Ex

/-- C125: more combinations can make the result of a RandomSearch worse: one gives cost 0, two give
cost 4. -/
theorem C125_more_can_hurt : Ex.lateSearch 1 = some 0 ∧ Ex.lateSearch 2 = some 4 := by
  decide +kernel

/-- The hypotheses hold for the example generator and the example options. -/
example : Ex.lateGrid.Legal ∧ (0 : ℚ) < 2 ∧ (0 : ℚ) < 1 ∧ (1 : Int) < 3 ∧
    ((docDict (0 : ℚ) 2 0 2 0 1 1 3 (.const 2)).map Prod.fst).Nodup := by
  refine ⟨fun g => ?_, by norm_num, by norm_num, by norm_num, by decide⟩
  show 0 ≤ (if 8 ≤ g ∧ g < 12 then (0 : ℚ) else 1 / 2) ∧ (if 8 ≤ g ∧ g < 12 then (0 : ℚ) else 1 / 2) < 1
  split <;> norm_num

end PySwarms

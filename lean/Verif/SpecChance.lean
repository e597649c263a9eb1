import Verif.Spec
import Verif.Model.RealOps
import Mathlib.MeasureTheory.Measure.Lebesgue.Basic
import Mathlib.Probability.Independence.Basic
import Mathlib.Algebra.BigOperators.Fin

/-!
# Specification vocabulary for statements about probabilities

The model treats random numbers as arguments.  Here they become random variables on a probability
space `(Ω, P)`.  Samples are ideal: real numbers, uniformly distributed, independent; the code draws
multiples of 2⁻⁵³ from a pseudo-random generator.
-/

open MeasureTheory ProbabilityTheory

namespace PySwarms

/-- The uniform distribution on `[0, 1]`: the ideal law of `np.random.random_sample()` and
`np.random.uniform(0, 1)`. -/
noncomputable def unitLaw : Measure ℝ := volume.restrict (Set.Icc 0 1)

/-- The random variables `U k` are independent and uniformly distributed on `[0, 1]`. -/
structure IidUniform {Ω ι : Type*} [MeasurableSpace Ω] (P : Measure Ω) (U : ι → Ω → ℝ) :
    Prop where
  meas : ∀ k, Measurable (U k)
  law : ∀ k, P.map (U k) = unitLaw
  indep : iIndepFun U P

/-- The coefficients of the cognitive (`false`) and social (`true`) terms drawn in one iteration,
for each particle and dimension. -/
def Draw.coef {n d : ℕ} {K : Type} (r : Draw n d K) (k : Bool × Fin n × Fin d) : K :=
  if k.1 then r.r2 k.2.1 k.2.2 else r.r1 k.2.1 k.2.2

/-- The objective that applies `f` to every particle. -/
def eachParticle {n d : ℕ} {K : Type} (f : Vec d K → K) :
    ℕ → Mat n d K → Except Err (Costs n K) :=
  fun _ x => .ok fun i => .fin (f (x i))

/-- `box` is a box inside the box `b`. -/
def SubBox {d : ℕ} (box b : Bounds d ℝ) : Prop :=
  ∀ j, b.1 j ≤ box.1 j ∧ box.1 j ≤ box.2 j ∧ box.2 j ≤ b.2 j

/-- The point `x` is in the box. -/
def Bounds.Contains {d : ℕ} (box : Bounds d ℝ) (x : Vec d ℝ) : Prop :=
  ∀ j, box.1 j ≤ x j ∧ x j ≤ box.2 j

/-- The share of the volume of `b` that is taken by `box`. -/
noncomputable def share {d : ℕ} (box b : Bounds d ℝ) : ℝ :=
  ∏ j, (box.2 j - box.1 j) / (b.2 j - b.1 j)

/-- The draws `env` with the thresholds of BinaryPSO's position updates replaced by `thr`. -/
def withThr {n d : ℕ} {K : Type} (env : ℕ → Draw n d K) (thr : ℕ → Vec d K) : ℕ → Draw n d K :=
  fun t => { env t with thr := thr t }

/-- A bit string as a position. -/
def bitString {d : ℕ} (bits : Fin d → Bool) : Vec d ℝ := fun j => if bits j then 1 else 0

/-- The probability of drawing `bits` in one step when every velocity is as unfavourable as the
clamp allows: `1 / (1 + exp (-v))` is the probability of a 1. -/
noncomputable def drawChance {d : ℕ} (c : Clamp d ℝ) (bits : Fin d → Bool) : ℝ :=
  ∏ j, if bits j then 1 / (1 + Real.exp (-c.1 j)) else 1 - 1 / (1 + Real.exp (-c.2 j))

end PySwarms

import Verif.Props.Complement
import Mathlib.MeasureTheory.Measure.Lebesgue.Basic

/-! BinaryPSO treats 0 and 1 alike, almost surely (C130). -/

set_option linter.unusedSectionVars false

namespace PySwarms

open MeasureTheory

variable {n d : Nat}

/-- The draws of a run with other thresholds. -/
def withThresholds (env : Nat → Draw n d ℝ) (θ : Nat → Vec d ℝ) : Nat → Draw n d ℝ :=
  fun k => { env k with thr := θ k }

theorem bitMats_finite : Set.Finite {x : Mat n d ℝ | ∀ i j, x i j = 0 ∨ x i j = 1} := by
  have h : Set.Finite (Set.univ.pi fun _ : Fin n => Set.univ.pi fun _ : Fin d => ({0, 1} : Set ℝ)) :=
    Set.Finite.pi fun _ => Set.Finite.pi fun _ => Set.toFinite _
  refine h.subset fun x hx => ?_
  simp only [Set.mem_pi, Set.mem_univ, forall_true_left, Set.mem_insert_iff, Set.mem_singleton_iff]
  exact hx

theorem moveSwarm_thr_finite {cfg : Config n d ℝ} (hk : cfg.kind = .binary) (r : Draw n d ℝ)
    (iters i : Nat) (s : Opt n d ℝ) :
    Set.Finite (Set.range fun t : Vec d ℝ => moveSwarm cfg { r with thr := t } iters i s) := by
  have key : ∀ t : Vec d ℝ, moveSwarm cfg { r with thr := t } iters i s =
      match computeVelocity s.swarm cfg.clamp cfg.vhStrategy s.vhMem none r.r1 r.r2 with
      | (vm, .error e) => ({ s with vhMem := vm }, .error e)
      | (vm, .ok v) => ({ s with
          vhMem := vm
          swarm := { s.swarm with velocity := v, position := binaryPosition t v } }, .ok ()) := by
    intro t
    unfold moveSwarm callOptions velBounds callPosition
    rw [hk]
    dsimp only
    generalize computeVelocity s.swarm cfg.clamp cfg.vhStrategy s.vhMem none r.r1 r.r2 = q
    obtain ⟨vm, e | v⟩ := q <;> rfl
  simp only [key]
  generalize computeVelocity s.swarm cfg.clamp cfg.vhStrategy s.vhMem none r.r1 r.r2 = q
  obtain ⟨vm, e | v⟩ := q
  · exact (Set.finite_singleton _).subset (Set.range_subset_iff.2 fun _ => rfl)
  · refine (bitMats_finite.image fun x => (({ s with
          vhMem := vm
          swarm := { s.swarm with velocity := v, position := x } } : Opt n d ℝ),
          (Except.ok () : Except Err Unit))).subset (Set.range_subset_iff.2 fun t => ?_)
    refine ⟨binaryPosition t v, fun i j => ?_, rfl⟩
    unfold binaryPosition
    split
    · exact Or.inr rfl
    · exact Or.inl rfl

theorem iterate_thr_finite {cfg : Config n d ℝ} (hk : cfg.kind = .binary)
    (ev : Mat n d ℝ → Except Err (Costs n ℝ)) (r : Draw n d ℝ)
    (iters i : Nat) (q : List Bool) (s : Opt n d ℝ) :
    Set.Finite (Set.range fun t : Vec d ℝ => iterate cfg ev { r with thr := t } iters i q s) := by
  unfold iterate
  cases ev s.swarm.position with
  | error e => exact (Set.finite_singleton _).subset (Set.range_subset_iff.2 fun _ => rfl)
  | ok c =>
    dsimp only
    generalize callGbest cfg r.oracle (recordEval c s).top (recordEval c s).swarm = o
    obtain ⟨t, e | g⟩ := o
    · exact (Set.finite_singleton _).subset (Set.range_subset_iff.2 fun _ => rfl)
    · dsimp only
      split
      · exact (Set.finite_singleton _).subset (Set.range_subset_iff.2 fun _ => rfl)
      · have := moveSwarm_thr_finite hk r iters i (recordBest t g (recordEval c s))
        refine (this.image fun o => match o with
          | (s3, .error e) => (s3, .error e)
          | (s3, .ok ()) => (s3, .ok (.continue (dequeAppend cfg.window q
              (ftolDelta cfg.ftol (recordBest t g (recordEval c s)).swarm.bestCostVal
                (recordEval c s).swarm.bestCostVal))))).subset
          (Set.range_subset_iff.2 fun u => ⟨_, ⟨u, rfl⟩, ?_⟩)
        dsimp only
        generalize moveSwarm cfg { r with thr := u } iters i (recordBest t g (recordEval c s)) = o
        obtain ⟨s3, e | u⟩ := o <;> rfl

theorem loop_thr_finite {cfg : Config n d ℝ} (hk : cfg.kind = .binary)
    (ev : Nat → Mat n d ℝ → Except Err (Costs n ℝ)) (env : Nat → Draw n d ℝ)
    (iters l i : Nat) (q : List Bool) (s : Opt n d ℝ) :
    Set.Finite (Set.range fun θ => loop cfg ev (withThresholds env θ) iters l i q s) := by
  induction l generalizing i q s with
  | zero => 
    refine (Set.finite_singleton ((s, .ok ()) : Opt n d ℝ × Except Err Unit)).subset
      (Set.range_subset_iff.2 fun θ => ?_)
    exact rfl
  | succ l ih =>
    have h := iterate_thr_finite hk (ev i) (env i) iters i q s
    let F : Opt n d ℝ × Except Err Flow → Set (Opt n d ℝ × Except Err Unit) := fun o =>
      match o with
      | (s', .error e) => {(s', .error e)}
      | (s', .ok .stop) => {(s', .ok ())}
      | (s', .ok (.continue q')) =>
        Set.range fun θ => loop cfg ev (withThresholds env θ) iters l (i + 1) q' s'
    have hF : ∀ o, (F o).Finite := by
      rintro ⟨s', e | f⟩
      · exact Set.finite_singleton _
      · cases f with
        | stop => exact Set.finite_singleton _
        | «continue» q' => exact ih _ _ _
    refine (h.biUnion fun o _ => hF o).subset (Set.range_subset_iff.2 fun θ => ?_)
    refine Set.mem_biUnion (Set.mem_range_self (θ i)) ?_
    rw [loop]
    show _ ∈ F (iterate cfg (ev i) (withThresholds env θ i) iters i q s)
    generalize iterate cfg (ev i) (withThresholds env θ i) iters i q s = o
    obtain ⟨s', e | f⟩ := o
    · exact rfl
    · cases f with
      | stop => exact rfl
      | «continue» q' => exact ⟨θ, rfl⟩

/-- **C130** (almost surely).  If no threshold has a value of positive probability – nothing else is
assumed about their distribution – then almost surely no threshold is hit exactly, whatever the
objective, the other random numbers and the state the call starts from. -/
theorem C130_almost_surely {Ω : Type} [MeasurableSpace Ω] (P : Measure Ω)
    (U : Nat → Fin d → Ω → ℝ) (hU : ∀ k j x, P {ω | U k j ω = x} = 0)
    (cfg : Config n d ℝ) (m : Fin d → Bool) (hk : cfg.kind = .binary)
    (ev : Nat → Mat n d ℝ → Except Err (Costs n ℝ)) (iters : Nat) (nproc : Option Nat)
    (env : Nat → Draw n d ℝ) (s : Opt n d ℝ) :
    ∀ᵐ ω ∂P, NoExactHit m cfg ev iters nproc
      (fun k => { env k with thr := fun j => U k j ω }) s := by
  unfold NoExactHit
  rw [ae_all_iff]; intro k
  rw [ae_all_iff]; intro _
  rw [ae_all_iff]; intro i
  rw [ae_all_iff]; intro j
  rw [ae_all_iff]; intro _
  have hfin := (loop_thr_finite hk ev env iters (k + 1) 0 [] (startState cfg nproc s)).image
    fun o => sigmoid (o.1.swarm.velocity i j)
  rw [ae_iff]
  have hnull : P (⋃ x ∈ ((fun o : Opt n d ℝ × Except Err Unit => sigmoid (o.1.swarm.velocity i j)) ''
      Set.range fun θ => loop cfg ev (withThresholds env θ) iters (k + 1) 0 []
        (startState cfg nproc s)), {ω | U k j ω = x}) = 0 :=
    (measure_biUnion_null_iff hfin.countable).2 fun x _ => hU k j x
  refine measure_mono_null (fun ω hω => ?_) hnull
  replace hω := not_not.1 hω
  exact Set.mem_biUnion (Set.mem_image_of_mem _ (Set.mem_range_self fun k j => U k j ω)) hω

/-- Non-vacuity: uniform thresholds, even the same one for all bits and iterations. -/
example (k : Nat) (j : Fin d) (x : ℝ) :
    (volume.restrict (Set.Icc (0 : ℝ) 1)) {ω | (fun (_ : Nat) (_ : Fin d) (ω : ℝ) => ω) k j ω = x} = 0 := by
  refine measure_mono_null (t := {x}) (fun ω hω => hω) (measure_singleton x)

example : (volume.restrict (Set.Icc (0 : ℝ) 1)) Set.univ = 1 := by simp

end PySwarms

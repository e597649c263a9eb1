import Verif.Props.Stricter
import Verif.Props.ReplayFloat
import Verif.Props.StopOverflow
import Verif.Props.SchedFloat

/-!
# A stricter stopping rule stops no earlier, in binary64 (C136)
-/

set_option linter.unusedSectionVars false

namespace PySwarms

variable {n d : Nat}

theorem fpu64_rnd_mono {a b : ℚ} (h : a ≤ b) :
    fpu64.rnd b ≠ .nan ∧ XR.lt (fpu64.rnd b) (fpu64.rnd a) = false := by
  have hm := f64_mono h
  simp only [fpu64]
  constructor
  · split
    · exact fun h => by cases h
    · split <;> exact fun h => by cases h
  · have h2 : (0 : ℚ) < 2 ^ 1024 := by positivity
    generalize (2 : ℚ) ^ 1024 = M at h2 ⊢
    split_ifs <;> simp only [XR.lt, decide_eq_false_iff_not, not_lt] <;> first
      | exact hm
      | (exfalso; linarith)

theorem fpu64_rnd_pos {a : ℚ} (h : 1 ≤ a) :
    fpu64.rnd a = .pinf ∨ ∃ v : ℚ, 0 < v ∧ fpu64.rnd a = .fin v := by
  have hm : 1 ≤ f64 a := f64_one ▸ f64_mono h
  simp only [fpu64]
  have h2 : (0 : ℚ) < 2 ^ 1024 := by positivity
  generalize (2 : ℚ) ^ 1024 = M at h2 ⊢
  split_ifs
  · exact .inl rfl
  · exfalso; linarith
  · exact .inr ⟨f64 a, by linarith, rfl⟩

theorem xr_lt_of_lt {z p p' : XR ℚ} (h : XR.lt z p = true) (hp : p' ≠ .nan)
    (hle : XR.lt p' p = false) : XR.lt z p' = true := by
  cases z <;> cases p <;> cases p' <;> simp_all [XR.lt]
  exact lt_of_lt_of_le h hle

theorem ftolDeltaX_mono {f f' : XR ℚ} (hn : f' ≠ .nan) (h : XR.lt f' f = false) (now yet : XR ℚ)
    (hd : ftolDeltaX fpu64 f now yet = true) : ftolDeltaX fpu64 f' now yet = true := by
  unfold ftolDeltaX at hd ⊢
  generalize hz : XR.abs (fpu64.sub now yet) = z at hd ⊢
  have hzn : z ≠ .ninf := by
    rw [← hz]
    generalize fpu64.sub now yet = w
    cases w <;> simp only [XR.abs] <;> try exact fun h => by cases h
    split <;> exact fun h => by cases h
  have hy : fpu64.add (XR.fin (1 : ℚ)) (XR.abs yet) = .nan ∨
      fpu64.add (XR.fin (1 : ℚ)) (XR.abs yet) = .pinf ∨
      ∃ v : ℚ, 0 < v ∧ fpu64.add (XR.fin (1 : ℚ)) (XR.abs yet) = .fin v := by
    cases yet with
    | nan => exact .inl rfl
    | pinf => exact .inr (.inl rfl)
    | ninf => exact .inr (.inl rfl)
    | fin a =>
      right
      have : fpu64.add (XR.fin (1 : ℚ)) (XR.abs (.fin a)) = fpu64.rnd (1 + |a|) := by
        simp only [XR.abs]
        split
        · next h => rw [abs_of_neg h]; rfl
        · next h => rw [abs_of_nonneg (not_lt.1 h)]; rfl
      rw [this]
      exact fpu64_rnd_pos (by linarith [abs_nonneg a])
  rcases hy with hy | hy | ⟨v, hv, hy⟩ <;> rw [hy] at hd ⊢
  · cases f <;> cases z <;> simp [Fpu.mul, Fpu.round, XR.mul, XR.lt] at hd
  · cases f <;> cases f' <;> cases z <;> simp_all [Fpu.mul, Fpu.round, XR.mul, XR.lt, XR.infTimes]
    all_goals (try split_ifs at hd ⊢ <;> simp_all)
    all_goals (try (exfalso; linarith))
  · cases f with
    | nan => cases z <;> simp [Fpu.mul, Fpu.round, XR.mul, XR.lt] at hd
    | ninf => cases z <;> simp_all [Fpu.mul, Fpu.round, XR.mul, XR.lt, XR.infTimes]
    | pinf =>
      cases f' <;> simp_all [XR.lt]
    | fin a =>
      cases f' with
      | nan => exact absurd rfl hn
      | ninf => simp [XR.lt] at h
      | fin b =>
        simp only [XR.lt, decide_eq_false_iff_not, not_lt] at h
        have := fpu64_rnd_mono (mul_le_mul_of_nonneg_right h hv.le)
        exact xr_lt_of_lt hd this.1 this.2
      | pinf =>
        have e : fpu64.mul .pinf (.fin v) = .pinf := by
          simp [Fpu.mul, Fpu.round, XR.mul, XR.infTimes, hv]
        rw [e]
        refine xr_lt_of_lt hd (fun h => by cases h) ?_
        generalize fpu64.mul (.fin a) (.fin v) = p
        cases p <;> rfl

/-- What one machine run has recorded is an initial segment of what the other has. -/
structure RecordsPrefixX (a b : OptX n d ℚ) : Prop where
  cost : a.costHistory <+: b.costHistory
  evals : a.evals <+: b.evals

theorem RecordsPrefixX.trans {a b c : OptX n d ℚ} (h1 : RecordsPrefixX a b)
    (h2 : RecordsPrefixX b c) : RecordsPrefixX a c := ⟨h1.1.trans h2.1, h1.2.trans h2.2⟩

theorem moveSwarmX_records (cfg : Config n d ℚ) (r : Draw n d ℚ) (o : Except Err (Opts ℚ))
    (s : OptX n d ℚ) : RecordsPrefixX s (moveSwarmX fpu64 cfg r o s).1 :=
  ⟨by rw [(moveSwarmX_bests fpu64 cfg r o s).1], by rw [moveSwarmX_evals_same]⟩

theorem loopX_grows (cfg : Config n d ℚ) (c : CallX n d ℚ) (m i : Nat) (q : List Bool)
    (s : OptX n d ℚ) : RecordsPrefixX s (loopX fpu64 cfg c m i q s).1 := by
  induction m generalizing i q s with
  | zero => exact ⟨List.prefix_rfl, List.prefix_rfl⟩
  | succ m ih =>
    rw [loopX, iterateX]
    cases c.ev i s.swarm.position with
    | error e => exact ⟨List.prefix_rfl, List.prefix_rfl⟩
    | ok v =>
      dsimp only
      cases starX (recordEvalX v s).swarm with
      | none => exact ⟨List.prefix_rfl, List.prefix_append _ _⟩
      | some g =>
        dsimp only
        have h0 : RecordsPrefixX s (recordBestX g (recordEvalX v s)) :=
          ⟨List.prefix_append _ _, List.prefix_append _ _⟩
        split_ifs
        · exact h0
        · have hm := moveSwarmX_records cfg (c.env i) (c.oh i) (recordBestX g (recordEvalX v s))
          generalize moveSwarmX fpu64 cfg (c.env i) (c.oh i) (recordBestX g (recordEvalX v s)) = o
            at hm ⊢
          obtain ⟨s3, e | ⟨⟩⟩ := o
          · exact h0.trans hm
          · exact (h0.trans hm).trans (ih _ _ _)

theorem loopX_stricter {cfg : Config n d ℚ} {f' : XR ℚ} {w' : PyArg ℚ} (hn : f' ≠ .nan)
    (hf : XR.lt f' cfg.ftol = false) (hw : (cfg.withStop f' w').window ≤ cfg.window)
    (c : CallX n d ℚ) (m i : Nat) (q q' : List Bool) (hq : DequeLe q q') (s : OptX n d ℚ) :
    loopX fpu64 (cfg.withStop f' w') c m i q' s = loopX fpu64 cfg c m i q s ∨
    RecordsPrefixX (loopX fpu64 (cfg.withStop f' w') c m i q' s).1
      (loopX fpu64 cfg c m i q s).1 := by
  induction m generalizing i q q' s with
  | zero => exact .inl rfl
  | succ m ih =>
    rw [loopX, loopX, iterateX, iterateX]
    cases c.ev i s.swarm.position with
    | error e => exact .inl rfl
    | ok v =>
      dsimp only
      cases starX (recordEvalX v s).swarm with
      | none => exact .inl rfl
      | some g =>
        dsimp only
        have hq1 := hq.append hw (ftolDeltaX_mono hn hf
          (recordBestX g (recordEvalX v s)).swarm.bestCostVal (recordEvalX v s).swarm.bestCostVal)
        have hft : (cfg.withStop f' w').ftol = f' := rfl
        have hmv : ∀ t, moveSwarmX fpu64 (cfg.withStop f' w') (c.env i) (c.oh i) t =
          moveSwarmX fpu64 cfg (c.env i) (c.oh i) t := fun _ => rfl
        rw [hft]
        generalize dequeAppend cfg.window q (ftolDeltaX fpu64 cfg.ftol
          (recordBestX g (recordEvalX v s)).swarm.bestCostVal
          (recordEvalX v s).swarm.bestCostVal) = Q at hq1 ⊢
        generalize dequeAppend (cfg.withStop f' w').window q' (ftolDeltaX fpu64 f'
          (recordBestX g (recordEvalX v s)).swarm.bestCostVal
          (recordEvalX v s).swarm.bestCostVal) = Q' at hq1 ⊢
        rw [hmv]
        by_cases hs : (decide (¬ i < cfg.window) && Q.all id) = true
        · have hs' : (decide (¬ i < (cfg.withStop f' w').window) && Q'.all id) = true := by
            rw [Bool.and_eq_true, decide_eq_true_eq] at hs ⊢
            exact ⟨by omega, hq1.all hs.2⟩
          rw [if_pos hs, if_pos hs']
          exact .inl rfl
        · rw [if_neg hs]
          by_cases hs' : (decide (¬ i < (cfg.withStop f' w').window) && Q'.all id) = true
          · rw [if_pos hs']
            right
            have hr := moveSwarmX_records cfg (c.env i) (c.oh i) (recordBestX g (recordEvalX v s))
            generalize moveSwarmX fpu64 cfg (c.env i) (c.oh i) (recordBestX g (recordEvalX v s)) = o
              at hr ⊢
            obtain ⟨s3, e | ⟨⟩⟩ := o
            · exact hr
            · exact hr.trans (loopX_grows cfg c m (i + 1) Q s3)
          · rw [if_neg hs']
            generalize moveSwarmX fpu64 cfg (c.env i) (c.oh i) (recordBestX g (recordEvalX v s)) = o
            obtain ⟨s3, e | ⟨⟩⟩ := o
            · exact .inl rfl
            · exact ih (i + 1) Q Q' hq1 s3

/-- **C136** (floating point).  The same for `GlobalBestPSO` in binary64, overflow included: either the
two calls are the same, or the laxer one has recorded and evaluated an initial segment. -/
theorem C136_float (cfg : Config n d ℚ) (f' : XR ℚ) (w' : PyArg ℚ) (hn : f' ≠ .nan)
    (hf : XR.lt f' cfg.ftol = false) (hw : (cfg.withStop f' w').window ≤ cfg.window)
    (c : CallX n d ℚ) (iters : Nat) (s : OptX n d ℚ) :
    optimizeX fpu64 (cfg.withStop f' w') c iters s = optimizeX fpu64 cfg c iters s ∨
    ((optimizeX fpu64 (cfg.withStop f' w') c iters s).1.costHistory <+:
        (optimizeX fpu64 cfg c iters s).1.costHistory ∧
      (optimizeX fpu64 (cfg.withStop f' w') c iters s).1.evals <+:
        (optimizeX fpu64 cfg c iters s).1.evals) := by
  rcases loopX_stricter hn hf hw c iters 0 [] [] ⟨le_rfl, .nil⟩ { s with
    bhMem := some s.swarm.position
    vhMem := some s.swarm.position
    swarm := { s.swarm with pbestCost := fun _ => XR.pinf } } with h | h
  · left
    unfold optimizeX
    dsimp only at h ⊢
    rw [h]
  · right
    rw [optimizeX_fst, optimizeX_fst]
    exact ⟨h.1, h.2⟩

/-- Non-vacuity: in binary64 the call of the examples stops after two iterations with `ftol = 1000`
and makes three with the default. -/
example : (optimizeX fpu64 ((Ex.fcfg "periodic").withStop (.fin 1000) (.int 1)) Ex.linkCall 3
      Ex.linkStart).1.costHistory.length = 2 ∧
    (optimizeX fpu64 (Ex.fcfg "periodic") Ex.linkCall 3 Ex.linkStart).1.costHistory.length = 3 ∧
    XR.lt (.fin 1000) (Ex.fcfg "periodic").ftol = false ∧
    ((Ex.fcfg "periodic").withStop (.fin 1000) (.int 1)).window ≤ (Ex.fcfg "periodic").window := by
  decide +kernel

end PySwarms

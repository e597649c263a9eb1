import Verif.Props.Chance
import Verif.Props.Local
import Verif.Props.Outcome
import Verif.Lemmas.Rest

/-!
# BinaryPSO reaches every bit string (C75)

Thresholds are ideal: independent, real, uniform on `[0, 1]`.  All other random numbers are arbitrary
but fixed.
-/

open MeasureTheory ProbabilityTheory

set_option linter.unusedSectionVars false

namespace PySwarms

variable {n d : ℕ} {Ω : Type*} [mΩ : MeasurableSpace Ω] {P : Measure Ω}

/-- A loop only uses the draws of its own iterations. -/
theorem loop_draws (cfg : Config n d ℝ) (ev : ℕ → Mat n d ℝ → Except Err (Costs n ℝ))
    (env env' : ℕ → Draw n d ℝ) (iters m i : ℕ) (q : List Bool) (s : Opt n d ℝ)
    (h : ∀ t, i ≤ t → env t = env' t) :
    loop cfg ev env iters m i q s = loop cfg ev env' iters m i q s := by
  induction m generalizing i q s with
  | zero => rfl
  | succ m ih =>
    unfold loop
    rw [h i le_rfl]
    split
    · rfl
    · rfl
    · exact ih _ _ _ fun t ht => h t (by omega)

/-- One iteration of BinaryPSO: everything but the new position is determined by the state, and
the new position by the thresholds and a velocity within the clamp. -/
theorem binary_step {cfg : Config n d ℝ} (hk : cfg.kind = .binary) (hft : cfg.ftol = XR.ninf)
    (hw : 0 < cfg.window) {c : Clamp d ℝ} (hcc : cfg.clamp = some c) (hc : ∀ j, c.1 j ≤ c.2 j)
    (hst : cfg.vhStrategy ≠ "zero") (ev : ℕ → Mat n d ℝ → Except Err (Costs n ℝ))
    (env : ℕ → Draw n d ℝ) (iters m i : ℕ) (q : List Bool) (s : Opt n d ℝ)
    (hs : s.vhMem.isSome)
    (H : ∀ thr, (loop cfg ev (withThr env thr) iters (m + 1) i q s).2 = .ok ()) :
    ∃ (mk : Mat n d ℝ → Opt n d ℝ) (q' : List Bool) (v : Mat n d ℝ) (cost : Costs n ℝ),
      ev i s.swarm.position = .ok cost ∧
      (∀ thr, loop cfg ev (withThr env thr) iters (m + 1) i q s =
        loop cfg ev (withThr env thr) iters m (i + 1) q' (mk (binaryPosition (thr i) v))) ∧
      (∀ a j, c.1 j ≤ v a j ∧ v a j ≤ c.2 j) ∧
      ∀ B, (mk B).swarm.position = B ∧ (mk B).vhMem.isSome ∧
        (mk B).evals = s.evals ++ [(s.swarm.position, cost)] := by
  have hq : ∀ a b : XR ℝ, ((dequeAppend cfg.window q (ftolDelta cfg.ftol a b)).all id) = false := by
    intro a b
    rw [hft, ftolDelta_ninf]
    unfold dequeAppend
    rw [List.all_eq_false]
    refine ⟨false, ?_, by simp⟩
    rw [List.drop_append_of_le_length (by simp; omega)]
    simp
  have h0 := H fun _ _ => 0
  have hcs := iterate_cases cfg (ev i) (withThr env (fun _ _ => 0) i) iters i q s
  unfold loop at h0
  generalize hit : iterate cfg (ev i) (withThr env (fun _ _ => 0) i) iters i q s = res at hcs h0
  obtain ⟨s', o⟩ := res
  simp only at hcs h0
  cases hcs with
  | evalError e h => simp at h0
  | gbestError c' t e h hg => simp at h0
  | stop c' t g h hg hi hq' => rw [hq] at hq'; cases hq'
  | moveError c' t g s' e h hg hns hm => simp at h0
  | moved cost t g s' h hg hns hm =>
    have hmc := moveSwarm_cases cfg (withThr env (fun _ _ => 0) i) iters i
      (recordBest t g (recordEval cost s))
    rw [hm] at hmc
    simp only at hmc
    cases hmc with
    | ok o vm v bm p ho hv hp =>
      set s2 := recordBest t g (recordEval cost s) with hs2
      have hmem : s2.vhMem = s.vhMem := rfl
      refine ⟨fun B => { s2 with vhMem := vm, bhMem := s2.bhMem
                                 swarm := { s2.swarm with options := o, velocity := v
                                                          position := B } },
        dequeAppend cfg.window q (ftolDelta cfg.ftol s2.swarm.bestCostVal s.swarm.bestCostVal),
        v, cost, h, ?_, ?_, ?_⟩
      · intro thr
        have hmv : moveSwarm cfg (withThr env thr i) iters i s2 =
            ({ s2 with vhMem := vm, bhMem := s2.bhMem
                       swarm := { s2.swarm with options := o, velocity := v
                                                position := binaryPosition (thr i) v } },
              .ok ()) := by
          have ho' : callOptions cfg iters i (withThr env thr i) s2.swarm = .ok o := ho
          have hv' : computeVelocity { s2.swarm with options := o } cfg.clamp cfg.vhStrategy
            s2.vhMem (velBounds cfg) (withThr env thr i).r1 (withThr env thr i).r2 =
              (vm, .ok v) := hv
          unfold moveSwarm
          rw [ho']
          simp only
          rw [hv']
          simp only [callPosition, hk]
          rfl
        have hit : iterate cfg (ev i) (withThr env thr i) iters i q s =
            ({ s2 with vhMem := vm, bhMem := s2.bhMem
                       swarm := { s2.swarm with options := o, velocity := v
                                                position := binaryPosition (thr i) v } },
              .ok (.continue (dequeAppend cfg.window q
                (ftolDelta cfg.ftol s2.swarm.bestCostVal s.swarm.bestCostVal)))) := by
          have hg' : callGbest cfg (withThr env thr i).oracle (recordEval cost s).top
            (recordEval cost s).swarm = (t, .ok g) := hg
          unfold iterate
          rw [h]
          simp only
          rw [hg']
          simp only
          rw [← hs2, recordEval_bestCostVal, hq]
          simp only [Bool.and_false, Bool.false_eq_true, if_false, hmv]
        conv_lhs => unfold loop
        rw [hit]
      · obtain ⟨mm, hmm⟩ := Option.isSome_iff_exists.1 hs
        obtain ⟨_, _, _, _, _, _, hv'⟩ := computeVelocity_ok hv
        rw [hcc, hmem, hmm] at hv'
        exact vhCall_within hst hc hv'
      · intro B
        refine ⟨rfl, ?_, rfl⟩
        have := computeVelocity_mem { s2.swarm with options := o } cfg.clamp cfg.vhStrategy s2.vhMem
          (velBounds cfg) (withThr env (fun _ _ => 0) i).r1 (withThr env (fun _ _ => 0) i).r2
        rw [hv] at this
        rcases this with h' | h'
        · show vm.isSome
          simp only at h'; rw [h', hmem]; exact hs
        · show vm.isSome
          simp only at h'; rw [h']; rfl

/-! ## Events -/

section events
variable {U : ℕ × Fin d → Ω → ℝ}

/-- What is drawn from iteration `t` on. -/
def future (U : ℕ × Fin d → Ω → ℝ) (t : ℕ) : MeasurableSpace Ω :=
  ⨆ k ∈ {k : ℕ × Fin d | t ≤ k.1}, MeasurableSpace.comap (U k) inferInstance

/-- What is drawn in iteration `t`. -/
def now (U : ℕ × Fin d → Ω → ℝ) (t : ℕ) : MeasurableSpace Ω :=
  ⨆ k ∈ {k : ℕ × Fin d | k.1 = t}, MeasurableSpace.comap (U k) inferInstance

theorem future_le (h : IidUniform P U) (t : ℕ) : future U t ≤ mΩ :=
  iSup₂_le fun k _ => (h.meas k).comap_le

theorem now_le (h : IidUniform P U) (t : ℕ) : now U t ≤ mΩ :=
  iSup₂_le fun k _ => (h.meas k).comap_le

theorem future_succ_le (t : ℕ) : future U (t + 1) ≤ future U t :=
  iSup₂_le fun k hk => le_iSup₂_of_le k (le_of_lt (Nat.lt_of_succ_le hk)) le_rfl

theorem now_le_future (t : ℕ) : now U t ≤ future U t :=
  iSup₂_le fun k hk => le_iSup₂_of_le k (le_of_eq hk.symm) le_rfl

theorem now_indep (h : IidUniform P U) (t : ℕ) : Indep (now U t) (future U (t + 1)) P := by
  refine indep_iSup_of_disjoint (fun k => (h.meas k).comap_le) h.indep.iIndep ?_
  rw [Set.disjoint_left]
  intro k h1 h2
  simp only [Set.mem_setOf_eq] at h1 h2
  omega

theorem measurable_now (t : ℕ) (j : Fin d) : Measurable[now U t] (U (t, j)) := by
  rw [measurable_iff_comap_le]
  exact le_iSup₂_of_le (t, j) rfl le_rfl

/-- The swarm with given bits. -/
def bitMat (B : Fin n → Fin d → Bool) : Mat n d ℝ := fun a => bitString (B a)

theorem bitMat_inj {B B' : Fin n → Fin d → Bool} (h : bitMat B = bitMat B') : B = B' := by
  funext a j
  have := congrFun (congrFun h a) j
  simp only [bitMat, bitString] at this
  cases h1 : B a j <;> cases h2 : B' a j <;> simp_all

/-- The event that an update with velocity `v` gives the bits `B`. -/
def outcome (U : ℕ × Fin d → Ω → ℝ) (t : ℕ) (v : Mat n d ℝ) (B : Fin n → Fin d → Bool) : Set Ω :=
  {ω | binaryPosition (fun j => U (t, j) ω) v = bitMat B}

theorem outcome_now (t : ℕ) (v : Mat n d ℝ) (B : Fin n → Fin d → Bool) :
    MeasurableSet[now U t] (outcome U t v B) := by
  have : outcome U t v B = ⋂ a, ⋂ j, U (t, j) ⁻¹'
      {x | (if x < sigmoid (v a j) then (1 : ℝ) else 0) = bitMat B a j} := by
    ext ω
    simp only [outcome, Set.mem_setOf_eq, Set.mem_iInter, Set.mem_preimage]
    constructor
    · intro h a j; rw [← h]; rfl
    · intro h; funext a j; exact h a j
  rw [this]
  refine MeasurableSet.iInter fun a => MeasurableSet.iInter fun j => ?_
  refine measurable_now t j ?_
  refine (Measurable.ite measurableSet_Iio measurable_const measurable_const) (measurableSet_singleton _)

theorem exists_outcome (t : ℕ) (v : Mat n d ℝ) (ω : Ω) : ∃ B, ω ∈ outcome U t v B := by
  refine ⟨fun a j => decide (U (t, j) ω < sigmoid (v a j)), ?_⟩
  funext a j
  simp only [binaryPosition, bitMat, bitString, decide_eq_true_eq]

/-- The event that nothing evaluated after the first `N` evaluations equals `x`. -/
def missed (cfg : Config n d ℝ) (ev : ℕ → Mat n d ℝ → Except Err (Costs n ℝ))
    (env : ℕ → Draw n d ℝ) (U : ℕ × Fin d → Ω → ℝ) (x : Vec d ℝ) (N iters m i : ℕ) (q : List Bool)
    (s : Opt n d ℝ) : Set Ω :=
  {ω | ∀ e ∈ (loop cfg ev (withThr env fun t j => U (t, j) ω) iters m i q s).1.evals.drop N,
    ∀ a, e.1 a ≠ x}

theorem missed_spec {cfg : Config n d ℝ} (hn : 0 < n) (hk : cfg.kind = .binary)
    (hft : cfg.ftol = XR.ninf) (hw : 0 < cfg.window) {c : Clamp d ℝ} (hcc : cfg.clamp = some c)
    (hc : ∀ j, c.1 j ≤ c.2 j) (hst : cfg.vhStrategy ≠ "zero")
    (ev : ℕ → Mat n d ℝ → Except Err (Costs n ℝ)) (env : ℕ → Draw n d ℝ)
    (hU : IidUniform P U) (bits : Fin d → Bool) (N iters m i : ℕ) (q : List Bool) (s : Opt n d ℝ)
    (hs : s.vhMem.isSome) (hN : N ≤ s.evals.length)
    (H : ∀ thr, (loop cfg ev (withThr env thr) iters m i q s).2 = .ok ()) :
    MeasurableSet[future U i] (missed cfg ev env U (bitString bits) N iters m i q s) ∧
    P (missed cfg ev env U (bitString bits) N iters m i q s) ≤
      ENNReal.ofReal ((1 - drawChance c bits) ^ (m - 1)) := by
  haveI := hU.indep.isProbabilityMeasure
  induction m generalizing i q s with
  | zero =>
    refine ⟨?_, ?_⟩
    · have : missed cfg ev env U (bitString bits) N iters 0 i q s =
          {_ω | ∀ e ∈ s.evals.drop N, ∀ a, e.1 a ≠ bitString bits} := rfl
      rw [this]
      exact @MeasurableSet.const _ (future U i) _
    simpa using prob_le_one
  | succ m ih =>
    obtain ⟨mk, q', v, cost, hcost, hstep, hv, hmk⟩ := binary_step hk hft hw hcc hc hst ev env iters m
      i q s hs H
    have hnext : ∀ B ω, ω ∈ outcome U i v B → ∀ thr,
        (loop cfg ev (withThr env thr) iters m (i + 1) q' (mk (bitMat B))).2 = .ok () := by
      intro B ω hω thr
      have h1 := H (Function.update thr i fun j => U (i, j) ω)
      rw [hstep] at h1
      simp only [Function.update_self] at h1
      have : binaryPosition (fun j => U (i, j) ω) v = bitMat B := hω
      rw [this] at h1
      rw [← h1]
      congr 1
      refine loop_draws _ _ _ _ _ _ _ _ _ fun t ht => ?_
      simp only [withThr]
      rw [Function.update_of_ne (by omega)]
    have hlen : ∀ B, N ≤ (mk (bitMat B)).evals.length := by
      intro B; rw [(hmk _).2.2, List.length_append]; omega
    have hset : missed cfg ev env U (bitString bits) N iters (m + 1) i q s =
        ⋃ B, outcome U i v B ∩ missed cfg ev env U (bitString bits) N iters m (i + 1) q'
          (mk (bitMat B)) := by
      ext ω
      simp only [Set.mem_iUnion, Set.mem_inter_iff]
      constructor
      · intro h
        obtain ⟨B, hB⟩ := exists_outcome (U := U) i v ω
        refine ⟨B, hB, ?_⟩
        unfold missed at h ⊢
        simp only [Set.mem_setOf_eq, hstep] at h ⊢
        have : binaryPosition (fun j => U (i, j) ω) v = bitMat B := hB
        rwa [this] at h
      · rintro ⟨B, hB, h⟩
        unfold missed at h ⊢
        simp only [Set.mem_setOf_eq, hstep] at h ⊢
        have : binaryPosition (fun j => U (i, j) ω) v = bitMat B := hB
        rwa [this]
    have hempty : ∀ B, ¬ (outcome U i v B).Nonempty → outcome U i v B = ∅ :=
      fun B h => Set.not_nonempty_iff_eq_empty.1 h
    constructor
    · rw [hset]
      refine MeasurableSet.iUnion fun B => ?_
      by_cases hB : (outcome U i v B).Nonempty
      · obtain ⟨ω, hω⟩ := hB
        exact (now_le_future i _ (outcome_now i v B)).inter
          (future_succ_le i _ (ih (i + 1) q' _ (hmk _).2.1 (hlen B) (hnext B ω hω)).1)
      · rw [hempty B hB, Set.empty_inter]; exact @MeasurableSet.empty _ (future U i)
    · rcases m with _ | m
      · simpa using prob_le_one
      · let a : Fin n := ⟨0, hn⟩
        let S : Finset (Fin n → Fin d → Bool) := Finset.univ.filter fun B => B a ≠ bits
        have hle : ∀ B, P (outcome U i v B ∩ missed cfg ev env U (bitString bits) N iters (m + 1)
            (i + 1) q' (mk (bitMat B))) ≤
            if B ∈ S then P (outcome U i v B) *
              ENNReal.ofReal ((1 - drawChance c bits) ^ m) else 0 := by
          intro B
          by_cases hB : (outcome U i v B).Nonempty
          · obtain ⟨ω, hω⟩ := hB
            obtain ⟨hm, hp⟩ := ih (i + 1) q' _ (hmk _).2.1 (hlen B) (hnext B ω hω)
            split
            · rw [(Indep_iff _ _ P).1 (now_indep hU i) _ _ (outcome_now i v B) hm]
              gcongr
              simpa using hp
            · next hBS =>
              have hBa : B a = bits := by simpa [S] using hBS
              have : missed cfg ev env U (bitString bits) N iters (m + 1) (i + 1) q'
                  (mk (bitMat B)) = ∅ := by
                rw [Set.eq_empty_iff_forall_notMem]
                intro ω' h'
                obtain ⟨_, _, _, cost', hc', -, -, -⟩ := binary_step hk hft hw hcc hc hst ev env iters
                  m (i + 1) q' (mk (bitMat B)) (hmk _).2.1 (hnext B ω hω)
                obtain ⟨E, hE⟩ := loop_first cfg ev (withThr env fun t j => U (t, j) ω') iters m
                  (i + 1) q' (mk (bitMat B)) cost' hc'
                have := h' ((mk (bitMat B)).swarm.position, cost') (by
                  rw [hE, List.drop_append_of_le_length (hlen B)]; simp) a
                apply this
                rw [(hmk _).1]; show bitString (B a) = _; rw [hBa]
              rw [this, Set.inter_empty, measure_empty]
          · rw [hempty B hB, Set.empty_inter, measure_empty]; exact zero_le
        have hrow : P (⋃ B ∈ S, outcome U i v B) ≤ ENNReal.ofReal (1 - drawChance c bits) := by
          have hiid : IidUniform P fun j ω => (fun ω j => U (i, j) ω : Ω → Vec d ℝ) ω j := hU.row i
          have hr := binary_row (fun ω j => U (i, j) ω) hiid v a bits
          have hRm : MeasurableSet {ω | ∀ j, binaryPosition (fun j => U (i, j) ω) v a j =
              if bits j then 1 else 0} := by
            have : {ω | ∀ j, binaryPosition (fun j => U (i, j) ω) v a j =
              if bits j then 1 else 0} = ⋃ B ∈ {B : Fin n → Fin d → Bool | B a = bits},
                outcome U i v B := by
              ext ω
              simp only [Set.mem_setOf_eq, Set.mem_iUnion, exists_prop]
              constructor
              · intro h
                obtain ⟨B, hB⟩ := exists_outcome (U := U) i v ω
                refine ⟨B, ?_, hB⟩
                funext j
                have h1 := h j
                have h2 : binaryPosition (fun j => U (i, j) ω) v = bitMat B := hB
                rw [h2] at h1
                simp only [bitMat, bitString] at h1
                cases h3 : B a j <;> cases h4 : bits j <;> simp_all
              · rintro ⟨B, hB, h⟩ j
                have h2 : binaryPosition (fun j => U (i, j) ω) v = bitMat B := h
                rw [h2, bitMat, hB, bitString]
            rw [this]
            exact MeasurableSet.biUnion (Set.to_countable _) fun B _ => now_le hU i _ (outcome_now i v B)
          have hsub : (⋃ B ∈ S, outcome U i v B) ⊆ {ω | ∀ j,
              binaryPosition (fun j => U (i, j) ω) v a j = if bits j then 1 else 0}ᶜ := by
            intro ω hω
            simp only [Set.mem_iUnion, exists_prop] at hω
            obtain ⟨B, hB, h⟩ := hω
            have hBa : B a ≠ bits := by simpa [S] using hB
            intro hcon
            apply hBa
            funext j
            have h1 := hcon j
            have h2 : binaryPosition (fun j => U (i, j) ω) v = bitMat B := h
            rw [h2] at h1
            simp only [bitMat, bitString] at h1
            cases h3 : B a j <;> cases h4 : bits j <;> simp_all
          refine (measure_mono hsub).trans ?_
          rw [prob_compl_eq_one_sub hRm, hr, ← ENNReal.ofReal_one, ← ENNReal.ofReal_sub]
          · apply ENNReal.ofReal_le_ofReal
            have : drawChance c bits ≤ ∏ j, if bits j then 1 / (1 + Real.exp (-v a j))
                else 1 - 1 / (1 + Real.exp (-v a j)) := by
              refine Finset.prod_le_prod (fun j _ => ?_) fun j _ => ?_
              · split
                · positivity
                · rw [sub_nonneg, div_le_one (by positivity)]
                  linarith [Real.exp_pos (-c.2 j)]
              · split
                · have := Real.exp_le_exp.2 (neg_le_neg (hv a j).1)
                  exact one_div_le_one_div_of_le (by positivity) (by linarith)
                · have := Real.exp_le_exp.2 (neg_le_neg (hv a j).2)
                  have := one_div_le_one_div_of_le (a := 1 + Real.exp (-c.2 j))
                    (b := 1 + Real.exp (-v a j)) (by positivity) (by linarith)
                  linarith
            linarith
          · refine Finset.prod_nonneg fun j _ => ?_
            split
            · positivity
            · rw [sub_nonneg, div_le_one (by positivity)]
              linarith [Real.exp_pos (-v a j)]
        have hdisj : (S : Set (Fin n → Fin d → Bool)).PairwiseDisjoint (outcome U i v) := by
          intro B _ B' _ hne
          rw [Function.onFun, Set.disjoint_left]
          intro ω h1 h2
          have e1 : binaryPosition (fun j => U (i, j) ω) v = bitMat B := h1
          have e2 : binaryPosition (fun j => U (i, j) ω) v = bitMat B' := h2
          exact hne (bitMat_inj (e1.symm.trans e2))
        have hq0 : 0 ≤ 1 - drawChance c bits := by
          have : drawChance c bits ≤ 1 := by
            refine Finset.prod_le_one (fun j _ => ?_) fun j _ => ?_
            · split
              · positivity
              · rw [sub_nonneg, div_le_one (by positivity)]
                linarith [Real.exp_pos (-c.2 j)]
            · split
              · rw [div_le_one (by positivity)]
                linarith [Real.exp_pos (-c.1 j)]
              · have : 0 < 1 / (1 + Real.exp (-c.2 j)) := by positivity
                linarith
          linarith
        calc P (missed cfg ev env U (bitString bits) N iters (m + 1 + 1) i q s)
            ≤ ∑ B, P (outcome U i v B ∩ missed cfg ev env U (bitString bits) N iters (m + 1)
              (i + 1) q' (mk (bitMat B))) := by
              rw [hset]; exact measure_iUnion_fintype_le _ _
          _ ≤ ∑ B, if B ∈ S then P (outcome U i v B) *
              ENNReal.ofReal ((1 - drawChance c bits) ^ m) else 0 := Finset.sum_le_sum fun B _ => hle B
          _ = (∑ B ∈ S, P (outcome U i v B)) * ENNReal.ofReal ((1 - drawChance c bits) ^ m) := by
              rw [Finset.sum_mul, ← Finset.sum_filter]
              congr 1
              ext B; simp
          _ = P (⋃ B ∈ S, outcome U i v B) * ENNReal.ofReal ((1 - drawChance c bits) ^ m) := by
              rw [measure_biUnion_finset hdisj fun B _ => now_le hU i _ (outcome_now i v B)]
          _ ≤ ENNReal.ofReal (1 - drawChance c bits) *
              ENNReal.ofReal ((1 - drawChance c bits) ^ m) := by gcongr
          _ = ENNReal.ofReal ((1 - drawChance c bits) ^ (m + 1 + 1 - 1)) := by
              rw [← ENNReal.ofReal_mul hq0, Nat.add_sub_cancel, pow_succ, mul_comm]

end events

/-! ## The properties -/

theorem drawChance_pos (c : Clamp d ℝ) (bits : Fin d → Bool) : 0 < drawChance c bits := by
  refine Finset.prod_pos fun j _ => ?_
  split
  · positivity
  · rw [sub_pos, div_lt_one (by positivity)]
    linarith [Real.exp_pos (-c.2 j)]

theorem drawChance_le (c : Clamp d ℝ) (bits : Fin d → Bool) : drawChance c bits ≤ 1 := by
  refine Finset.prod_le_one (fun j _ => ?_) fun j _ => ?_
  · split
    · positivity
    · rw [sub_nonneg, div_le_one (by positivity)]
      linarith [Real.exp_pos (-c.2 j)]
  · split
    · rw [div_le_one (by positivity)]
      linarith [Real.exp_pos (-c.1 j)]
    · have : 0 < 1 / (1 + Real.exp (-c.2 j)) := by positivity
      linarith

/-- A BinaryPSO with a velocity clamp `c`, a usable velocity strategy and all options, that does not
stop early. -/
structure ClampedBinary (cfg : Config n d ℝ) (c : Clamp d ℝ) : Prop where
  binary : cfg.kind = .binary
  clamp : cfg.clamp = some c
  proper : ∀ j, c.1 j ≤ c.2 j
  velocity : cfg.vhStrategy ∈ ["unmodified", "adjust"]
  schedule : cfg.ohStrategy = []
  options : ∀ key ∈ ["c1", "c2", "w"], ∃ v, (key, v) ∈ cfg.options
  ftol : cfg.ftol = XR.ninf

/-- C75.  Let BinaryPSO run for `iters` iterations with a velocity clamp, from any state and for any
objective.  Whatever the other random numbers are, the probability that a given bit string is not
among the positions evaluated by this call is at most `(1 - drawChance c bits) ^ (iters - 1)`, and
`drawChance c bits`, which depends only on the clamp, is positive. -/
theorem C75_visits (hn : 0 < n) (cfg : Config n d ℝ) (c : Clamp d ℝ) (h : ClampedBinary cfg c)
    (s : Opt n d ℝ) (hr : Reachable cfg s) (ev : ℕ → Mat n d ℝ → Except Err (Costs n ℝ))
    (hev : ∀ i x, ∃ y, ev i x = .ok y) (env : ℕ → Draw n d ℝ)
    (ht : ∀ t, TopologyWorks cfg (env t).oracle) (nproc : Option ℕ) (hp : nproc ≠ some 0)
    (U : ℕ × Fin d → Ω → ℝ) (hU : IidUniform P U) (bits : Fin d → Bool) (iters : ℕ) :
    0 < drawChance c bits ∧ drawChance c bits ≤ 1 ∧
    P {ω | ∀ e ∈ (optimize cfg ev iters nproc (withThr env fun t j => U (t, j) ω) s).1.evals.drop
        s.evals.length, ∀ a, e.1 a ≠ bitString bits} ≤
      ENNReal.ofReal ((1 - drawChance c bits) ^ (iters - 1)) := by
  haveI := hU.indep.isProbabilityMeasure
  refine ⟨drawChance_pos c bits, drawChance_le c bits, ?_⟩
  rcases Nat.eq_zero_or_pos iters with rfl | hit
  · simpa using prob_le_one
  have hret : ∀ thr : ℕ → Vec d ℝ, ∃ v, (optimize cfg ev iters nproc (withThr env thr) s).2 = .ok v :=
    fun thr => C58_returns hn cfg (Or.inl h.velocity) (Or.inl h.binary) h.schedule h.options s hr ev
      iters hit nproc hp (withThr env thr)
      (fun i x => ⟨(hev i x).choose, (hev i x).choose_spec, fun hs => by
        rw [h.binary] at hs; exact absurd hs (by simp [Kind.isStar])⟩) ht
  have hloop : ∀ thr : ℕ → Vec d ℝ,
      (loop cfg ev (withThr env thr) iters iters 0 [] (startState cfg nproc s)).2 = .ok () ∧
      (optimize cfg ev iters nproc (withThr env thr) s).1.evals =
        (loop cfg ev (withThr env thr) iters iters 0 [] (startState cfg nproc s)).1.evals := by
    intro thr
    obtain ⟨v, hv⟩ := hret thr
    have hc := optimize_cases cfg ev iters nproc (withThr env thr) s
    rw [hv] at hc
    generalize (optimize cfg ev iters nproc (withThr env thr) s).1 = s' at hc ⊢
    cases hc with
    | done s1 r hp hl hf => rw [hl]; exact ⟨rfl, rfl⟩
  have hms := (missed_spec (P := P) hn h.binary h.ftol (reachable_window hr) h.clamp h.proper
    (by intro hz; have := h.velocity; rw [hz] at this; simp at this) ev env hU bits s.evals.length
    iters iters 0 [] (startState cfg nproc s) rfl le_rfl fun thr => (hloop thr).1).2
  refine le_trans (measure_mono ?_) hms
  intro ω hω
  simp only [missed, Set.mem_setOf_eq] at hω ⊢
  rwa [(hloop _).2] at hω

/-- C75: with probability 1 there is a number of iterations from which on every run evaluates the bit
string. -/
theorem C75_almost_surely (hn : 0 < n) (cfg : Config n d ℝ) (c : Clamp d ℝ)
    (h : ClampedBinary cfg c) (s : Opt n d ℝ) (hr : Reachable cfg s)
    (ev : ℕ → Mat n d ℝ → Except Err (Costs n ℝ)) (hev : ∀ i x, ∃ y, ev i x = .ok y)
    (env : ℕ → Draw n d ℝ) (ht : ∀ t, TopologyWorks cfg (env t).oracle) (nproc : Option ℕ)
    (hp : nproc ≠ some 0) (U : ℕ × Fin d → Ω → ℝ) (hU : IidUniform P U) (bits : Fin d → Bool) :
    ∀ᵐ ω ∂P, ∃ T, ∀ iters, T ≤ iters →
      ∃ e ∈ (optimize cfg ev iters nproc (withThr env fun t j => U (t, j) ω) s).1.evals.drop
        s.evals.length, ∃ a, e.1 a = bitString bits := by
  have hq : 0 ≤ 1 - drawChance c bits ∧ 1 - drawChance c bits < 1 :=
    ⟨by linarith [drawChance_le c bits], by linarith [drawChance_pos c bits]⟩
  have hsum : ∑' T, P {ω | ∀ e ∈ (optimize cfg ev T nproc (withThr env fun t j => U (t, j) ω)
      s).1.evals.drop s.evals.length, ∀ a, e.1 a ≠ bitString bits} ≠ ⊤ := by
    refine ne_top_of_le_ne_top ?_ (ENNReal.tsum_le_tsum fun T =>
      (C75_visits hn cfg c h s hr ev hev env ht nproc hp U hU bits T).2.2)
    have hs : Summable fun T : ℕ => (1 - drawChance c bits) ^ (T - 1) := by
      rw [← summable_nat_add_iff 1]
      simpa using summable_geometric_of_lt_one hq.1 hq.2
    exact hs.tsum_ofReal_ne_top
  filter_upwards [ae_eventually_notMem hsum] with ω hω
  rw [Filter.eventually_atTop] at hω
  obtain ⟨T, hT⟩ := hω
  refine ⟨T, fun iters hi => ?_⟩
  have := hT iters hi
  by_contra hcon
  push Not at hcon
  exact this hcon

/-- C75: BinaryPSO finds the optimum.  If every particle is a neighbour of every other (`k` equals the
number of particles), the probability that a run of `iters` iterations does not return the minimal
cost over all bit strings, with a position that has this cost, is at most
`(1 - drawChance c bits) ^ (iters - 1)`, where `bits` is any minimiser. -/
theorem C75_optimum (hn : 0 < n) (cfg : Config n d ℝ) (c : Clamp d ℝ) (h : ClampedBinary cfg c)
    (hinit : ∀ p, cfg.initPos = some p → Bits p) (p : ℕ) (hp0 : p ≠ 0) (hk : cfg.args.k = some n)
    (hap : cfg.args.p = some p) (dist : Vec d ℝ → Vec d ℝ → ℝ) (s : Opt n d ℝ)
    (hr : Reachable cfg s) (hs : s.top.neighbor = none) (f : Vec d ℝ → ℝ) (env : ℕ → Draw n d ℝ)
    (hknn : ∀ t x, IsKnn dist n x ((env t).oracle.knn n p x)) (nproc : Option ℕ)
    (hp : nproc ≠ some 0) (U : ℕ × Fin d → Ω → ℝ) (hU : IidUniform P U) (bits : Fin d → Bool)
    (hmin : ∀ b, f (bitString bits) ≤ f (bitString b)) (iters : ℕ) (hi : 1 ≤ iters) :
    P {ω | ¬ ∃ y, (optimize cfg (eachParticle f) iters nproc (withThr env fun t j => U (t, j) ω)
        s).2 = .ok (.fin (f (bitString bits)), y) ∧ f y = f (bitString bits)} ≤
      ENNReal.ofReal ((1 - drawChance c bits) ^ (iters - 1)) := by
  have ht : ∀ t, TopologyWorks cfg (env t).oracle := by
    intro t
    simp only [TopologyWorks, h.binary, Kind.top]
    refine ⟨n, p, hk, hap, hn, le_rfl, hp0, fun x i hnil => ?_⟩
    have := (hknn t x i).1
    rw [hnil] at this
    simp at this
    omega
  refine le_trans (measure_mono ?_) (C75_visits hn cfg c h s hr (eachParticle f)
    (fun i x => ⟨_, rfl⟩) env ht nproc hp U hU bits iters).2.2
  intro ω hω
  simp only [Set.mem_setOf_eq] at hω ⊢
  intro e he a hea
  apply hω
  set env' := withThr env fun t j => U (t, j) ω
  obtain ⟨⟨cost, y⟩, hv⟩ := C58_returns hn cfg (Or.inl h.velocity) (Or.inl h.binary) h.schedule
      h.options s hr (eachParticle f) iters hi nproc hp env'
      (fun i x => ⟨_, rfl, fun hs => by
        rw [h.binary] at hs; exact absurd hs (by simp [Kind.isStar])⟩) ht
  have hrun : optimize cfg (eachParticle f) iters nproc env' s =
      ((optimize cfg (eachParticle f) iters nproc env' s).1, .ok (cost, y)) := by rw [← hv]
  obtain ⟨E, hE, hlog, hmn, hpair⟩ := C07_all_neighbours cfg false (by rw [h.binary]; rfl) p hk hap
    dist s _ hs (eachParticle f) iters hi nproc env' hknn cost y hrun
  have hbits : ∀ e ∈ E, ∀ a, ∃ b, e.1 a = bitString b := by
    intro e he a
    have hr' : Reachable cfg (optimize cfg (eachParticle f) iters nproc env' s).1 := by
      obtain ⟨r1, r2, s0, ops, h0, rfl⟩ := hr
      exact ⟨r1, r2, s0, ops ++ [.optimize (eachParticle f) iters nproc env'], h0, by
        simp [runOps, stepOp]⟩
    have := (C39_only_bits cfg h.binary hinit _ hr').1 e (by rw [hE]; simp [he]) a
    refine ⟨fun j => decide (e.1 a j = 1), ?_⟩
    funext j
    rcases this j with h0 | h0 <;> simp [bitString, h0]
  have hcosts : ∀ e ∈ E, ∀ a, e.2 a = .fin (f (e.1 a)) := by
    intro e he a
    obtain ⟨k, hk', rfl⟩ := List.mem_iff_getElem.1 he
    have := hlog k hk'
    simp only [eachParticle, Except.ok.injEq] at this
    rw [← this]
  have heE : e ∈ E := by rw [hE] at he; simpa using he
  have hmem : XR.fin (f (bitString bits)) ∈ allCosts E := by
    simp only [allCosts, List.mem_flatMap, List.mem_map, List.mem_finRange, true_and]
    exact ⟨e, heE, a, by rw [hcosts e heE a, hea]⟩
  have hle := hmn.2.2 _ hmem
  have hne : cost ≠ XR.pinf := by
    rintro rfl; simp [XR.lt] at hle
  obtain ⟨e', he', a', hy, hc'⟩ := hpair hne
  rw [hcosts e' he' a'] at hc'
  obtain ⟨b, hb⟩ := hbits e' he' a'
  have hfc : f (e'.1 a') = f (bitString bits) := by
    rw [← hc'] at hle
    simp only [XR.lt, decide_eq_false_iff_not, not_lt] at hle
    exact le_antisymm hle (by rw [hb]; exact hmin b)
  exact ⟨y, by rw [hv, ← hc', hfc], by rw [← hy, hfc]⟩

/-- A BinaryPSO, a state and draws to which `C75_visits` and `C75_optimum` apply: ten bits, clamp
`(-4, 4)`, three particles sorted by distance, counting the ones. -/
example : ∃ (cfg : Config 3 10 ℝ) (s : Opt 3 10 ℝ) (env : ℕ → Draw 3 10 ℝ)
    (dist : Vec 10 ℝ → Vec 10 ℝ → ℝ),
    ClampedBinary cfg (fun _ => -4, fun _ => 4) ∧ cfg.initPos = none ∧ cfg.args.k = some 3 ∧
    cfg.args.p = some 2 ∧ Reachable cfg s ∧ s.top.neighbor = none ∧
    (∀ x y, dist x y = ∑ j, |x j - y j|) ∧
    (∀ t x, IsKnn dist 3 x ((env t).oracle.knn 3 2 x)) ∧
    (∀ b : Fin 10 → Bool, ∑ j, bitString (fun _ : Fin 10 => false) j ≤ ∑ j, bitString b j) ∧
    IidUniform (Measure.infinitePi fun _ : ℕ × Fin 10 => unitLaw)
      fun (k : ℕ × Fin 10) (ω : ℕ × Fin 10 → ℝ) => ω k := by
  classical
  let dist : Vec 10 ℝ → Vec 10 ℝ → ℝ := fun x y => ∑ j, |x j - y j|
  let le : Mat 3 10 ℝ → Fin 3 → Fin 3 → Fin 3 → Bool :=
    fun x i a b => decide (dist (x i) (x a) ≤ dist (x i) (x b))
  refine ⟨{ kind := .binary, options := [("c1", 0.5), ("c2", 0.3), ("w", 0.9), ("k", 3), ("p", 2)]
            args := { k := some 3, p := some 2 }, clamp := some (fun _ => -4, fun _ => 4)
            center := fun _ => 1 }, _,
    fun _ => { r1 := fun _ _ => 0, r2 := fun _ _ => 0, bh := ⟨fun _ => 0, fun _ => 0, 0⟩
               oracle := ⟨fun _ _ x i => (List.finRange 3).mergeSort (le x i),
                 fun _ => .error .valueError, fun _ _ => []⟩
               oh := fun _ => 0, thr := fun _ => 0 }, dist,
    ⟨rfl, rfl, fun j => by norm_num, by simp, rfl, by simp, rfl⟩, rfl, rfl, rfl,
    ⟨⟨fun _ _ => 0, fun _ _ => true, fun _ j => j, fun _ _ => 0⟩,
      ⟨fun _ _ => 0, fun _ _ => true, fun _ j => j, fun _ _ => 1 / 2⟩, _, [], rfl, rfl⟩, rfl,
      fun _ _ => rfl, ?_, ?_, iid_coordinates _⟩
  · intro t x i
    have hperm := List.mergeSort_perm (List.finRange 3) (le x i)
    refine ⟨by simp, hperm.nodup_iff.2 (List.nodup_finRange 3), ?_, ?_⟩
    · have := List.pairwise_mergeSort (le := le x i)
        (fun a b c h1 h2 => by simp only [le, decide_eq_true_eq] at *; exact h1.trans h2)
        (fun a b => by
          simp only [le, Bool.or_eq_true, decide_eq_true_eq]; exact le_total _ _) (List.finRange 3)
      exact this.imp fun h => by simpa [le] using h
    · intro a _ b hb
      exact absurd (hperm.mem_iff.2 (List.mem_finRange b)) hb
  · intro b
    refine Finset.sum_le_sum fun j _ => ?_
    cases hb : b j <;> simp [bitString, hb]

end PySwarms

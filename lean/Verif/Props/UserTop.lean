import Verif.Model.UserTop
import Verif.Lemmas.Gbest
import Verif.Lemmas.Star
import Verif.Examples

/-!
# C92: any topology can be plugged into GeneralOptimizerPSO

What remains true of an `optimize` call when the topology is an arbitrary object written by the
user.
-/

set_option linter.unusedSectionVars false

namespace PySwarms

variable {n d : Nat} {K T : Type} [Field K] [LinearOrder K] [Transc K]

/-! ## Lemmas -/

theorem moveSwarmU_frame (U : UserTop n d K T) (cfg : Config n d K) (oh : String → K)
    (iters i : Nat) (u : UOpt n d K T) :
    ∃ o v p, (moveSwarmU U cfg oh iters i u).1.opt =
      { u.opt with swarm := { u.opt.swarm with options := o, velocity := v, position := p } } ∧
      (moveSwarmU U cfg oh iters i u).1.flt = u.flt := by
  unfold moveSwarmU
  split
  · exact ⟨_, _, _, rfl, rfl⟩
  · simp only []
    split
    · exact ⟨_, _, _, rfl, rfl⟩
    · split <;> exact ⟨_, _, _, rfl, rfl⟩

/-- The ways one iteration can end. -/
inductive IterU (U : UserTop n d K T) (ev : Mat n d K → Except Err (Costs n K))
    (u u' : UOpt n d K T) : Except Err Flow → Prop
  | evalError (e : Err) : u' = u → IterU U ev u u' (.error e)
  | gbestError (c : Costs n K) (e : Err) : ev u.opt.swarm.position = .ok c →
      u'.opt = recordEval c u.opt → IterU U ev u u' (.error e)
  | recorded (c : Costs n K) (w : T) (bp : BestPos n d K) (a : RetCost K) (o : Opts K)
      (v p : Mat n d K) (r : Except Err Flow) : ev u.opt.swarm.position = .ok c →
      U.gbest u.world (recordEval c u.opt).swarm = (w, .ok (bp, a)) →
      u'.opt = { (recordBestU w bp a { u with opt := recordEval c u.opt }).opt with
        swarm := { (recordBestU w bp a { u with opt := recordEval c u.opt }).opt.swarm with
          options := o, velocity := v, position := p } } →
      u'.flt = (recordBestU w bp a { u with opt := recordEval c u.opt }).flt →
      IterU U ev u u' r

theorem iterateU_cases (U : UserTop n d K T) (cfg : Config n d K)
    (ev : Mat n d K → Except Err (Costs n K)) (oh : String → K) (iters i : Nat) (q : List Bool)
    (u : UOpt n d K T) :
    IterU U ev u (iterateU U cfg ev oh iters i q u).1 (iterateU U cfg ev oh iters i q u).2 := by
  unfold iterateU
  split
  · exact .evalError _ rfl
  · next c hc =>
    simp only []
    split
    · exact .gbestError c _ hc rfl
    · next w bp a hg =>
      split
      · exact .recorded c w bp a _ _ _ _ hc hg rfl rfl
      · have hf := moveSwarmU_frame U cfg oh iters i
          (recordBestU w bp a { u with opt := recordEval c u.opt })
        obtain ⟨o, v, p, h1, h2⟩ := hf
        split
        · next u3 e hm => rw [hm] at h1 h2; exact .recorded c w bp a o v p _ hc hg h1 h2
        · next u3 hm => rw [hm] at h1 h2; exact .recorded c w bp a o v p _ hc hg h1 h2

/-- `x` is the number in an answer of the topology to a swarm whose latest evaluation is `e`. -/
def IsAnswer (U : UserTop n d K T) (x : XR K) (e : Mat n d K × Costs n K) : Prop :=
  ∃ w sw w' bp a, U.gbest w sw = (w', .ok (bp, a)) ∧ x = a.val ∧
    sw.position = e.1 ∧ sw.currentCost = e.2

/-- What an `optimize` call that started in `u0` has written when the objective has been evaluated
as in `E` and the topology has answered for the evaluations `F`. -/
structure WrittenU (U : UserTop n d K T) (u0 : UOpt n d K T) (E F : List (Mat n d K × Costs n K)) (u : UOpt n d K T) :
    Prop where
  evals : u.opt.evals = u0.opt.evals ++ E
  best : ∀ i, IsPersonalBest (particleLog E i) (u0.opt.swarm.pbestPos i)
    (u.opt.swarm.pbestPos i) (u.opt.swarm.pbestCost i)
  pos : u.opt.posHistory = u0.opt.posHistory ++ F.map (·.1)
  cost : ∃ L, u.opt.costHistory = u0.opt.costHistory ++ L ∧
    u.opt.meanNeighborHistory = u0.opt.meanNeighborHistory ++ L ∧ List.Forall₂ (IsAnswer U) L F
  mean : ∃ L, u.opt.meanPbestHistory = u0.opt.meanPbestHistory ++ L ∧ L.length = F.length
  vel : ∃ L, u.opt.velocityHistory = u0.opt.velocityHistory ++ L ∧ L.length = F.length

/-- The latest answer of the topology is what the object and the history hold. -/
def AnsweredU (U : UserTop n d K T) (u : UOpt n d K T) : Prop :=
  ∃ w sw w' bp a, U.gbest w sw = (w', .ok (bp, a)) ∧
    sw.pbestPos = u.opt.swarm.pbestPos ∧ sw.pbestCost = u.opt.swarm.pbestCost ∧
    u.opt.evals.getLast? = some (sw.position, sw.currentCost) ∧
    u.opt.costHistory.getLast? = some a.val ∧
    u.opt.swarm.bestPos = bp ∧
    (∀ x, a = .numpy x → u.opt.swarm.bestCost = some x) ∧
    (∀ x, a = .float x → u.opt.swarm.bestCost = none)

theorem iterateU_written (U : UserTop n d K T) (cfg : Config n d K)
    (ev : Mat n d K → Except Err (Costs n K)) (oh : String → K) (iters i : Nat) (q : List Bool)
    (u0 u : UOpt n d K T) (E : List (Mat n d K × Costs n K)) (h : WrittenU U u0 E E u) :
    (∃ e, (iterateU U cfg ev oh iters i q u).2 = .error e ∧
      WrittenU U u0 E E (iterateU U cfg ev oh iters i q u).1) ∨
    ∃ c, ev u.opt.swarm.position = .ok c ∧
      ((∃ e, (iterateU U cfg ev oh iters i q u).2 = .error e ∧
        WrittenU U u0 (E ++ [(u.opt.swarm.position, c)]) E (iterateU U cfg ev oh iters i q u).1) ∨
      (WrittenU U u0 (E ++ [(u.opt.swarm.position, c)]) (E ++ [(u.opt.swarm.position, c)])
        (iterateU U cfg ev oh iters i q u).1 ∧
        AnsweredU U (iterateU U cfg ev oh iters i q u).1)) := by
  have hpb : ∀ c i, IsPersonalBest (particleLog (E ++ [(u.opt.swarm.position, c)]) i)
      (u0.opt.swarm.pbestPos i) ((recordEval c u.opt).swarm.pbestPos i)
      ((recordEval c u.opt).swarm.pbestCost i) := by
    intro c i
    rw [recordEval_pbestPos, recordEval_pbestCost, particleLog_append]
    exact isPersonalBest_snoc (h.best i) _ _
  have hev : ∀ c, (recordEval c u.opt).evals =
      u0.opt.evals ++ (E ++ [(u.opt.swarm.position, c)]) := by
    intro c; simp [recordEval, h.evals]
  have hc := iterateU_cases U cfg ev oh iters i q u
  generalize (iterateU U cfg ev oh iters i q u).1 = u' at hc ⊢
  generalize (iterateU U cfg ev oh iters i q u).2 = r at hc ⊢
  cases hc with
  | evalError e he => subst he; exact Or.inl ⟨e, rfl, h⟩
  | gbestError c e hc ho =>
    refine Or.inr ⟨c, hc, Or.inl ⟨e, rfl, ?_⟩⟩
    constructor
    · rw [ho]; exact hev c
    · rw [ho]; exact hpb c
    · rw [ho]; exact h.pos
    · rw [ho]; exact h.cost
    · rw [ho]; exact h.mean
    · rw [ho]; exact h.vel
  | recorded c w bp a o v p _ hc hg ho hf =>
    refine Or.inr ⟨c, hc, Or.inr ⟨?_, ?_⟩⟩
    · constructor
      · rw [ho]; exact hev c
      · rw [ho]; exact hpb c
      · rw [ho]
        have := h.pos
        simp [recordBestU, Opt.populateHistory, recordEval, this]
      · rw [ho]
        obtain ⟨L, h1, h2, h3⟩ := h.cost
        refine ⟨L ++ [a.val], ?_, ?_, ?_⟩
        · simp [recordBestU, Opt.populateHistory, recordEval, h1]
        · simp [recordBestU, Opt.populateHistory, recordEval, h2]
        · exact List.rel_append h3 (.cons ⟨_, _, _, _, _, hg, rfl, rfl, rfl⟩ .nil)
      · rw [ho]
        obtain ⟨L, h1, h2⟩ := h.mean
        exact ⟨L ++ [_], by
          simp only [recordBestU, Opt.populateHistory, recordEval, h1, List.append_assoc]; rfl,
          by simp [h2]⟩
      · rw [ho]
        obtain ⟨L, h1, h2⟩ := h.vel
        exact ⟨L ++ [_], by
          simp only [recordBestU, Opt.populateHistory, recordEval, h1, List.append_assoc]; rfl,
          by simp [h2]⟩
    · refine ⟨u.world, (recordEval c u.opt).swarm, w, bp, a, hg, by rw [ho]; rfl, by rw [ho]; rfl,
        ?_, ?_, by rw [ho]; rfl, ?_, ?_⟩
      · rw [ho]; simp [recordBestU, Opt.populateHistory, recordEval]
      · rw [ho]; simp [recordBestU, Opt.populateHistory, recordEval]
      · rintro x rfl; rw [ho]; rfl
      · rintro x rfl; rw [ho]; rfl

theorem loopU_written (U : UserTop n d K T) (cfg : Config n d K)
    (ev : Nat → Mat n d K → Except Err (Costs n K)) (oh : Nat → String → K) (iters m i : Nat)
    (q : List Bool) (u0 u : UOpt n d K T) (E : List (Mat n d K × Costs n K))
    (h : WrittenU U u0 E E u) :
    ∃ D F, D.length ≤ m ∧ (∀ (k : Nat) (h : k < D.length), ev (i + k) D[k].1 = .ok D[k].2) ∧
      WrittenU U u0 (E ++ D) F (loopU U cfg ev oh iters m i q u).1 ∧
      (F = E ++ D ∨ ∃ x, F ++ [x] = E ++ D) ∧
      ((loopU U cfg ev oh iters m i q u).2 = .ok () → F = E ++ D ∧ (0 < m →
        0 < D.length ∧ AnsweredU U (loopU U cfg ev oh iters m i q u).1)) := by
  induction m generalizing i q u E with
  | zero => exact ⟨[], E, by simp, by simp, by simpa [loopU] using h, by simp, by simp⟩
  | succ m ih =>
    have hc := iterateU_written U cfg (ev i) (oh i) iters i q u0 u E h
    unfold loopU
    generalize iterateU U cfg (ev i) (oh i) iters i q u = res at hc ⊢
    obtain ⟨u', r⟩ := res
    simp only at hc
    rcases hc with ⟨e, rfl, hw⟩ | ⟨c, hc, ⟨e, rfl, hw⟩ | ⟨hw, ha⟩⟩
    · exact ⟨[], E, by simp, by simp, by simpa using hw, by simp, by simp⟩
    · exact ⟨[(u.opt.swarm.position, c)], E, by simp, by simpa using hc, hw, Or.inr ⟨_, rfl⟩,
        by simp⟩
    · match r with
      | .error e =>
        exact ⟨[(u.opt.swarm.position, c)], _, by simp, by simpa using hc, hw, Or.inl rfl,
          by simp⟩
      | .ok .stop =>
        exact ⟨[(u.opt.swarm.position, c)], _, by simp, by simpa using hc, hw, Or.inl rfl,
          fun _ => ⟨rfl, fun _ => ⟨by simp, ha⟩⟩⟩
      | .ok (.continue q') =>
        obtain ⟨D, F, h1, h2, h3, h4, h5⟩ := ih (i + 1) q' u' _ hw
        refine ⟨(u.opt.swarm.position, c) :: D, F, by simp; omega, ?_, by simpa using h3,
          by simpa using h4, fun hok => ⟨by simpa using (h5 hok).1, fun _ => ⟨by simp, ?_⟩⟩⟩
        · intro k hk
          cases k with
          | zero => simpa using hc
          | succ k =>
            have := h2 k (by simpa using hk)
            have e : i + 1 + k = i + (k + 1) := by omega
            rw [e] at this
            simpa using this
        · cases m with
          | zero => simpa [loopU] using ha
          | succ m => exact ((h5 hok).2 (by omega)).2

/-- Everything an `optimize` call writes, for any topology. -/
theorem optimizeU_written (U : UserTop n d K T) (cfg : Config n d K)
    (ev : Nat → Mat n d K → Except Err (Costs n K)) (oh : Nat → String → K) (iters : Nat)
    (nproc : Option Nat) (hp : nproc ≠ some 0) (u : UOpt n d K T) :
    ∃ E F, E.length ≤ iters ∧ LogOf ev E ∧
      WrittenU U u E F (optimizeU U cfg ev iters nproc oh u).1 ∧
      (F = E ∨ ∃ x, F ++ [x] = E) ∧
      ∀ c p, (optimizeU U cfg ev iters nproc oh u).2 = .ok (c, p) →
        F = E ∧ (0 < iters → 0 < E.length ∧
          AnsweredU U (optimizeU U cfg ev iters nproc oh u).1) ∧
        (optimizeU U cfg ev iters nproc oh u).1.opt.swarm.bestCost = some c ∧
        ∃ k, npArgmin (optimizeU U cfg ev iters nproc oh u).1.opt.swarm.pbestCost = some k ∧
          p = (optimizeU U cfg ev iters nproc oh u).1.opt.swarm.pbestPos k := by
  have h0 : WrittenU U u [] [] (prepareU U nproc u) := by
    constructor <;> simp [prepareU, particleLog, isPersonalBest_nil]
  obtain ⟨D, F, h1, h2, h3, h4, h5⟩ := loopU_written U cfg ev oh iters iters 0 [] u _ [] h0
  simp only [List.nil_append] at h3 h4 h5
  have hl : LogOf ev D := by simpa [LogOf] using h2
  unfold optimizeU
  rw [if_neg hp]
  generalize loopU U cfg ev oh iters iters 0 [] (prepareU U nproc u) = res at h3 h5 ⊢
  obtain ⟨u1, r⟩ := res
  match r with
  | .error e => exact ⟨D, F, h1, hl, h3, h4, by simp⟩
  | .ok () =>
    simp only at h3 h5 ⊢
    have h6 := h5 trivial
    split
    · exact ⟨D, F, h1, hl, h3, h4, by simp⟩
    · next r hf =>
      refine ⟨D, F, h1, hl, ⟨h3.1, h3.2, h3.3, h3.4, h3.5, h3.6⟩, h4, ?_⟩
      intro c p hr
      refine ⟨h6.1, h6.2, ?_⟩
      cases hr
      unfold finish at hf
      split at hf
      · cases hf
      · next c' hbc =>
        split at hf
        · cases hf
        · next k hk => cases hf; exact ⟨hbc, k, hk, rfl⟩

/-! ## Theorems -/

/-- **C92** (personal bests).  Whatever the topology does, and however the call ends, the call has
made at most `iters` evaluations `E` of the objective, and each particle's personal best is that
of its own evaluations in `E`. -/
theorem C92_personal_best (U : UserTop n d K T) (cfg : Config n d K)
    (ev : Nat → Mat n d K → Except Err (Costs n K)) (oh : Nat → String → K) (iters : Nat)
    (nproc : Option Nat) (hp : nproc ≠ some 0) (u : UOpt n d K T) :
    ∃ E, (optimizeU U cfg ev iters nproc oh u).1.opt.evals = u.opt.evals ++ E ∧ LogOf ev E ∧
      E.length ≤ iters ∧ ∀ i, IsPersonalBest (particleLog E i) (u.opt.swarm.pbestPos i)
        ((optimizeU U cfg ev iters nproc oh u).1.opt.swarm.pbestPos i)
        ((optimizeU U cfg ev iters nproc oh u).1.opt.swarm.pbestCost i) := by
  obtain ⟨E, F, h1, h2, h3, -⟩ := optimizeU_written U cfg ev oh iters nproc hp u
  exact ⟨E, h3.evals, h2, h1, h3.best⟩

/-- **C92** (histories).  The five histories grow by the same number `m` of entries: one per
evaluation, except for a last evaluation after which `compute_gbest` raised.  The new entries of
`pos_history` are the evaluated positions, those of `cost_history` and `mean_neighbor_history` the
costs the topology answered, in order, to each evaluation. -/
theorem C92_histories (U : UserTop n d K T) (cfg : Config n d K)
    (ev : Nat → Mat n d K → Except Err (Costs n K)) (oh : Nat → String → K) (iters : Nat)
    (nproc : Option Nat) (hp : nproc ≠ some 0) (u : UOpt n d K T) :
    ∃ E m C M V, (optimizeU U cfg ev iters nproc oh u).1.opt.evals = u.opt.evals ++ E ∧
      m ≤ E.length ∧ E.length ≤ m + 1 ∧
      (∀ r, (optimizeU U cfg ev iters nproc oh u).2 = .ok r → m = E.length) ∧
      (optimizeU U cfg ev iters nproc oh u).1.opt.posHistory =
        u.opt.posHistory ++ (E.take m).map (·.1) ∧
      (optimizeU U cfg ev iters nproc oh u).1.opt.costHistory = u.opt.costHistory ++ C ∧
      (optimizeU U cfg ev iters nproc oh u).1.opt.meanNeighborHistory =
        u.opt.meanNeighborHistory ++ C ∧
      List.Forall₂ (IsAnswer U) C (E.take m) ∧
      (optimizeU U cfg ev iters nproc oh u).1.opt.meanPbestHistory =
        u.opt.meanPbestHistory ++ M ∧ M.length = m ∧
      (optimizeU U cfg ev iters nproc oh u).1.opt.velocityHistory =
        u.opt.velocityHistory ++ V ∧ V.length = m := by
  obtain ⟨E, F, h1, h2, h3, h4, h5⟩ := optimizeU_written U cfg ev oh iters nproc hp u
  obtain ⟨C, hc1, hc2, hc3⟩ := h3.cost
  obtain ⟨M, hm1, hm2⟩ := h3.mean
  obtain ⟨V, hv1, hv2⟩ := h3.vel
  have hF : E.take F.length = F := by rcases h4 with rfl | ⟨x, rfl⟩ <;> simp
  refine ⟨E, F.length, C, M, V, h3.evals, ?_, ?_, fun r hr => ?_, ?_, hc1, hc2, ?_, hm1, hm2, hv1,
    hv2⟩
  · rcases h4 with rfl | ⟨x, rfl⟩ <;> simp
  · rcases h4 with rfl | ⟨x, rfl⟩ <;> simp
  · rw [(h5 r.1 r.2 hr).1]
  · rw [h3.pos, hF]
  · rw [hF]; exact hc3

/-- **C92** (the returned position).  Whatever the topology answers, the position returned by a
call is one at which the call evaluated the objective with a cost `m` that no evaluation of the
call is below; only if no cost below `+inf` was seen it may be an older position. -/
theorem C92_position (U : UserTop n d K T) (cfg : Config n d K)
    (ev : Nat → Mat n d K → Except Err (Costs n K)) (oh : Nat → String → K) (iters : Nat)
    (nproc : Option Nat) (u : UOpt n d K T) (c : XR K) (p : Vec d K)
    (h : (optimizeU U cfg ev iters nproc oh u).2 = .ok (c, p)) :
    ∃ E m, (optimizeU U cfg ev iters nproc oh u).1.opt.evals = u.opt.evals ++ E ∧ LogOf ev E ∧
      (∀ e ∈ E, ∀ i, XR.lt (e.2 i) m = false) ∧
      ((∃ e ∈ E, ∃ i, e.1 i = p ∧ e.2 i = m) ∨ m = XR.pinf ∧ ∃ i, p = u.opt.swarm.pbestPos i) := by
  have hp : nproc ≠ some 0 := by
    rintro rfl
    simp [optimizeU] at h
  obtain ⟨E, F, h1, h2, h3, h4, h5⟩ := optimizeU_written U cfg ev oh iters nproc hp u
  obtain ⟨-, -, -, k, hk, rfl⟩ := h5 c p h
  generalize optimizeU U cfg ev iters nproc oh u = res at *
  refine ⟨E, res.1.opt.swarm.pbestCost k, h3.evals, h2, ?_, ?_⟩
  · intro e he i
    have hi := isPersonalBest_not_below (h3.best i) (e.1 i, e.2 i)
      (by rw [particleLog, List.mem_map]; exact ⟨e, he, rfl⟩)
    have hk' := ((npArgmin_eq_some_iff _ (fun j => isPersonalBest_ne_nan (h3.best j)) k).1 hk).1 i
    exact XR.not_lt_trans (isPersonalBest_ne_nan (h3.best i)) hi hk'
  · rcases h3.best k with ⟨-, hc, hx⟩ | hb
    · exact Or.inr ⟨hc, k, hx⟩
    · left
      let p0 := u.opt.swarm.pbestPos k
      obtain ⟨e, he, h6⟩ := isPersonalBest_mem (E := E) (old := p0) (Or.inr hb) (by
        obtain ⟨_, _, _, hlt, _⟩ := hb
        intro hh; rw [hh] at hlt; simp [XR.lt_irrefl] at hlt)
      exact ⟨e, he, k, h6⟩

/-- **C92** (the returned cost).  The cost returned by a call of at least one iteration is not
computed by the optimizer: it is the NumPy scalar in the topology's answer to the last evaluation,
and the last entry of `cost_history`. -/
theorem C92_cost (U : UserTop n d K T) (cfg : Config n d K)
    (ev : Nat → Mat n d K → Except Err (Costs n K)) (oh : Nat → String → K) (iters : Nat)
    (hi : 0 < iters) (nproc : Option Nat) (u : UOpt n d K T) (c : XR K) (p : Vec d K)
    (h : (optimizeU U cfg ev iters nproc oh u).2 = .ok (c, p)) :
    ∃ w sw w' bp, U.gbest w sw = (w', .ok (bp, .numpy c)) ∧
      (optimizeU U cfg ev iters nproc oh u).1.opt.evals.getLast? =
        some (sw.position, sw.currentCost) ∧
      (optimizeU U cfg ev iters nproc oh u).1.opt.costHistory.getLast? = some c ∧
      (optimizeU U cfg ev iters nproc oh u).1.opt.swarm.bestPos = bp := by
  have hp : nproc ≠ some 0 := by
    rintro rfl
    simp [optimizeU] at h
  obtain ⟨E, F, h1, h2, h3, h4, h5⟩ := optimizeU_written U cfg ev oh iters nproc hp u
  obtain ⟨-, ha, hb, -⟩ := h5 c p h
  obtain ⟨-, w, sw, w', bp, a, hg, -, -, he, hh, hbp, hn, hf⟩ := ha hi
  cases a with
  | float x => rw [hf x rfl] at hb; cases hb
  | numpy x =>
    rw [hn x rfl] at hb
    cases hb
    exact ⟨w, sw, w', bp, hg, he, hh, hbp⟩

theorem moveSwarmU_total (U : UserTop n d K T) (cfg : Config n d K) (oh : String → K)
    (iters i : Nat) (u : UOpt n d K T)
    (hv : ∀ w sw, ∃ w' v, U.velocity w sw = (w', .ok v))
    (hx : ∀ w sw, ∃ w' x, U.position w sw = (w', .ok x))
    (ho : ∃ o, ohCall cfg.ohStrategy cfg.options
      { iternow := some (i : K), itermax := some (iters : K) } oh = .ok o) :
    (moveSwarmU U cfg oh iters i u).2 = .ok () := by
  obtain ⟨o, ho⟩ := ho
  unfold moveSwarmU
  simp only [ho]
  obtain ⟨w, v, h1⟩ := hv u.world { u.opt.swarm with options := o }
  simp only [h1]
  obtain ⟨w', x, h2⟩ := hx w { u.opt.swarm with options := o, velocity := v }
  simp only [h2]

theorem loopU_total (U : UserTop n d K T) (cfg : Config n d K)
    (ev : Nat → Mat n d K → Except Err (Costs n K)) (oh : Nat → String → K) (iters : Nat)
    (he : ∀ i x, ∃ c, ev i x = .ok c)
    (hg : ∀ w sw, ∃ w' bp a, U.gbest w sw = (w', .ok (bp, a)))
    (hv : ∀ w sw, ∃ w' v, U.velocity w sw = (w', .ok v))
    (hx : ∀ w sw, ∃ w' x, U.position w sw = (w', .ok x))
    (ho : ∀ i : Nat, ∃ o, ohCall cfg.ohStrategy cfg.options
      { iternow := some (i : K), itermax := some (iters : K) } (oh i) = .ok o)
    (m i : Nat) (q : List Bool) (u : UOpt n d K T) :
    (loopU U cfg ev oh iters m i q u).2 = .ok () := by
  induction m generalizing i q u with
  | zero => rfl
  | succ m ih =>
    unfold loopU
    have : ∃ f, (iterateU U cfg (ev i) (oh i) iters i q u).2 = .ok f := by
      unfold iterateU
      obtain ⟨c, hc⟩ := he i u.opt.swarm.position
      simp only [hc]
      obtain ⟨w, bp, a, ha⟩ := hg u.world (recordEval c u.opt).swarm
      simp only [ha]
      split
      · exact ⟨_, rfl⟩
      · have hm := moveSwarmU_total U cfg (oh i) iters i
          (recordBestU w bp a { u with opt := recordEval c u.opt }) hv hx (ho i)
        generalize moveSwarmU U cfg (oh i) iters i
          (recordBestU w bp a { u with opt := recordEval c u.opt }) = res at hm ⊢
        obtain ⟨u3, r⟩ := res
        simp only at hm
        subst hm
        exact ⟨_, rfl⟩
    obtain ⟨f, hf⟩ := this
    generalize iterateU U cfg (ev i) (oh i) iters i q u = res at hf ⊢
    obtain ⟨u', r⟩ := res
    simp only at hf
    subst hf
    cases f with
    | stop => rfl
    | «continue» q' => exact ih (i + 1) q' u'

/-- **C92** (a plain Python float).  If `compute_gbest` answers plain Python floats, a call of at
least one iteration in which nothing else raises makes all its evaluations and then raises
`AttributeError` instead of returning. -/
theorem C92_python_float (U : UserTop n d K T) (cfg : Config n d K)
    (ev : Nat → Mat n d K → Except Err (Costs n K)) (oh : Nat → String → K) (iters : Nat)
    (hi : 0 < iters) (nproc : Option Nat) (hp : nproc ≠ some 0) (u : UOpt n d K T)
    (he : ∀ i x, ∃ c, ev i x = .ok c)
    (hg : ∀ w sw, ∃ w' bp x, U.gbest w sw = (w', .ok (bp, .float x)))
    (hv : ∀ w sw, ∃ w' v, U.velocity w sw = (w', .ok v))
    (hx : ∀ w sw, ∃ w' x, U.position w sw = (w', .ok x))
    (ho : ∀ i : Nat, ∃ o, ohCall cfg.ohStrategy cfg.options
      { iternow := some (i : K), itermax := some (iters : K) } (oh i) = .ok o) :
    (optimizeU U cfg ev iters nproc oh u).2 = .error .attributeError ∧
      ∃ E, (optimizeU U cfg ev iters nproc oh u).1.opt.evals = u.opt.evals ++ E ∧ E ≠ [] := by
  have hok := loopU_total U cfg ev oh iters he
    (fun w sw => by obtain ⟨w', bp, x, h⟩ := hg w sw; exact ⟨w', bp, _, h⟩) hv hx ho iters 0 []
    (prepareU U nproc u)
  have h0 : WrittenU U u [] [] (prepareU U nproc u) := by
    constructor <;> simp [prepareU, particleLog, isPersonalBest_nil]
  obtain ⟨D, F, h1, h2, h3, h4, h5⟩ := loopU_written U cfg ev oh iters iters 0 [] u _ [] h0
  obtain ⟨hD, w, sw, w', bp, a, ha, -, -, -, -, -, hn, hf⟩ := (h5 hok).2 hi
  unfold optimizeU
  rw [if_neg hp]
  generalize loopU U cfg ev oh iters iters 0 [] (prepareU U nproc u) = res at *
  obtain ⟨u1, r⟩ := res
  simp only at hok h3 hf
  subst hok
  obtain ⟨w2, bp2, x, hx2⟩ := hg w sw
  have ea : a = .float x := by
    rw [ha] at hx2
    cases hx2; rfl
  have hfin : finish u1.opt = .error .attributeError := by
    unfold finish
    rw [hf x ea]
  simp only [hfin]
  refine ⟨trivial, D, by simpa using h3.evals, ?_⟩
  rintro rfl
  simp at hD

/-! ## The topologies of the library are instances -/

section
variable [FloorRing K]

/-- The object without the parts that belong to the topology and the handlers. -/
def Opt.core (s : Opt n d K) : Opt n d K := { s with top := {}, bhMem := none, vhMem := none }

/-- The world of a topology of the library in the object `s`. -/
def Opt.worldOf (s : Opt n d K) (k : Nat) : BuiltinWorld n d K :=
  { top := s.top, bhMem := s.bhMem, vhMem := s.vhMem, used := k }

/-- `u` is the object `s`, seen as one with an arbitrary topology. -/
structure SameU (k : Nat) (s : Opt n d K) (u : UOpt n d K (BuiltinWorld n d K)) : Prop where
  core : u.opt = s.core
  world : u.world = s.worldOf k
  val : u.bestCostVal = s.swarm.bestCostVal

theorem moveSwarmU_builtin (cfg : Config n d K) (hk : cfg.kind ≠ .binary) (env : Nat → Draw n d K)
    (iters i : Nat) (s : Opt n d K) (u : UOpt n d K (BuiltinWorld n d K)) (h : SameU i s u) :
    (moveSwarmU (builtinTop cfg env) cfg (env i).oh iters i u).2 =
      (moveSwarm cfg (env i) iters i s).2 ∧
    ∃ k, SameU k (moveSwarm cfg (env i) iters i s).1
      (moveSwarmU (builtinTop cfg env) cfg (env i).oh iters i u).1 ∧
      ((moveSwarm cfg (env i) iters i s).2 = .ok () → k = i + 1) := by
  obtain ⟨uo, uf, uw⟩ := u
  obtain ⟨h1, h2, h3⟩ := h
  simp only at h1 h2
  subst h1 h2
  have hcall : callOptions cfg iters i (env i) s.swarm = ohCall cfg.ohStrategy cfg.options
      { iternow := some (i : K), itermax := some (iters : K) } (env i).oh := by
    unfold callOptions; split
    · next hb => exact absurd hb hk
    · rfl
  have hvb : velBounds cfg = cfg.bounds := by
    unfold velBounds; split
    · next hb => exact absurd hb hk
    · rfl
  have hpos : ∀ m sw, callPosition cfg (env i) m sw =
      computePosition sw cfg.bounds cfg.bhStrategy m (env i).bh := by
    intro m sw
    unfold callPosition; split
    · next hb => exact absurd hb hk
    · rfl
  unfold moveSwarmU moveSwarm
  rw [hcall, hvb]
  cases ohCall cfg.ohStrategy cfg.options
      { iternow := some (i : K), itermax := some (iters : K) } (env i).oh with
  | error e => exact ⟨rfl, i, ⟨rfl, rfl, h3⟩, by simp⟩
  | ok o =>
    simp only [hpos, builtinTop, Opt.worldOf, Opt.core]
    generalize computeVelocity { s.swarm with options := o } cfg.clamp cfg.vhStrategy s.vhMem
      cfg.bounds (env i).r1 (env i).r2 = rv
    obtain ⟨vm, rv⟩ := rv
    cases rv with
    | error e => exact ⟨rfl, i, ⟨rfl, rfl, h3⟩, by simp⟩
    | ok v =>
      simp only
      generalize computePosition { s.swarm with options := o, velocity := v } cfg.bounds
        cfg.bhStrategy s.bhMem (env i).bh = rp
      obtain ⟨bm, rp⟩ := rp
      cases rp with
      | error e => exact ⟨rfl, i + 1, ⟨rfl, rfl, h3⟩, by simp⟩
      | ok p => exact ⟨rfl, i + 1, ⟨rfl, rfl, h3⟩, by simp⟩

theorem iterateU_builtin (cfg : Config n d K) (hk : cfg.kind ≠ .binary) (env : Nat → Draw n d K)
    (ev : Mat n d K → Except Err (Costs n K)) (iters i : Nat) (q : List Bool) (s : Opt n d K)
    (u : UOpt n d K (BuiltinWorld n d K)) (h : SameU i s u) :
    (iterateU (builtinTop cfg env) cfg ev (env i).oh iters i q u).2 =
      (iterate cfg ev (env i) iters i q s).2 ∧
    ∃ k, SameU k (iterate cfg ev (env i) iters i q s).1
      (iterateU (builtinTop cfg env) cfg ev (env i).oh iters i q u).1 ∧
      (∀ q', (iterate cfg ev (env i) iters i q s).2 = .ok (.continue q') → k = i + 1) := by
  obtain ⟨uo, uf, uw⟩ := u
  obtain ⟨h1, h2, h3⟩ := h
  simp only at h1 h2
  subst h1 h2
  unfold iterateU iterate
  have hp : s.core.swarm.position = s.swarm.position := rfl
  simp only [hp]
  cases ev s.swarm.position with
  | error e => exact ⟨rfl, i, ⟨rfl, rfl, h3⟩, by simp⟩
  | ok c =>
    have hsw : (recordEval c s.core).swarm = (recordEval c s).swarm := rfl
    have hw : (s.worldOf i).top = (recordEval c s).top := rfl
    have hyet : UOpt.bestCostVal (T := BuiltinWorld n d K)
        { opt := recordEval c s.core, flt := uf, world := s.worldOf i } =
        (recordEval c s).swarm.bestCostVal := by
      simpa [UOpt.bestCostVal, recordEval, Opt.core, Swarm.bestCostVal] using h3
    have hg : (builtinTop cfg env).gbest (s.worldOf i) (recordEval c s.core).swarm =
        match callGbest cfg (env i).oracle (recordEval c s).top (recordEval c s).swarm with
        | (t, .error e) => ({ s.worldOf i with top := t }, .error e)
        | (t, .ok (bp, some c)) => ({ s.worldOf i with top := t }, .ok (bp, .numpy c))
        | (t, .ok (bp, none)) => ({ s.worldOf i with top := t }, .ok (bp, .float XR.pinf)) := rfl
    simp only [hg, hyet]
    generalize callGbest cfg (env i).oracle (recordEval c s).top (recordEval c s).swarm = rg
    obtain ⟨t, rg⟩ := rg
    have main : ∀ (bp : BestPos n d K) (a : RetCost K) (g : Option (XR K)),
        ((∃ x, a = .numpy x ∧ g = some x) ∨ (a = .float XR.pinf ∧ g = none)) →
        SameU i (recordBest t (bp, g) (recordEval c s))
          (recordBestU { s.worldOf i with top := t } bp a
            { opt := recordEval c s.core, flt := uf, world := s.worldOf i }) := by
      rintro bp a g (⟨x, rfl, rfl⟩ | ⟨rfl, rfl⟩) <;> exact ⟨rfl, rfl, rfl⟩
    have fin : ∀ (bp : BestPos n d K) (a : RetCost K) (g : Option (XR K)),
        ((∃ x, a = .numpy x ∧ g = some x) ∨ (a = .float XR.pinf ∧ g = none)) → _ := fun bp a g hag =>
      moveSwarmU_builtin cfg hk env iters i _ _ (main bp a g hag)
    cases rg with
    | error e => exact ⟨rfl, i, ⟨rfl, rfl, hyet⟩, by simp⟩
    | ok g =>
      obtain ⟨bp, g⟩ := g
      have step : ∀ (a : RetCost K),
          ((∃ x, a = .numpy x ∧ g = some x) ∨ (a = .float XR.pinf ∧ g = none)) → _ :=
        fun a hag => And.intro (main bp a g hag) (fin bp a g hag)
      have step' : ∃ a : RetCost K, (match (t, (Except.ok (bp, g) : Except Err (GBest n d K))) with
        | (t, .error e) => (({ s.worldOf i with top := t }, .error e) :
            BuiltinWorld n d K × Except Err (BestPos n d K × RetCost K))
        | (t, .ok (bp, some c)) => ({ s.worldOf i with top := t }, .ok (bp, .numpy c))
        | (t, .ok (bp, none)) => ({ s.worldOf i with top := t }, .ok (bp, .float XR.pinf))) =
          ({ s.worldOf i with top := t }, .ok (bp, a)) ∧
          ((∃ x, a = .numpy x ∧ g = some x) ∨ (a = .float XR.pinf ∧ g = none)) := by
        cases g with
        | none => exact ⟨_, rfl, Or.inr ⟨rfl, rfl⟩⟩
        | some x => exact ⟨_, rfl, Or.inl ⟨x, rfl, rfl⟩⟩
      obtain ⟨a, ha, hag⟩ := step'
      obtain ⟨hm, hmv, k, hmk, hk2⟩ := step a hag
      simp only [ha, hm.val]
      split
      · exact ⟨rfl, i, hm, by simp⟩
      · generalize moveSwarmU (builtinTop cfg env) cfg (env i).oh iters i
          (recordBestU { s.worldOf i with top := t } bp a
            { opt := recordEval c s.core, flt := uf, world := s.worldOf i }) = ru at *
        generalize moveSwarm cfg (env i) iters i (recordBest t (bp, g) (recordEval c s)) = rs at *
        obtain ⟨u3, ru⟩ := ru
        obtain ⟨s3, rs⟩ := rs
        simp only at hmv hmk hk2
        subst hmv
        cases ru with
        | error e => exact ⟨rfl, k, hmk, by simp⟩
        | ok x => exact ⟨rfl, k, hmk, fun _ _ => hk2 rfl⟩

theorem loopU_builtin (cfg : Config n d K) (hk : cfg.kind ≠ .binary) (env : Nat → Draw n d K)
    (ev : Nat → Mat n d K → Except Err (Costs n K)) (iters m i : Nat) (q : List Bool)
    (s : Opt n d K) (u : UOpt n d K (BuiltinWorld n d K)) (h : SameU i s u) :
    (loopU (builtinTop cfg env) cfg ev (fun j => (env j).oh) iters m i q u).2 =
      (loop cfg ev env iters m i q s).2 ∧
    ∃ k, SameU k (loop cfg ev env iters m i q s).1
      (loopU (builtinTop cfg env) cfg ev (fun j => (env j).oh) iters m i q u).1 := by
  induction m generalizing i q s u with
  | zero => exact ⟨rfl, i, h⟩
  | succ m ih =>
    obtain ⟨h1, k, h2, h3⟩ := iterateU_builtin cfg hk env (ev i) iters i q s u h
    unfold loopU loop
    generalize iterateU (builtinTop cfg env) cfg (ev i) (env i).oh iters i q u = ru at *
    generalize iterate cfg (ev i) (env i) iters i q s = rs at *
    obtain ⟨u', ru⟩ := ru
    obtain ⟨s', rs⟩ := rs
    simp only at h1 h2 h3
    subst h1
    match ru with
    | .error e => exact ⟨rfl, k, h2⟩
    | .ok .stop => exact ⟨rfl, k, h2⟩
    | .ok (.continue q') =>
      obtain rfl := h3 q' rfl
      exact ih (i + 1) q' s' u' h2

/-- **C92** (the library's own topologies).  GlobalBestPSO, LocalBestPSO and GeneralOptimizerPSO with
a topology of the library are instances: from the same object, the call ends in the same way, with
the same swarm, histories and evaluations, and the same topology and handler memories. -/
theorem C92_builtin (cfg : Config n d K) (hk : cfg.kind ≠ .binary) (env : Nat → Draw n d K)
    (ev : Nat → Mat n d K → Except Err (Costs n K)) (iters : Nat) (nproc : Option Nat)
    (s : Opt n d K) (j : Nat) :
    let r := optimize cfg ev iters nproc env s
    let ru := optimizeU (builtinTop cfg env) cfg ev iters nproc (fun i => (env i).oh)
      { opt := s.core, world := s.worldOf j }
    ru.2 = r.2 ∧ ru.1.opt = r.1.core ∧ ∃ k, ru.1.world = r.1.worldOf k := by
  intro r ru
  have hmem : (prepare cfg s).bhMem = some s.swarm.position := by
    unfold prepare
    simp only
  have h0 : SameU 0 (startState cfg nproc s) (prepareU (builtinTop cfg env) nproc
      { opt := s.core, world := s.worldOf j }) := by
    refine ⟨rfl, ?_, rfl⟩
    have : (startState cfg nproc s).bhMem = some s.swarm.position := hmem
    simp only [Opt.worldOf, this]
    rfl
  obtain ⟨h1, k, h2⟩ := loopU_builtin cfg hk env ev iters iters 0 [] _ _ h0
  have hr : r = optimize cfg ev iters nproc env s := rfl
  have hru : ru = optimizeU (builtinTop cfg env) cfg ev iters nproc (fun i => (env i).oh)
    { opt := s.core, world := s.worldOf j } := rfl
  clear_value r ru
  unfold optimize at hr
  unfold optimizeU at hru
  split at hr
  · next hp =>
    rw [if_pos hp] at hru
    subst hr hru
    refine ⟨rfl, rfl, 0, ?_⟩
    simp only [Opt.worldOf, hmem]
    rfl
  · next hp =>
    rw [if_neg hp] at hru
    have hs : ({ prepare cfg s with
      openPools := s.openPools + (if nproc.isSome then 1 else 0) } : Opt n d K) =
      startState cfg nproc s := rfl
    simp only [hs] at hr
    generalize loopU (builtinTop cfg env) cfg ev (fun j => (env j).oh) iters iters 0 []
      (prepareU (builtinTop cfg env) nproc { opt := s.core, world := s.worldOf j }) = lu at *
    generalize loop cfg ev env iters iters 0 [] (startState cfg nproc s) = ls at *
    obtain ⟨u', lu⟩ := lu
    obtain ⟨s', ls⟩ := ls
    simp only at h1 h2 hr hru
    subst h1
    cases lu with
    | error e => subst hr hru; exact ⟨rfl, h2.core, k, h2.world⟩
    | ok x =>
      simp only at hr hru
      have hf : finish u'.opt = finish s' := by rw [h2.core]; rfl
      rw [hf] at hru
      cases hfin : finish s' with
      | error e =>
        rw [hfin] at hr hru
        subst hr hru; exact ⟨rfl, h2.core, k, h2.world⟩
      | ok x =>
        rw [hfin] at hr hru
        subst hr hru
        refine ⟨rfl, ?_, k, h2.world⟩
        simp only [h2.core]
        first | done | rfl

end

/-! ## Concrete cases -/

namespace Ex

/-- A topology whose `compute_gbest` counts its calls and answers `10 * calls` as the cost, with the
first particle as the best; velocities are the same, and positions move by the velocity. -/
def counting (numpy : Bool) : UserTop 3 2 ℚ Nat where
  start w _ := w
  gbest w sw := (w + 1, .ok (.single (sw.position 0),
    if numpy then .numpy (XR.fin (10 * w)) else .float (XR.fin (10 * w))))
  velocity w sw := (w, .ok sw.velocity)
  position w sw := (w, .ok fun i j => sw.position i j + sw.velocity i j)

/-- An object with that topology: particle `i` at `(i + 1, i + 1)`, every velocity `-1/2`. -/
def counted : UOpt 3 2 ℚ Nat where
  opt := { swarm := {
    position := fun i _ => (i : Nat) + 1
    velocity := fun _ _ => -1 / 2
    options := opts
    pbestPos := fun i _ => (i : Nat) + 1
    pbestCost := fun _ => XR.pinf
    bestPos := .empty
    bestCost := none
    currentCost := fun _ => XR.pinf } }
  world := 1

/-- Three iterations on the sphere function. -/
def countedRun (numpy : Bool) : UOpt 3 2 ℚ Nat × Except Err (XR ℚ × Vec 2 ℚ) :=
  optimizeU (counting numpy) (gcfg 3 2) (sphere 3 2) 3 none (fun _ _ => 1 / 2) counted

/-- The cost and the position returned, as a list. -/
def Ret (r : UOpt 3 2 ℚ Nat × Except Err (XR ℚ × Vec 2 ℚ)) : Option (XR ℚ × List ℚ) :=
  match r.2 with
  | .ok (c, p) => some (c, (List.finRange 2).map p)
  | .error _ => none

end Ex

-- The call returns the topology's third answer, 30, although no particle ever had that cost, and
-- the position `(0, 0)` of least cost; the hypotheses of `C92_position` and `C92_cost` are met.
example : Ex.Ret (Ex.countedRun true) = some (XR.fin 30, [0, 0]) := by decide +kernel

example : ∃ c p, (Ex.countedRun true).2 = .ok (c, p) := by
  have h : Ex.Ret (Ex.countedRun true) = some (XR.fin 30, [0, 0]) := by decide +kernel
  unfold Ex.Ret at h
  split at h
  · next c p hr => exact ⟨c, p, hr⟩
  · cases h

-- Every topology answers for the three evaluations; the histories have three entries.
example : (Ex.countedRun true).1.opt.costHistory = [XR.fin 10, XR.fin 20, XR.fin 30] ∧
    (Ex.countedRun true).1.opt.evals.length = 3 ∧ (Ex.countedRun true).1.world = 4 := by
  decide +kernel

-- The hypotheses of `C92_python_float` are met by the same topology answering Python floats.
example : (Ex.countedRun false).2 = .error .attributeError :=
  (C92_python_float (Ex.counting false) (Ex.gcfg 3 2) (Ex.sphere 3 2) (fun _ _ => 1 / 2) 3
    (by omega) none (by simp) Ex.counted (fun _ _ => ⟨_, rfl⟩)
    (fun _ _ => ⟨_, _, _, rfl⟩) (fun _ _ => ⟨_, _, rfl⟩) (fun _ _ => ⟨_, _, rfl⟩)
    (fun i => ⟨Ex.opts, by unfold ohCall; rfl⟩)).1

-- `C92_builtin` is about runs that do something: one of the library's with two iterations.
example : (optimize (Ex.gcfg 3 2) (Ex.sphere 3 2) 2 none (fun _ => Ex.draw 3 2)
    Ex.counted.opt).1.evals.length = 2 := by decide +kernel

end PySwarms

import Verif.Props.Handlers
import Verif.Props.Bounds
import Verif.Props.Drift
import Verif.Props.Tuning

/-!
# The recorded histories obey the law of motion (C133)
-/

set_option linter.unusedSectionVars false

namespace PySwarms

variable {n d : Nat} {K : Type} [Field K] [LinearOrder K] [IsStrictOrderedRing K] [Transc K]
  [FloorRing K]

/-- From entry `L` on, the next recorded positions are related to the recorded ones moved by the next
recorded velocities. -/
def RecordsMove (Rel : Mat n d K → Mat n d K → Prop) (L : Nat) (s : Opt n d K) : Prop :=
  ∀ u P V Q, L ≤ u → s.posHistory[u]? = some P → s.velocityHistory[u + 1]? = some V →
    s.posHistory[u + 1]? = some Q → Rel (fun i j => P i j + V i j) Q

structure MovesSoFar (Rel : Mat n d K → Mat n d K → Prop) (L : Nat) (s : Opt n d K) : Prop where
  len : s.posHistory.length = s.velocityHistory.length
  recs : RecordsMove Rel L s
  last : L < s.posHistory.length → ∀ P, s.posHistory.getLast? = some P →
    Rel (fun i j => P i j + s.swarm.velocity i j) s.swarm.position

theorem recordBest_moves {Rel : Mat n d K → Mat n d K → Prop} {L : Nat} {s : Opt n d K}
    (h : MovesSoFar Rel L s) (t : TopState n) (g : GBest n d K) (c : Costs n K) :
    RecordsMove Rel L (recordBest t g (recordEval c s)) := by
  intro u P V Q hL hP hV hQ
  have hp : (recordBest t g (recordEval c s)).posHistory = s.posHistory ++ [s.swarm.position] := rfl
  have hv : (recordBest t g (recordEval c s)).velocityHistory =
      s.velocityHistory ++ [s.swarm.velocity] := rfl
  rw [hp] at hP hQ
  rw [hv] at hV
  by_cases hlt : u + 1 < s.velocityHistory.length
  · rw [List.getElem?_append_left hlt] at hV
    rw [List.getElem?_append_left (by rw [h.len]; omega)] at hP hQ
    exact h.recs u P V Q hL hP hV hQ
  · have hu : u + 1 = s.velocityHistory.length := by
      have := (List.getElem?_eq_some_iff.1 hV).1
      simp at this
      omega
    rw [hu, List.getElem?_concat_length] at hV
    rw [hu, ← h.len, List.getElem?_concat_length] at hQ
    cases hV
    cases hQ
    rw [List.getElem?_append_left (by rw [h.len]; omega)] at hP
    refine h.last (by rw [h.len]; omega) P ?_
    rw [List.getLast?_eq_getElem?, h.len, ← hu]
    exact hP

/-- What a boundary strategy does to the moved positions. -/
def HandledBy (cfg : Config n d K) (Rel : Mat n d K → Mat n d K → Prop) : Prop :=
  ∀ r mem (sw : Swarm n d K) mem' p, callPosition cfg r mem sw = (mem', .ok p) →
    Rel (fun i j => sw.position i j + sw.velocity i j) p

theorem iterate_moves {cfg : Config n d K} {Rel : Mat n d K → Mat n d K → Prop}
    (hR : HandledBy cfg Rel) {L : Nat} (ev : Mat n d K → Except Err (Costs n K)) (r : Draw n d K)
    (iters i : Nat) (q : List Bool) (s : Opt n d K) (h : MovesSoFar Rel L s) :
    RecordsMove Rel L (iterate cfg ev r iters i q s).1 ∧
      ∀ q', (iterate cfg ev r iters i q s).2 = .ok (.continue q') →
        MovesSoFar Rel L (iterate cfg ev r iters i q s).1 := by
  have hcs := iterate_cases cfg ev r iters i q s
  generalize (iterate cfg ev r iters i q s).1 = s' at hcs ⊢
  generalize (iterate cfg ev r iters i q s).2 = o at hcs ⊢
  cases hcs with
  | evalError e he => exact ⟨h.recs, fun q' hq => by cases hq⟩
  | gbestError c t e he hg => exact ⟨h.recs, fun q' hq => by cases hq⟩
  | stop c t g he hg hi hq => exact ⟨recordBest_moves h t g c, fun q' hq => by cases hq⟩
  | moveError c t g s' e he hg hns hm =>
    have h2 := moveSwarm_frame cfg r iters i (recordBest t g (recordEval c s))
    rw [hm] at h2
    have hp : s'.posHistory = (recordBest t g (recordEval c s)).posHistory := by
      simp only at h2; tauto
    have hv : s'.velocityHistory = (recordBest t g (recordEval c s)).velocityHistory := by
      simp only at h2; tauto
    refine ⟨?_, fun q' hq => by cases hq⟩
    unfold RecordsMove
    rw [hp, hv]
    exact recordBest_moves h t g c
  | moved c t g s' he hg hns hm =>
    have h2 := moveSwarm_frame cfg r iters i (recordBest t g (recordEval c s))
    rw [hm] at h2
    have hp : s'.posHistory = (recordBest t g (recordEval c s)).posHistory := by
      simp only at h2; tauto
    have hv : s'.velocityHistory = (recordBest t g (recordEval c s)).velocityHistory := by
      simp only at h2; tauto
    have hrec : RecordsMove Rel L s' := by
      unfold RecordsMove
      rw [hp, hv]
      exact recordBest_moves h t g c
    refine ⟨hrec, fun q' _ => ⟨?_, hrec, ?_⟩⟩
    · rw [hp, hv]
      show (s.posHistory ++ [_]).length = (s.velocityHistory ++ [_]).length
      simp [h.len]
    · intro _ P hP
      rw [hp] at hP
      have : (recordBest t g (recordEval c s)).posHistory =
        s.posHistory ++ [s.swarm.position] := rfl
      rw [this] at hP
      simp only [List.getLast?_append, List.getLast?_singleton, Option.some_or,
        Option.some.injEq] at hP
      subst hP
      have hmc := moveSwarm_cases cfg r iters i (recordBest t g (recordEval c s))
      rw [hm] at hmc
      cases hmc with
      | ok o vm v bm p ho hv hpos => exact hR _ _ _ _ _ hpos

theorem loop_moves {cfg : Config n d K} {Rel : Mat n d K → Mat n d K → Prop}
    (hR : HandledBy cfg Rel) {L : Nat} (ev : Nat → Mat n d K → Except Err (Costs n K))
    (env : Nat → Draw n d K) (iters m i : Nat) (q : List Bool) (s : Opt n d K)
    (h : MovesSoFar Rel L s) : RecordsMove Rel L (loop cfg ev env iters m i q s).1 := by
  induction m generalizing i q s with
  | zero => exact h.recs
  | succ m ih =>
    have hi := iterate_moves hR (ev i) (env i) iters i q s h
    rw [loop]
    revert hi
    generalize iterate cfg (ev i) (env i) iters i q s = o
    obtain ⟨s1, e | u⟩ := o
    · exact fun hi => hi.1
    · cases u with
      | stop => exact fun hi => hi.1
      | «continue» q' => exact fun hi => ih (i + 1) q' s1 (hi.2 q' rfl)

theorem optimize_moves {cfg : Config n d K} {Rel : Mat n d K → Mat n d K → Prop}
    (hR : HandledBy cfg Rel) (ev : Nat → Mat n d K → Except Err (Costs n K)) (iters : Nat)
    (nproc : Option Nat) (env : Nat → Draw n d K) (s : Opt n d K)
    (hs : s.posHistory.length = s.velocityHistory.length) :
    RecordsMove Rel s.posHistory.length (optimize cfg ev iters nproc env s).1 := by
  have h0 : RecordsMove Rel s.posHistory.length s := by
    intro u P V Q hL hP
    rw [List.getElem?_eq_none hL] at hP
    cases hP
  have hl := loop_moves (L := s.posHistory.length) hR ev env iters iters 0 []
    (startState cfg nproc s) ⟨hs, h0, fun h => absurd h (lt_irrefl _)⟩
  have hc := optimize_cases cfg ev iters nproc env s
  generalize (optimize cfg ev iters nproc env s).1 = s' at hc ⊢
  generalize (optimize cfg ev iters nproc env s).2 = o at hc
  cases hc with
  | badPool h => exact h0
  | loopError s1 e _ h => rw [h] at hl; exact hl
  | finishError s1 e _ h _ => rw [h] at hl; exact hl
  | done s1 r _ h _ => rw [h] at hl; exact hl

theorem handled_free {cfg : Config n d K} (hk : cfg.kind ≠ .binary) (hb : cfg.bounds = none) :
    HandledBy cfg (fun x y => y = x) := by
  intro r mem sw mem' p h
  unfold callPosition computePosition at h
  rw [hb] at h
  split at h
  · next hk' => exact absurd hk' hk
  · cases h; rfl

theorem handled_bounds {cfg : Config n d K} (hk : cfg.kind ≠ .binary) {b : Bounds d K}
    (hb : cfg.bounds = some b) :
    HandledBy cfg (fun x y => ∃ mem mem' r, bhCall cfg.bhStrategy mem b r x = (mem', .ok y)) := by
  intro r mem sw mem' p h
  unfold callPosition computePosition at h
  rw [hb] at h
  split at h
  · next hk' => exact absurd hk' hk
  · exact ⟨_, _, _, h⟩

/-! ### C133 -/

/-- **C133** (no bounds).  Entry `t+1` of velocity_history is exactly the way from entry `t` to entry
`t+1` of pos_history, for all entries recorded by one call (also when it raises). -/
theorem C133_no_bounds (cfg : Config n d K) (hk : cfg.kind ≠ .binary) (hb : cfg.bounds = none)
    (ev : Nat → Mat n d K → Except Err (Costs n K)) (iters : Nat) (nproc : Option Nat)
    (env : Nat → Draw n d K) (s s' : Opt n d K) (o : Except Err (XR K × Vec d K))
    (hs : s.posHistory.length = s.velocityHistory.length)
    (ho : optimize cfg ev iters nproc env s = (s', o)) (t : Nat) (P V Q : Mat n d K)
    (ht : s.posHistory.length ≤ t) (hP : s'.posHistory[t]? = some P)
    (hV : s'.velocityHistory[t + 1]? = some V) (hQ : s'.posHistory[t + 1]? = some Q) (i : Fin n)
    (j : Fin d) : V i j = Q i j - P i j := by
  have h := optimize_moves (handled_free hk hb) ev iters nproc env s hs
  rw [ho] at h
  rw [h t P V Q ht hP hV hQ]
  simp

/-- **C133** (inside).  With bounds and any strategy: a particle whose recorded position plus next
recorded velocity lies inside the bounds went exactly there. -/
theorem C133_inside (cfg : Config n d K) (hk : cfg.kind ≠ .binary) (b : Bounds d K)
    (hb : cfg.bounds = some b) (ev : Nat → Mat n d K → Except Err (Costs n K)) (iters : Nat)
    (nproc : Option Nat) (env : Nat → Draw n d K) (s s' : Opt n d K)
    (o : Except Err (XR K × Vec d K)) (hs : s.posHistory.length = s.velocityHistory.length)
    (ho : optimize cfg ev iters nproc env s = (s', o)) (t : Nat) (P V Q : Mat n d K)
    (ht : s.posHistory.length ≤ t) (hP : s'.posHistory[t]? = some P)
    (hV : s'.velocityHistory[t + 1]? = some V) (hQ : s'.posHistory[t + 1]? = some Q) (i : Fin n)
    (hi : ∀ j, b.1 j ≤ P i j + V i j ∧ P i j + V i j ≤ b.2 j) (j : Fin d) :
    V i j = Q i j - P i j := by
  have h := optimize_moves (handled_bounds hk hb) ev iters nproc env s hs
  rw [ho] at h
  obtain ⟨mem, mem', r, hq⟩ := h t P V Q ht hP hV hQ
  rw [congrFun (C15_particle _ mem mem' b r _ Q hq i hi) j]
  simp

/-- **C133** (`nearest`).  The next recorded position is the recorded one plus the next recorded
velocity, cut off at the bounds. -/
theorem C133_nearest (cfg : Config n d K) (hk : cfg.kind ≠ .binary) (b : Bounds d K)
    (hb : cfg.bounds = some b) (hle : ∀ j, b.1 j ≤ b.2 j) (hst : cfg.bhStrategy = "nearest")
    (ev : Nat → Mat n d K → Except Err (Costs n K)) (iters : Nat)
    (nproc : Option Nat) (env : Nat → Draw n d K) (s s' : Opt n d K)
    (o : Except Err (XR K × Vec d K)) (hs : s.posHistory.length = s.velocityHistory.length)
    (ho : optimize cfg ev iters nproc env s = (s', o)) (t : Nat) (P V Q : Mat n d K)
    (ht : s.posHistory.length ≤ t) (hP : s'.posHistory[t]? = some P)
    (hV : s'.velocityHistory[t + 1]? = some V) (hQ : s'.posHistory[t + 1]? = some Q) (i : Fin n)
    (j : Fin d) : Q i j = max (b.1 j) (min (b.2 j) (P i j + V i j)) := by
  have h := optimize_moves (handled_bounds hk hb) ev iters nproc env s hs
  rw [ho] at h
  obtain ⟨mem, mem', r, hq⟩ := h t P V Q ht hP hV hQ
  rw [hst, bhCall, if_pos rfl] at hq
  cases hq
  have := hle j
  rw [bhNearest_apply]
  split_ifs with h1 h2
  · rw [min_eq_left h1.le, max_eq_right this]
  · rw [min_eq_right (not_lt.1 h1), max_eq_left h2.le]
  · rw [min_eq_right (not_lt.1 h1), max_eq_right (not_lt.1 h2)]

/-- **C133** (`periodic`, the default).  The next recorded position is the recorded one plus the next
recorded velocity, up to a multiple of the width of the box: on the torus the velocities are again the
displacements. -/
theorem C133_periodic (cfg : Config n d K) (hk : cfg.kind ≠ .binary) (b : Bounds d K)
    (hb : cfg.bounds = some b) (hle : ∀ j, b.1 j ≤ b.2 j) (hst : cfg.bhStrategy = "periodic")
    (ev : Nat → Mat n d K → Except Err (Costs n K)) (iters : Nat)
    (nproc : Option Nat) (env : Nat → Draw n d K) (s s' : Opt n d K)
    (o : Except Err (XR K × Vec d K)) (hs : s.posHistory.length = s.velocityHistory.length)
    (ho : optimize cfg ev iters nproc env s = (s', o)) (t : Nat) (P V Q : Mat n d K)
    (ht : s.posHistory.length ≤ t) (hP : s'.posHistory[t]? = some P)
    (hV : s'.velocityHistory[t + 1]? = some V) (hQ : s'.posHistory[t + 1]? = some Q) (i : Fin n)
    (j : Fin d) : ∃ m : ℤ, Q i j = P i j + V i j + m * (b.2 j - b.1 j) := by
  have h := optimize_moves (handled_bounds hk hb) ev iters nproc env s hs
  rw [ho] at h
  obtain ⟨mem, mem', r, hq⟩ := h t P V Q ht hP hV hQ
  rw [hst] at hq
  exact (C18_wraps mem mem' b r _ Q hq i j (hle j)).2

theorem iterate_hist_len (cfg : Config n d K) (ev : Mat n d K → Except Err (Costs n K))
    (r : Draw n d K) (iters i : Nat) (q : List Bool) (s : Opt n d K)
    (h : s.posHistory.length = s.velocityHistory.length) :
    (iterate cfg ev r iters i q s).1.posHistory.length =
      (iterate cfg ev r iters i q s).1.velocityHistory.length := by
  have hcs := iterate_cases cfg ev r iters i q s
  generalize (iterate cfg ev r iters i q s).1 = s' at hcs ⊢
  generalize (iterate cfg ev r iters i q s).2 = o at hcs
  have hrec : ∀ t g c, (recordBest t g (recordEval c s)).posHistory.length =
      (recordBest t g (recordEval c s)).velocityHistory.length := by
    intro t g c
    show (s.posHistory ++ [_]).length = (s.velocityHistory ++ [_]).length
    simp [h]
  cases hcs with
  | evalError e he => exact h
  | gbestError c t e he hg => exact h
  | stop c t g he hg hi hq => exact hrec t g c
  | moveError c t g s' e he hg hns hm =>
    have h2 := moveSwarm_frame cfg r iters i (recordBest t g (recordEval c s))
    rw [hm] at h2
    have hp : s'.posHistory = (recordBest t g (recordEval c s)).posHistory := by
      simp only at h2; tauto
    have hv : s'.velocityHistory = (recordBest t g (recordEval c s)).velocityHistory := by
      simp only at h2; tauto
    rw [hp, hv]
    exact hrec t g c
  | moved c t g s' he hg hns hm =>
    have h2 := moveSwarm_frame cfg r iters i (recordBest t g (recordEval c s))
    rw [hm] at h2
    have hp : s'.posHistory = (recordBest t g (recordEval c s)).posHistory := by
      simp only at h2; tauto
    have hv : s'.velocityHistory = (recordBest t g (recordEval c s)).velocityHistory := by
      simp only at h2; tauto
    rw [hp, hv]
    exact hrec t g c

theorem optimize_hist_len (cfg : Config n d K) (ev : Nat → Mat n d K → Except Err (Costs n K))
    (iters : Nat) (nproc : Option Nat) (env : Nat → Draw n d K) (s : Opt n d K)
    (h : s.posHistory.length = s.velocityHistory.length) :
    (optimize cfg ev iters nproc env s).1.posHistory.length =
      (optimize cfg ev iters nproc env s).1.velocityHistory.length :=
  optimize_inv cfg ev iters nproc env (fun s => s.posHistory.length = s.velocityHistory.length)
    (fun _ _ _ _ h => h) (fun _ h => h)
    (fun i q s h => iterate_hist_len cfg (ev i) (env i) iters i q s h) s h

/-- **C133** (sum).  Without bounds the positions of a call are its first positions plus the sum of the
velocities recorded since. -/
theorem C133_sum (cfg : Config n d K) (hk : cfg.kind ≠ .binary) (hb : cfg.bounds = none)
    (ev : Nat → Mat n d K → Except Err (Costs n K)) (iters : Nat) (nproc : Option Nat)
    (env : Nat → Draw n d K) (s s' : Opt n d K) (o : Except Err (XR K × Vec d K))
    (hs : s.posHistory.length = s.velocityHistory.length)
    (ho : optimize cfg ev iters nproc env s = (s', o)) (m : Nat) (P Q : Mat n d K)
    (hP : s'.posHistory[s.posHistory.length]? = some P)
    (hQ : s'.posHistory[s.posHistory.length + m]? = some Q) (i : Fin n) (j : Fin d) :
    Q i j = P i j + (((s'.velocityHistory.drop (s.posHistory.length + 1)).take m).map
      fun V => V i j).sum := by
  have hl : s'.posHistory.length = s'.velocityHistory.length := by
    have := optimize_hist_len cfg ev iters nproc env s hs
    rw [ho] at this
    exact this
  induction m generalizing Q with
  | zero =>
    rw [Nat.add_zero, hP] at hQ
    cases hQ
    simp
  | succ m ih =>
    have hlt : s.posHistory.length + (m + 1) < s'.posHistory.length :=
      (List.getElem?_eq_some_iff.1 hQ).1
    obtain ⟨R, hR⟩ : ∃ R, s'.posHistory[s.posHistory.length + m]? = some R :=
      ⟨_, List.getElem?_eq_getElem (by omega)⟩
    obtain ⟨V, hV⟩ : ∃ V, s'.velocityHistory[s.posHistory.length + m + 1]? = some V :=
      ⟨_, List.getElem?_eq_getElem (by omega)⟩
    have h1 := C133_no_bounds cfg hk hb ev iters nproc env s s' o hs ho _ R V Q
      (Nat.le_add_right _ _) hR hV hQ i j
    have hV' : (s'.velocityHistory.drop (s.posHistory.length + 1))[m]? = some V := by
      rw [List.getElem?_drop, ← hV]
      congr 1
      omega
    rw [List.take_add_one, hV', List.map_append, List.sum_append, ← add_assoc, ← ih R hR]
    simp [h1]

/-- One recorded entry and the next: a step by the new velocity, or nothing has moved. -/
def StepOrRest (P V0 Q V : Mat n d K) : Prop :=
  (Q = fun i j => P i j + V i j) ∨ (Q = P ∧ V = V0)

structure LifeMoves (s : Opt n d K) : Prop where
  len : s.posHistory.length = s.velocityHistory.length
  recs : ∀ u P V0 Q V, s.posHistory[u]? = some P → s.velocityHistory[u]? = some V0 →
    s.posHistory[u + 1]? = some Q → s.velocityHistory[u + 1]? = some V → StepOrRest P V0 Q V
  last : ∀ P V0, s.posHistory.getLast? = some P → s.velocityHistory.getLast? = some V0 →
    StepOrRest P V0 s.swarm.position s.swarm.velocity

theorem recordBest_life {s : Opt n d K} (h : LifeMoves s) (t : TopState n) (g : GBest n d K)
    (c : Costs n K) (s' : Opt n d K)
    (hp : s'.posHistory = (recordBest t g (recordEval c s)).posHistory)
    (hv : s'.velocityHistory = (recordBest t g (recordEval c s)).velocityHistory)
    (hst : StepOrRest s.swarm.position s.swarm.velocity s'.swarm.position s'.swarm.velocity) :
    LifeMoves s' := by
  have hp : s'.posHistory = s.posHistory ++ [s.swarm.position] := hp
  have hv : s'.velocityHistory = s.velocityHistory ++ [s.swarm.velocity] := hv
  refine ⟨by rw [hp, hv]; simp [h.len], ?_, ?_⟩
  · intro u P V0 Q V hP hV0 hQ hV
    rw [hp] at hP hQ
    rw [hv] at hV hV0
    by_cases hlt : u + 1 < s.velocityHistory.length
    · rw [List.getElem?_append_left hlt] at hV
      rw [List.getElem?_append_left (by omega)] at hV0
      rw [List.getElem?_append_left (by rw [h.len]; omega)] at hP hQ
      exact h.recs u P V0 Q V hP hV0 hQ hV
    · have hu : u + 1 = s.velocityHistory.length := by
        have := (List.getElem?_eq_some_iff.1 hV).1
        simp at this
        omega
      rw [hu, List.getElem?_concat_length] at hV
      rw [hu, ← h.len, List.getElem?_concat_length] at hQ
      cases hV
      cases hQ
      rw [List.getElem?_append_left (by rw [h.len]; omega)] at hP
      rw [List.getElem?_append_left (by omega)] at hV0
      refine h.last P V0 ?_ ?_
      · rw [List.getLast?_eq_getElem?, h.len, ← hu]
        exact hP
      · rw [List.getLast?_eq_getElem?, ← hu]
        exact hV0
  · intro P V0 hP hV0
    rw [hp] at hP
    rw [hv] at hV0
    simp only [List.getLast?_append, List.getLast?_singleton, Option.some_or,
      Option.some.injEq] at hP hV0
    subst hP
    subst hV0
    exact hst

theorem moveSwarm_stepOrRest {cfg : Config n d K} (hk : cfg.kind ≠ .binary)
    (hb : cfg.bounds = none) (r : Draw n d K) (iters i : Nat) (s : Opt n d K) :
    StepOrRest s.swarm.position s.swarm.velocity (moveSwarm cfg r iters i s).1.swarm.position
      (moveSwarm cfg r iters i s).1.swarm.velocity := by
  have hcs := moveSwarm_cases cfg r iters i s
  generalize (moveSwarm cfg r iters i s).1 = s' at hcs ⊢
  generalize (moveSwarm cfg r iters i s).2 = o at hcs
  cases hcs with
  | optError e h => exact .inr ⟨rfl, rfl⟩
  | velError o vm e h hv => exact .inr ⟨rfl, rfl⟩
  | posError o vm v bm e h hv hp =>
    exfalso
    unfold callPosition computePosition at hp
    rw [hb] at hp
    split at hp
    · next hk' => exact absurd hk' hk
    · cases hp
  | ok o vm v bm p h hv hp => exact .inl (handled_free hk hb _ _ _ _ _ hp)

theorem iterate_life {cfg : Config n d K} (hk : cfg.kind ≠ .binary) (hb : cfg.bounds = none)
    (ev : Mat n d K → Except Err (Costs n K)) (r : Draw n d K) (iters i : Nat) (q : List Bool)
    (s : Opt n d K) (h : LifeMoves s) : LifeMoves (iterate cfg ev r iters i q s).1 := by
  have hcs := iterate_cases cfg ev r iters i q s
  generalize (iterate cfg ev r iters i q s).1 = s' at hcs ⊢
  generalize (iterate cfg ev r iters i q s).2 = o at hcs
  cases hcs with
  | evalError e he => exact h
  | gbestError c t e he hg => exact ⟨h.len, h.recs, h.last⟩
  | stop c t g he hg hi hq => exact recordBest_life h t g c _ rfl rfl (.inr ⟨rfl, rfl⟩)
  | moveError c t g s' e he hg hns hm =>
    have h2 := moveSwarm_frame cfg r iters i (recordBest t g (recordEval c s))
    have h3 := moveSwarm_stepOrRest hk hb r iters i (recordBest t g (recordEval c s))
    rw [hm] at h2 h3
    exact recordBest_life h t g c _ (by simp only at h2; tauto) (by simp only at h2; tauto) h3
  | moved c t g s' he hg hns hm =>
    have h2 := moveSwarm_frame cfg r iters i (recordBest t g (recordEval c s))
    have h3 := moveSwarm_stepOrRest hk hb r iters i (recordBest t g (recordEval c s))
    rw [hm] at h2 h3
    exact recordBest_life h t g c _ (by simp only at h2; tauto) (by simp only at h2; tauto) h3

theorem lifeMoves_nil {s : Opt n d K} (h1 : s.posHistory = []) (h2 : s.velocityHistory = []) :
    LifeMoves s :=
  ⟨by rw [h1, h2], fun u P V0 Q V hP => by rw [h1] at hP; simp at hP,
    fun P V0 hP => by rw [h1] at hP; simp at hP⟩

/-- **C133** (life).  Without bounds, whatever sequence of calls led to the histories, also calls that
raised or stopped early: every entry is the previous one moved by the new velocity, or a repetition of
the previous entry (where a call ended without moving the swarm and the next one began). -/
theorem C133_life (cfg : Config n d K) (hk : cfg.kind ≠ .binary) (hb : cfg.bounds = none)
    (s : Opt n d K) (hs : Reachable cfg s) :
    s.posHistory.length = s.velocityHistory.length ∧
    ∀ t P V0 Q V, s.posHistory[t]? = some P → s.velocityHistory[t]? = some V0 →
      s.posHistory[t + 1]? = some Q → s.velocityHistory[t + 1]? = some V →
      (∀ i j, V i j = Q i j - P i j) ∨ (Q = P ∧ V = V0) := by
  obtain ⟨r1, r2, s0, ops, hc, rfl⟩ := hs
  obtain ⟨sw, hsw, rfl⟩ := construct_ok cfg r1 r2 s0 hc
  have h : LifeMoves (runOps cfg { swarm := sw } ops) := by
    refine runOps_inv cfg LifeMoves (fun _ => True) ?_ ops (fun _ _ => trivial) _
      (lifeMoves_nil rfl rfl)
    intro s op _ h
    cases op with
    | optimize ev iters nproc env =>
      exact optimize_inv cfg ev iters nproc env LifeMoves
        (fun s a b c h => ⟨h.len, h.recs, h.last⟩) (fun s h => ⟨h.len, h.recs, h.last⟩)
        (fun i q s h => iterate_life hk hb (ev i) (env i) iters i q s h) s h
    | reset r =>
      have h1 : (stepOp cfg s (.reset r)).posHistory = [] ∧
          (stepOp cfg s (.reset r)).velocityHistory = [] := by
        unfold stepOp reset
        dsimp only
        split <;> exact ⟨rfl, rfl⟩
      exact lifeMoves_nil h1.1 h1.2
  refine ⟨h.len, fun t P V0 Q V hP hV0 hQ hV => ?_⟩
  rcases h.recs t P V0 Q V hP hV0 hQ hV with hst | hst
  · left
    intro i j
    rw [hst]
    simp
  · exact .inr hst

/-- Non-vacuity: two calls of two and three iterations record five entries; inside each call and
between them the velocities are the displacements, and they are not zero. -/
example : (match construct (Ex.gcfg 2 1) (Ex.init 2 1) (Ex.init 2 1) with
    | .ok s =>
      let s1 := runOps (Ex.gcfg 2 1) s
        [.optimize (Ex.sphere 2 1) 2 none fun _ => Ex.draw 2 1,
         .optimize (Ex.sphere 2 1) 3 none fun _ => Ex.draw 2 1]
      (Ex.gcfg 2 1).bounds.isNone && s1.posHistory.length == 5 &&
        (List.range 4).all fun t =>
          match s1.posHistory[t]?, s1.velocityHistory[t + 1]?, s1.posHistory[t + 1]? with
          | some P, some V, some Q => decide (V 0 0 = Q 0 0 - P 0 0 ∧ V 0 0 ≠ 0)
          | _, _, _ => false
    | .error _ => false) = true := by decide +kernel

/-- Non-vacuity of the second alternative: a call that stopped early leaves the swarm where it is, and
the next call records the same positions and velocities again. -/
example : (match construct { Ex.gcfg 2 1 with ftol := .fin 1000, ftolIter := .int 1 } (Ex.init 2 1)
      (Ex.init 2 1) with
    | .ok s =>
      let s1 := runOps { Ex.gcfg 2 1 with ftol := .fin 1000, ftolIter := .int 1 } s
        [.optimize (Ex.sphere 2 1) 5 none fun _ => Ex.draw 2 1,
         .optimize (Ex.sphere 2 1) 1 none fun _ => Ex.draw 2 1]
      s1.posHistory.length == 3 &&
          match s1.posHistory[1]?, s1.velocityHistory[1]?, s1.velocityHistory[2]?,
            s1.posHistory[2]? with
          | some P, some V0, some V, some Q => decide (Q 0 0 = P 0 0 ∧ V 0 0 = V0 0 0 ∧ V 0 0 ≠ 0)
          | _, _, _, _ => false
    | .error _ => false) = true := by decide +kernel

end PySwarms

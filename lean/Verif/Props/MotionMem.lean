import Verif.Props.Motion

/-!
# The law of motion for boundary strategies that remember the last positions (C133)
-/

set_option linter.unusedSectionVars false

namespace PySwarms

variable {n d : Nat} {K : Type} [Field K] [LinearOrder K] [IsStrictOrderedRing K] [Transc K]
  [FloorRing K]

/-- From entry `L` on, recorded positions, the same moved by the next velocities, and the next recorded
positions are related. -/
def RecordsMove3 (Rel : Mat n d K → Mat n d K → Mat n d K → Prop) (L : Nat) (s : Opt n d K) : Prop :=
  ∀ u P V Q, L ≤ u → s.posHistory[u]? = some P → s.velocityHistory[u + 1]? = some V →
    s.posHistory[u + 1]? = some Q → Rel P (fun i j => P i j + V i j) Q

structure MemMoves (b : Bounds d K) (Rel : Mat n d K → Mat n d K → Mat n d K → Prop) (L : Nat)
    (s : Opt n d K) : Prop where
  len : s.posHistory.length = s.velocityHistory.length
  recs : RecordsMove3 Rel L s
  last : L < s.posHistory.length → ∀ P, s.posHistory.getLast? = some P →
    Rel P (fun i j => P i j + s.swarm.velocity i j) s.swarm.position
  mem : s.bhMem = some s.swarm.position
  inside : InBox b s.swarm.position

theorem recordBest_moves3 {b : Bounds d K} {Rel : Mat n d K → Mat n d K → Mat n d K → Prop}
    {L : Nat} {s : Opt n d K} (h : MemMoves b Rel L s) (t : TopState n) (g : GBest n d K)
    (c : Costs n K) : RecordsMove3 Rel L (recordBest t g (recordEval c s)) := by
  intro u P V Q hL hP hV hQ
  have hp : (recordBest t g (recordEval c s)).posHistory = s.posHistory ++ [s.swarm.position] := rfl
  have hv : (recordBest t g (recordEval c s)).velocityHistory =
      s.velocityHistory ++ [s.swarm.velocity] := rfl
  rw [hp] at hP hQ
  rw [hv] at hV
  by_cases hlt : u + 1 < s.velocityHistory.length
  · rw [List.getElem?_append_left hlt] at hV
    rw [List.getElem?_append_left (by rw [h.len]; omega)] at hP hQ
    exact h.recs u P V Q hL hP hV hQ
  · have hu : u + 1 = s.velocityHistory.length := by
      have := (List.getElem?_eq_some_iff.1 hV).1
      simp at this
      omega
    rw [hu, List.getElem?_concat_length] at hV
    rw [hu, ← h.len, List.getElem?_concat_length] at hQ
    cases hV
    cases hQ
    rw [List.getElem?_append_left (by rw [h.len]; omega)] at hP
    refine h.last (by rw [h.len]; omega) P ?_
    rw [List.getLast?_eq_getElem?, h.len, ← hu]
    exact hP

/-- What a boundary strategy does that has returned the positions `p` before, all inside. -/
def HandledMem (st : String) (b : Bounds d K)
    (Rel : Mat n d K → Mat n d K → Mat n d K → Prop) : Prop :=
  ∀ r p x mem' y, InBox b p → bhCall st (some p) b r x = (mem', .ok y) →
    Rel p x y ∧ mem' = some y ∧ InBox b y

theorem iterate_moves3 {cfg : Config n d K} (hk : cfg.kind ≠ .binary) {b : Bounds d K}
    (hb : cfg.bounds = some b) {Rel : Mat n d K → Mat n d K → Mat n d K → Prop}
    (hR : HandledMem cfg.bhStrategy b Rel) {L : Nat} (ev : Mat n d K → Except Err (Costs n K))
    (r : Draw n d K) (iters i : Nat) (q : List Bool) (s : Opt n d K) (h : MemMoves b Rel L s) :
    RecordsMove3 Rel L (iterate cfg ev r iters i q s).1 ∧
      ∀ q', (iterate cfg ev r iters i q s).2 = .ok (.continue q') →
        MemMoves b Rel L (iterate cfg ev r iters i q s).1 := by
  have hcs := iterate_cases cfg ev r iters i q s
  generalize (iterate cfg ev r iters i q s).1 = s' at hcs ⊢
  generalize (iterate cfg ev r iters i q s).2 = o at hcs ⊢
  cases hcs with
  | evalError e he => exact ⟨h.recs, fun q' hq => by cases hq⟩
  | gbestError c t e he hg => exact ⟨h.recs, fun q' hq => by cases hq⟩
  | stop c t g he hg hi hq => exact ⟨recordBest_moves3 h t g c, fun q' hq => by cases hq⟩
  | moveError c t g s' e he hg hns hm =>
    have h2 := moveSwarm_frame cfg r iters i (recordBest t g (recordEval c s))
    rw [hm] at h2
    have hp : s'.posHistory = (recordBest t g (recordEval c s)).posHistory := by
      simp only at h2; tauto
    have hv : s'.velocityHistory = (recordBest t g (recordEval c s)).velocityHistory := by
      simp only at h2; tauto
    refine ⟨?_, fun q' hq => by cases hq⟩
    unfold RecordsMove3
    rw [hp, hv]
    exact recordBest_moves3 h t g c
  | moved c t g s' he hg hns hm =>
    have h2 := moveSwarm_frame cfg r iters i (recordBest t g (recordEval c s))
    rw [hm] at h2
    have hp : s'.posHistory = (recordBest t g (recordEval c s)).posHistory := by
      simp only at h2; tauto
    have hv : s'.velocityHistory = (recordBest t g (recordEval c s)).velocityHistory := by
      simp only at h2; tauto
    have hrec : RecordsMove3 Rel L s' := by
      unfold RecordsMove3
      rw [hp, hv]
      exact recordBest_moves3 h t g c
    have hstep : Rel s.swarm.position
        (fun i j => s.swarm.position i j + s'.swarm.velocity i j) s'.swarm.position ∧
        s'.bhMem = some s'.swarm.position ∧ InBox b s'.swarm.position := by
      have hmc := moveSwarm_cases cfg r iters i (recordBest t g (recordEval c s))
      rw [hm] at hmc
      cases hmc with
      | ok o vm v bm p ho hv hpos =>
        have hpos' : bhCall cfg.bhStrategy s.bhMem b r.bh
            (fun i j => s.swarm.position i j + v i j) = (bm, .ok p) := by
          unfold callPosition computePosition at hpos
          rw [hb] at hpos
          split at hpos
          · next hk' => exact absurd hk' hk
          · exact hpos
        rw [h.mem] at hpos'
        exact hR _ _ _ _ _ h.inside hpos'
    refine ⟨hrec, fun q' _ => ⟨?_, hrec, ?_, hstep.2.1, hstep.2.2⟩⟩
    · rw [hp, hv]
      show (s.posHistory ++ [_]).length = (s.velocityHistory ++ [_]).length
      simp [h.len]
    · intro _ P hP
      rw [hp] at hP
      have : (recordBest t g (recordEval c s)).posHistory =
        s.posHistory ++ [s.swarm.position] := rfl
      rw [this] at hP
      simp only [List.getLast?_append, List.getLast?_singleton, Option.some_or,
        Option.some.injEq] at hP
      subst hP
      exact hstep.1

theorem loop_moves3 {cfg : Config n d K} (hk : cfg.kind ≠ .binary) {b : Bounds d K}
    (hb : cfg.bounds = some b) {Rel : Mat n d K → Mat n d K → Mat n d K → Prop}
    (hR : HandledMem cfg.bhStrategy b Rel) {L : Nat}
    (ev : Nat → Mat n d K → Except Err (Costs n K)) (env : Nat → Draw n d K) (iters m i : Nat)
    (q : List Bool) (s : Opt n d K) (h : MemMoves b Rel L s) :
    RecordsMove3 Rel L (loop cfg ev env iters m i q s).1 := by
  induction m generalizing i q s with
  | zero => exact h.recs
  | succ m ih =>
    have hi := iterate_moves3 hk hb hR (ev i) (env i) iters i q s h
    rw [loop]
    revert hi
    generalize iterate cfg (ev i) (env i) iters i q s = o
    obtain ⟨s1, e | u⟩ := o
    · exact fun hi => hi.1
    · cases u with
      | stop => exact fun hi => hi.1
      | «continue» q' => exact fun hi => ih (i + 1) q' s1 (hi.2 q' rfl)

theorem optimize_moves3 {cfg : Config n d K} (hk : cfg.kind ≠ .binary) {b : Bounds d K}
    (hb : cfg.bounds = some b) {Rel : Mat n d K → Mat n d K → Mat n d K → Prop}
    (hR : HandledMem cfg.bhStrategy b Rel) (ev : Nat → Mat n d K → Except Err (Costs n K))
    (iters : Nat) (nproc : Option Nat) (env : Nat → Draw n d K) (s : Opt n d K)
    (hs : s.posHistory.length = s.velocityHistory.length) (hin : InBox b s.swarm.position) :
    RecordsMove3 Rel s.posHistory.length (optimize cfg ev iters nproc env s).1 := by
  have h0 : RecordsMove3 Rel s.posHistory.length s := by
    intro u P V Q hL hP
    rw [List.getElem?_eq_none hL] at hP
    cases hP
  have hmem : (startState cfg nproc s).bhMem = some s.swarm.position := by
    unfold startState prepare
    cases hkk : cfg.kind with
    | binary => exact absurd hkk hk
    | _ => simp
  have hl := loop_moves3 (L := s.posHistory.length) hk hb hR ev env iters iters 0 []
    (startState cfg nproc s) ⟨hs, h0, fun h => absurd h (lt_irrefl _), hmem, hin⟩
  have hc := optimize_cases cfg ev iters nproc env s
  generalize (optimize cfg ev iters nproc env s).1 = s' at hc ⊢
  generalize (optimize cfg ev iters nproc env s).2 = o at hc
  cases hc with
  | badPool h => exact h0
  | loopError s1 e _ h => rw [h] at hl; exact hl
  | finishError s1 e _ h _ => rw [h] at hl; exact hl
  | done s1 r _ h _ => rw [h] at hl; exact hl

/-- **C133** (`reflective`).  The next recorded coordinate is a mirror image of the recorded one plus
the next recorded velocity. -/
theorem C133_reflective (cfg : Config n d K) (hk : cfg.kind ≠ .binary) (b : Bounds d K)
    (hb : cfg.bounds = some b) (hst : cfg.bhStrategy = "reflective")
    (ev : Nat → Mat n d K → Except Err (Costs n K)) (iters : Nat)
    (nproc : Option Nat) (env : Nat → Draw n d K) (s s' : Opt n d K)
    (o : Except Err (XR K × Vec d K)) (hs : s.posHistory.length = s.velocityHistory.length)
    (ho : optimize cfg ev iters nproc env s = (s', o)) (t : Nat) (P V Q : Mat n d K)
    (ht : s.posHistory.length ≤ t) (hP : s'.posHistory[t]? = some P)
    (hV : s'.velocityHistory[t + 1]? = some V) (hQ : s'.posHistory[t + 1]? = some Q) (i : Fin n)
    (j : Fin d) : MirrorImage (b.1 j) (b.2 j) (P i j + V i j) (Q i j) := by
  have h := optimize_moves (handled_bounds hk hb) ev iters nproc env s hs
  rw [ho] at h
  obtain ⟨mem, mem', r, hq⟩ := h t P V Q ht hP hV hQ
  rw [hst] at hq
  exact (C17_mirror mem mem' b r _ Q hq i j).2

/-- **C133** (`shrink`).  Every particle moved in the direction of its recorded velocity, by a part of it
(between 0 and 1), the largest one that keeps all its coordinates inside the bounds. -/
theorem C133_shrink (cfg : Config n d K) (hk : cfg.kind ≠ .binary) (b : Bounds d K)
    (hb : cfg.bounds = some b) (hd : 0 < d) (hst : cfg.bhStrategy = "shrink")
    (ev : Nat → Mat n d K → Except Err (Costs n K)) (iters : Nat)
    (nproc : Option Nat) (env : Nat → Draw n d K) (s s' : Opt n d K)
    (o : Except Err (XR K × Vec d K)) (hs : s.posHistory.length = s.velocityHistory.length)
    (hin : InBox b s.swarm.position)
    (ho : optimize cfg ev iters nproc env s = (s', o)) (t : Nat) (P V Q : Mat n d K)
    (ht : s.posHistory.length ≤ t) (hP : s'.posHistory[t]? = some P)
    (hV : s'.velocityHistory[t + 1]? = some V) (hQ : s'.posHistory[t + 1]? = some Q) (i : Fin n) :
    ∃ σ : K, 0 ≤ σ ∧ σ ≤ 1 ∧ (∀ j, Q i j = P i j + σ * V i j) ∧
      ∀ τ, 0 ≤ τ → τ ≤ 1 → (∀ j, b.1 j ≤ P i j + τ * V i j ∧ P i j + τ * V i j ≤ b.2 j) → τ ≤ σ := by
  have hR : HandledMem (n := n) cfg.bhStrategy b (fun p x y => ∀ i, ∃ σ : K, 0 ≤ σ ∧ σ ≤ 1 ∧
      (∀ j, y i j = p i j + σ * (x i j - p i j)) ∧
      ∀ τ, 0 ≤ τ → τ ≤ 1 → (∀ j, b.1 j ≤ p i j + τ * (x i j - p i j) ∧
        p i j + τ * (x i j - p i j) ≤ b.2 j) → τ ≤ σ) := by
    intro r p x mem' y hp h
    rw [hst] at h
    obtain ⟨y', h1, h2⟩ := C19_shrink hd p b hp r x
    rw [h1] at h
    cases h
    refine ⟨fun i => ?_, rfl, fun i j => ?_⟩
    · obtain ⟨t, a1, a2, a3, -, a5⟩ := h2 i
      exact ⟨t, a1, a2, a3, a5⟩
    · obtain ⟨t, -, -, -, a4, -⟩ := h2 i
      exact a4 j
  have h := optimize_moves3 hk hb hR ev iters nproc env s hs hin
  rw [ho] at h
  have := h t P V Q ht hP hV hQ i
  simpa only [add_sub_cancel_left] using this

/-- **C133** (`intermediate`).  A coordinate whose recorded value plus next recorded velocity is outside
became the middle between the recorded value and the bound it would have crossed; the others moved by
their velocity. -/
theorem C133_intermediate (cfg : Config n d K) (hk : cfg.kind ≠ .binary) (b : Bounds d K)
    (hb : cfg.bounds = some b) (hle : ∀ j, b.1 j ≤ b.2 j) (hst : cfg.bhStrategy = "intermediate")
    (ev : Nat → Mat n d K → Except Err (Costs n K)) (iters : Nat)
    (nproc : Option Nat) (env : Nat → Draw n d K) (s s' : Opt n d K)
    (o : Except Err (XR K × Vec d K)) (hs : s.posHistory.length = s.velocityHistory.length)
    (hin : InBox b s.swarm.position)
    (ho : optimize cfg ev iters nproc env s = (s', o)) (t : Nat) (P V Q : Mat n d K)
    (ht : s.posHistory.length ≤ t) (hP : s'.posHistory[t]? = some P)
    (hV : s'.velocityHistory[t + 1]? = some V) (hQ : s'.posHistory[t + 1]? = some Q) (i : Fin n)
    (j : Fin d) :
    (P i j + V i j < b.1 j → Q i j = (P i j + b.1 j) / 2) ∧
    (b.2 j < P i j + V i j → Q i j = (P i j + b.2 j) / 2) ∧
    (b.1 j ≤ P i j + V i j → P i j + V i j ≤ b.2 j → Q i j = P i j + V i j) := by
  have hR : HandledMem (n := n) cfg.bhStrategy b (fun p x y => ∀ i j,
      (x i j < b.1 j → y i j = (p i j + b.1 j) / 2) ∧
      (b.2 j < x i j → y i j = (p i j + b.2 j) / 2) ∧
      (b.1 j ≤ x i j → x i j ≤ b.2 j → y i j = x i j)) := by
    intro r p x mem' y hp h
    rw [hst] at h
    obtain ⟨y', h1, h2⟩ := C19_intermediate p b hle r x
    rw [h1] at h
    cases h
    refine ⟨h2, rfl, fun i j => ?_⟩
    obtain ⟨a1, a2, a3⟩ := h2 i j
    have := hp i j
    by_cases hl : x i j < b.1 j
    · rw [a1 hl]; constructor <;> linarith [hle j]
    · by_cases hh : b.2 j < x i j
      · rw [a2 hh]; constructor <;> linarith [hle j]
      · rw [a3 (not_lt.1 hl) (not_lt.1 hh)]
        exact ⟨not_lt.1 hl, not_lt.1 hh⟩
  have h := optimize_moves3 hk hb hR ev iters nproc env s hs hin
  rw [ho] at h
  exact h t P V Q ht hP hV hQ i j

/-- **C133** (`random`).  All particles that would have left below are at one common place, all others
that would have left above at another, and the rest moved by their velocity. -/
theorem C133_random (cfg : Config n d K) (hk : cfg.kind ≠ .binary) (b : Bounds d K)
    (hb : cfg.bounds = some b) (hst : cfg.bhStrategy = "random")
    (ev : Nat → Mat n d K → Except Err (Costs n K)) (iters : Nat)
    (nproc : Option Nat) (env : Nat → Draw n d K) (s s' : Opt n d K)
    (o : Except Err (XR K × Vec d K)) (hs : s.posHistory.length = s.velocityHistory.length)
    (ho : optimize cfg ev iters nproc env s = (s', o)) (t : Nat) (P V Q : Mat n d K)
    (ht : s.posHistory.length ≤ t) (hP : s'.posHistory[t]? = some P)
    (hV : s'.velocityHistory[t + 1]? = some V) (hQ : s'.posHistory[t + 1]? = some Q) :
    ∃ pl pu : Vec d K, ∀ i,
      ((∃ j, P i j + V i j < b.1 j) → Q i = pl) ∧
      ((∀ j, b.1 j ≤ P i j + V i j) → (∃ j, b.2 j < P i j + V i j) → Q i = pu) ∧
      ((∀ j, b.1 j ≤ P i j + V i j ∧ P i j + V i j ≤ b.2 j) → Q i = fun j => P i j + V i j) := by
  have h := optimize_moves (handled_bounds hk hb) ev iters nproc env s hs
  rw [ho] at h
  obtain ⟨mem, mem', r, hq⟩ := h t P V Q ht hP hV hQ
  rw [hst, bhCall, if_neg (by decide), if_neg (by decide), if_neg (by decide), if_pos rfl] at hq
  cases hq
  refine ⟨fun j => (b.2 j - b.1 j) * r.l j + b.1 j, fun j => (b.2 j - b.1 j) * r.u j + b.1 j,
    fun i => ?_⟩
  have hl := rowLow_iff b (fun i j => P i j + V i j) i
  have hh := rowHigh_iff b (fun i j => P i j + V i j) i
  refine ⟨fun h1 => ?_, fun h1 h2 => ?_, fun h1 => ?_⟩
  · funext j
    simp only [bhRandom]
    rw [if_pos (hl.2 h1)]
  · funext j
    simp only [bhRandom]
    rw [if_neg (fun h => by obtain ⟨k, hk⟩ := hl.1 h; exact absurd hk (not_lt.2 (h1 k))),
      if_pos (hh.2 h2)]
  · funext j
    simp only [bhRandom]
    rw [if_neg (fun h => by obtain ⟨k, hk⟩ := hl.1 h; exact absurd hk (not_lt.2 (h1 k).1)),
      if_neg (fun h => by obtain ⟨k, hk⟩ := hh.1 h; exact absurd hk (not_lt.2 (h1 k).2))]

/-- A run with bounds `[-1, 1/50]²` and a given strategy. -/
def Ex.bouncing (st : String) : Config 2 2 ℚ :=
  { Ex.gcfg 2 2 with
    bounds := some (fun _ => -1, fun _ => 1 / 50)
    center := fun _ => 1 / 2
    bhStrategy := st }

/-- Non-vacuity: the initial positions are inside, and with each of these strategies some recorded
position plus velocity is not. -/
example : (["reflective", "shrink", "intermediate", "nearest", "periodic",
      "random"].all fun st =>
    match construct (Ex.bouncing st) (Ex.init 2 2) (Ex.init 2 2) with
    | .ok s =>
      decide (∀ i j, -1 ≤ s.swarm.position i j ∧ s.swarm.position i j ≤ 1 / 50) &&
      match optimize (Ex.bouncing st) (Ex.sphere 2 2) 5 none (fun _ => Ex.draw 2 2) s with
      | (s', .ok _) => (List.range 4).any fun t =>
          match s'.posHistory[t]?, s'.velocityHistory[t + 1]? with
          | some P, some V => decide (1 / 50 < P 1 0 + V 1 0)
          | _, _ => false
      | _ => false
    | .error _ => false) = true := by
  decide +kernel

end PySwarms

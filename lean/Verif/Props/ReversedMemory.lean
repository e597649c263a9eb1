import Verif.Props.ReversedBounds

/-!
# C108: bounds in the wrong order and the strategy `intermediate`
-/

set_option linter.unusedSectionVars false

namespace PySwarms

variable {n d : Nat} {K : Type} [Field K] [LinearOrder K] [IsStrictOrderedRing K] [Transc K]
  [FloorRing K]

/-- Successive evaluations of a call are related by what the boundary handler does, if it remembers the
position it returns. -/
theorem chain_evals {cfg : Config n d K} {b : Bounds d K} (hk : cfg.kind ≠ .binary)
    (hcb : cfg.bounds = some b) (ev : Nat → Mat n d K → Except Err (Costs n K)) (iters : Nat)
    (nproc : Option Nat) (env : Nat → Draw n d K) (R : Mat n d K → Mat n d K → Prop)
    (hR : ∀ t p mem' x y, bhCall cfg.bhStrategy (some p) b (env t).bh x = (mem', .ok y) →
      R p y ∧ mem' = some y)
    (Q : Mat n d K → Prop) (hQ : ∀ p y, Q p → R p y → Q y) (s : Opt n d K) :
    (∃ new, (optimize cfg ev iters nproc env s).1.evals = s.evals ++ new ∧
      (∀ e ∈ new.head?, e.1 = s.swarm.position) ∧
      new.IsChain fun e e' => R e.1 e'.1) ∧
    (Q s.swarm.position → Q (optimize cfg ev iters nproc env s).1.swarm.position) := by
  have hpos : ∀ (t : Nat) m (sw : Swarm n d K), callPosition cfg (env t) m sw =
      bhCall cfg.bhStrategy m b (env t).bh (fun i j => sw.position i j + sw.velocity i j) := by
    intro t m sw
    unfold callPosition computePosition
    rw [hcb]
    cases hkk : cfg.kind <;> first | rfl | exact absurd hkk hk
  have key : ∀ m t q (z : Opt n d K), z.bhMem = some z.swarm.position → (∃ new,
      (loop cfg ev env iters m t q z).1.evals = z.evals ++ new ∧
        (∀ e ∈ new.head?, e.1 = z.swarm.position) ∧ new.IsChain fun e e' => R e.1 e'.1) ∧
      (Q z.swarm.position → Q (loop cfg ev env iters m t q z).1.swarm.position) := by
    intro m
    induction m with
    | zero => exact fun t q z _ => ⟨⟨[], by simp [loop], by simp, .nil⟩, id⟩
    | succ m ih =>
      intro t q z hz
      have hc := iterate_cases cfg (ev t) (env t) iters t q z
      rw [loop]
      generalize iterate cfg (ev t) (env t) iters t q z = it at hc ⊢
      obtain ⟨z', out⟩ := it
      dsimp only at hc
      have one : ∀ c : Costs n K, ∃ new, z.evals ++ [(z.swarm.position, c)] = z.evals ++ new ∧
          (∀ e ∈ new.head?, e.1 = z.swarm.position) ∧ new.IsChain fun e e' => R e.1 e'.1 := fun c =>
        ⟨[(z.swarm.position, c)], rfl, by simp, .singleton _⟩
      cases hc with
      | evalError e h => exact ⟨⟨[], by simp, by simp, .nil⟩, id⟩
      | gbestError c tp e h hg => exact ⟨one c, id⟩
      | stop c tp g h hg hi hq => exact ⟨one c, id⟩
      | moveError c tp g _ e h hg hns hm =>
        have hf := (moveSwarm_frame cfg (env t) iters t (recordBest tp g (recordEval c z)))
        rw [hm] at hf
        have hmc := moveSwarm_cases cfg (env t) iters t (recordBest tp g (recordEval c z))
        rw [hm] at hmc
        dsimp only at hmc
        have hp : z'.swarm.position = z.swarm.position := by
          cases hmc <;> rfl
        refine ⟨?_, fun hq => ?_⟩
        · show ∃ new, z'.evals = _ ∧ _
          rw [show z'.evals = z.evals ++ [(z.swarm.position, c)] from
            hf.2.2.2.2.2.2.2.2.2.2.2.1]
          exact one c
        · show Q z'.swarm.position
          rw [hp]; exact hq
      | moved c tp g _ h hg hns hm =>
        have hf := (moveSwarm_frame cfg (env t) iters t (recordBest tp g (recordEval c z)))
        rw [hm] at hf
        have hev : z'.evals = z.evals ++ [(z.swarm.position, c)] := hf.2.2.2.2.2.2.2.2.2.2.2.1
        have hmc := moveSwarm_cases cfg (env t) iters t (recordBest tp g (recordEval c z))
        rw [hm] at hmc
        dsimp only at hmc
        have hpz : R z.swarm.position z'.swarm.position ∧ z'.bhMem = some z'.swarm.position := by
          cases hmc with
          | ok o vm v bm p ho hv hp =>
            rw [hpos] at hp
            have hz' : (recordBest tp g (recordEval c z)).bhMem = some z.swarm.position := hz
            rw [hz'] at hp
            exact hR t _ _ _ _ hp
        obtain ⟨⟨new', h1, h2, h3⟩, h4⟩ := ih (t + 1) (dequeAppend cfg.window q
          (ftolDelta cfg.ftol (recordBest tp g (recordEval c z)).swarm.bestCostVal
            z.swarm.bestCostVal)) z' hpz.2
        refine ⟨⟨(z.swarm.position, c) :: new', ?_, by simp, ?_⟩, fun hq => h4 (hQ _ _ hq hpz.1)⟩
        · show (loop cfg ev env iters m (t + 1) _ z').1.evals = _
          rw [h1, hev, List.append_assoc]; rfl
        · cases new' with
          | nil => exact .singleton _
          | cons e new' =>
            refine .cons_cons ?_ h3
            rw [h2 e (by simp)]
            exact hpz.1
  obtain ⟨⟨new, h1, h2, h3⟩, h4⟩ := key iters 0 [] (startState cfg nproc s) (by
    unfold startState prepare
    cases hkk : cfg.kind <;> first | rfl | exact absurd hkk hk)
  have hc := optimize_cases cfg ev iters nproc env s
  generalize (optimize cfg ev iters nproc env s).1 = s' at hc ⊢
  generalize (optimize cfg ev iters nproc env s).2 = o at hc
  cases hc with
  | badPool h => exact ⟨⟨[], by simp, by simp, .nil⟩, id⟩
  | loopError s1 e hp h => rw [h] at h1 h4; exact ⟨⟨new, h1, h2, h3⟩, h4⟩
  | finishError s1 e hp h hf => rw [h] at h1 h4; exact ⟨⟨new, h1, h2, h3⟩, h4⟩
  | done r hp s1 h hf => rw [h] at h1 h4; exact ⟨⟨new, h1, h2, h3⟩, h4⟩

theorem intermediate_halves {b : Bounds d K} {j : Fin d} (hj : b.2 j < b.1 j) {p : Mat n d K}
    {mem' : Option (Mat n d K)} {x y : Mat n d K} {r : BHDraw d K}
    (h : bhCall "intermediate" (some p) b r x = (mem', .ok y)) :
    (∀ i, y i j = (p i j + b.1 j) / 2 ∨ y i j = (p i j + b.2 j) / 2) ∧ mem' = some y := by
  rw [bhCall, if_neg (by decide), if_neg (by decide), if_neg (by decide), if_neg (by decide),
    if_pos rfl] at h
  cases h
  refine ⟨fun i => ?_, rfl⟩
  dsimp only
  by_cases h1 : isHigh b x i j
  · rw [if_pos h1]; right; ring
  · rw [if_neg h1, if_pos]
    · left; ring
    · unfold isHigh at h1
      unfold isLow
      rcases lt_or_ge_ends (x := x i j) hj with h | h
      · simpa using h
      · exact absurd (by simpa using h) h1

/-- **C108** (`intermediate`).  From one evaluation of a call to the next, this parameter of every
particle moves halfway to one of its two bounds: its velocity has no other influence than to choose the
bound. -/
theorem C108_intermediate (cfg : Config n d K) (b : Bounds d K) (hk : cfg.kind ≠ .binary)
    (hcb : cfg.bounds = some b) (hst : cfg.bhStrategy = "intermediate") (j : Fin d)
    (hj : b.2 j < b.1 j) (ev : Nat → Mat n d K → Except Err (Costs n K)) (iters : Nat)
    (nproc : Option Nat) (env : Nat → Draw n d K) (s : Opt n d K) :
    ∃ new, (optimize cfg ev iters nproc env s).1.evals = s.evals ++ new ∧
      (∀ e ∈ new.head?, e.1 = s.swarm.position) ∧
      ∀ t (h : t + 1 < new.length) i, new[t + 1].1 i j = (new[t].1 i j + b.1 j) / 2 ∨
        new[t + 1].1 i j = (new[t].1 i j + b.2 j) / 2 := by
  obtain ⟨new, h1, h2, h3⟩ := (chain_evals hk hcb ev iters nproc env
    (fun p y => ∀ i, y i j = (p i j + b.1 j) / 2 ∨ y i j = (p i j + b.2 j) / 2)
    (fun t p mem' x y h => by rw [hst] at h; exact intermediate_halves hj h) (fun _ => True)
    (fun _ _ _ _ => trivial) s).1
  exact ⟨new, h1, h2, fun t h i => List.isChain_iff_getElem.1 h3 t h i⟩

/-- **C108** (`intermediate`).  It keeps this parameter between its two
bounds: if it is there at the beginning, it is there in every evaluation of the call and at its end. -/
theorem C108_intermediate_between (cfg : Config n d K) (b : Bounds d K) (hk : cfg.kind ≠ .binary)
    (hcb : cfg.bounds = some b) (hst : cfg.bhStrategy = "intermediate") (j : Fin d)
    (hj : b.2 j < b.1 j) (ev : Nat → Mat n d K → Except Err (Costs n K)) (iters : Nat)
    (nproc : Option Nat) (env : Nat → Draw n d K) (s : Opt n d K)
    (hs : ∀ i, b.2 j ≤ s.swarm.position i j ∧ s.swarm.position i j ≤ b.1 j) :
    (∃ new, (optimize cfg ev iters nproc env s).1.evals = s.evals ++ new ∧
      ∀ e ∈ new, ∀ i, b.2 j ≤ e.1 i j ∧ e.1 i j ≤ b.1 j) ∧
    ∀ i, b.2 j ≤ (optimize cfg ev iters nproc env s).1.swarm.position i j ∧
      (optimize cfg ev iters nproc env s).1.swarm.position i j ≤ b.1 j := by
  have hstep : ∀ p y : Mat n d K, (∀ i, b.2 j ≤ p i j ∧ p i j ≤ b.1 j) →
      (∀ i, y i j = (p i j + b.1 j) / 2 ∨ y i j = (p i j + b.2 j) / 2) →
      ∀ i, b.2 j ≤ y i j ∧ y i j ≤ b.1 j := by
    intro p y hp hy i
    obtain ⟨h1, h2⟩ := hp i
    rcases hy i with h | h <;> rw [h] <;> constructor <;> linarith
  obtain ⟨new, h1, h2, h3⟩ := C108_intermediate cfg b hk hcb hst j hj ev iters nproc env s
  refine ⟨⟨new, h1, fun e he => ?_⟩, (chain_evals hk hcb ev iters nproc env
    (fun p y => ∀ i, y i j = (p i j + b.1 j) / 2 ∨ y i j = (p i j + b.2 j) / 2)
    (fun t p mem' x y h => by rw [hst] at h; exact intermediate_halves hj h)
    (fun p => ∀ i, b.2 j ≤ p i j ∧ p i j ≤ b.1 j) hstep s).2 hs⟩
  obtain ⟨t, ht, rfl⟩ := List.getElem_of_mem he
  clear he
  induction t with
  | zero =>
    rw [h2 new[0] (by rw [List.head?_eq_getElem?, List.getElem?_eq_getElem ht]; rfl)]
    exact hs
  | succ t ih => exact hstep _ _ (ih (by omega)) (h3 t ht)

/-- Two particles starting at `10` and `15/2` with the bounds `10` and `0`: the next evaluation halves
their distance to `0`. -/
example : Ex.swappedAfter "intermediate" = some [(10, 15 / 2), (5, 15 / 4)] := by decide +kernel

/-- **C108** (`shrink`, one parameter).  Every evaluation of a call but the first one has the parameter of
every particle on one of the two bounds. -/
theorem C108_shrink (cfg : Config n 1 K) (b : Bounds 1 K) (hk : cfg.kind ≠ .binary)
    (hcb : cfg.bounds = some b) (hst : cfg.bhStrategy = "shrink") (hj : b.2 0 < b.1 0)
    (ev : Nat → Mat n 1 K → Except Err (Costs n K)) (iters : Nat)
    (nproc : Option Nat) (env : Nat → Draw n 1 K) (s : Opt n 1 K) :
    ∃ new, (optimize cfg ev iters nproc env s).1.evals = s.evals ++ new ∧
      ∀ t (_ : t + 1 < new.length) i, new[t + 1].1 i 0 = b.1 0 ∨ new[t + 1].1 i 0 = b.2 0 := by
  obtain ⟨new, h1, -, h3⟩ := (chain_evals hk hcb ev iters nproc env
    (fun _ y => ∀ i, y i 0 = b.1 0 ∨ y i 0 = b.2 0)
    (fun t p mem' x y h => by
      rw [hst, bhCall, if_neg (by decide), if_neg (by decide), if_pos rfl] at h
      unfold bhShrink at h
      dsimp only at h
      split_ifs at h with hz hd
      · cases (Prod.mk.inj h).2
      · exact hd.elim
      · cases h
        refine ⟨fun i => ?_, rfl⟩
        have hz' : (isLow b x i 0 || isHigh b x i 0) = true → x i 0 - p i 0 ≠ 0 := by
          intro ho h0
          apply hz
          rw [List.any_eq_true]
          refine ⟨i, List.mem_finRange i, ?_⟩
          rw [List.any_eq_true]
          exact ⟨0, List.mem_finRange 0, by rw [ho, decide_eq_true h0]; rfl⟩
        have hout : (isLow b x i 0 || isHigh b x i 0) = true := by
          unfold isLow isHigh
          rcases lt_or_ge_ends (x := x i 0) hj with h | h <;> simp [h]
        have hv := hz' hout
        have hrow : (rowLow b x i || rowHigh b x i) = true := by
          unfold rowLow rowHigh
          rw [Bool.or_eq_true] at hout ⊢
          rcases hout with h | h
          · exact .inl (List.any_eq_true.2 ⟨0, List.mem_finRange 0, h⟩)
          · exact .inr (List.any_eq_true.2 ⟨0, List.mem_finRange 0, h⟩)
        have hmin : rowMin (shrinkSigma b p x i) = some (shrinkSigma b p x i 0) := rfl
        dsimp only
        rw [if_pos hrow, hmin]
        dsimp only
        unfold shrinkSigma
        dsimp only
        by_cases hh : isHigh b x i 0
        · rw [if_pos hh, div_mul_cancel₀ _ hv]; right; ring
        · rw [if_neg hh, if_pos (by simpa [hh] using hout), div_mul_cancel₀ _ hv]; left; ring)
    (fun _ => True) (fun _ _ _ _ => trivial) s).1
  exact ⟨new, h1, fun t h i => List.isChain_iff_getElem.1 h3 t h i⟩

/-- The bounds of the first of two parameters are swapped, those of the second are `0` and `1`. -/
def Ex.halfSwapped : Config 1 2 ℚ where
  kind := .globalBest
  options := Ex.opts
  bounds := some (fun j => if j = 0 then 10 else 0, fun j => if j = 0 then 0 else 1)
  clamp := some (fun _ => 0, fun _ => 1 / 5)
  center := fun _ => 1
  bhStrategy := "shrink"

/-- **C108** (`shrink`, several parameters).  Swapped bounds of one parameter throw the others out of
their own bounds: here the second one, whose bounds `0` and `1` are in order and whose velocity is `1/20`,
is evaluated at `-10`. -/
theorem C108_shrink_others : ∃ s, construct Ex.halfSwapped (Ex.init 1 2) (Ex.init 1 2) = .ok s ∧
    (optimize Ex.halfSwapped (Ex.sphere 1 2) 2 none (fun _ => Ex.draw 1 2) s).1.evals.map
      (fun e => (e.1 0 0, e.1 0 1)) = [(10, 0), (0, -10)] := by
  have h : (match construct Ex.halfSwapped (Ex.init 1 2) (Ex.init 1 2) with
    | .error _ => false
    | .ok s => decide ((optimize Ex.halfSwapped (Ex.sphere 1 2) 2 none (fun _ => Ex.draw 1 2)
        s).1.evals.map (fun e => (e.1 0 0, e.1 0 1)) = [(10, 0), (0, -10)])) = true := by
    decide +kernel
  cases hc : construct Ex.halfSwapped (Ex.init 1 2) (Ex.init 1 2) with
  | error e => rw [hc] at h; cases h
  | ok s => rw [hc] at h; exact ⟨s, rfl, of_decide_eq_true h⟩

/-- `shrink` with the same two particles: both are put on `0`. -/
example : Ex.swappedAfter "shrink" = some [(10, 15 / 2), (0, 0)] := by decide +kernel

end PySwarms

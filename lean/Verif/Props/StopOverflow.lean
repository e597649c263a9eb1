import Verif.Props.FloatStop
import Verif.Props.NanInit

/-!
# Early stopping when the stop test may overflow (C109)

`Props/FloatStop` treats a machine whose numbers are rounded but unlimited.  Here the arithmetic is the
one of `Model/Ieee`, in which a result can be an infinity.
-/

set_option linter.unusedSectionVars false

namespace PySwarms

variable {n d : Nat} {K : Type} [Field K] [LinearOrder K] [IsStrictOrderedRing K] [FloorRing K]

/-! ## Specification -/

/-- The change from `prev` to `now` is small as the machine sees it:
`|now - prev| < ftol * (1 + |prev|)`, every operation rounding and possibly overflowing. -/
def SmallMachine (A : Fpu K) (ftol prev now : XR K) : Prop :=
  XR.lt (XR.abs (A.sub now prev)) (A.mul ftol (A.add (XR.fin 1) (XR.abs prev))) = true

/-! ## The loop -/

/-- The stop test values along a list of best costs, the best before being `b`. -/
def deltasX (A : Fpu K) (ftol : XR K) : XR K → List (XR K) → List Bool
  | _, [] => []
  | b, x :: H => ftolDeltaX A ftol x b :: deltasX A ftol x H

theorem deltasX_length (A : Fpu K) (ftol b : XR K) (H : List (XR K)) :
    (deltasX A ftol b H).length = H.length := by
  induction H generalizing b with
  | nil => rfl
  | cons x H ih => simp [deltasX, ih]

theorem deltasX_append (A : Fpu K) (ftol b x : XR K) (H : List (XR K)) :
    deltasX A ftol b (H ++ [x]) = deltasX A ftol b H ++ [ftolDeltaX A ftol x (H.getLastD b)] := by
  induction H generalizing b with
  | nil => rfl
  | cons y H ih =>
    simp only [List.cons_append, deltasX, ih]
    congr 4
    cases H <;> rfl

theorem deltasX_getElem (A : Fpu K) (ftol b : XR K) (H : List (XR K)) (t : Nat)
    (h : t + 1 < H.length) :
    (deltasX A ftol b H)[t + 1]'(by rw [deltasX_length]; exact h) =
      ftolDeltaX A ftol H[t + 1] H[t] := by
  induction H generalizing b t with
  | nil => simp at h
  | cons x H ih =>
    cases H with
    | nil => simp at h
    | cons y H =>
      cases t with
      | zero => rfl
      | succ t =>
        have := ih x t (by simpa using h)
        simpa [deltasX] using this

theorem stopsX_iff (A : Fpu K) (w : Nat) (ftol b : XR K) (H : List (XR K)) (i : Nat)
    (hi : i + 1 = H.length) :
    StopsWhen (SmallMachine A ftol) w H i ↔
      (w ≤ i ∧
        ((deltasX A ftol b H).drop ((deltasX A ftol b H).length - w)).all id = true) := by
  unfold StopsWhen
  apply and_congr_right
  intro hwi
  rw [List.all_eq_true]
  constructor
  · intro h x hx
    obtain ⟨k, hk, rfl⟩ := List.getElem_of_mem hx
    rw [List.length_drop] at hk
    rw [deltasX_length] at hk
    rw [List.getElem_drop]
    have key : ∀ a, (ha : a = H.length - w + k) → (hl : a < (deltasX A ftol b H).length) →
        (deltasX A ftol b H)[a] = true := by
      intro a ha hl
      obtain ⟨t, rfl⟩ : ∃ t, a = t + 1 := ⟨a - 1, by omega⟩
      rw [deltasX_length] at hl
      rw [deltasX_getElem A ftol b H t hl]
      exact h t hl (by omega) (by omega)
    simp only [id_eq]
    apply key
    rw [deltasX_length]
  · intro h t ht h1 h2
    have hm : (deltasX A ftol b H)[t + 1]'(by rw [deltasX_length]; exact ht) ∈
        (deltasX A ftol b H).drop ((deltasX A ftol b H).length - w) := by
      rw [List.mem_iff_getElem]
      refine ⟨t + 1 - (H.length - w), ?_, ?_⟩
      · rw [List.length_drop, deltasX_length]; omega
      · rw [List.getElem_drop]
        congr 1
        rw [deltasX_length]
        omega
    have := h _ hm
    rw [deltasX_getElem A ftol b H t ht] at this
    exact this

theorem moveSwarmX_bests (A : Fpu K) (cfg : Config n d K) (r : Draw n d K)
    (o : Except Err (Opts K)) (s : OptX n d K) :
    (moveSwarmX A cfg r o s).1.costHistory = s.costHistory ∧
      (moveSwarmX A cfg r o s).1.swarm.bestCost = s.swarm.bestCost := by
  rcases moveSwarmX_cases A cfg r o s with ⟨e, h⟩ | ⟨o', -, h⟩
  · rw [h]; exact ⟨rfl, rfl⟩
  · rcases h with ⟨vm, e, -, h⟩ | ⟨vm, v, -, h⟩
    · rw [h]; exact ⟨rfl, rfl⟩
    · rcases h with ⟨bm, e, -, h⟩ | ⟨bm, p, -, h⟩ <;> rw [h] <;> exact ⟨rfl, rfl⟩

/-- What one iteration that does not raise has done. -/
theorem iterateX_ok (A : Fpu K) (cfg : Config n d K)
    (ev : Mat n d (XR K) → Except Err (Costs n K)) (r : Draw n d K) (o : Except Err (Opts K))
    (i : Nat) (q : List Bool)
    (s s' : OptX n d K) (f : Flow) (h : iterateX A cfg ev r o i q s = (s', .ok f)) :
    ∃ x, s'.costHistory = s.costHistory ++ [x] ∧ s'.swarm.bestCostVal = x ∧
      (let q' := dequeAppend cfg.window q (ftolDeltaX A cfg.ftol x s.swarm.bestCostVal)
       (f = .stop ∧ cfg.window ≤ i ∧ q'.all id = true) ∨
       (f = .continue q' ∧ ¬ (cfg.window ≤ i ∧ q'.all id = true))) := by
  unfold iterateX at h
  split at h
  · cases (Prod.mk.inj h).2
  · next c hc =>
    simp only [] at h
    split at h
    · cases (Prod.mk.inj h).2
    · next g hg =>
      have hm := moveSwarmX_bests A cfg r o (recordBestX g (recordEvalX c s))
      refine ⟨g.2.getD XR.pinf, ?_⟩
      split at h
      · next hif =>
        have h1 := (Prod.mk.inj h).1
        have h2 := (Prod.mk.inj h).2
        subst h1
        cases h2
        rw [Bool.and_eq_true, decide_eq_true_eq, not_lt] at hif
        exact ⟨rfl, rfl, .inl ⟨rfl, hif.1, hif.2⟩⟩
      · next hif =>
        split at h
        · cases (Prod.mk.inj h).2
        · next s3 h3 =>
          have h1 := (Prod.mk.inj h).1
          have h2 := (Prod.mk.inj h).2
          subst h1
          cases h2
          rw [h3] at hm
          refine ⟨hm.1, ?_, .inr ⟨rfl, ?_⟩⟩
          · unfold SwarmX.bestCostVal; rw [hm.2]; rfl
          · rw [Bool.and_eq_true, decide_eq_true_eq, not_lt] at hif
            exact hif

theorem loopX_stopping (A : Fpu K) (cfg : Config n d K) (c : CallX n d K) (base : List (XR K))
    (b : XR K) (m : Nat) :
    ∀ (i : Nat) (q : List Bool) (s s' : OptX n d K) (H0 : List (XR K)),
      s.costHistory = base ++ H0 → H0.length = i → s.swarm.bestCostVal = H0.getLastD b →
      q = (deltasX A cfg.ftol b H0).drop ((deltasX A cfg.ftol b H0).length - cfg.window) →
      loopX A cfg c m i q s = (s', .ok ()) →
      ∃ H1, s'.costHistory = base ++ (H0 ++ H1) ∧ H1.length ≤ m ∧
        (∀ j, i ≤ j → j + 1 < (H0 ++ H1).length →
          ¬ StopsWhen (SmallMachine A cfg.ftol) cfg.window ((H0 ++ H1).take (j + 1)) j) ∧
        (H1.length < m → H1 ≠ [] ∧
          StopsWhen (SmallMachine A cfg.ftol) cfg.window (H0 ++ H1)
            ((H0 ++ H1).length - 1)) := by
  induction m with
  | zero =>
    intro i q s s' H0 h1 h2 h3 h4 h
    rw [loopX] at h
    cases h
    exact ⟨[], by simpa using h1, by simp, fun j hj hl => by simp at hl; omega, by simp⟩
  | succ m ih =>
    intro i q s s' H0 h1 h2 h3 h4 h
    have hok := iterateX_ok A cfg (c.ev i) (c.env i) (c.oh i) i q s
    rw [loopX] at h
    generalize iterateX A cfg (c.ev i) (c.env i) (c.oh i) i q s = o at h hok
    have hq : ∀ x, dequeAppend cfg.window q (ftolDeltaX A cfg.ftol x s.swarm.bestCostVal) =
        (deltasX A cfg.ftol b (H0 ++ [x])).drop
          ((deltasX A cfg.ftol b (H0 ++ [x])).length - cfg.window) := by
      intro x
      rw [h4, dequeAppend_drop, deltasX_append, h3]
    obtain ⟨s1, e | f⟩ := o
    · cases h
    · obtain ⟨x, hx1, hx2, hx3⟩ := hok s1 f rfl
      rcases hx3 with ⟨rfl, hi, hall⟩ | ⟨rfl, hns⟩
      · cases h
        refine ⟨[x], ?_, by simp, ?_, fun _ => ⟨by simp, ?_⟩⟩
        · rw [hx1, h1, List.append_assoc]
        · intro j hj hl
          simp at hl
          omega
        · have hl : (H0 ++ [x]).length - 1 = i := by simp [h2]
          rw [hl, stopsX_iff _ _ _ b _ _ (by simp [h2])]
          refine ⟨hi, ?_⟩
          rw [hq] at hall
          exact hall
      · obtain ⟨H1, e1, e2, e3, e4⟩ := ih (i + 1) _ s1 s' (H0 ++ [x])
          (by rw [hx1, h1, List.append_assoc])
          (by simp [h2]) (by rw [hx2]; simp) (hq _) h
        refine ⟨x :: H1, ?_, by simp; omega, ?_, ?_⟩
        · rw [e1, List.append_assoc]; rfl
        · intro j hj hl
          rcases Nat.eq_or_lt_of_le hj with rfl | hlt
          · have htk : (H0 ++ x :: H1).take (i + 1) = H0 ++ [x] := by
              rw [← h2, List.take_append]
              simp
            rw [htk, stopsX_iff _ _ _ b _ _ (by simp [h2]), ← hq]
            exact hns
          · have := e3 j hlt (by simpa using hl)
            rwa [List.append_assoc] at this
        · intro hlt
          have := (e4 (by simpa using hlt)).2
          rw [List.append_assoc] at this
          exact ⟨by simp, this⟩

/-! ## C109 -/

/-- **C109** (overflow).  On a machine whose results may be infinities, for positions, velocities and
costs that may be infinities or nan: a call of `GlobalBestPSO.optimize` that returns has appended a list
`H` of at most `iters` best costs; it did not stop before the machine's criterion was met and, if it
performed fewer than `iters` iterations, the criterion was met after its last entry. -/
theorem C109_overflow (A : Fpu K) (cfg : Config n d K) (c : CallX n d K) (iters : Nat)
    (s s' : OptX n d K) (v : XR K × Vec d (XR K)) (h : optimizeX A cfg c iters s = (s', .ok v)) :
    ∃ H, s'.costHistory = s.costHistory ++ H ∧ min iters (cfg.window + 1) ≤ H.length ∧
      H.length ≤ iters ∧
      (∀ i, i + 1 < H.length →
        ¬ StopsWhen (SmallMachine A cfg.ftol) cfg.window (H.take (i + 1)) i) ∧
      (H.length < iters → H ≠ [] ∧
        StopsWhen (SmallMachine A cfg.ftol) cfg.window H (H.length - 1)) := by
  unfold optimizeX at h
  simp only at h
  split at h
  · cases (Prod.mk.inj h).2
  · next s1 hl =>
    have hs : s' = s1 := by
      split at h
      · cases (Prod.mk.inj h).2
      · cases (Prod.mk.inj h).2
      · exact ((Prod.mk.inj h).1).symm
    subst hs
    obtain ⟨H, h1, h2, h3, h4⟩ := loopX_stopping A cfg c s.costHistory
      s.swarm.bestCostVal iters 0 [] { s with
        bhMem := some s.swarm.position
        vhMem := some s.swarm.position
        swarm := { s.swarm with pbestCost := fun _ => XR.pinf } } s' [] (by simp) rfl rfl
      (by simp [deltasX]) hl
    refine ⟨H, by simpa using h1, ?_, h2,
      fun i hi => by simpa using h3 i (by omega) (by simpa using hi), by simpa using h4⟩
    by_cases hlt : H.length < iters
    · obtain ⟨hne, hs, -⟩ := h4 hlt
      have : 0 < H.length := List.length_pos_iff.2 hne
      simp at hs
      omega
    · omega

/-- For a double `x`, `1 + |x|` does not overflow. -/
theorem one_add_fits {x : ℚ} (hx : IsDouble x) (hb : |x| < 2 ^ 1024) :
    f64 (1 + |x|) < 2 ^ 1024 := by
  by_cases hl : 2 ^ 55 ≤ |x|
  · have hax : IsDouble |x| := by
      rcases abs_choice x with h | h <;> rw [h]
      · exact hx
      · obtain ⟨m, e, hm, he, rfl⟩ := hx
        exact ⟨-m, e, by rwa [abs_neg], he, by push_cast; ring⟩
    have hpos : (0 : ℚ) < |x| := lt_of_lt_of_le (by norm_num) hl
    have := f64_absorb_pos hpos hax (e := 1) (by
      rw [abs_one, le_div_iff₀ (by norm_num)]; linarith)
    rw [add_comm, this]
    exact hb
  · have h1 : f64 (1 + |x|) ≤ f64 ((2 ^ 56 : ℤ) : ℚ) := f64_mono (by push_cast; linarith)
    have h2 : f64 ((2 ^ 56 : ℤ) : ℚ) = 2 ^ 56 := by decide +kernel
    rw [h2] at h1
    exact lt_of_le_of_lt h1 (pow_lt_pow_right₀ (by norm_num) (by norm_num))

theorem fpu64_fits {y : ℚ} (h : |f64 y| < 2 ^ 1024) : fpu64.rnd y = .fin (f64 y) := by
  obtain ⟨h1, h2⟩ := abs_lt.1 h
  simp only [fpu64]
  rw [if_neg (not_le.2 h2), if_neg (not_le.2 (by linarith))]

/-- **C109** (overflow).  For doubles, overflow only ever prevents stopping: the change from `x` to `y`
counts as small exactly if the difference does not overflow and the change is small in rounded arithmetic
without limits (`C109_close` compares that with the exact condition).  The bound `ftol * (1 + |x|)` may
overflow; then every change whose difference does not is small. -/
theorem C109_overflow_small {a x y : ℚ} (ha : 0 < a) (hx : IsDouble x) (hb : |x| < 2 ^ 1024) :
    SmallMachine fpu64 (.fin a) (.fin x) (.fin y) ↔
      |f64 (y - x)| < 2 ^ 1024 ∧ SmallRounded f64 (.fin a) (.fin x) (.fin y) := by
  rw [small64_iff]
  unfold SmallMachine
  have h1 : XR.sub (XR.fin y) (XR.fin x) = XR.fin (y - x) := by
    simp [XR.sub, XR.neg, XR.add, sub_eq_add_neg]
  have hP0 : 1 ≤ f64 (1 + |x|) := by
    calc (1 : ℚ) = f64 1 := f64_one.symm
      _ ≤ _ := f64_mono (by linarith [abs_nonneg x])
  have h2 : fpu64.add (XR.fin 1) (XR.abs (XR.fin x)) = .fin (f64 (1 + |x|)) := by
    rw [xabs_fin]
    show fpu64.rnd (1 + |x|) = _
    exact fpu64_fits (by rw [abs_of_nonneg (by linarith)]; exact one_add_fits hx hb)
  have h3 : fpu64.mul (.fin a) (.fin (f64 (1 + |x|))) = fpu64.rnd (a * f64 (1 + |x|)) := rfl
  have h4 : fpu64.sub (.fin y) (.fin x) = fpu64.rnd (y - x) := by
    unfold Fpu.sub; rw [h1]; rfl
  rw [h2, h3, h4]
  have hT : 0 ≤ f64 (a * f64 (1 + |x|)) := f64_nonneg (by positivity)
  by_cases hd : |f64 (y - x)| < 2 ^ 1024
  · rw [fpu64_fits hd, xabs_fin]
    by_cases ht : f64 (a * f64 (1 + |x|)) < 2 ^ 1024
    · rw [fpu64_fits (by rwa [abs_of_nonneg hT])]
      simp [XR.lt, hd]
    · have : fpu64.rnd (a * f64 (1 + |x|)) = .pinf := by
        simp only [fpu64]; rw [if_pos (not_lt.1 ht)]
      rw [this]
      simp only [XR.lt, true_iff]
      exact ⟨hd, lt_of_lt_of_le hd (not_lt.1 ht)⟩
  · have hinf : XR.abs (fpu64.rnd (y - x)) = .pinf := by
      simp only [fpu64]
      by_cases hp : 2 ^ 1024 ≤ f64 (y - x)
      · rw [if_pos hp]; rfl
      · rw [if_neg hp, if_pos]
        · rfl
        · rcases abs_cases (f64 (y - x)) with ⟨he, -⟩ | ⟨he, -⟩ <;> rw [he] at hd <;> linarith [not_lt.1 hd]
    rw [hinf]
    constructor
    · intro h
      generalize fpu64.rnd (a * f64 (1 + |x|)) = r at h
      cases r <;> simp [XR.lt] at h
    · exact fun h => absurd h.1 hd

/-- A fall from `2^1023` to `-2^1023` overflows and is not small, although with `ftol = 4` the exact
change is below `ftol * (1 + 2^1023)`. -/
example : (|(-2 ^ 1023 : ℚ) - 2 ^ 1023| < 4 * (1 + |(2 ^ 1023 : ℚ)|)) ∧
    ¬ SmallMachine fpu64 (.fin 4) (.fin (2 ^ 1023)) (.fin (-2 ^ 1023)) := by
  have h0 : (0 : ℚ) < 2 ^ 1023 := by positivity
  have h2 : (2 ^ 1024 : ℚ) = 2 * 2 ^ 1023 := by rw [← pow_succ']
  generalize hM : (2 ^ 1023 : ℚ) = M at *
  have hx : IsDouble M := ⟨1, 1023, by norm_num, by norm_num, by rw [← hM]; simp⟩
  refine ⟨by rw [abs_of_pos h0, abs_of_neg (by linarith only [h0])]; linarith only [h0], ?_⟩
  rw [C109_overflow_small (by norm_num) hx (by rw [abs_of_pos h0, h2]; linarith only [h0])]
  rintro ⟨h, -⟩
  have hd : IsDouble (-M - M) :=
    ⟨-2, 1023, by norm_num, by norm_num, by
      have : (2 : ℚ) ^ (1023 : ℤ) = M := by rw [← hM]; rfl
      rw [this]; push_cast; ring⟩
  rw [f64_of_isDouble hd, abs_of_neg (by linarith only [h0]), h2] at h
  linarith only [h]

/-- A run with the constant cost 5 stops after two of three iterations in the arithmetic of
doubles, and `C109_overflow` applies to it. -/
example : ∃ s' v H, optimizeX fpu64 { Ex.gcfg 2 2 with ftol := .fin 1, ftolIter := .int 1 }
      { Ex.sumCall with ev := fun _ _ => .ok fun _ => .fin 5 } 3 Ex.nanStart = (s', .ok v) ∧
    s'.costHistory = Ex.nanStart.costHistory ++ H ∧ H.length = 2 ∧
    StopsWhen (SmallMachine fpu64 (.fin 1)) 1 H 1 := by
  have h1 : (match (optimizeX fpu64 { Ex.gcfg 2 2 with ftol := .fin 1, ftolIter := .int 1 }
      { Ex.sumCall with ev := fun _ _ => .ok fun _ => .fin 5 } 3 Ex.nanStart).2 with
      | .ok _ => true | _ => false) = true := by decide +kernel
  have h2 : (optimizeX fpu64 { Ex.gcfg 2 2 with ftol := .fin 1, ftolIter := .int 1 }
      { Ex.sumCall with ev := fun _ _ => .ok fun _ => .fin 5 } 3
      Ex.nanStart).1.costHistory.length = 2 := by decide +kernel
  cases hit : optimizeX fpu64 { Ex.gcfg 2 2 with ftol := .fin 1, ftolIter := .int 1 }
      { Ex.sumCall with ev := fun _ _ => .ok fun _ => .fin 5 } 3 Ex.nanStart with
  | mk s' y =>
    rw [hit] at h1 h2
    match y, hit, h1 with
    | .ok v, hit, _ =>
      obtain ⟨H, e1, -, -, -, e5⟩ := C109_overflow _ _ _ _ _ _ _ hit
      have hl : H.length = 2 := by
        have h0 : Ex.nanStart.costHistory = [] := by decide +kernel
        rw [e1, h0] at h2
        simpa using h2
      have := (e5 (by omega)).2
      rw [hl] at this
      exact ⟨s', v, H, rfl, e1, hl, this⟩

end PySwarms

import Verif.Props.Replay
import Verif.Props.IeeeLink

/-!
# Black box, replay and recovery on a machine that rounds and overflows (C132, C134)
-/

set_option linter.unusedSectionVars false

namespace PySwarms

variable {n d : Nat} {K : Type} [Field K] [LinearOrder K] [IsStrictOrderedRing K] [FloorRing K]

theorem moveSwarmX_evals_same (A : Fpu K) (cfg : Config n d K) (r : Draw n d K)
    (o : Except Err (Opts K)) (s : OptX n d K) : (moveSwarmX A cfg r o s).1.evals = s.evals := by
  rcases moveSwarmX_cases A cfg r o s with ⟨e, h⟩ | ⟨o', -, ⟨vm, e, -, h⟩ | ⟨vm, v, -,
    ⟨bm, e, -, h⟩ | ⟨bm, p, -, h⟩⟩⟩ <;> rw [h]

theorem iterateX_evals_ok {A : Fpu K} {cfg : Config n d K}
    {ev : Mat n d (XR K) → Except Err (Costs n K)} {r : Draw n d K} {o : Except Err (Opts K)}
    {i : Nat} {q : List Bool} {s : OptX n d K} {c : Costs n K}
    (hev : ev s.swarm.position = .ok c) :
    (iterateX A cfg ev r o i q s).1.evals = s.evals ++ [(s.swarm.position, c)] := by
  rcases iterateX_cases A cfg ev r o i q s with ⟨e, h, -⟩ | ⟨c', h, ⟨-, h2⟩ | ⟨g, -, h2 |
    ⟨s3, e, hm, h2⟩ | ⟨s3, q', hm, h2⟩⟩⟩
  · rw [hev] at h; cases h
  · rw [hev] at h; cases h; rw [h2]; rfl
  · rw [hev] at h; cases h; rw [h2]; rfl
  · rw [hev] at h; cases h; rw [h2]
    have := moveSwarmX_evals_same A cfg r o (recordBestX g (recordEvalX c s))
    rw [hm] at this
    exact this
  · rw [hev] at h; cases h; rw [h2]
    have := moveSwarmX_evals_same A cfg r o (recordBestX g (recordEvalX c s))
    rw [hm] at this
    exact this

theorem iterateX_evals_prefix (A : Fpu K) (cfg : Config n d K)
    (ev : Mat n d (XR K) → Except Err (Costs n K)) (r : Draw n d K) (o : Except Err (Opts K))
    (i : Nat) (q : List Bool) (s : OptX n d K) :
    s.evals <+: (iterateX A cfg ev r o i q s).1.evals := by
  cases h : ev s.swarm.position with
  | error e =>
    unfold iterateX
    rw [h]
  | ok c =>
    rw [iterateX_evals_ok h]
    exact List.prefix_append _ _

theorem loopX_evals_prefix (A : Fpu K) (cfg : Config n d K) (c : CallX n d K) (m i : Nat)
    (q : List Bool) (s : OptX n d K) : s.evals <+: (loopX A cfg c m i q s).1.evals :=
  loopX_inv (P := fun t => s.evals <+: t.evals)
    (fun i q t ht => ht.trans (iterateX_evals_prefix A cfg (c.ev i) (c.env i) (c.oh i) i q t)) m i q s
    (List.prefix_refl _)

theorem iterateX_congr {A : Fpu K} {cfg : Config n d K}
    {ev ev' : Mat n d (XR K) → Except Err (Costs n K)} {r : Draw n d K} {o : Except Err (Opts K)}
    {i : Nat} {q : List Bool} {s : OptX n d K}
    (h : ev' s.swarm.position = ev s.swarm.position) :
    iterateX A cfg ev' r o i q s = iterateX A cfg ev r o i q s := by
  unfold iterateX
  rw [h]

theorem loopX_congr_from (A : Fpu K) (cfg : Config n d K) (c : CallX n d K)
    (ev : Nat → Mat n d (XR K) → Except Err (Costs n K)) (m i : Nat) (q : List Bool)
    (s : OptX n d K) (h : ∀ t, i ≤ t → ∀ x, ev t x = c.ev t x) :
    loopX A cfg { c with ev := ev } m i q s = loopX A cfg c m i q s := by
  induction m generalizing i q s with
  | zero => rfl
  | succ m ih =>
    rw [loopX, loopX]
    dsimp only
    rw [show ev i = c.ev i from funext (h i le_rfl)]
    generalize iterateX A cfg (c.ev i) (c.env i) (c.oh i) i q s = o
    obtain ⟨s1, e | u⟩ := o
    · rfl
    · cases u with
      | stop => rfl
      | «continue» q' => exact ih (i + 1) q' s1 fun t ht => h t (by omega)

/-- The objective that answers from a log first, for positions that may be infinite or nan. -/
def replayX (log : List (Mat n d (XR K) × Costs n K))
    (ev : Nat → Mat n d (XR K) → Except Err (Costs n K)) :
    Nat → Mat n d (XR K) → Except Err (Costs n K) :=
  fun t x => match log[t]? with
    | some e => .ok e.2
    | none => ev t x

/-- The evaluations a call adds to those made before. -/
def callLogX (A : Fpu K) (cfg : Config n d K) (c : CallX n d K) (iters : Nat) (s : OptX n d K) :
    List (Mat n d (XR K) × Costs n K) :=
  (optimizeX A cfg c iters s).1.evals.drop s.evals.length

theorem loopX_log_head {A : Fpu K} {cfg : Config n d K} {c : CallX n d K} {m i : Nat}
    {q : List Bool} {s : OptX n d K} {y : Costs n K} (hev : c.ev i s.swarm.position = .ok y) :
    ∃ E, (loopX A cfg c (m + 1) i q s).1.evals.drop s.evals.length = (s.swarm.position, y) :: E ∧
      E = (loopX A cfg c (m + 1) i q s).1.evals.drop
        (iterateX A cfg (c.ev i) (c.env i) (c.oh i) i q s).1.evals.length := by
  have he : (iterateX A cfg (c.ev i) (c.env i) (c.oh i) i q s).1.evals =
      s.evals ++ [(s.swarm.position, y)] := iterateX_evals_ok hev
  have hp : (iterateX A cfg (c.ev i) (c.env i) (c.oh i) i q s).1.evals <+:
      (loopX A cfg c (m + 1) i q s).1.evals := by
    rw [loopX]
    generalize iterateX A cfg (c.ev i) (c.env i) (c.oh i) i q s = o
    obtain ⟨s1, e | u⟩ := o
    · exact List.prefix_refl _
    · cases u
      · exact List.prefix_refl _
      · exact loopX_evals_prefix _ _ _ _ _ _ _
  obtain ⟨E, hE⟩ := hp
  refine ⟨E, ?_, ?_⟩
  · rw [← hE, he, List.append_assoc, List.drop_left]
    rfl
  · rw [← hE, List.drop_left]

theorem loopX_replay (A : Fpu K) (cfg : Config n d K) (c : CallX n d K)
    (ev2 g : Nat → Mat n d (XR K) → Except Err (Costs n K))
    (h2 : ∀ t x y, c.ev t x = .ok y → ev2 t x = .ok y)
    (hg : (∀ t x, ∃ y, c.ev t x = .ok y) ∨ g = ev2) (log : List (Mat n d (XR K) × Costs n K))
    (m i : Nat) (q : List Bool) (s : OptX n d K)
    (hlog : log.drop i = (loopX A cfg c m i q s).1.evals.drop s.evals.length) :
    loopX A cfg { c with ev := replayX log g } m i q s =
      loopX A cfg { c with ev := ev2 } m i q s := by
  induction m generalizing i q s with
  | zero => rfl
  | succ m ih =>
    cases hev : c.ev i s.swarm.position with
    | error e =>
      rcases hg with hg | rfl
      · obtain ⟨y, hy⟩ := hg i s.swarm.position
        rw [hev] at hy
        cases hy
      · have hl : loopX A cfg c (m + 1) i q s = (s, .error e) := by
          rw [loopX]
          have : iterateX A cfg (c.ev i) (c.env i) (c.oh i) i q s = (s, .error e) := by
            unfold iterateX
            rw [hev]
          rw [this]
        rw [hl, List.drop_length] at hlog
        refine loopX_congr_from A cfg { c with ev := g } _ (m + 1) i q s fun t ht x => ?_
        unfold replayX
        have : log[t]? = none := by
          rw [List.getElem?_eq_none_iff]
          have := congrArg List.length hlog
          rw [List.length_drop, List.length_nil] at this
          omega
        rw [this]
    | ok y =>
      obtain ⟨E, hd, hE⟩ := loopX_log_head (A := A) (cfg := cfg) (m := m) (q := q) hev
      rw [← hlog] at hd
      have hi : log[i]? = some (s.swarm.position, y) := by
        have := congrArg (fun l : List (Mat n d (XR K) × Costs n K) => l[0]?) hd
        simpa [List.getElem?_drop] using this
      have hr : replayX log g i s.swarm.position = c.ev i s.swarm.position := by
        unfold replayX
        rw [hi, hev]
      have hnext : log.drop (i + 1) = (loopX A cfg c (m + 1) i q s).1.evals.drop
          (iterateX A cfg (c.ev i) (c.env i) (c.oh i) i q s).1.evals.length := by
        rw [← hE, ← List.drop_drop, hd]
        rfl
      rw [loopX] at hnext
      rw [loopX, loopX]
      dsimp only
      rw [iterateX_congr hr, iterateX_congr ((h2 i _ y hev).trans hev.symm)]
      revert hnext
      generalize iterateX A cfg (c.ev i) (c.env i) (c.oh i) i q s = o
      obtain ⟨s1, e | u⟩ := o
      · intro _; rfl
      · cases u with
        | stop => intro _; rfl
        | «continue» q' => exact fun hnext => ih (i + 1) q' s1 hnext

theorem optimizeX_replay (A : Fpu K) (cfg : Config n d K) (c : CallX n d K)
    (ev2 g : Nat → Mat n d (XR K) → Except Err (Costs n K))
    (h2 : ∀ t x y, c.ev t x = .ok y → ev2 t x = .ok y)
    (hg : (∀ t x, ∃ y, c.ev t x = .ok y) ∨ g = ev2) (iters : Nat) (s : OptX n d K) :
    optimizeX A cfg { c with ev := replayX (callLogX A cfg c iters s) g } iters s =
      optimizeX A cfg { c with ev := ev2 } iters s := by
  have hl := loopX_replay A cfg c ev2 g h2 hg (callLogX A cfg c iters s) iters 0 [] { s with
    bhMem := some s.swarm.position
    vhMem := some s.swarm.position
    swarm := { s.swarm with pbestCost := fun _ => XR.pinf } } (by
      unfold callLogX
      rw [List.drop_zero, optimizeX_fst])
  unfold optimizeX
  dsimp only at hl ⊢
  rw [hl]

/-- **C134** (floating point).  Replay holds in GlobalBestPSO on any machine, however it rounds and
overflows, and whatever infinite or nan coordinates the positions have. -/
theorem C134_float_replay (A : Fpu K) (cfg : Config n d K) (c : CallX n d K)
    (g : Nat → Mat n d (XR K) → Except Err (Costs n K)) (hev : ∀ t x, ∃ y, c.ev t x = .ok y)
    (iters : Nat) (s : OptX n d K) :
    optimizeX A cfg { c with ev := replayX (callLogX A cfg c iters s) g } iters s =
      optimizeX A cfg c iters s :=
  optimizeX_replay A cfg c c.ev g (fun _ _ _ h => h) (.inl hev) iters s

/-- **C134** (floating point).  And so does recovery. -/
theorem C134_float_recovery (A : Fpu K) (cfg : Config n d K) (c : CallX n d K)
    (ev2 : Nat → Mat n d (XR K) → Except Err (Costs n K))
    (h2 : ∀ t x y, c.ev t x = .ok y → ev2 t x = .ok y) (iters : Nat) (s : OptX n d K) :
    optimizeX A cfg { c with ev := replayX (callLogX A cfg c iters s) ev2 } iters s =
      optimizeX A cfg { c with ev := ev2 } iters s :=
  optimizeX_replay A cfg c ev2 ev2 h2 (.inr rfl) iters s

theorem loopX_black_box (A : Fpu K) (cfg : Config n d K) (c : CallX n d K)
    (f g : Vec d (XR K) → XR K) (m i : Nat) (q : List Bool) (s : OptX n d K)
    (h : ∀ x ∈ (loopX A cfg { c with ev := fun _ x => .ok fun a => f (x a) } m i q s).1.evals.drop
      s.evals.length, ∀ a, g (x.1 a) = f (x.1 a)) :
    loopX A cfg { c with ev := fun _ x => .ok fun a => g (x a) } m i q s =
      loopX A cfg { c with ev := fun _ x => .ok fun a => f (x a) } m i q s := by
  induction m generalizing i q s with
  | zero => rfl
  | succ m ih =>
    obtain ⟨E, hd, hE⟩ := loopX_log_head (A := A) (cfg := cfg)
      (c := { c with ev := fun _ x => .ok fun a => f (x a) }) (m := m) (q := q) (i := i) (s := s)
      (y := fun a => f (s.swarm.position a)) rfl
    rw [hd] at h
    have h0 : (fun a => g (s.swarm.position a)) = fun a => f (s.swarm.position a) :=
      funext fun a => h _ (List.mem_cons_self ..) a
    have h1 : ∀ x ∈ E, ∀ a, g (x.1 a) = f (x.1 a) := fun x hx => h x (List.mem_cons_of_mem _ hx)
    rw [hE, loopX] at h1
    dsimp only at h1
    rw [loopX, loopX]
    dsimp only
    rw [iterateX_congr (ev := fun x => .ok fun a => f (x a)) (ev' := fun x => .ok fun a => g (x a))
      (congrArg Except.ok h0)]
    revert h1
    generalize iterateX A cfg (fun x => .ok fun a => f (x a)) (c.env i) (c.oh i) i q s = o
    obtain ⟨s1, e | u⟩ := o
    · intro _; rfl
    · cases u with
      | stop => intro _; rfl
      | «continue» q' => exact fun h1 => ih (i + 1) q' s1 h1

/-- **C132** (floating point).  Also on a machine that rounds and overflows, two objectives that agree
at the evaluated positions give the same call of GlobalBestPSO. -/
theorem C132_float_black_box (A : Fpu K) (cfg : Config n d K) (c : CallX n d K)
    (f g : Vec d (XR K) → XR K) (iters : Nat) (s : OptX n d K)
    (h : ∀ x ∈ callLogX A cfg { c with ev := fun _ x => .ok fun a => f (x a) } iters s,
      ∀ a, g (x.1 a) = f (x.1 a)) :
    optimizeX A cfg { c with ev := fun _ x => .ok fun a => g (x a) } iters s =
      optimizeX A cfg { c with ev := fun _ x => .ok fun a => f (x a) } iters s := by
  unfold callLogX at h
  rw [optimizeX_fst] at h
  have hl := loopX_black_box A cfg c f g iters 0 [] { s with
    bhMem := some s.swarm.position
    vhMem := some s.swarm.position
    swarm := { s.swarm with pbestCost := fun _ => XR.pinf } } h
  unfold optimizeX
  dsimp only at hl ⊢
  rw [hl]

/-- Non-vacuity: in binary64 the call of the examples logs three evaluations and returns. -/
example : (match optimizeX fpu64 (Ex.fcfg "periodic") Ex.linkCall 3 Ex.linkStart with
    | (_, .ok _) => (callLogX fpu64 (Ex.fcfg "periodic") Ex.linkCall 3 Ex.linkStart).length == 3
    | _ => false) = true := by decide +kernel

end PySwarms

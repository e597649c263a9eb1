import Verif.Lemmas.Heap
import Verif.Props.Stopping

/-!
# C49: arrays that exist are never modified
-/

set_option linter.unusedSectionVars false

namespace PySwarms.Mem

variable {n d : Nat} {K : Type} [Field K] [LinearOrder K] [Transc K] [FloorRing K]

/-- C49: take any heap of arrays of the user, construct an optimizer (with or without one of these
arrays as `init_pos`), make any calls, stop the clock, and make any further calls, whatever their
outcome.  Every array that existed at that moment – arrays of the user, `init_pos`, history entries,
positions handed to the objective – still has the same contents. -/
theorem C49_kept (cfg : Config n d K) (initPos : Option Nat) (h : Heap n d K)
    (hi : ∀ a ∈ initPos, a < h.next) (r1 r2 : InitDraw n d K) (s : Obj n d K)
    (hs : construct cfg initPos h r1 r2 = .ok s) (before after : List (Call n d K))
    (hb : ∀ c ∈ before, c.Harmless) (ha : ∀ c ∈ after, c.Harmless) :
    (∀ a < h.next, Kept h (run cfg initPos s before).heap a) ∧
      ∀ a < (run cfg initPos s before).heap.next,
        Kept (run cfg initPos s before).heap
          (run cfg initPos (run cfg initPos s before) after).heap a := by
  obtain ⟨e, g⟩ := (construct_spec cfg r1 r2 hi).1 s hs
  have hi' : ∀ a ∈ initPos, a < s.heap.next := fun a ha => (hi a ha).trans_le e.1
  have h1 := run_spec cfg before g hi' hb
  have hi'' : ∀ a ∈ initPos, a < (run cfg initPos s before).heap.next :=
    fun a ha => (hi' a ha).trans_le h1.ext.1
  have h2 := run_spec cfg after h1.good hi'' ha
  exact ⟨fun a ha => ⟨ha, (e.trans (h1.ext.mono e.1)).2 a ha⟩, fun a ha => ⟨ha, h2.ext.2 a ha⟩⟩

/-- C49: the arrays in the histories, the personal bests and the handler memories all exist, so that
`C49_kept` speaks about them. -/
theorem C49_exist (cfg : Config n d K) (initPos : Option Nat) (h : Heap n d K)
    (hi : ∀ a ∈ initPos, a < h.next) (r1 r2 : InitDraw n d K) (s : Obj n d K)
    (hs : construct cfg initPos h r1 r2 = .ok s) (calls : List (Call n d K))
    (hc : ∀ c ∈ calls, c.Harmless) :
    let t := run cfg initPos s calls
    (∀ a ∈ t.posHistory, a < t.heap.next) ∧ (∀ a ∈ t.velocityHistory, a < t.heap.next) ∧
      t.position < t.heap.next ∧ t.velocity < t.heap.next ∧ t.pbestPos < t.heap.next := by
  obtain ⟨e, g⟩ := (construct_spec cfg r1 r2 hi).1 s hs
  have g' := (run_spec cfg calls g (fun a ha => (hi a ha).trans_le e.1) hc).good
  exact ⟨g'.posHistory, g'.velocityHistory, g'.position, g'.velocity, g'.pbestPos⟩

/-- C49: sharing arrays has no visible effect: construction, and every call after any calls, has the
same outcome and leaves the same values to be read as in the model where every assignment copies.
(So the theorems about that model hold of this one.) -/
theorem C49_as_if_copied (cfg : Config n d K) (initPos : Option Nat) (h : Heap n d K)
    (hi : ∀ a ∈ initPos, a < h.next) (r1 r2 : InitDraw n d K) :
    (construct cfg initPos h r1 r2).map Obj.read =
        PySwarms.construct { cfg with initPos := initPos.map h.get } r1 r2 ∧
      ∀ s, construct cfg initPos h r1 r2 = .ok s → ∀ calls : List (Call n d K),
        (∀ c ∈ calls, c.Harmless) →
        (run cfg initPos s calls).read =
          runOps { cfg with initPos := initPos.map h.get } s.read (calls.map Call.op) ∧
        (∀ ev iters nproc env, (nproc ≠ none ∨ Pure ev) →
          (optimize cfg ev iters nproc env (run cfg initPos s calls)).2 =
            (PySwarms.optimize { cfg with initPos := initPos.map h.get } (results ev) iters nproc env
              (run cfg initPos s calls).read).2) ∧
        ∀ r, (reset cfg initPos r (run cfg initPos s calls)).2 =
            (PySwarms.reset { cfg with initPos := initPos.map h.get } r
              (run cfg initPos s calls).read).2 := by
  refine ⟨(construct_spec cfg r1 r2 hi).2, fun s hs calls hc => ?_⟩
  obtain ⟨e, g⟩ := (construct_spec cfg r1 r2 hi).1 s hs
  have hi' : ∀ a ∈ initPos, a < s.heap.next := fun a ha => (hi a ha).trans_le e.1
  have h1 := run_spec cfg calls g hi' hc
  have hi'' : ∀ a ∈ initPos, a < (run cfg initPos s calls).heap.next :=
    fun a ha => (hi' a ha).trans_le h1.ext.1
  refine ⟨?_, ?_, ?_⟩
  · have := h1.read
    rw [configOf_eq cfg hi e] at this
    exact this
  · intro ev iters nproc env he
    rw [optimize_config]
    exact (optimize_spec cfg he iters env h1.good).res
  · intro r
    have := (reset_spec cfg r h1.good hi'').res
    rw [configOf_eq cfg hi' h1.ext, configOf_eq cfg hi e] at this
    exact this

/-- C49: after calls that return, reading the arrays in `pos_history` gives the positions at which
the objective was evaluated, in order, as they were at that time. -/
theorem C49_history [IsStrictOrderedRing K] (cfg : Config n d K) (initPos : Option Nat) (h : Heap n d K)
    (hi : ∀ a ∈ initPos, a < h.next) (r1 r2 : InitDraw n d K) (s : Obj n d K)
    (hs : construct cfg initPos h r1 r2 = .ok s) (calls : List (Call n d K))
    (hc : ∀ c ∈ calls, c.Harmless)
    (hr : AllReturn { cfg with initPos := initPos.map h.get } s.read (calls.map Call.op)) :
    (run cfg initPos s calls).posHistory.map (run cfg initPos s calls).heap.get =
      (run cfg initPos s calls).evals.map Prod.fst := by
  have hcon := (construct_spec cfg r1 r2 hi).2
  rw [hs] at hcon
  have := C28_aligned _ r1 r2 s.read hcon.symm (calls.map Call.op) hr
  show (run cfg initPos s calls).read.posHistory = (run cfg initPos s calls).read.evals.map Prod.fst
  rw [((C49_as_if_copied cfg initPos h hi r1 r2).2 s hs calls hc).1]
  exact this.symm

/-- C49: a direct call of a `BoundaryHandler` modifies no existing array except possibly the one it
is given, even if its memory is that same array. -/
theorem C49_boundary_call (strategy : String) (mem : Option Nat) (b : Bounds d K) (r : BHDraw d K)
    (h : Heap n d K) (a c : Nat) (hc : c < h.next) (hne : c ≠ a) :
    (bhCall strategy mem b r h a).1.get c = h.get c := by
  have wr : ∀ (h' : Heap n d K) m, (h'.write a m).get c = h'.get c :=
    fun h' m => write_get_ne h' a m hne
  have hrefl : ∀ k (h' : Heap n d K), (reflective b k h' a).1.get c = h'.get c := by
    intro k
    induction k with
    | zero => intro h'; unfold reflective; split <;> rfl
    | succ k ih =>
      intro h'
      unfold reflective
      dsimp only
      split
      · rw [ih, wr, wr]
      · rfl
  unfold bhCall
  split_ifs
  · simp only [nearest]
    rw [alloc_get_lt _ _ (by rw [alloc_next]; omega), alloc_get_lt _ _ hc]
  · exact hrefl _ _
  · unfold shrink
    split
    · rfl
    · dsimp only
      split_ifs
      · rfl
      · rfl
      · rw [wr, wr]
  · simp only [random, wr]
  · unfold intermediate
    split
    · rfl
    · dsimp only
      rw [wr, wr]
  · unfold periodic
    dsimp only
    split_ifs
    · rfl
    · rw [wr, wr]
  · rfl

/-- C49: a direct call of a `VelocityHandler` modifies no existing array except possibly the one it
is given. -/
theorem C49_velocity_call (strategy : String) (mem : Option Nat) (cl : Option (Clamp d K))
    (pos : Nat) (bounds : Option (Bounds d K)) (h : Heap n d K) (v c : Nat) (hc : c < h.next)
    (hne : c ≠ v) : (vhCall strategy mem cl pos bounds h v).1.get c = h.get c := by
  have wr : ∀ (h' : Heap n d K) m, (h'.write v m).get c = h'.get c :=
    fun h' m => write_get_ne h' v m hne
  have hcl : ∀ (h' : Heap n d K) (w : Nat), c < h'.next → (clampOpt cl h' w).1.get c = h'.get c := by
    intro h' w hc'
    cases cl with
    | none => rfl
    | some cl =>
      simp only [clampOpt]
      rw [alloc_get_lt _ _ (by rw [alloc_next]; omega), alloc_get_lt _ _ hc']
  unfold vhCall
  split_ifs
  · exact hcl h v hc
  · split
    · rfl
    · dsimp only
      rw [hcl _ _ (by rw [alloc_next]; omega), alloc_get_lt _ _ hc]
  · split
    · rfl
    · dsimp only
      rw [hcl _ _ (by rw [write_next, write_next]; exact hc), wr, wr]
  · split
    · rfl
    · dsimp only
      rw [wr, wr]
  · rfl

/-- C49: strategies `nearest` (positions), `unmodified` and `adjust` (velocities) do not modify even
the array they are given. -/
theorem C49_pure_strategies (mem : Option Nat) (b : Bounds d K) (r : BHDraw d K)
    (cl : Option (Clamp d K)) (pos : Nat) (bounds : Option (Bounds d K)) (h : Heap n d K) (a : Nat)
    (ha : a < h.next) :
    (bhCall "nearest" mem b r h a).1.get a = h.get a ∧
      (vhCall "unmodified" mem cl pos bounds h a).1.get a = h.get a ∧
      (vhCall "adjust" mem cl pos bounds h a).1.get a = h.get a := by
  have hcl : ∀ (h' : Heap n d K) (w : Nat), a < h'.next → (clampOpt cl h' w).1.get a = h'.get a := by
    intro h' w hc'
    cases cl with
    | none => rfl
    | some cl =>
      simp only [clampOpt]
      rw [alloc_get_lt _ _ (by rw [alloc_next]; omega), alloc_get_lt _ _ hc']
  refine ⟨?_, ?_, ?_⟩
  · simp only [bhCall, if_true, nearest]
    rw [alloc_get_lt _ _ (by rw [alloc_next]; omega), alloc_get_lt _ _ ha]
  · simp only [vhCall, if_true]
    exact hcl h a ha
  · cases mem with
    | none => rfl
    | some m =>
      have e : ("adjust" = "unmodified") = False := by decide
      simp only [vhCall, e, if_true, if_false]
      rw [hcl _ _ (by rw [alloc_next]; omega), alloc_get_lt _ _ ha]

/-! ### Concrete cases -/

namespace Ex
open PySwarms.Ex

/-- One array of the user, at address 0: particles at 1 and 3. -/
def heap : Heap 2 1 ℚ := { next := 1, get := fun _ i _ => 2 * ((i : Nat) : ℚ) + 1 }

/-- A well-behaved objective. -/
def good : WritingObjective 2 1 ℚ := fun k x => (sphere 2 1 k x, x)

/-- An objective that shifts its argument in place before evaluating (`x -= 1`). -/
def bad : WritingObjective 2 1 ℚ := fun k x => (sphere 2 1 k fun i j => x i j - 1, fun i j => x i j - 1)

def cfg : Config 2 1 ℚ := { gcfg 2 1 with bounds := some (fun _ => 0, fun _ => 3) }

theorem good_pure : Pure good := fun _ _ => rfl

/-- The hypotheses of `C49_kept` are met by a run with `init_pos` that moves the particles, and the
position array, `init_pos` and the first history entry are the same object at the beginning. -/
example : (match construct cfg (some 0) heap (init 2 1) (init 2 1) with
    | .ok s =>
      decide (s.position = 0) && decide (s.pbestPos = 0) &&
      (let t := run cfg (some 0) s [.optimize good 3 none fun _ => draw 2 1]
       decide (t.posHistory.length = 3) && decide (t.posHistory.head? = some 0) &&
       decide (t.heap.get t.position 1 0 ≠ heap.get 0 1 0) &&
       decide (t.heap.get 0 1 0 = 3))
    | .error _ => false) = true := by decide +kernel

/-- The exclusion of writing objectives is necessary: an objective that writes into its argument
changes the user's `init_pos`. -/
example : (match construct cfg (some 0) heap (init 2 1) (init 2 1) with
    | .ok s =>
      (let t := run cfg (some 0) s [.optimize bad 1 none fun _ => draw 2 1]
       decide (t.heap.get 0 1 0 = 2))
    | .error _ => false) = true := by decide +kernel

/-- With `n_processes` the same objective is harmless. -/
example : (match construct cfg (some 0) heap (init 2 1) (init 2 1) with
    | .ok s =>
      (let t := run cfg (some 0) s [.optimize bad 1 (some 2) fun _ => draw 2 1]
       decide (t.heap.get 0 1 0 = 3))
    | .error _ => false) = true := by decide +kernel

/-- A direct call of the `periodic` handler does modify the array it is given. -/
example : ((bhCall "periodic" none ((fun _ => 0, fun _ => 2) : Bounds 1 ℚ) (draw 2 1).bh heap 0).1.get
    0 1 0) = 1 := by decide +kernel

/-- Calling the `intermediate` handler twice with the same array: its memory is that array, so the
second call pulls the particle to the middle between the bound and the *new* position. -/
example : (match bhCall "intermediate" (some 0) ((fun _ => 0, fun _ => 2) : Bounds 1 ℚ)
      (draw 2 1).bh heap 0 with
    | (h, _, .ok p) => decide (p = 0) && decide (h.get 0 1 0 = 5 / 2)
    | _ => false) = true := by decide +kernel

end Ex

end PySwarms.Mem

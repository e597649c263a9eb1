import Verif.Lemmas.Writing
import Verif.Props.Heap
import Verif.Props.Bounds

/-!
# C96: objectives that write into their argument

An objective may repair infeasible candidates in place (`x[x < 0] = 0`, `np.round(x, out=x)`, …).
What an objective does is a function `ev`: in its `k`-th evaluation of the call, given an array with
contents `x`, it ends with `(ev k x).1` (costs or an exception) and leaves `(ev k x).2` in the array.
-/

set_option linter.unusedSectionVars false

namespace PySwarms.Mem

variable {n d : Nat} {K : Type} [Field K] [LinearOrder K] [Transc K] [FloorRing K]

/-! ### Specification -/

/-- The log `E` of a call: its `k`-th entry is what the objective left in the array in its `k`-th
evaluation, with the costs it returned. -/
def LeftBy (ev : WritingObjective n d K) (E : List (Mat n d K × Costs n K)) : Prop :=
  ∀ (k : Nat) (h : k < E.length), ∃ x, ev k x = (.ok E[k].2, E[k].1)

/-- All the calls are without `n_processes` (if they are calls of `optimize`) and return, and all
objectives do to their argument what `rep` does. -/
def AllRepair (rep : Mat n d K → Mat n d K) (cfg : Config n d K) (initPos : Option Nat) :
    Obj n d K → List (Call n d K) → Prop
  | _, [] => True
  | s, .optimize ev iters nproc env :: cs =>
    nproc = none ∧ (∀ k x, (ev k x).2 = rep x) ∧
      (∃ r, (optimize cfg ev iters nproc env s).2 = .ok r) ∧
      AllRepair rep cfg initPos (optimize cfg ev iters nproc env s).1 cs
  | s, .reset r :: cs =>
    (reset cfg initPos r s).2 = .ok () ∧ AllRepair rep cfg initPos (reset cfg initPos r s).1 cs

/-! ### Theorems -/

theorem ok_of_optimize {cfg : Config n d K} {ev : WritingObjective n d K} {iters : Nat}
    {nproc : Option Nat} {env : Nat → Draw n d K} {s s' : Obj n d K} {c : XR K} {p : Vec d K}
    (h : optimize cfg ev iters nproc env s = (s', .ok (c, p))) :
    nproc ≠ some 0 ∧
      (loop cfg ev nproc.isSome env iters iters 0 [] (callStart cfg nproc s)).2 = .ok () ∧
      ∃ i, npArgmin s'.pbestCost = some i ∧ p = s'.heap.get s'.pbestPos i := by
  unfold optimize at h
  by_cases hz : nproc = some 0
  · rw [if_pos hz] at h; cases h
  rw [if_neg hz] at h
  refine ⟨hz, ?_⟩
  revert h
  unfold callStart
  dsimp only
  generalize loop cfg ev nproc.isSome env iters iters 0 [] _ = out
  obtain ⟨s1, rr⟩ := out
  cases rr with
  | error e => intro h; cases h
  | ok u =>
    dsimp only
    intro h
    refine ⟨rfl, ?_⟩
    cases hf : finish s1.read with
    | error e => rw [hf] at h; cases h
    | ok r =>
      rw [hf] at h
      cases h
      unfold finish at hf
      split at hf
      · cases hf
      · split at hf
        · cases hf
        · next i hi =>
          cases hf
          exact ⟨i, hi, rfl⟩

/-- C96: whatever was called before and whatever the objectives wrote, after a call of `optimize`
without `n_processes`, however it ends, every particle's personal best is the first of its rows *as
the objective left them* with the least cost of the call. -/
theorem C96_personal_best (cfg : Config n d K) (initPos : Option Nat) (h : Heap n d K)
    (hi : ∀ a ∈ initPos, a < h.next) (r1 r2 : InitDraw n d K) (s : Obj n d K)
    (hs : construct cfg initPos h r1 r2 = .ok s) (calls : List (Call n d K))
    (ev : WritingObjective n d K) (iters : Nat) (env : Nat → Draw n d K) :
    let t := run cfg initPos s calls
    let t' := (optimize cfg ev iters none env t).1
    ∃ E, t'.evals = t.evals ++ E ∧ E.length ≤ iters ∧ LeftBy ev E ∧
      ∀ i, (NothingBelowInf (particleLog E i) ∧ t'.pbestCost i = XR.pinf) ∨
        IsFirstBest (particleLog E i) (t'.heap.get t'.pbestPos i) (t'.pbestCost i) := by
  dsimp only
  have g := ((Owns.construct hi hs).run hi cfg calls).good
  apply optimize_w cfg ev iters none (by intro h; cases h) env _ (fun t' => ∃ E,
    t'.evals = (run cfg initPos s calls).evals ++ E ∧ E.length ≤ iters ∧ LeftBy ev E ∧
      ∀ i, (NothingBelowInf (particleLog E i) ∧ t'.pbestCost i = XR.pinf) ∨
        IsFirstBest (particleLog E i) (t'.heap.get t'.pbestPos i) (t'.pbestCost i))
  · intro _ _ h; exact h
  · obtain ⟨E, hE, ht⟩ := Tracks.loop (ev := ev) g cfg env iters
    refine ⟨E, ht.evals, hE, ht.log, fun i => ?_⟩
    obtain ⟨old, hb⟩ := ht.best i
    rcases hb with ⟨h1, h2, _⟩ | hb
    · exact .inl ⟨h1, h2⟩
    · exact .inr hb

/-- C96: the returned position is a row that the objective left in the array in this call, with the
least cost of the call – unless no cost of the call was below `+inf`. -/
theorem C96_returned (cfg : Config n d K) (initPos : Option Nat) (h : Heap n d K)
    (hi : ∀ a ∈ initPos, a < h.next) (r1 r2 : InitDraw n d K) (s : Obj n d K)
    (hs : construct cfg initPos h r1 r2 = .ok s) (calls : List (Call n d K))
    (ev : WritingObjective n d K) (iters : Nat) (env : Nat → Draw n d K) (t' : Obj n d K)
    (c : XR K) (p : Vec d K)
    (hr : optimize cfg ev iters none env (run cfg initPos s calls) = (t', .ok (c, p))) :
    ∃ E, t'.evals = (run cfg initPos s calls).evals ++ E ∧ LeftBy ev E ∧
      ((∀ e ∈ E, ∀ i, e.2 i = XR.nan ∨ e.2 i = XR.pinf) ∨
        ∃ e ∈ E, ∃ i, p = e.1 i ∧ XR.lt (e.2 i) XR.pinf = true ∧
          ∀ e' ∈ E, ∀ i', XR.lt (e'.2 i') (e.2 i) = false) := by
  obtain ⟨E, h1, _, h3, h4⟩ := C96_personal_best cfg initPos h hi r1 r2 s hs calls ev iters env
  obtain ⟨_, _, k, hk, rfl⟩ := ok_of_optimize hr
  rw [hr] at h1 h4
  dsimp only at h1 h4
  refine ⟨E, h1, h3, ?_⟩
  have hpb : ∀ i, ∃ old, IsPersonalBest (particleLog E i) old (t'.heap.get t'.pbestPos i)
      (t'.pbestCost i) := by
    intro i
    rcases h4 i with ⟨ha, hb⟩ | hb
    · exact ⟨_, .inl ⟨ha, hb, rfl⟩⟩
    · exact ⟨0, .inr hb⟩
  have hnn : ∀ i, t'.pbestCost i ≠ XR.nan := fun i => by
    obtain ⟨_, hb⟩ := hpb i
    exact isPersonalBest_ne_nan hb
  have hmin := ((npArgmin_eq_some_iff _ hnn k).1 hk).1
  by_cases hinf : t'.pbestCost k = XR.pinf
  · left
    intro e he i
    have hii : t'.pbestCost i = XR.pinf := by
      have h5 := hmin i
      rw [hinf] at h5
      by_contra hne
      rw [(XR.lt_pinf_iff _).2 ⟨hnn i, hne⟩] at h5
      cases h5
    rcases h4 i with ⟨ha, _⟩ | ⟨_, _, _, hb, _⟩
    · exact ha (e.1 i, e.2 i) (List.mem_map.2 ⟨e, he, rfl⟩)
    · rw [hii, XR.lt_irrefl] at hb
      cases hb
  · right
    obtain ⟨_, hb⟩ := hpb k
    obtain ⟨e, he, hx, hc⟩ := isPersonalBest_mem hb hinf
    refine ⟨e, he, k, hx.symm, by rw [hc]; exact (XR.lt_pinf_iff _).2 ⟨hnn k, hinf⟩, ?_⟩
    intro e' he' i'
    obtain ⟨_, hb'⟩ := hpb i'
    have h6 := isPersonalBest_not_below hb' (e'.1 i', e'.2 i') (List.mem_map.2 ⟨e', he', rfl⟩)
    rw [hc]
    exact XR.not_lt_trans (hnn i') h6 (hmin i')

/-- C96: repairing in place works: if every row the objective leaves behind satisfies `P`, then so
does the returned position (if some cost of the call was below `+inf`). -/
theorem C96_feasible (cfg : Config n d K) (initPos : Option Nat) (h : Heap n d K)
    (hi : ∀ a ∈ initPos, a < h.next) (r1 r2 : InitDraw n d K) (s : Obj n d K)
    (hs : construct cfg initPos h r1 r2 = .ok s) (calls : List (Call n d K))
    (ev : WritingObjective n d K) (iters : Nat) (env : Nat → Draw n d K) (t' : Obj n d K)
    (c : XR K) (p : Vec d K)
    (hr : optimize cfg ev iters none env (run cfg initPos s calls) = (t', .ok (c, p)))
    (P : Vec d K → Prop) (hP : ∀ k x i, P ((ev k x).2 i)) (hiters : iters ≠ 0)
    (hfin : ∀ k x cs, (ev k x).1 = .ok cs → ∃ i, XR.lt (cs i) XR.pinf = true) : P p := by
  obtain ⟨E, h1, h2, h3⟩ := C96_returned cfg initPos h hi r1 r2 s hs calls ev iters env t' c p hr
  rcases h3 with h3 | ⟨e, he, i, rfl, _⟩
  · exfalso
    have g := ((Owns.construct hi hs).run hi cfg calls).good
    have hl := (ok_of_optimize hr).2.1
    obtain ⟨F, hF, hne⟩ := loop_log_grows cfg ev env iters iters 0 []
      (setMemories_good cfg g (fun _ => XR.pinf) ((run cfg initPos s calls).openPools + 0))
    have hev : t'.evals = (run cfg initPos s calls).evals ++ F := by
      have := optimize_w cfg ev iters none (by intro h; cases h) env (run cfg initPos s calls)
        (fun t => t.evals = (run cfg initPos s calls).evals ++ F) (fun _ _ h => h) hF
      rw [hr] at this
      exact this
    have hEF : E = F := List.append_cancel_left (h1.symm.trans hev)
    have hE : 0 < E.length := List.length_pos_iff.2 (hEF ▸ hne hiters hl)
    obtain ⟨x, hx⟩ := h2 0 hE
    obtain ⟨i, hlt⟩ := hfin 0 x E[0].2 (by rw [hx])
    have hni := (XR.lt_pinf_iff _).1 hlt
    rcases h3 E[0] (List.getElem_mem hE) i with h | h
    · exact hni.1 h
    · exact hni.2 h
  · obtain ⟨k, hk, rfl⟩ := List.getElem_of_mem he
    obtain ⟨x, hx⟩ := h2 k hk
    have := hP k x i
    rw [hx] at this
    exact this

/-- C96: of the arrays of the user, `optimize` and `reset` let the objective change only the one
given as `init_pos`: after any calls with any objectives every other array is as it was. -/
theorem C96_user_arrays (cfg : Config n d K) (initPos : Option Nat) (h : Heap n d K)
    (hi : ∀ a ∈ initPos, a < h.next) (r1 r2 : InitDraw n d K) (s : Obj n d K)
    (hs : construct cfg initPos h r1 r2 = .ok s) (calls : List (Call n d K)) :
    ∀ a, initPos ≠ some a → a < h.next → Kept h (run cfg initPos s calls).heap a := by
  intro a ha1 ha2
  exact ⟨ha2, ((Owns.construct hi hs).run hi cfg calls).kept a ha2 ha1⟩

/-- C96: `init_pos` itself is changed, once: after the first call (at least one iteration, however
it ends) it contains what the objective left behind in its first evaluation.  A following `reset`
that returns starts from these values, not from those given to the constructor; for the continuous
optimizers it raises `ValueError` if they are outside the bounds. -/
theorem C96_init_pos [IsStrictOrderedRing K] (cfg : Config n d K) (a : Nat) (h : Heap n d K) (hi : a < h.next)
    (r1 r2 : InitDraw n d K) (s : Obj n d K) (hs : construct cfg (some a) h r1 r2 = .ok s)
    (ev : WritingObjective n d K) (iters : Nat) (env : Nat → Draw n d K) (r : InitDraw n d K) :
    let t := (optimize cfg ev (iters + 1) none env s).1
    let u := reset cfg (some a) r t
    t.heap.get a = (ev 0 (h.get a)).2 ∧
      (u.2 = .ok () → u.1.heap.get u.1.position = (ev 0 (h.get a)).2) ∧
      ∀ b, cfg.isBinary = false → cfg.bounds = some b → ¬ InBox b (ev 0 (h.get a)).2 →
        u.2 = .error .valueError := by
  dsimp only
  have hia : ∀ a' ∈ some a, a' < h.next := by
    intro a' ha
    cases ha
    exact hi
  have ho := Owns.construct hia hs
  have hget : s.heap.get a = h.get a := ((construct_spec cfg r1 r2 hia).1 s hs).1.2 a hi
  have hpos : s.position = a := (construct_position hs).1
  have h1 : (optimize cfg ev (iters + 1) none env s).1.heap.get a = (ev 0 (h.get a)).2 := by
    apply optimize_w cfg ev (iters + 1) none (by intro h; cases h) env s
      (fun t => t.heap.get a = (ev 0 (h.get a)).2)
    · intro _ _ h; exact h
    · have := first_array cfg ev env (iters + 1) iters
        (setMemories_good cfg ho.good (fun _ => XR.pinf) (s.openPools + 0))
      have hp : (callStart cfg none s).position = a := hpos
      change (loop cfg ev false env (iters + 1) (iters + 1) 0 [] (callStart cfg none s)).1.heap.get
        (callStart cfg none s).position = (ev 0 (s.heap.get (callStart cfg none s).position)).2
        at this
      rw [hp, hget] at this
      exact this
  have ho' := ho.optimize cfg ev (iters + 1) none env
  refine ⟨h1, ?_, ?_⟩
  · intro hu
    have hst := (reset_spec cfg r ho'.good fun a' ha => (hia a' ha).trans_le ho'.next).step
    rcases reset_position cfg (some a) r (optimize cfg ev (iters + 1) none env s).1 with
      ⟨_, hp⟩ | ⟨hp, _⟩
    · exact absurd hu hp
    · rw [hp, Option.getD_some, hst.ext.2 a (hi.trans_le ho'.next), h1]
  · intro b hb hbb hout
    have hres : resetSwarm (configOf cfg (some a)
        (optimize cfg ev (iters + 1) none env s).1.heap) r = .error .valueError := by
      unfold resetSwarm createSwarm
      have hb' : (configOf cfg (some a)
        (optimize cfg ev (iters + 1) none env s).1.heap).isBinary = false := hb
      have hg := (C37_init_pos (some b) cfg.center (ev 0 (h.get a)).2 r.pos).2 ⟨b, rfl, hout⟩
      simp only [hb', Bool.false_eq_true, if_false]
      simp only [configOf, Option.map_some, h1, hbb, hg]
    unfold reset
    rw [hres]

/-- C96: if the objectives all repair in the same way and repairing twice is repairing once, then
after calls that return `pos_history` shows the rows the objective left behind, in order. -/
theorem C96_history (rep : Mat n d K → Mat n d K) (hrep : ∀ x, rep (rep x) = rep x)
    (cfg : Config n d K) (initPos : Option Nat) (h : Heap n d K)
    (hi : ∀ a ∈ initPos, a < h.next) (r1 r2 : InitDraw n d K) (s : Obj n d K)
    (hs : construct cfg initPos h r1 r2 = .ok s) (calls : List (Call n d K))
    (hc : AllRepair rep cfg initPos s calls) :
    (run cfg initPos s calls).posHistory.map (run cfg initPos s calls).heap.get =
      (run cfg initPos s calls).evals.map Prod.fst := by
  obtain ⟨hq1, hq2, hp, he⟩ := construct_position hs
  have ho := Owns.construct hi hs
  have h0 : Shows rep s := ⟨ho.good, by rw [hp, he]; rfl, by rw [hp]; intro a ha; cases ha⟩
  clear hs hp he hq1 hq2
  induction calls generalizing s with
  | nil => exact h0.shown
  | cons c cs ih =>
    cases c with
    | optimize ev iters nproc env =>
      obtain ⟨rfl, hev, ⟨⟨c, p⟩, hr⟩, hc⟩ := hc
      refine ih _ hc (ho.optimize cfg ev iters none env) ?_
      have hl := (ok_of_optimize (s' := (optimize cfg ev iters none env s).1)
        (Prod.ext rfl hr)).2.1
      apply optimize_w cfg ev iters none (by intro h; cases h) env s (Shows rep)
      · intro t k ht
        exact ⟨⟨ht.good.position, ht.good.velocity, ht.good.pbestPos, ht.good.bestPos, ht.good.bhMem,
          ht.good.vhMem, ht.good.posHistory, ht.good.velocityHistory⟩, ht.shown, ht.fixed⟩
      · exact Shows.loop hrep cfg hev env iters iters 0 [] (s := callStart cfg none s)
          ⟨setMemories_good cfg ho.good _ _, h0.shown, h0.fixed⟩ hl
    | reset r =>
      obtain ⟨hr, hc⟩ := hc
      have ho' := ho.reset hi cfg r
      have hh : (reset cfg initPos r s).1.posHistory = [] ∧ (reset cfg initPos r s).1.evals = [] := by
        revert hr
        unfold reset
        dsimp only
        cases resetSwarm (configOf cfg initPos s.heap) r with
        | error e => intro h; cases h
        | ok sw => intro _; exact ⟨rfl, rfl⟩
      refine ih (reset cfg initPos r s).1 hc ho' ⟨ho'.good, ?_, ?_⟩
      · rw [hh.1, hh.2]; rfl
      · rw [hh.1]; intro a ha; cases ha

/-- C96: if repairing twice is not repairing once (`x -= 1` in place), `pos_history` can be wrong
after calls that return: a call that ends early because of `ftol` leaves the array it recorded last as
the position array, and the next call lets the objective write into it again. -/
theorem C96_history_witness : ∃ (cfg : Config 2 1 ℚ) (h : Heap 2 1 ℚ) (r : InitDraw 2 1 ℚ)
    (s : Obj 2 1 ℚ) (rep : Mat 2 1 ℚ → Mat 2 1 ℚ) (calls : List (Call 2 1 ℚ)),
    construct cfg none h r r = .ok s ∧ AllRepair rep cfg none s calls ∧
      (run cfg none s calls).posHistory.map (run cfg none s calls).heap.get ≠
        (run cfg none s calls).evals.map Prod.fst := by
  let cfg : Config 2 1 ℚ := { PySwarms.Ex.gcfg 2 1 with ftol := .fin 1000, ftolIter := .int 1 }
  let call : Call 2 1 ℚ := .optimize Ex.bad 3 none fun _ => PySwarms.Ex.draw 2 1
  have key : (match construct cfg none Ex.heap (PySwarms.Ex.init 2 1) (PySwarms.Ex.init 2 1) with
      | .ok s =>
        (match (optimize cfg Ex.bad 3 none (fun _ => PySwarms.Ex.draw 2 1) s).2,
          (optimize cfg Ex.bad 3 none (fun _ => PySwarms.Ex.draw 2 1)
            (optimize cfg Ex.bad 3 none (fun _ => PySwarms.Ex.draw 2 1) s).1).2 with
         | .ok _, .ok _ =>
           ((run cfg none s [call, call]).posHistory.map
              (run cfg none s [call, call]).heap.get).map (fun x => x 0 0) ≠
            ((run cfg none s [call, call]).evals.map Prod.fst).map (fun x => x 0 0)
         | _, _ => false)
      | .error _ => false) = true := by decide +kernel
  cases hs : construct cfg none Ex.heap (PySwarms.Ex.init 2 1) (PySwarms.Ex.init 2 1) with
  | error e => rw [hs] at key; cases key
  | ok s =>
    rw [hs] at key
    dsimp only at key
    cases h1 : (optimize cfg Ex.bad 3 none (fun _ => PySwarms.Ex.draw 2 1) s).2 with
    | error e => rw [h1] at key; cases key
    | ok r =>
      cases h2 : (optimize cfg Ex.bad 3 none (fun _ => PySwarms.Ex.draw 2 1)
          (optimize cfg Ex.bad 3 none (fun _ => PySwarms.Ex.draw 2 1) s).1).2 with
      | error e => rw [h1, h2] at key; cases key
      | ok r' =>
        rw [h1, h2] at key
        simp only [decide_eq_true_eq] at key
        exact ⟨cfg, _, _, s, fun x i j => x i j - 1, [call, call], hs,
          ⟨rfl, fun _ _ => rfl, ⟨r, h1⟩, rfl, fun _ _ => rfl, ⟨r', h2⟩, trivial⟩,
          fun h => key (congrArg (List.map fun x => x 0 0) h)⟩

/-- C96: with `n_processes` the objective works on copies: whatever it writes, no array that exists
changes, and the outcome is that of an objective that returns the same costs and writes nothing. -/
theorem C96_processes (cfg : Config n d K) (initPos : Option Nat) (h : Heap n d K)
    (hi : ∀ a ∈ initPos, a < h.next) (r1 r2 : InitDraw n d K) (s : Obj n d K)
    (hs : construct cfg initPos h r1 r2 = .ok s) (calls : List (Call n d K))
    (ev : WritingObjective n d K) (iters m : Nat) (env : Nat → Draw n d K) :
    let t := run cfg initPos s calls
    let out := optimize cfg ev iters (some m) env t
    let out' := optimize cfg (fun k x => ((ev k x).1, x)) iters (some m) env t
    (∀ a < t.heap.next, Kept t.heap out.1.heap a) ∧ out.2 = out'.2 ∧ out.1.read = out'.1.read := by
  dsimp only
  have g := ((Owns.construct hi hs).run hi cfg calls).good
  have h1 := optimize_spec cfg (ev := ev) (nproc := some m) (.inl (by simp)) iters env g
  have h2 := optimize_spec cfg (ev := fun k x => ((ev k x).1, x)) (nproc := some m)
    (.inl (by simp)) iters env g
  exact ⟨fun a ha => ⟨ha, h1.step.ext.2 a ha⟩, h1.res.trans h2.res.symm,
    h1.step.read.trans h2.step.read.symm⟩

namespace Ex
open PySwarms.Ex

/-- Raise every coordinate to at least 2. -/
def raise (x : Mat 2 1 ℚ) : Mat 2 1 ℚ := fun i j => if x i j < 2 then 2 else x i j

/-- An objective that repairs its argument in place. -/
def repair : WritingObjective 2 1 ℚ := fun k x => (sphere 2 1 k (raise x), raise x)

example : ∀ x, raise (raise x) = raise x := by
  intro x
  funext i j
  simp only [raise]
  split_ifs <;> rfl

theorem two_le_repair : ∀ k x i, 2 ≤ (repair k x).2 i 0 := by
  intro k x i
  simp only [repair, raise]
  split_ifs <;> linarith

/-- The hypotheses of the theorems are met by two calls that move the particles and return. -/
example : (match construct cfg (some 0) heap (init 2 1) (init 2 1) with
    | .ok s =>
      (match optimize cfg repair 3 none (fun _ => draw 2 1) s with
       | (t, .ok (_, p)) =>
         (match optimize cfg repair 3 none (fun _ => draw 2 1) t with
          | (t', .ok (_, p')) =>
            decide (p 0 = 2) && decide (2 < p' 0) && decide (t'.evals.length = 6) &&
            decide (t'.posHistory.length = 6) && decide (t.heap.get 0 0 0 = 2) &&
            decide (t'.heap.get t'.position 0 0 ≠ t.heap.get t.position 0 0)
          | _ => false)
       | _ => false)
    | .error _ => false) = true := by decide +kernel

/-- `x -= 1` pushes an `init_pos` with a coordinate 0 out of the bounds `[0, 3]`; `reset` then raises
`ValueError` (`C96_init_pos`). -/
example : (match construct cfg (some 0) { heap with get := fun _ i _ => ((i : Nat) : ℚ) }
      (init 2 1) (init 2 1) with
    | .ok s =>
      (match (reset cfg (some 0) (init 2 1) (optimize cfg bad 1 none (fun _ => draw 2 1) s).1).2 with
       | .error .valueError => true
       | _ => false)
    | .error _ => false) = true := by decide +kernel

end Ex

/-- C96: so with `n_processes` repairing in place does not work: an objective that raises every
coordinate to at least 2 before it evaluates gets a position below 2 back, without `n_processes`
a position of at least 2. -/
theorem C96_processes_witness : ∃ (cfg : Config 2 1 ℚ) (h : Heap 2 1 ℚ) (r : InitDraw 2 1 ℚ)
    (s : Obj 2 1 ℚ) (ev : WritingObjective 2 1 ℚ) (env : Nat → Draw 2 1 ℚ) (c c' : XR ℚ)
    (p p' : Vec 1 ℚ),
    construct cfg (some 0) h r r = .ok s ∧ (∀ k x i, 2 ≤ (ev k x).2 i 0) ∧
      (optimize cfg ev 3 none env s).2 = .ok (c, p) ∧ 2 ≤ p 0 ∧
      (optimize cfg ev 3 (some 1) env s).2 = .ok (c', p') ∧ p' 0 < 2 := by
  have key : (match construct Ex.cfg (some 0) Ex.heap (PySwarms.Ex.init 2 1) (PySwarms.Ex.init 2 1) with
      | .ok s =>
        (match (optimize Ex.cfg Ex.repair 3 none (fun _ => PySwarms.Ex.draw 2 1) s).2,
          (optimize Ex.cfg Ex.repair 3 (some 1) (fun _ => PySwarms.Ex.draw 2 1) s).2 with
         | .ok (_, p), .ok (_, p') => decide (2 ≤ p 0) && decide (p' 0 < 2)
         | _, _ => false)
      | .error _ => false) = true := by decide +kernel
  cases hs : construct Ex.cfg (some 0) Ex.heap (PySwarms.Ex.init 2 1) (PySwarms.Ex.init 2 1) with
  | error e => rw [hs] at key; cases key
  | ok s =>
    rw [hs] at key
    dsimp only at key
    cases h1 : (optimize Ex.cfg Ex.repair 3 none (fun _ => PySwarms.Ex.draw 2 1) s).2 with
    | error e => rw [h1] at key; cases key
    | ok r =>
      obtain ⟨c, p⟩ := r
      cases h2 : (optimize Ex.cfg Ex.repair 3 (some 1) (fun _ => PySwarms.Ex.draw 2 1) s).2 with
      | error e => rw [h1, h2] at key; cases key
      | ok r' =>
        obtain ⟨c', p'⟩ := r'
        rw [h1, h2] at key
        simp only [Bool.and_eq_true, decide_eq_true_eq] at key
        exact ⟨_, _, _, s, _, _, c, c', p, p', hs, Ex.two_le_repair, h1, key.1, h2, key.2⟩

end PySwarms.Mem

import Verif.Model.Keyword
import Verif.Props.Objective
import Verif.Examples

/-! # C103: keyword arguments for the objective -/

set_option linter.unusedSectionVars false

namespace PySwarms.Kw

open PySwarms

variable {n d : Nat} {K V : Type}

/-! ## Specification -/

/-- The parameters of `optimize`, in order. -/
def own : List String := ["objective_func", "iters", "n_processes", "verbose"]

/-- The names of the keyword arguments. -/
def names {α : Type} (kw : Kwargs α) : List String := kw.map Prod.fst

/-- `optimize(*pos, **kw)` is a legal call: at most four positional arguments, no keyword twice, no
parameter both by position and by keyword, no keyword `self`, and both `objective_func` and `iters`
are given. -/
structure Acceptable (pos : List V) (kw : Kwargs V) : Prop where
  distinct : (names kw).Nodup
  few : pos.length ≤ 4
  noSelf : "self" ∉ names kw
  once : ∀ p ∈ own.take pos.length, p ∉ names kw
  objective : 1 ≤ pos.length ∨ "objective_func" ∈ names kw
  iters : 2 ≤ pos.length ∨ "iters" ∈ names kw

/-- The argument given for the `i`-th parameter, called `p`: by position or by keyword. -/
def given (pos : List V) (kw : Kwargs V) (i : Nat) (p : String) : Option V :=
  match pos[i]? with
  | some v => some v
  | none => kw.lookup p

/-- The keyword arguments that are not parameters of `optimize`: those meant for the objective. -/
def others (kw : Kwargs V) : Kwargs V := kw.filter fun a => decide (a.1 ∉ own)

/-- The number of processes asked for. -/
def Processes (W : World d K V) (o : Option V) (np : Option Nat) : Prop :=
  match o with
  | none => np = none
  | some v => (W.isNone v = true ∧ np = none) ∨
      (W.isNone v = false ∧ ∃ z, W.int? v = some z ∧ np = some z.toNat)

/-! ## Lemmas -/

theorem users_asArgs (kw : Kwargs V) : users (asArgs kw : Kwargs (Arg d K V)) = kw := by
  induction kw with
  | nil => rfl
  | cons a l ih =>
    unfold users asArgs at ih ⊢
    simp only [List.map_cons, List.filterMap_cons]
    rw [ih]

theorem names_asArgs (kw : Kwargs V) : (asArgs kw : Kwargs (Arg d K V)).map Prod.fst = names kw := by
  unfold asArgs names
  rw [List.map_map]
  rfl

theorem lookup_asArgs (kw : Kwargs V) (p : String) :
    (asArgs kw : Kwargs (Arg d K V)).lookup p = (kw.lookup p).map Arg.user := by
  induction kw with
  | nil => rfl
  | cons a l ih =>
    unfold asArgs at ih ⊢
    rw [List.map_cons, List.lookup_cons, List.lookup_cons, ih]
    cases p == a.1 <;> rfl

theorem filter_asArgs (kw : Kwargs V) (q : String → Bool) :
    (asArgs kw : Kwargs (Arg d K V)).filter (fun a => q a.1) = asArgs (kw.filter fun a => q a.1) := by
  induction kw with
  | nil => rfl
  | cons a l ih =>
    unfold asArgs at ih ⊢
    rw [List.map_cons, List.filter_cons, List.filter_cons]
    cases q a.1
    · exact ih
    · simp only [if_true, List.map_cons]
      rw [ih]

theorem lookup_isSome {α : Type} (kw : Kwargs α) (p : String) :
    (kw.lookup p).isSome = true ↔ p ∈ names kw := by
  induction kw with
  | nil => simp [names]
  | cons a l ih =>
    rw [List.lookup_cons]
    unfold names at ih ⊢
    rw [List.map_cons, List.mem_cons]
    by_cases h : p = a.1
    · subst h; simp
    · have : (p == a.1) = false := by simpa using h
      rw [this]
      simp only [ih, h, false_or]

theorem any_names {α : Type} (kw : Kwargs α) (l : List String) :
    kw.any (fun a => l.contains a.1) = true ↔ ∃ p ∈ l, p ∈ names kw := by
  rw [List.any_eq_true]
  unfold names
  constructor
  · rintro ⟨a, ha, h⟩
    exact ⟨a.1, by simpa using h, List.mem_map.2 ⟨a, ha, rfl⟩⟩
  · rintro ⟨p, hp, h⟩
    obtain ⟨a, ha, rfl⟩ := List.mem_map.1 h
    exact ⟨a, ha, by simpa using hp⟩

/-- A call binds exactly when Python's rules are met. -/
theorem bindArgs_ok {α : Type} (ps : Params α) (varkw : Bool) (pos : List α) (kw : Kwargs α)
    (h1 : (names kw).Nodup) (h2 : pos.length ≤ ps.length)
    (h3 : ∀ p ∈ (names ps).take pos.length, p ∉ names kw)
    (h4 : varkw = true ∨ ∀ p ∈ names kw, p ∈ names ps)
    (h5 : ∀ p ∈ names ps, (bound ps pos kw p).isSome = true) :
    bindArgs ps varkw pos kw =
      .ok (bound ps pos kw, kw.filter fun a => !(names ps).contains a.1) := by
  unfold bindArgs
  rw [if_neg (by simpa [names] using h1), if_neg (by omega), if_neg, if_neg, if_neg]
  · rfl
  · intro h
    rw [List.any_eq_true] at h
    obtain ⟨p, hp, h⟩ := h
    have := h5 p.1 (List.mem_map.2 ⟨p, hp, rfl⟩)
    rw [Option.isNone_iff_eq_none] at h
    rw [h] at this
    cases this
  · intro h
    rw [Bool.and_eq_true, List.any_eq_true] at h
    obtain ⟨hv, a, ha, h⟩ := h
    rcases h4 with h4 | h4
    · rw [h4] at hv; cases hv
    · have := h4 a.1 (List.mem_map.2 ⟨a, ha, rfl⟩)
      unfold names at this
      rw [List.contains_iff_mem.2 this] at h
      cases h
  · intro h
    have := (any_names kw _).1 h
    obtain ⟨p, hp, hq⟩ := this
    exact h3 p hp hq

theorem bindArgs_error {α : Type} (ps : Params α) (varkw : Bool) (pos : List α) (kw : Kwargs α)
    (h : ¬ (names kw).Nodup ∨ ps.length < pos.length ∨
      (∃ p ∈ (names ps).take pos.length, p ∈ names kw) ∨
      (varkw = false ∧ ∃ p ∈ names kw, p ∉ names ps) ∨
      ∃ p ∈ names ps, (bound ps pos kw p).isSome = false) :
    bindArgs ps varkw pos kw = .error .typeError := by
  unfold bindArgs
  by_cases h1 : ¬ (kw.map Prod.fst).Nodup
  · rw [if_pos h1]
  rw [if_neg h1]
  by_cases h2 : ps.length < pos.length
  · rw [if_pos h2]
  rw [if_neg h2]
  by_cases h3 : kw.any (fun a => ((ps.map Prod.fst).take pos.length).contains a.1) = true
  · rw [if_pos h3]
  rw [if_neg h3]
  by_cases h4 : (!varkw && kw.any (fun a => !(ps.map Prod.fst).contains a.1)) = true
  · rw [if_pos h4]
  rw [if_neg h4]
  rw [if_pos]
  rcases h with h | h | h | h | h
  · exact absurd h h1
  · exact absurd h h2
  · exact absurd ((any_names kw _).2 h) h3
  · exfalso
    apply h4
    obtain ⟨hv, p, hp, hq⟩ := h
    obtain ⟨a, ha, rfl⟩ := List.mem_map.1 hp
    rw [hv, Bool.not_false, Bool.true_and, List.any_eq_true]
    refine ⟨a, ha, ?_⟩
    rw [Bool.not_eq_true']
    exact Bool.eq_false_iff.2 fun hc => hq (List.contains_iff_mem.1 hc)
  · obtain ⟨p, hp, h⟩ := h
    obtain ⟨a, ha, rfl⟩ := List.mem_map.1 hp
    rw [List.any_eq_true]
    exact ⟨a, ha, by rw [Option.isNone_iff_eq_none]; simpa using h⟩

/-- What the parameters of `optimize` are bound to. -/
theorem bound_optimize (pos : List V) (kw : Kwargs V) (h : pos.length ≤ 4) :
    (bound optimizeParams (.self :: pos.map .user) (asArgs kw) "self" =
        some (Arg.self : Arg d K V)) ∧
      (bound optimizeParams (.self :: pos.map .user) (asArgs kw) "objective_func" =
        (given pos kw 0 "objective_func").map (Arg.user : V → Arg d K V)) ∧
      (bound optimizeParams (.self :: pos.map .user) (asArgs kw) "iters" =
        (given pos kw 1 "iters").map (Arg.user : V → Arg d K V)) ∧
      (bound optimizeParams (.self :: pos.map .user) (asArgs kw) "n_processes" =
        ((given pos kw 2 "n_processes").map (Arg.user : V → Arg d K V)).or (some Arg.none)) ∧
      (bound optimizeParams (.self :: pos.map .user) (asArgs kw) "verbose" =
        ((given pos kw 3 "verbose").map (Arg.user : V → Arg d K V)).or (some Arg.true)) := by
  rcases pos with _ | ⟨a, _ | ⟨b, _ | ⟨c, _ | ⟨e, _ | ⟨g, l⟩⟩⟩⟩⟩
  all_goals first
    | (exfalso; simp only [List.length_cons] at h; omega)
    | (refine ⟨?_, ?_, ?_, ?_, ?_⟩ <;>
        simp [bound, optimizeParams, given, List.lookup, lookup_asArgs] <;>
        (generalize List.lookup _ kw = o; cases o <;> rfl))

/-- The first failing evaluation ends the run. -/
theorem optimize_first_fails [Field K] [LinearOrder K] [Transc K] [FloorRing K]
    (cfg : Config n d K) (ev : Nat → Mat n d K → Except Err (Costs n K)) (iters : Nat)
    (np : Option Nat) (env : Nat → Draw n d K) (s : Opt n d K) (e : Err) (hi : 1 ≤ iters)
    (hp : np ≠ some 0) (he : ev 0 s.swarm.position = .error e) :
    optimize cfg ev iters np env s =
      ({ prepare cfg s with openPools := s.openPools + (if np.isSome then 1 else 0) },
        .error e) := by
  obtain ⟨m, rfl⟩ : ∃ m, iters = m + 1 := ⟨iters - 1, by omega⟩
  unfold optimize
  rw [if_neg hp]
  have h1 : (prepare cfg s).swarm.position = s.swarm.position := rfl
  simp only [loop, iterate, h1, he]

theorem evalKw_eq (W : World d K V) (cfg : Config n d K) (f : V) (kw : Kwargs V)
    (pool : Nat → Option (Nat × List Nat)) (h1 : (names kw).Nodup) (h2 : "swarm" ∉ names kw)
    (h3 : "pool" ∉ names kw) (h4 : "objective_func" ∉ names kw) :
    evalKw W cfg f kw pool = evaluator (fun k rows => W.call k f rows kw) pool := by
  have hf : (asArgs kw : Kwargs (Arg d K V)).filter (fun a =>
      !(names (objectiveParams : Params (Arg d K V))).contains a.1) = asArgs kw := by
    rw [filter_asArgs kw fun p => !(names (objectiveParams : Params (Arg d K V))).contains p]
    congr 1
    rw [List.filter_eq_self]
    intro a ha
    have ha : a.1 ∈ names kw := List.mem_map.2 ⟨a, ha, rfl⟩
    rw [Bool.not_eq_true']
    refine Bool.eq_false_iff.2 fun hc => ?_
    have := List.contains_iff_mem.1 hc
    simp only [names, objectiveParams, List.map_cons, List.map_nil, List.mem_cons,
      List.not_mem_nil, or_false] at this
    rcases this with h | h | h
    · exact h2 (h ▸ ha)
    · exact h4 (h ▸ ha)
    · exact h3 (h ▸ ha)
  funext k x
  have hn : names (asArgs kw : Kwargs (Arg d K V)) = names kw := names_asArgs kw
  have hpos : objectiveKw W k [.swarm (rowsOf x), .user f, .pool (pool k)] (asArgs kw) =
      computeObjective (fun rows => W.call k f rows kw) (pool k) (rowsOf x) := by
    unfold objectiveKw
    rw [bindArgs_ok, hf]
    · show computeObjective (fun rows => W.call k f rows (users (asArgs kw))) (pool k)
        (rowsOf x) = _
      rw [users_asArgs]
    · rw [hn]; exact h1
    · simp [objectiveParams]
    · rw [hn]
      intro p hp
      simp [objectiveParams, names] at hp
      rcases hp with rfl | rfl | rfl
      · exact h2
      · exact h4
      · exact h3
    · left; rfl
    · intro p hp
      simp [objectiveParams, names] at hp
      rcases hp with rfl | rfl | rfl <;> simp [bound, objectiveParams, List.lookup]
  have hkey : objectiveKw W k [.swarm (rowsOf x), .user f]
        (("pool", .pool (pool k)) :: asArgs kw) =
      computeObjective (fun rows => W.call k f rows kw) (pool k) (rowsOf x) := by
    unfold objectiveKw
    have hn' : names (("pool", Arg.pool (pool k)) :: asArgs kw : Kwargs (Arg d K V)) =
        "pool" :: names kw := by
      rw [← hn]; rfl
    have hf' : (("pool", Arg.pool (pool k)) :: asArgs kw : Kwargs (Arg d K V)).filter (fun a =>
        !(names (objectiveParams : Params (Arg d K V))).contains a.1) = asArgs kw := by
      rw [List.filter_cons, hf]; rfl
    rw [bindArgs_ok, hf']
    · show computeObjective (fun rows => W.call k f rows (users (asArgs kw))) (pool k)
        (rowsOf x) = _
      rw [users_asArgs]
    · rw [hn']; exact List.nodup_cons.2 ⟨h3, h1⟩
    · simp [objectiveParams]
    · rw [hn']
      intro p hp
      simp [objectiveParams, names] at hp
      rcases hp with rfl | rfl
      · simpa using h2
      · simpa using h4
    · left; rfl
    · intro p hp
      simp [objectiveParams, names] at hp
      rcases hp with rfl | rfl | rfl <;> simp [bound, objectiveParams, List.lookup]
  unfold evalKw evaluator
  cases cfg.kind <;> simp only [hpos, hkey] <;>
    (cases computeObjective (fun rows => W.call k f rows kw) (pool k) (rowsOf x) <;> rfl)

/-- `swarm` or `pool` among the keyword arguments: the evaluation is a `TypeError`. -/
theorem evalKw_clash (W : World d K V) (cfg : Config n d K) (f : V) (kw : Kwargs V)
    (pool : Nat → Option (Nat × List Nat)) (h : "swarm" ∈ names kw ∨ "pool" ∈ names kw)
    (k : Nat) (x : Mat n d K) : evalKw W cfg f kw pool k x = .error .typeError := by
  have hn : names (asArgs kw : Kwargs (Arg d K V)) = names kw := names_asArgs kw
  have hpos : objectiveKw W k [.swarm (rowsOf x), .user f, .pool (pool k)] (asArgs kw) =
      .error .typeError := by
    unfold objectiveKw
    rw [bindArgs_error]
    refine Or.inr (Or.inr (Or.inl ?_))
    rw [hn]
    rcases h with h | h
    · exact ⟨_, by simp [objectiveParams, names], h⟩
    · exact ⟨_, by simp [objectiveParams, names], h⟩
  have hkey : objectiveKw W k [.swarm (rowsOf x), .user f]
        (("pool", .pool (pool k)) :: asArgs kw) = .error .typeError := by
    unfold objectiveKw
    have hn' : names (("pool", Arg.pool (pool k)) :: asArgs kw : Kwargs (Arg d K V)) =
        "pool" :: names kw := by
      rw [← hn]; rfl
    rw [bindArgs_error]
    rcases h with h | h
    · refine Or.inr (Or.inr (Or.inl ?_))
      rw [hn']
      exact ⟨"swarm", by simp [objectiveParams, names], List.mem_cons_of_mem _ h⟩
    · left
      rw [hn', List.nodup_cons]
      exact fun hh => hh.1 h
  unfold evalKw
  cases cfg.kind <;> simp only [hpos, hkey]

theorem mem_names_others (kw : Kwargs V) (p : String) :
    p ∈ names (others kw) ↔ p ∈ names kw ∧ p ∉ own := by
  unfold names others
  simp only [List.mem_map, List.mem_filter, decide_eq_true_eq]
  constructor
  · rintro ⟨a, ⟨ha, hb⟩, rfl⟩; exact ⟨⟨a, ha, rfl⟩, hb⟩
  · rintro ⟨⟨a, ha, rfl⟩, hb⟩; exact ⟨a, ⟨ha, hb⟩, rfl⟩

theorem given_isSome (pos : List V) (kw : Kwargs V) (i : Nat) (p : String) :
    (given pos kw i p).isSome = true ↔ i + 1 ≤ pos.length ∨ p ∈ names kw := by
  unfold given
  by_cases h : i < pos.length
  · rw [List.getElem?_eq_getElem h]
    simp only [Option.isSome_some, true_iff]
    left; omega
  · rw [List.getElem?_eq_none (by omega)]
    simp only [lookup_isSome]
    constructor
    · exact Or.inr
    · rintro (h' | h')
      · omega
      · exact h'

/-- How a legal call of `optimize` is bound. -/
theorem bind_optimize (pos : List V) (kw : Kwargs V) (h : Acceptable pos kw) :
    bindArgs optimizeParams Bool.true (.self :: pos.map .user) (asArgs kw) =
      .ok (bound optimizeParams (.self :: pos.map .user) (asArgs kw),
        (asArgs (others kw) : Kwargs (Arg d K V))) := by
  have hn : names (asArgs kw : Kwargs (Arg d K V)) = names kw := names_asArgs kw
  have hl : names (optimizeParams : Params (Arg d K V)) = "self" :: own := rfl
  rw [bindArgs_ok]
  · rw [filter_asArgs kw fun p => !(names (optimizeParams : Params (Arg d K V))).contains p]
    congr 3
    unfold others
    apply List.filter_congr
    intro a ha
    have ha : a.1 ∈ names kw := List.mem_map.2 ⟨a, ha, rfl⟩
    rw [hl]
    have hs : a.1 ≠ "self" := fun hc => h.noSelf (hc ▸ ha)
    by_cases ho : a.1 ∈ own <;> simp [ho, hs]
  · rw [hn]; exact h.distinct
  · have := h.few
    simp only [List.length_cons, List.length_map, optimizeParams, List.length_nil]
    omega
  · rw [hn, hl]
    intro p hp
    rw [List.length_cons, List.length_map, List.take_succ_cons, List.mem_cons] at hp
    rcases hp with rfl | hp
    · exact h.noSelf
    · exact h.once p hp
  · left; rfl
  · rw [hl]
    obtain ⟨b1, b2, b3, b4, b5⟩ := bound_optimize (d := d) (K := K) pos kw h.few
    intro p hp
    simp only [own, List.mem_cons, List.not_mem_nil, or_false] at hp
    rcases hp with rfl | rfl | rfl | rfl | rfl
    · rw [b1]; rfl
    · rw [b2, Option.isSome_map]; exact (given_isSome _ _ _ _).2 h.objective
    · rw [b3, Option.isSome_map]; exact (given_isSome _ _ _ _).2 h.iters
    · rw [b4]; simp
    · rw [b5]; simp

theorem nprocOf_eq (W : World d K V) (o : Option V) (np : Option Nat) (h : Processes W o np) :
    nprocOf W ((o.map Arg.user).or (some Arg.none)) = some np := by
  cases o with
  | none => rw [show np = none from h]; rfl
  | some v =>
    rcases h with ⟨h1, h2⟩ | ⟨h1, z, h2, h3⟩
    · simp [nprocOf, h1, h2]
    · simp [nprocOf, h1, h2, h3]

/-- A legal call of `optimize` is a run whose evaluations get the remaining keyword arguments. -/
theorem optimizeKw_eq [Field K] [LinearOrder K] [Transc K] [FloorRing K] (W : World d K V)
    (cfg : Config n d K) (pos : List V) (kw : Kwargs V) (sched : Nat → List Nat)
    (env : Nat → Draw n d K) (s : Opt n d K) (f it : V) (z : Int) (np : Option Nat)
    (h : Acceptable pos kw) (hf : given pos kw 0 "objective_func" = some f)
    (hi : given pos kw 1 "iters" = some it) (hz : W.int? it = some z)
    (hp : Processes W (given pos kw 2 "n_processes") np) :
    optimizeKw W cfg pos kw sched env s =
      optimize cfg (evalKw W cfg f (others kw) fun k => np.map fun p => (p, sched k)) z.toNat np
        env s := by
  obtain ⟨b1, b2, b3, b4, b5⟩ := bound_optimize (d := d) (K := K) pos kw h.few
  unfold optimizeKw
  rw [bind_optimize pos kw h]
  simp only [b2, b3, b4, hf, hi, Option.map_some, nprocOf_eq W _ np hp, itersOf, hz,
    users_asArgs]

/-! ## Theorems -/

section
variable [Field K] [LinearOrder K] [Transc K] [FloorRing K]

/-- C103: keyword arguments reach the objective.  However the arguments of `optimize` itself are
written (by position, by keyword, left out), every other keyword argument is passed on, with the
same value, in every evaluation: the run is the run of `lambda x: f(x, **others)`.  For every kind
of optimizer, with or without a pool, whatever the objective does with the arguments; the only names
that may not be used are `swarm` and `pool`. -/
theorem C103_reach (W : World d K V) (cfg : Config n d K) (pos : List V) (kw : Kwargs V)
    (sched : Nat → List Nat) (env : Nat → Draw n d K) (s : Opt n d K) (f it : V) (z : Int)
    (np : Option Nat) (h : Acceptable pos kw) (hf : given pos kw 0 "objective_func" = some f)
    (hi : given pos kw 1 "iters" = some it) (hz : W.int? it = some z)
    (hp : Processes W (given pos kw 2 "n_processes") np)
    (hs : "swarm" ∉ names kw) (hq : "pool" ∉ names kw) :
    optimizeKw W cfg pos kw sched env s =
      optimize cfg (evaluator (fun k x => W.call k f x (others kw))
        fun k => np.map fun p => (p, sched k)) z.toNat np env s := by
  rw [optimizeKw_eq W cfg pos kw sched env s f it z np h hf hi hz hp, evalKw_eq]
  · exact h.distinct.sublist (List.Sublist.map _ List.filter_sublist)
  · rw [mem_names_others]; exact fun hh => hs hh.1
  · rw [mem_names_others]; exact fun hh => hq hh.1
  · rw [mem_names_others]; exact fun hh => hh.2 (by simp [own])

/-- C103: an objective whose parameter is called `swarm` or `pool` cannot be given that parameter
through `optimize`: the first evaluation raises `TypeError`, the objective is not called, the swarm
is as it was except that the personal best costs are infinite, and a pool, if one was asked for,
stays open. -/
theorem C103_clash (W : World d K V) (cfg : Config n d K) (pos : List V) (kw : Kwargs V)
    (sched : Nat → List Nat) (env : Nat → Draw n d K) (s : Opt n d K) (f it : V) (z : Int)
    (np : Option Nat) (h : Acceptable pos kw) (hf : given pos kw 0 "objective_func" = some f)
    (hi : given pos kw 1 "iters" = some it) (hz : W.int? it = some z) (hpos : 1 ≤ z)
    (hp : Processes W (given pos kw 2 "n_processes") np) (hp0 : np ≠ some 0)
    (hs : "swarm" ∈ names kw ∨ "pool" ∈ names kw) :
    ∃ s', optimizeKw W cfg pos kw sched env s = (s', .error .typeError) ∧
      s'.swarm = { s.swarm with pbestCost := fun _ => XR.pinf } ∧
      s'.evals = s.evals ∧ s'.costHistory = s.costHistory ∧
      s'.openPools = s.openPools + (if np.isSome then 1 else 0) := by
  refine ⟨{ prepare cfg s with openPools := s.openPools + (if np.isSome then 1 else 0) },
    ?_, rfl, rfl, rfl, rfl⟩
  · rw [optimizeKw_eq W cfg pos kw sched env s f it z np h hf hi hz hp]
    apply optimize_first_fails
    · omega
    · exact hp0
    · apply evalKw_clash
      rw [mem_names_others, mem_names_others]
      rcases hs with hs | hs
      · exact Or.inl ⟨hs, by simp [own]⟩
      · exact Or.inr ⟨hs, by simp [own]⟩

/-- C103: any other call is refused before anything happens: `TypeError`, and the optimizer is
untouched. -/
theorem C103_refused (W : World d K V) (cfg : Config n d K) (pos : List V) (kw : Kwargs V)
    (sched : Nat → List Nat) (env : Nat → Draw n d K) (s : Opt n d K)
    (h : ¬ Acceptable pos kw) :
    optimizeKw W cfg pos kw sched env s = (s, .error .typeError) := by
  have hn : names (asArgs kw : Kwargs (Arg d K V)) = names kw := names_asArgs kw
  have hl : names (optimizeParams : Params (Arg d K V)) = "self" :: own := rfl
  unfold optimizeKw
  rw [bindArgs_error]
  rw [hn, hl]
  by_contra hc
  simp only [not_or, not_not, not_exists, not_and, List.length_cons, List.length_map,
    List.take_succ_cons] at hc
  obtain ⟨c1, c2, c3, _, c5⟩ := hc
  have hfew : pos.length ≤ 4 := by
    simp only [optimizeParams, List.length_cons, List.length_nil] at c2; omega
  obtain ⟨b1, b2, b3, b4, b5⟩ := bound_optimize (d := d) (K := K) pos kw hfew
  refine h ⟨c1, hfew, c3 _ (by simp), fun p hp => c3 p (by simp [hp]), ?_, ?_⟩
  · have := c5 "objective_func" (by simp [own])
    rw [b2, Option.isSome_map, Bool.not_eq_false] at this
    exact (given_isSome _ _ _ _).1 this
  · have := c5 "iters" (by simp [own])
    rw [b3, Option.isSome_map, Bool.not_eq_false] at this
    exact (given_isSome _ _ _ _).1 this

end

/-- C103: `@cost` passes the keyword arguments on to the decorated function, for every particle;
`particles` is the one name it takes away. -/
theorem C103_cost (g : Vec d K → Kwargs V → Except Err (PyVal K)) (x : List (Vec d K))
    (kw : Kwargs V) (hd : (names kw).Nodup) :
    ("particles" ∉ names kw → costDecKw g x kw = costDec (fun row => g row kw) x) ∧
      ("particles" ∈ names kw → costDecKw g x kw = .error .typeError) := by
  have hn : names (asArgs kw : Kwargs (Arg d K V)) = names kw := names_asArgs kw
  constructor
  · intro h
    have hf : (asArgs kw : Kwargs (Arg d K V)).filter (fun a =>
        !(names [("particles", (Option.none : Option (Arg d K V)))]).contains a.1) =
          asArgs kw := by
      rw [filter_asArgs kw fun p =>
        !(names [("particles", (Option.none : Option (Arg d K V)))]).contains p]
      congr 1
      rw [List.filter_eq_self]
      intro a ha
      have ha : a.1 ∈ names kw := List.mem_map.2 ⟨a, ha, rfl⟩
      rw [Bool.not_eq_true']
      refine Bool.eq_false_iff.2 fun hc => ?_
      have := List.contains_iff_mem.1 hc
      simp only [names, List.map_cons, List.map_nil, List.mem_cons, List.not_mem_nil,
        or_false] at this
      exact h (this ▸ ha)
    unfold costDecKw
    rw [bindArgs_ok, hf]
    · show costDec (fun row => g row (users (asArgs kw : Kwargs (Arg d K V)))) x = _
      rw [users_asArgs]
    · rw [hn]; exact hd
    · simp
    · rw [hn]
      intro p hp
      simp only [names, List.map_cons, List.map_nil, List.length_cons, List.length_nil,
        Nat.zero_add, List.take_succ_cons, List.take_zero, List.mem_cons, List.not_mem_nil,
        or_false] at hp
      rw [hp]; exact h
    · left; rfl
    · intro p hp
      simp only [names, List.map_cons, List.map_nil, List.mem_cons, List.not_mem_nil,
        or_false] at hp
      rw [hp]; rfl
  · intro h
    unfold costDecKw
    rw [bindArgs_error]
    refine Or.inr (Or.inr (Or.inl ⟨"particles", by simp [names], ?_⟩))
    rw [hn]; exact h

/-- The keyword arguments suit `def f(x, …)`: none is called like the first parameter, none is
unknown (unless `f` takes `**kwargs`), and every parameter without default is given. -/
structure Suits (x : String) (ps : Params V) (varkw : Bool) (kw : Kwargs V) : Prop where
  first : x ∉ names kw
  known : varkw = true ∨ ∀ p ∈ names kw, p ∈ names ps
  complete : ∀ a ∈ ps, a.2 = none → a.1 ∈ names kw

theorem bound_declared (x : String) (ps : Params V) (rows : List (Vec d K)) (kw : Kwargs V)
    (p : String) (hx : p ≠ x) :
    bound ((x, Option.none) :: ps.map fun p => (p.1, p.2.map Arg.user)) [Arg.swarm rows]
        (asArgs kw : Kwargs (Arg d K V)) p =
      ((kw.lookup p).or (ps.lookup p).join).map Arg.user := by
  have h1 : ∀ l : Params V, ((l.map fun p => (p.1, p.2.map (Arg.user : V → Arg d K V))).lookup p).join =
      (l.lookup p).join.map Arg.user := by
    intro l
    induction l with
    | nil => rfl
    | cons a l ih =>
      rw [List.map_cons, List.lookup_cons, List.lookup_cons]
      cases p == a.1
      · exact ih
      · rfl
  have h2 : (p == x) = false := by simpa using hx
  unfold bound
  rw [lookup_asArgs, List.lookup_cons]
  simp only [List.map_cons, List.zip_cons_cons, List.zip_nil_right, List.lookup_cons, h2,
    List.lookup_nil, h1]
  cases kw.lookup p <;> rfl

/-- C103: an objective with declared parameters gets the value passed for each of them, or else its
default; arguments that do not suit it are a `TypeError`. -/
theorem C103_declared (x : String) (ps : Params V) (varkw : Bool)
    (body : List (Vec d K) → (String → Option V) → Except Err (List (XR K)))
    (rows : List (Vec d K)) (kw : Kwargs V) (hd : (names kw).Nodup)
    (hps : (x :: names ps).Nodup) :
    (Suits x ps varkw kw → declared x ps varkw body rows kw = body rows fun p =>
      if p ∈ names ps then (kw.lookup p).or (ps.lookup p).join else none) ∧
    (¬ Suits x ps varkw kw → declared x ps varkw body rows kw = .error .typeError) := by
  have hn : names (asArgs kw : Kwargs (Arg d K V)) = names kw := names_asArgs kw
  have hl : names ((x, (Option.none : Option (Arg d K V))) ::
      ps.map fun p => (p.1, p.2.map Arg.user)) = x :: names ps := by
    unfold names
    rw [List.map_cons, List.map_map]
    rfl
  have hx : ∀ p ∈ names ps, p ≠ x := by
    intro p hp hc
    exact (List.nodup_cons.1 hps).1 (hc ▸ hp)
  have hlook : ∀ a ∈ ps, ps.lookup a.1 = some a.2 := by
    have hnd := (List.nodup_cons.1 hps).2
    clear hps hl hx
    induction ps with
    | nil => intro a ha; cases ha
    | cons b l ih =>
      intro a ha
      unfold names at hnd ih
      rw [List.map_cons, List.nodup_cons] at hnd
      rw [List.lookup_cons]
      rcases List.mem_cons.1 ha with rfl | ha
      · simp
      · have : (a.1 == b.1) = false := by
          rw [beq_eq_false_iff_ne]
          intro hc
          exact hnd.1 (hc ▸ List.mem_map.2 ⟨a, ha, rfl⟩)
        rw [this]
        exact ih hnd.2 a ha
  have hself : bound ((x, Option.none) :: ps.map fun p => (p.1, p.2.map Arg.user))
      [Arg.swarm rows] (asArgs kw : Kwargs (Arg d K V)) x = some (Arg.swarm rows) := by
    unfold bound
    simp
  constructor
  · intro h
    unfold declared
    rw [bindArgs_ok]
    · simp only [hself]
      congr 1
      funext p
      by_cases hp : p ∈ names ps
      · have hc : (ps.map Prod.fst).contains p = true := List.contains_iff_mem.2 hp
        rw [if_pos hc, if_pos hp, bound_declared x ps rows kw p (hx p hp)]
        cases (kw.lookup p).or (ps.lookup p).join <;> rfl
      · have hc : ¬ (ps.map Prod.fst).contains p = true := fun hc => hp (List.contains_iff_mem.1 hc)
        rw [if_neg hc, if_neg hp]
    · rw [hn]; exact hd
    · simp
    · rw [hn, hl]
      intro p hp
      simp only [List.length_cons, List.length_nil, Nat.zero_add, List.take_succ_cons,
        List.take_zero, List.mem_cons, List.not_mem_nil, or_false] at hp
      rw [hp]; exact h.first
    · rcases h.known with hk | hk
      · exact Or.inl hk
      · right
        rw [hn, hl]
        exact fun p hp => List.mem_cons_of_mem _ (hk p hp)
    · rw [hl]
      intro p hp
      rcases List.mem_cons.1 hp with rfl | hp
      · rw [hself]; rfl
      · rw [bound_declared x ps rows kw p (hx p hp), Option.isSome_map]
        obtain ⟨a, ha, rfl⟩ := List.mem_map.1 hp
        rw [hlook a ha]
        cases hv : a.2 with
        | some v => simp
        | none =>
          have := (lookup_isSome kw a.1).2 (h.complete a ha hv)
          rw [Option.isSome_or, this]; rfl
  · intro h
    unfold declared
    rw [bindArgs_error]
    rw [hn, hl]
    by_contra hc
    simp only [not_or, not_not, not_exists, not_and, List.length_cons, List.length_nil,
      Nat.zero_add, List.take_succ_cons, List.take_zero] at hc
    obtain ⟨-, -, c3, c4, c5⟩ := hc
    have hfirst := c3 x (by simp)
    refine h ⟨hfirst, ?_, ?_⟩
    · cases varkw with
      | true => exact Or.inl rfl
      | false =>
        right
        intro p hp
        have := c4 rfl p hp
        rcases List.mem_cons.1 this with rfl | hq
        · exact absurd hp hfirst
        · exact hq
    · intro a ha hv
      have hp : a.1 ∈ names ps := List.mem_map.2 ⟨a, ha, rfl⟩
      have := c5 a.1 (List.mem_cons_of_mem _ hp)
      rw [bound_declared x ps rows kw a.1 (hx _ hp), Option.isSome_map, hlook a ha, hv,
        Bool.not_eq_false] at this
      rw [← lookup_isSome]
      simpa using this

/-- An objective that always raises the same exception: so does evaluating it, by any number of
processes, in whatever order the tasks end, as soon as one has ended. -/
theorem computeObjective_fails (f : Objective d K) (e : Err) (hf : ∀ rows, f rows = .error e)
    (pool : Option (Nat × List Nat)) (x : List (Vec d K))
    (hp : ∀ p sched, pool = some (p, sched) → ∃ k ∈ sched, k < (arraySplit x p).length) :
    computeObjective f pool x = .error e := by
  cases pool with
  | none => exact hf x
  | some q =>
    obtain ⟨p, sched⟩ := q
    have key : ∀ (tasks : List (List (Vec d K))) (sched : List Nat) (r : MapResult (List (XR K))),
        (r.failure = some e ∨ (r.failure = none ∧ ∃ k ∈ sched, k < tasks.length)) →
        (sched.foldl (MapResult.arrive f tasks) r).failure = some e := by
      intro tasks sched
      induction sched with
      | nil =>
        rintro r (h | ⟨_, k, hk, _⟩)
        · exact h
        · cases hk
      | cons k l ih =>
        intro r h
        rw [List.foldl_cons]
        apply ih
        by_cases hk : k < tasks.length
        · left
          unfold MapResult.arrive
          rw [List.getElem?_eq_getElem hk]
          simp only [hf]
          rcases h with h | h
          · rw [h]
          · rw [h.1]
        · have : MapResult.arrive f tasks r k = r := by
            unfold MapResult.arrive
            rw [List.getElem?_eq_none (by omega)]
          rw [this]
          rcases h with h | ⟨h, j, hj, hlt⟩
          · exact Or.inl h
          · refine Or.inr ⟨h, j, ?_, hlt⟩
            rcases List.mem_cons.1 hj with rfl | hj
            · exact absurd hlt hk
            · exact hj
    have h := key (arraySplit x p) sched {} (Or.inr ⟨rfl, hp p sched rfl⟩)
    simp only [computeObjective, poolMap, h]

/-- C103: a parameter of the objective that was forgotten (or misspelt) shows at once: `TypeError`
from the first evaluation, serial or parallel, and nothing is recorded. -/
theorem C103_forgotten [Field K] [LinearOrder K] [Transc K] [FloorRing K] (W : World d K V)
    (cfg : Config n d K) (pos : List V) (kw : Kwargs V)
    (sched : Nat → List Nat) (env : Nat → Draw n d K) (s : Opt n d K) (f it : V) (z : Int)
    (np : Option Nat) (h : Acceptable pos kw) (hf : given pos kw 0 "objective_func" = some f)
    (hi : given pos kw 1 "iters" = some it) (hz : W.int? it = some z) (hpos : 1 ≤ z)
    (hp : Processes W (given pos kw 2 "n_processes") np) (hp0 : np ≠ some 0)
    (hs : "swarm" ∉ names kw) (hq : "pool" ∉ names kw)
    (hsched : ∀ p, np = some p → ∃ k ∈ sched 0, k < p)
    (x : String) (ps : Params V) (varkw : Bool)
    (body : List (Vec d K) → (String → Option V) → Except Err (List (XR K)))
    (hps : (x :: names ps).Nodup)
    (hdecl : ∀ k rows kw, W.call k f rows kw = declared x ps varkw body rows kw)
    (hbad : ¬ Suits x ps varkw (others kw)) :
    ∃ s', optimizeKw W cfg pos kw sched env s = (s', .error .typeError) ∧
      s'.swarm = { s.swarm with pbestCost := fun _ => XR.pinf } ∧
      s'.evals = s.evals ∧ s'.costHistory = s.costHistory ∧
      s'.openPools = s.openPools + (if np.isSome then 1 else 0) := by
  refine ⟨{ prepare cfg s with openPools := s.openPools + (if np.isSome then 1 else 0) },
    ?_, rfl, rfl, rfl, rfl⟩
  rw [C103_reach W cfg pos kw sched env s f it z np h hf hi hz hp hs hq]
  apply optimize_first_fails
  · omega
  · exact hp0
  · unfold evaluator
    rw [computeObjective_fails _ .typeError]
    · intro rows
      show W.call 0 f rows (others kw) = _
      rw [hdecl]
      exact (C103_declared x ps varkw body rows (others kw)
        (h.distinct.sublist (List.Sublist.map _ List.filter_sublist)) hps).2 hbad
    · intro p l hpl
      cases hnp : np with
      | none => rw [hnp] at hpl; cases hpl
      | some q =>
        rw [hnp] at hpl hp0
        simp only [Option.map_some, Option.some.injEq, Prod.mk.injEq] at hpl
        obtain ⟨rfl, rfl⟩ := hpl
        rw [(C30_split (rowsOf s.swarm.position) q
          (Nat.pos_of_ne_zero fun hc => hp0 (by rw [hc]))).2.1]
        exact hsched q hnp

/-! ## Examples -/

namespace Ex

/-- Python objects of the examples: `None`, integers, numbers, and one function. -/
inductive Obj
  | none
  | int (z : Int)
  | num (q : ℚ)
  | fn
  deriving DecidableEq

/-- The parameters of the function: `def f(x, a, b=1)`. -/
def params : Params Obj := [("a", Option.none), ("b", some (.num 1))]

/-- Its body: `a * x[:, 0] ** 2 + b`. -/
def body (rows : List (Vec 1 ℚ)) (p : String → Option Obj) : Except Err (List (XR ℚ)) :=
  match p "a", p "b" with
  | some (.num a), some (.num b) => .ok (rows.map fun x => .fin (a * x 0 * x 0 + b))
  | _, _ => .error (.user 7)

/-- The world of the examples. -/
def world : World 1 ℚ Obj where
  call := fun _ v rows kw => match v with
    | .fn => declared "x" params false body rows kw
    | _ => .error .typeError
  isNone := fun v => decide (v = .none)
  int? := fun v => match v with
    | .int z => some z
    | _ => Option.none

/-- A swarm of three particles on the line, at 1, 2 and 3. -/
def start : Opt 3 1 ℚ where
  swarm := mkSwarm (fun i _ => ((i : Nat) : ℚ) + 1) (fun _ _ => 1 / 2) PySwarms.Ex.opts

/-- The recorded best costs, the exception and the number of open pools after a call on that swarm. -/
def outcome (pos : List Obj) (kw : Kwargs Obj) : List (XR ℚ) × Option Err × Nat :=
  let r := optimizeKw world (PySwarms.Ex.gcfg 3 1) pos kw (fun _ => [1, 0])
    (fun _ => PySwarms.Ex.draw 3 1) start
  (r.1.costHistory, match r.2 with
    | .ok _ => Option.none
    | .error e => some e, r.1.openPools)

/-- `optimize(f, 2, a=3)`, `optimize(f, iters=2, n_processes=2, a=3, b=0)` and
`optimize(a=5, iters=1, objective_func=f, verbose=None)`: the objective sees `a` and `b`. -/
example : outcome [.fn, .int 2] [("a", .num 3)] = ([.fin 4, .fin 4], Option.none, 0) ∧
    outcome [.fn] [("iters", .int 2), ("n_processes", .int 2), ("a", .num 3), ("b", .num 0)] =
      ([.fin 3, .fin 3], Option.none, 0) ∧
    outcome [] [("a", .num 5), ("iters", .int 1), ("objective_func", .fn), ("verbose", .none)] =
      ([.fin 6], Option.none, 0) := by
  decide +kernel

/-- `a` forgotten, an unknown name, the name of the first parameter, `pool`, `swarm` with two
processes (which leaves a pool open); then three calls refused at once: `iters` missing, `iters`
given twice, too many positional arguments. -/
example : [outcome [.fn, .int 2] [], outcome [.fn, .int 2] [("a", .num 3), ("c", .num 1)],
      outcome [.fn, .int 2] [("a", .num 3), ("x", .num 1)],
      outcome [.fn, .int 2] [("a", .num 3), ("pool", .num 1)],
      outcome [.fn, .int 2, .int 2] [("a", .num 3), ("swarm", .num 1)],
      outcome [.fn] [("a", .num 3)], outcome [.fn, .int 2] [("iters", .int 2)],
      outcome [.fn, .int 2, .none, .none, .num 3] []] =
    [([], some .typeError, 0), ([], some .typeError, 0), ([], some .typeError, 0),
      ([], some .typeError, 0), ([], some .typeError, 1), ([], some .typeError, 0),
      ([], some .typeError, 0), ([], some .typeError, 0)] := by
  decide +kernel

/-- The hypotheses of `C103_reach` are met by the second call, those of `C103_clash` and
`C103_forgotten` by a change of keywords. -/
example : Acceptable [Obj.fn] [("iters", .int 2), ("n_processes", .int 2), ("a", .num 3)] ∧
    given [Obj.fn] [("iters", .int 2), ("n_processes", .int 2), ("a", .num 3)] 0 "objective_func" =
      some .fn ∧
    given [Obj.fn] [("iters", .int 2), ("n_processes", .int 2), ("a", .num 3)] 1 "iters" =
      some (.int 2) ∧
    world.int? (.int 2) = some 2 ∧ Processes world (some (.int 2)) (some 2) ∧
    others [("iters", Obj.int 2), ("n_processes", .int 2), ("a", .num 3)] = [("a", .num 3)] ∧
    Suits "x" params false [("a", .num 3)] ∧ ¬ Suits "x" params false [("b", .num 3)] := by
  refine ⟨⟨by decide, by decide, by decide, by decide, by decide, by decide⟩, by decide, by decide,
    by decide, Or.inr ⟨by decide, 2, rfl, rfl⟩, by decide,
    ⟨by decide, Or.inr (by decide), ?_⟩, fun h => ?_⟩
  · intro a ha hv
    simp only [params, List.mem_cons, List.not_mem_nil, or_false] at ha
    rcases ha with rfl | rfl
    · decide
    · cases hv
  · exact absurd (h.complete ("a", Option.none) (by simp [params]) rfl) (by decide)

/-- A call that is not legal. -/
example : ¬ Acceptable [Obj.fn, .int 2] [("iters", .int 2)] := fun h =>
  absurd (h.once "iters" (by decide)) (by decide)

/-- `@cost` with a keyword: each particle's cost is `a * x`. -/
example : costDecKw (fun (row : Vec 1 ℚ) (kw : Kwargs Obj) => match kw with
      | [("a", .num a)] => .ok (.scalar (.fin (a * row 0)))
      | _ => .error .typeError) [fun _ => 2, fun _ => 5] [("a", .num 3)] =
    .ok [.fin 6, .fin 15] := by
  rw [(C103_cost _ _ _ (by decide)).1 (by decide)]
  norm_num [costDec, costValues, packValues, PyVal.number]

end Ex

end PySwarms.Kw

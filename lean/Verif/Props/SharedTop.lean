import Verif.Lemmas.SharedTop
import Verif.Examples

/-!
# Topology objects used by several optimizers (C97)
-/

set_option linter.unusedSectionVars false

namespace PySwarms

variable {n d : Nat} {K : Type}

/-! ### Specification -/

/-- The calls on the `j`-th optimizer, in their order. -/
def callsOf {ι : Type} [DecidableEq ι] {N D : ι → Nat} (j : ι)
    (calls : List ((j : ι) × Op (N j) (D j) K)) : List (Op (N j) (D j) K) :=
  calls.filterMap fun c => if h : c.1 = j then some (h ▸ c.2) else none

/-- Topologies that keep their first neighbour lists: `Ring`, `Pyramid`, `Random` with
`static=True`, `VonNeumann`. -/
def TopKind.Static (kind : TopKind) : Prop :=
  kind = .ring true ∨ kind = .vonNeumann ∨ kind = .pyramid true ∨ kind = .random true

/-- `compute_gbest` with these arguments on a swarm of `n` particles in `d` dimensions looks at the
neighbour lists: not with one neighbour only, and not in a `Pyramid` with too few particles for a
triangulation. -/
def TopKind.Looks (kind : TopKind) (args : TopArgs) (n d : Nat) : Prop :=
  kind.degree args d ≠ some 1 ∧ ((∃ st, kind = .pyramid st) → d < n)

section
variable [LT K] [DecidableLT K]

/-! ### Neighbour lists that are kept -/

theorem ringObj_kept (k p : Nat) (o : Oracle n d K) (t : TopObj) (s : Swarm n d K)
    {rows : List (List Nat)} (h : t.neighbor = some rows) :
    (ringObj true k p o t s).1.neighbor = some rows ∧
      (k ≠ 1 → (ringObj true k p o t s).1 = t) := by
  unfold ringObj
  have hq : ¬ ((true && t.neighbor.isNone) || !true) = true := by rw [h]; simp
  rw [if_neg hq]
  dsimp only
  by_cases hk : k = 1
  · rw [if_pos hk]
    refine ⟨?_, fun h' => absurd hk h'⟩
    split <;> exact h
  · rw [if_neg hk, h]
    dsimp only
    split <;> exact ⟨h, fun _ => rfl⟩

theorem gbestObj_kept (kind : TopKind) (hs : kind.Static) (args : TopArgs)
    (hp : (∃ st, kind = .pyramid st) → d < n) (o : Oracle n d K) (t : TopObj) (s : Swarm n d K)
    {rows : List (List Nat)} (h : t.neighbor = some rows) :
    (gbestObj kind args o t s).1.neighbor = some rows ∧
      (kind.degree args d ≠ some 1 → (gbestObj kind args o t s).1 = t) := by
  rcases hs with hk | hk | hk | hk <;> subst hk <;> unfold gbestObj <;> dsimp only
  · cases hk : args.k with
    | none => exact ⟨h, fun _ => rfl⟩
    | some k =>
      cases args.p with
      | none => exact ⟨h, fun _ => rfl⟩
      | some p =>
        obtain ⟨h1, h2⟩ := ringObj_kept k p o t s h
        exact ⟨h1, fun h' => h2 fun e => h' (by simp [TopKind.degree, hk, e])⟩
  · cases args.p with
    | none => exact ⟨h, fun _ => rfl⟩
    | some p =>
      cases hk : args.r with
      | none => exact ⟨h, fun _ => rfl⟩
      | some r =>
        obtain ⟨h1, h2⟩ := ringObj_kept (delannoy d r) p o t s h
        exact ⟨h1, fun h' => h2 fun e => h' (by simp [TopKind.degree, hk, e])⟩
  · unfold pyramidObj
    have hd : ¬ n < d + 1 := by
      have := hp ⟨true, rfl⟩
      omega
    have hq : ¬ ((true && t.neighbor.isNone) || !true) = true := by rw [h]; simp
    rw [if_neg hd, if_neg hq]
    dsimp only
    rw [h]
    exact ⟨h, fun _ => rfl⟩
  · cases args.k with
    | none => exact ⟨h, fun _ => rfl⟩
    | some k =>
      dsimp only
      unfold randomObj
      have hq : ¬ ((true && t.neighbor.isNone) || !true) = true := by rw [h]; simp
      rw [if_neg hq]
      dsimp only
      rw [h]
      exact ⟨h, fun _ => rfl⟩

end

section
variable [Field K] [LinearOrder K] [Transc K] [FloorRing K]

theorem iterateObj_obj (top : TopKind) (cfg : Config n d K)
    (ev : Mat n d K → Except Err (Costs n K)) (r : Draw n d K) (iters i : Nat) (q : List Bool)
    (t : TopObj) (s : Opt n d K) :
    (iterateObj top cfg ev r iters i q t s).1 =
      match ev s.swarm.position with
      | .error _ => t
      | .ok c => (gbestObj top cfg.args r.oracle t (recordEval c s).swarm).1 := by
  unfold iterateObj
  cases ev s.swarm.position with
  | error e => rfl
  | ok c =>
    dsimp only
    generalize gbestObj top cfg.args r.oracle t (recordEval c s).swarm = X
    obtain ⟨t', X⟩ := X
    cases X with
    | error e => rfl
    | ok a =>
      dsimp only
      split
      · rfl
      · generalize moveAnswer cfg r iters i a _ = Z
        obtain ⟨s3, Z⟩ := Z
        cases Z <;> rfl

theorem loopObj_inv {I : TopObj → Prop} (top : TopKind) (cfg : Config n d K)
    (hI : ∀ t, I t → ∀ (o : Oracle n d K) (s : Swarm n d K), I (gbestObj top cfg.args o t s).1)
    (ev : Nat → Mat n d K → Except Err (Costs n K)) (env : Nat → Draw n d K) (iters : Nat) :
    ∀ (m i : Nat) (q : List Bool) (t : TopObj) (s : Opt n d K), I t →
      I (loopObj top cfg ev env iters m i q t s).1 := by
  intro m
  induction m with
  | zero => exact fun i q t s h => h
  | succ m ih =>
    intro i q t s h
    have h1 : I (iterateObj top cfg (ev i) (env i) iters i q t s).1 := by
      rw [iterateObj_obj]
      cases ev i s.swarm.position with
      | error e => exact h
      | ok c => exact hI t h _ _
    unfold loopObj
    revert h1
    generalize iterateObj top cfg (ev i) (env i) iters i q t s = X
    obtain ⟨t', s', X⟩ := X
    intro h1
    cases X with
    | error e => exact h1
    | ok f =>
      cases f with
      | stop => exact h1
      | «continue» q' => exact ih (i + 1) q' t' s' h1

theorem optimizeObj_obj (top : TopKind) (cfg : Config n d K)
    (ev : Nat → Mat n d K → Except Err (Costs n K)) (iters : Nat) (nproc : Option Nat)
    (env : Nat → Draw n d K) (t : TopObj) (s : Opt n d K) (hn : nproc ≠ some 0) :
    (optimizeObj top cfg ev iters nproc env t s).1 =
      (loopObj top cfg ev env iters iters 0 [] t { prepare cfg s with
        openPools := s.openPools + (if nproc.isSome then 1 else 0) }).1 := by
  unfold optimizeObj
  rw [if_neg hn]
  dsimp only
  generalize loopObj top cfg ev env iters iters 0 [] t _ = X
  obtain ⟨t1, s1, X⟩ := X
  cases X with
  | error e => rfl
  | ok f =>
    dsimp only
    cases finish s1 <;> rfl

theorem optimizeObj_inv {I : TopObj → Prop} (top : TopKind) (cfg : Config n d K)
    (hI : ∀ t, I t → ∀ (o : Oracle n d K) (s : Swarm n d K), I (gbestObj top cfg.args o t s).1)
    (ev : Nat → Mat n d K → Except Err (Costs n K)) (iters : Nat) (nproc : Option Nat)
    (env : Nat → Draw n d K) (t : TopObj) (s : Opt n d K) (h : I t) :
    I (optimizeObj top cfg ev iters nproc env t s).1 := by
  by_cases hn : nproc = some 0
  · unfold optimizeObj
    rw [if_pos hn]
    exact h
  · rw [optimizeObj_obj top cfg ev iters nproc env t s hn]
    exact loopObj_inv top cfg hI ev env iters iters 0 [] t _ h

/-! ### Programs -/

variable {ι : Type} [DecidableEq ι] {N D : ι → Nat}

theorem runSharing_cons (top : TopKind) (cfg : (j : ι) → Config (N j) (D j) K)
    (P : Sharing ι N D K) (c : (j : ι) × Op (N j) (D j) K)
    (calls : List ((j : ι) × Op (N j) (D j) K)) :
    runSharing top cfg P (c :: calls) = runSharing top cfg
      { obj := (stepObj top (cfg c.1) P.obj (P.opt c.1) c.2).1
        opt := Function.update P.opt c.1 (stepObj top (cfg c.1) P.obj (P.opt c.1) c.2).2 } calls := by
  unfold runSharing
  rw [List.foldl_cons]

theorem runSharing_inv {I : TopObj → Prop} (top : TopKind) (cfg : (j : ι) → Config (N j) (D j) K)
    (hI : ∀ j t, I t → ∀ (o : Oracle (N j) (D j) K) (s : Swarm (N j) (D j) K),
      I (gbestObj top (cfg j).args o t s).1)
    (calls : List ((j : ι) × Op (N j) (D j) K)) :
    ∀ P : Sharing ι N D K, I P.obj → I (runSharing top cfg P calls).obj := by
  induction calls with
  | nil => exact fun P h => h
  | cons c calls ih =>
    intro P h
    rw [runSharing_cons]
    refine ih _ ?_
    obtain ⟨j, op⟩ := c
    cases op with
    | optimize ev iters nproc env =>
      exact optimizeObj_inv top (cfg j) (hI j) ev iters nproc env P.obj (P.opt j) h
    | reset r => exact h

theorem runSharing_dynamic (top : TopKind) (hd : top.Dynamic)
    (cfg : (j : ι) → Config (N j) (D j) K) (hk : ∀ j, (cfg j).kind = .general top) (j : ι)
    (t0 : TopState (N j)) (calls : List ((j : ι) × Op (N j) (D j) K)) :
    ∀ (P : Sharing ι N D K) (s : Opt (N j) (D j) K), P.opt j = s.withTop t0 →
      (runSharing top cfg P calls).opt j = (runOps (cfg j) s (callsOf j calls)).withTop t0 := by
  induction calls with
  | nil => exact fun P s h => h
  | cons c calls ih =>
    intro P s h
    rw [runSharing_cons]
    obtain ⟨l, op⟩ := c
    by_cases hl : l = j
    · subst hl
      have hc : callsOf l (⟨l, op⟩ :: calls) = op :: callsOf l calls := by
        unfold callsOf
        rw [List.filterMap_cons_some (b := op) (by simp)]
      rw [hc]
      have hr : runOps (cfg l) s (op :: callsOf l calls) =
          runOps (cfg l) (stepOp (cfg l) s op) (callsOf l calls) := rfl
      rw [hr]
      refine ih _ _ ?_
      dsimp only
      rw [Function.update_self, h]
      exact (stepObj_alike top (cfg l) (hk l) (alike_dynamic top hd _) P.obj s t0 trivial op).1
    · have hc : callsOf j (⟨l, op⟩ :: calls) = callsOf j calls := by
        unfold callsOf
        rw [List.filterMap_cons_none (by simp [hl])]
      rw [hc]
      refine ih _ _ ?_
      dsimp only
      rw [Function.update_of_ne (Ne.symm hl), h]

/-! ### The theorems -/

/-- **C97** (dynamic topologies and Star).  Optimizers that hold one topology object of a class that
does not keep its neighbours, and are called in any order: each is in the state (apart from the
topology) in which it would be after its own calls with a topology object of its own. -/
theorem C97_dynamic (top : TopKind) (hd : top.Dynamic) (cfg : (j : ι) → Config (N j) (D j) K)
    (hk : ∀ j, (cfg j).kind = .general top) (P : Sharing ι N D K)
    (calls : List ((j : ι) × Op (N j) (D j) K)) (j : ι) :
    (runSharing top cfg P calls).opt j =
      { runOps (cfg j) (P.opt j) (callsOf j calls) with top := (P.opt j).top } :=
  runSharing_dynamic top hd cfg hk j (P.opt j).top calls P (P.opt j) rfl

/-- **C97** (dynamic topologies and Star: answers).  And what its next call of `optimize` returns or
raises is what it would be then. -/
theorem C97_dynamic_answer (top : TopKind) (hd : top.Dynamic)
    (cfg : (j : ι) → Config (N j) (D j) K) (hk : ∀ j, (cfg j).kind = .general top)
    (P : Sharing ι N D K) (calls : List ((j : ι) × Op (N j) (D j) K)) (j : ι)
    (ev : Nat → Mat (N j) (D j) K → Except Err (Costs (N j) K)) (iters : Nat) (nproc : Option Nat)
    (env : Nat → Draw (N j) (D j) K) :
    let Q := runSharing top cfg P calls
    (optimizeObj top (cfg j) ev iters nproc env Q.obj (Q.opt j)).2.2 =
      (optimize (cfg j) ev iters nproc env (runOps (cfg j) (P.opt j) (callsOf j calls))).2 := by
  intro Q
  have hQ : Q.opt j = (runOps (cfg j) (P.opt j) (callsOf j calls)).withTop (P.opt j).top :=
    C97_dynamic top hd cfg hk P calls j
  rw [hQ]
  exact (optimizeObj_alike top (cfg j) (hk j) (alike_dynamic top hd _) ev iters nproc env Q.obj _ _
    trivial).2.1

/-- **C97** (lists that fit).  A call on an optimizer with `n` particles, when the object holds
neighbour lists computed for `n` particles (by whichever optimizer), is the call on an optimizer
whose own topology object holds these lists. -/
theorem C97_call (top : TopKind) (cfg : Config n d K) (hk : cfg.kind = .general top)
    (t : TopState n) (ht : top.degree cfg.args d ≠ some 1 → t.neighbor ≠ none →
      (top.degree cfg.args d).isSome → t.ndim = 2)
    (ev : Nat → Mat n d K → Except Err (Costs n K)) (iters : Nat) (nproc : Option Nat)
    (env : Nat → Draw n d K) (s : Opt n d K) :
    let x := optimizeObj top cfg ev iters nproc env t.toObj s
    let y := optimize cfg ev iters nproc env { s with top := t }
    x.2.2 = y.2 ∧ x.2.1 = { y.1 with top := s.top } ∧ x.1 = y.1.top.toObj := by
  have hp : t.toObj.Plain top cfg.args d := by
    intro k h1 h2 h3
    have hn : t.neighbor ≠ none := by
      intro h
      exact h3 (by simp [TopState.toObj, h])
    exact ht (by rw [h1]; simpa using h2) hn (by rw [h1]; rfl)
  obtain ⟨h1, h2, h3, _⟩ := optimizeObj_alike top cfg hk (alike_typed top cfg.args) ev iters nproc
    env t.toObj (s.withTop t) s.top ⟨rfl, hp⟩
  exact ⟨h2, h1, h3⟩

/-- **C97** (static topologies keep the lists for everybody).  Once a static topology object holds
neighbour lists, it holds the same ones after any calls on any optimizers, whatever their sizes (for
`Pyramid`: if all have more particles than dimensions). -/
theorem C97_static (top : TopKind) (hs : top.Static) (cfg : (j : ι) → Config (N j) (D j) K)
    (hp : (∃ st, top = .pyramid st) → ∀ j, D j < N j) (P : Sharing ι N D K)
    (rows : List (List Nat)) (h : P.obj.neighbor = some rows)
    (calls : List ((j : ι) × Op (N j) (D j) K)) :
    (runSharing top cfg P calls).obj.neighbor = some rows :=
  runSharing_inv (I := fun t => t.neighbor = some rows) top cfg
    (fun j t ht o s => (gbestObj_kept top hs (cfg j).args (fun h => hp h j) o t s ht).1) calls P h

theorem optimizeObj_first (top : TopKind) (hs : top.Static) (cfg : Config n d K)
    (hp : (∃ st, top = .pyramid st) → d < n)
    (ev : Nat → Mat n d K → Except Err (Costs n K)) (iters : Nat) (hi : 0 < iters)
    (nproc : Option Nat) (hn : nproc ≠ some 0) (env : Nat → Draw n d K) (t : TopObj) (s : Opt n d K)
    (c : Costs n K) (hc : ev 0 s.swarm.position = .ok c) (rows : List (List Nat))
    (hr : ∀ sw : Swarm n d K, sw.position = s.swarm.position →
      (gbestObj top cfg.args (env 0).oracle t sw).1.neighbor = some rows) :
    (optimizeObj top cfg ev iters nproc env t s).1.neighbor = some rows := by
  rw [optimizeObj_obj top cfg ev iters nproc env t s hn]
  obtain ⟨m, rfl⟩ : ∃ m, iters = m + 1 := ⟨iters - 1, by omega⟩
  have h0 : ({ prepare cfg s with
      openPools := s.openPools + (if nproc.isSome then 1 else 0) } : Opt n d K).swarm.position =
      s.swarm.position := rfl
  revert h0
  generalize ({ prepare cfg s with
    openPools := s.openPools + (if nproc.isSome then 1 else 0) } : Opt n d K) = S
  intro h0
  have h1 : (iterateObj top cfg (ev 0) (env 0) (m + 1) 0 [] t S).1.neighbor = some rows := by
    rw [iterateObj_obj, h0, hc]
    exact hr _ h0
  unfold loopObj
  revert h1
  generalize iterateObj top cfg (ev 0) (env 0) (m + 1) 0 [] t S = X
  obtain ⟨t', s', X⟩ := X
  intro h1
  cases X with
  | error e => exact h1
  | ok f =>
    cases f with
    | stop => exact h1
    | «continue» q' =>
      exact loopObj_inv (I := fun t => t.neighbor = some rows) top cfg
        (fun t ht o s => (gbestObj_kept top hs cfg.args hp o t s ht).1) ev env (m + 1) m (0 + 1) q' t' s'
        h1

/-- **C97** (whose lists).  The lists of a new static topology object are those of the first
optimizer that completes an evaluation: `Ring` and `VonNeumann`. -/
theorem C97_first_ring (top : TopKind) (ht : top = .ring true ∨ top = .vonNeumann)
    (cfg : Config n d K) (k p : Nat) (hk : top.degree cfg.args d = some k) (hkp : cfg.args.p = some p)
    (h1 : 1 < k) (h2 : k ≤ n) (h3 : 0 < p)
    (ev : Nat → Mat n d K → Except Err (Costs n K)) (iters : Nat) (hi : 0 < iters)
    (nproc : Option Nat) (hn : nproc ≠ some 0) (env : Nat → Draw n d K) (t : TopObj)
    (h0 : t.neighbor = none) (s : Opt n d K) (c : Costs n K) (hc : ev 0 s.swarm.position = .ok c) :
    (optimizeObj top cfg ev iters nproc env t s).1.neighbor =
      some (neighborRows ((env 0).oracle.knn k p s.swarm.position)) := by
  have hring : ∀ sw : Swarm n d K, sw.position = s.swarm.position →
      (ringObj true k p (env 0).oracle t sw).1.neighbor =
        some (neighborRows ((env 0).oracle.knn k p s.swarm.position)) := by
    intro sw hsw
    unfold ringObj ringQuery
    rw [h0, hsw, if_neg (show ¬ (k = 0 ∨ p = 0) by omega),
      if_neg (show ¬ (k > n ∧ k ≠ 1) by omega), if_neg (show ¬ k = 1 by omega)]
    simp only [Option.isNone_none, Bool.and_self, Bool.true_or, if_true]
    rw [if_neg (show ¬ k = 1 by omega)]
    simp [TopState.toObj]
  refine optimizeObj_first top ?_ cfg ?_ ev iters hi nproc hn env t s c hc _ ?_
  · rcases ht with h | h
    · exact .inl h
    · exact .inr (.inl h)
  · rintro ⟨st, h⟩
    rcases ht with h' | h' <;> rw [h] at h' <;> cases h'
  · intro sw hsw
    rcases ht with h | h
    · subst h
      have hk' : cfg.args.k = some k := hk
      unfold gbestObj
      rw [hk', hkp]
      exact hring sw hsw
    · subst h
      unfold gbestObj
      unfold TopKind.degree at hk
      cases hr : cfg.args.r with
      | none => rw [hr] at hk; cases hk
      | some r =>
        rw [hr] at hk
        have hk' : delannoy d r = k := by simpa using hk
        rw [hkp]
        dsimp only
        rw [hk']
        exact hring sw hsw

/-- **C97** (whose lists).  The same for `Random`. -/
theorem C97_first_random (cfg : Config n d K) (k : Nat) (hk : cfg.args.k = some k)
    (ev : Nat → Mat n d K → Except Err (Costs n K)) (iters : Nat) (hi : 0 < iters)
    (nproc : Option Nat) (hn : nproc ≠ some 0) (env : Nat → Draw n d K) (t : TopObj)
    (h0 : t.neighbor = none) (s : Opt n d K) (c : Costs n K) (hc : ev 0 s.swarm.position = .ok c)
    (a : Adj n) (ha : randomNeighbors k ((env 0).oracle.choice k) = .ok a) :
    (optimizeObj (.random true) cfg ev iters nproc env t s).1.neighbor =
      some (neighborRows (adjLists a)) := by
  refine optimizeObj_first _ (.inr (.inr (.inr rfl))) cfg (fun ⟨st, h⟩ => by cases h) ev iters hi
    nproc hn env t s c hc _ fun sw _ => ?_
  unfold gbestObj
  dsimp only
  rw [hk]
  dsimp only
  unfold randomObj
  rw [h0, ha]
  simp

/-- **C97** (whose lists).  The same for `Pyramid` with enough particles. -/
theorem C97_first_pyramid (cfg : Config n d K) (hd : d < n)
    (ev : Nat → Mat n d K → Except Err (Costs n K)) (iters : Nat) (hi : 0 < iters)
    (nproc : Option Nat) (hn : nproc ≠ some 0) (env : Nat → Draw n d K) (t : TopObj)
    (h0 : t.neighbor = none) (s : Opt n d K) (c : Costs n K) (hc : ev 0 s.swarm.position = .ok c)
    (nbr : Fin n → List (Fin n)) (ha : (env 0).oracle.delaunay s.swarm.position = .ok nbr) :
    (optimizeObj (.pyramid true) cfg ev iters nproc env t s).1.neighbor = some (neighborRows nbr) := by
  refine optimizeObj_first _ (.inr (.inr (.inl rfl))) cfg (fun _ => hd) ev iters hi
    nproc hn env t s c hc _ fun sw hsw => ?_
  unfold gbestObj
  dsimp only
  unfold pyramidObj
  rw [if_neg (show ¬ n < d + 1 by omega), h0, hsw, ha]
  simp

/-- **C97** (a `Pyramid` with few particles).  An optimizer with no more particles than dimensions
replaces the neighbour lists of the object, also of a static one that other optimizers have filled:
after a call that completes an evaluation they are the complete graph on its particles. -/
theorem C97_pyramid_small (st : Bool) (cfg : Config n d K) (hd : n ≤ d)
    (ev : Nat → Mat n d K → Except Err (Costs n K)) (iters : Nat) (hi : 0 < iters)
    (nproc : Option Nat) (hn : nproc ≠ some 0) (env : Nat → Draw n d K) (t : TopObj)
    (s : Opt n d K) (c : Costs n K) (hc : ev 0 s.swarm.position = .ok c) :
    (optimizeObj (.pyramid st) cfg ev iters nproc env t s).1.neighbor =
      some (List.replicate n (List.range n)) := by
  have hg : ∀ (t : TopObj) (o : Oracle n d K) (sw : Swarm n d K),
      (gbestObj (.pyramid st) cfg.args o t sw).1.neighbor = some (neighborRows (allNeighbors n)) := by
    intro t o sw
    unfold gbestObj pyramidObj
    dsimp only
    rw [if_pos (show n < d + 1 by omega)]
    cases npArgmin sw.pbestCost <;> rfl
  have hrow : neighborRows (allNeighbors n) = List.replicate n (List.range n) := by
    unfold neighborRows allNeighbors
    have h1 : (List.finRange n).map Fin.val = List.range n := by
      simp
    rw [h1]
    simp
  rw [← hrow, optimizeObj_obj _ cfg ev iters nproc env t s hn]
  obtain ⟨m, rfl⟩ : ∃ m, iters = m + 1 := ⟨iters - 1, by omega⟩
  have h0 : ({ prepare cfg s with
      openPools := s.openPools + (if nproc.isSome then 1 else 0) } : Opt n d K).swarm.position =
      s.swarm.position := rfl
  revert h0
  generalize ({ prepare cfg s with
    openPools := s.openPools + (if nproc.isSome then 1 else 0) } : Opt n d K) = S
  intro h0
  have h1 : (iterateObj (.pyramid st) cfg (ev 0) (env 0) (m + 1) 0 [] t S).1.neighbor =
      some (neighborRows (allNeighbors n)) := by
    rw [iterateObj_obj, h0, hc]
    exact hg _ _ _
  unfold loopObj
  revert h1
  generalize iterateObj (.pyramid st) cfg (ev 0) (env 0) (m + 1) 0 [] t S = X
  obtain ⟨t', s', X⟩ := X
  intro h1
  cases X with
  | error e => exact h1
  | ok f =>
    cases f with
    | stop => exact h1
    | «continue» q' =>
      exact loopObj_inv (I := fun t => t.neighbor = some (neighborRows (allNeighbors n))) _ cfg
        (fun t ht o s => hg t o s) ev env (m + 1) m (0 + 1) q' t' s' h1

/-! ### Swarms of another size -/

theorem pickRows_length {c : Costs n K} {rows : List (List Nat)} {bs : List (Fin n)}
    (h : pickRows c rows = .ok bs) : bs.length = rows.length := by
  induction rows generalizing bs with
  | nil => cases h; rfl
  | cons row rest ih =>
    rw [pickRows] at h
    split at h
    · cases h
    · split at h
      · cases h
      · split at h
        · cases h
        · next bs' hb =>
          cases h
          rw [List.length_cons, List.length_cons, ih hb]

theorem pickRows_of_bounded {c : Costs n K} {rows : List (List Nat)}
    (hne : ∀ row ∈ rows, row ≠ []) (hb : ∀ row ∈ rows, ∀ i ∈ row, i < n) :
    ∃ bs, pickRows c rows = .ok bs := by
  induction rows with
  | nil => exact ⟨[], rfl⟩
  | cons row rest ih =>
    obtain ⟨bs, hbs⟩ := ih (fun r hr => hne r (List.mem_cons_of_mem _ hr))
      (fun r hr => hb r (List.mem_cons_of_mem _ hr))
    have h1 : ∃ l : List (Fin n), l ≠ [] ∧ row = l.map Fin.val := by
      refine ⟨row.pmap (fun i hi => ⟨i, hi⟩) (hb row List.mem_cons_self), ?_, ?_⟩
      · simpa using hne row List.mem_cons_self
      · rw [List.map_pmap]
        simp
    obtain ⟨l, hl, rfl⟩ := h1
    rw [pickRows, rowFins_map]
    dsimp only
    cases ha : argminOver c l with
    | none => exact absurd ((argminOver_eq_none_iff c l).1 ha) hl
    | some b =>
      dsimp only
      rw [hbs]
      exact ⟨b :: bs, rfl⟩

theorem pickRows_of_unbounded {c : Costs n K} {rows : List (List Nat)}
    (hne : ∀ row ∈ rows, row ≠ []) (hb : ∃ row ∈ rows, ∃ i ∈ row, n ≤ i) :
    pickRows c rows = .error .indexError := by
  induction rows with
  | nil => obtain ⟨r, hr, _⟩ := hb; simp at hr
  | cons row rest ih =>
    rw [pickRows]
    by_cases hr : row.all (· < n) = true
    · have hr' : ∀ i ∈ row, i < n := by simpa [List.all_eq_true] using hr
      have hrest : ∃ r ∈ rest, ∃ i ∈ r, n ≤ i := by
        obtain ⟨r, hm, i, hi, hge⟩ := hb
        rcases List.mem_cons.1 hm with h | h
        · subst h
          have := hr' i hi
          omega
        · exact ⟨r, h, i, hi, hge⟩
      have h1 : ∃ l : List (Fin n), l ≠ [] ∧ row = l.map Fin.val := by
        refine ⟨row.pmap (fun i hi => ⟨i, hi⟩) hr', ?_, ?_⟩
        · simpa using hne row List.mem_cons_self
        · rw [List.map_pmap]
          simp
      obtain ⟨l, hl, rfl⟩ := h1
      rw [rowFins_map]
      dsimp only
      cases ha : argminOver c l with
      | none => exact absurd ((argminOver_eq_none_iff c l).1 ha) hl
      | some b =>
        dsimp only
        rw [ih (fun r hr => hne r (List.mem_cons_of_mem _ hr)) hrest]
    · unfold rowFins
      rw [if_neg hr]

/-- The answer for lists of another size. -/
theorem rowsBest_unfit (rows : List (List Nat)) (h2 : 2 ≤ rows.length) (hm : rows.length ≠ n)
    (s : Swarm n d K) :
    (∃ e, rowsBest rows s = .error e) ∨ ∃ l c, rowsBest rows s = .ok (.rows l c) := by
  unfold rowsBest
  cases hp : pickRows s.pbestCost rows with
  | error e => exact .inl ⟨e, rfl⟩
  | ok bs =>
    have hl := pickRows_length hp
    dsimp only
    unfold gatherRows
    cases argminOver s.pbestCost bs with
    | none => exact .inl ⟨_, rfl⟩
    | some b =>
      right
      dsimp only
      rw [dif_neg (by rw [hl]; exact hm)]
      match bs, hl with
      | [], hl => exact ⟨_, _, rfl⟩
      | [a], hl => simp at hl; omega
      | a :: a' :: l, hl => exact ⟨_, _, rfl⟩

theorem rowsBest_unfit_error (rows : List (List Nat)) (h2 : 2 ≤ rows.length)
    (hm : rows.length ≠ n) (hne : ∀ row ∈ rows, row ≠ []) (s : Swarm n d K) :
    ((∃ row ∈ rows, ∃ i ∈ row, n ≤ i) → rowsBest rows s = .error .indexError) ∧
    ((∀ row ∈ rows, ∀ i ∈ row, i < n) → ∃ l c, rowsBest rows s = .ok (.rows l c)) := by
  constructor
  · intro h
    unfold rowsBest
    rw [pickRows_of_unbounded hne h]
  · intro h
    rcases rowsBest_unfit rows h2 hm s with ⟨e, he⟩ | h'
    · obtain ⟨bs, hbs⟩ := pickRows_of_bounded (c := s.pbestCost) hne h
      have hl := pickRows_length hbs
      unfold rowsBest at he
      rw [hbs] at he
      dsimp only at he
      unfold gatherRows at he
      cases ha : argminOver s.pbestCost bs with
      | none =>
        have := (argminOver_eq_none_iff s.pbestCost bs).1 ha
        rw [this] at hl
        simp at hl
        omega
      | some b => rw [ha] at he; cases he
    · exact h'

/-- The arguments `compute_gbest` needs are there. -/
def TopKind.Given (kind : TopKind) (args : TopArgs) : Prop :=
  match kind with
  | .star => True
  | .ring _ => args.k.isSome ∧ args.p.isSome
  | .vonNeumann => args.p.isSome ∧ args.r.isSome
  | .pyramid _ => True
  | .random _ => args.k.isSome

theorem gbestObj_look (kind : TopKind) (hs : kind.Static) (args : TopArgs)
    (hl : kind.Looks args n d) (o : Oracle n d K) (t : TopObj) (s : Swarm n d K)
    (rows : List (List Nat)) (h : t.neighbor = some rows)
    (hp : (kind.degree args d).isSome → t.ndim = 2) :
    gbestObj kind args o t s = (t, rowsBest rows s) ∨
      (¬ kind.Given args ∧ gbestObj kind args o t s = (t, .error .typeError)) := by
  have hring : ∀ k p, k ≠ 1 → t.ndim = 2 → ringObj true k p o t s = (t, rowsBest rows s) := by
    intro k p hk hn
    unfold ringObj
    have hq : ¬ ((true && t.neighbor.isNone) || !true) = true := by rw [h]; simp
    rw [if_neg hq]
    dsimp only
    rw [if_neg hk, h]
    dsimp only
    rw [if_pos hn]
  obtain ⟨hl1, hl2⟩ := hl
  rcases hs with hk | hk | hk | hk <;> subst hk <;> unfold gbestObj <;> dsimp only
  · cases hk : args.k with
    | none => exact .inr ⟨fun hg => by simp [TopKind.Given, hk] at hg, rfl⟩
    | some k =>
      cases hpp : args.p with
      | none => exact .inr ⟨fun hg => by simp [TopKind.Given, hpp] at hg, rfl⟩
      | some p =>
        refine .inl (hring k p (fun e => hl1 ?_) (hp ?_))
        · simp [TopKind.degree, hk, e]
        · simp [TopKind.degree, hk]
  · cases hpp : args.p with
    | none => exact .inr ⟨fun hg => by simp [TopKind.Given, hpp] at hg, rfl⟩
    | some p =>
      cases hk : args.r with
      | none => exact .inr ⟨fun hg => by simp [TopKind.Given, hk] at hg, rfl⟩
      | some r =>
        refine .inl (hring _ p (fun e => hl1 ?_) (hp ?_))
        · simp [TopKind.degree, hk, e]
        · simp [TopKind.degree, hk]
  · left
    unfold pyramidObj
    have hd : ¬ n < d + 1 := by
      have := hl2 ⟨true, rfl⟩
      omega
    have hq : ¬ ((true && t.neighbor.isNone) || !true) = true := by rw [h]; simp
    rw [if_neg hd, if_neg hq]
    dsimp only
    rw [h]
  · cases hk : args.k with
    | none => exact .inr ⟨fun hg => by simp [TopKind.Given, hk] at hg, rfl⟩
    | some k =>
      left
      dsimp only
      unfold randomObj
      have hq : ¬ ((true && t.neighbor.isNone) || !true) = true := by rw [h]; simp
      rw [if_neg hq]
      dsimp only
      rw [h]

theorem moveAnswer_rows (cfg : Config n d K) (r : Draw n d K) (iters i : Nat) (l : List (Vec d K))
    (c : XR K) (s : Opt n d K) :
    ∃ s' e, moveAnswer cfg r iters i (.rows l c) s = (s', .error e) ∧
      s'.swarm.position = s.swarm.position ∧ s'.swarm.velocity = s.swarm.velocity := by
  unfold moveAnswer
  dsimp only
  cases callOptions cfg iters i r s.swarm with
  | error e => exact ⟨_, _, rfl, rfl, rfl⟩
  | ok o =>
    dsimp only
    split
    · exact ⟨_, _, rfl, rfl, rfl⟩
    · exact ⟨_, _, rfl, rfl, rfl⟩

theorem optimizeObj_unfit (top : TopKind) (hs : top.Static) (cfg : Config n d K)
    (hl : top.Looks cfg.args n d) (hw : 0 < cfg.window) (t : TopObj) (rows : List (List Nat))
    (h : t.neighbor = some rows) (hp : (top.degree cfg.args d).isSome → t.ndim = 2)
    (h2 : 2 ≤ rows.length) (hm : rows.length ≠ n)
    (ev : Nat → Mat n d K → Except Err (Costs n K)) (iters : Nat) (hi : 0 < iters)
    (nproc : Option Nat) (env : Nat → Draw n d K) (s : Opt n d K) :
    ∃ s' e, optimizeObj top cfg ev iters nproc env t s = (t, s', .error e) ∧
      s'.swarm.position = s.swarm.position ∧ s'.swarm.velocity = s.swarm.velocity ∧
      (∀ c, nproc ≠ some 0 → ev 0 s.swarm.position = .ok c → top.Given cfg.args →
        (∀ row ∈ rows, row ≠ []) →
        ((∃ row ∈ rows, ∃ i ∈ row, n ≤ i) → e = .indexError) ∧
        ((∀ row ∈ rows, ∀ i ∈ row, i < n) → cfg.kind = .general top → cfg.ohStrategy = [] →
          (cfg.options.lookup "c1").isSome → (cfg.options.lookup "c2").isSome →
          (cfg.options.lookup "w").isSome → e = .valueError)) := by
  unfold optimizeObj
  by_cases hn : nproc = some 0
  · rw [if_pos hn]
    exact ⟨_, _, rfl, rfl, rfl, fun _ h => absurd hn h⟩
  · rw [if_neg hn]
    dsimp only
    obtain ⟨m, rfl⟩ : ∃ m, iters = m + 1 := ⟨iters - 1, by omega⟩
    have h0 : ({ prepare cfg s with
        openPools := s.openPools + (if nproc.isSome then 1 else 0) } : Opt n d K).swarm.position =
        s.swarm.position := rfl
    have h0v : ({ prepare cfg s with
        openPools := s.openPools + (if nproc.isSome then 1 else 0) } : Opt n d K).swarm.velocity =
        s.swarm.velocity := rfl
    rw [← h0, ← h0v]
    generalize ({ prepare cfg s with
      openPools := s.openPools + (if nproc.isSome then 1 else 0) } : Opt n d K) = S
    unfold loopObj iterateObj
    cases he : ev 0 S.swarm.position with
    | error e => exact ⟨_, _, rfl, rfl, rfl, fun c _ h => by cases h⟩
    | ok c =>
      dsimp only
      have hgb := gbestObj_look top hs cfg.args hl (env 0).oracle t (recordEval c S).swarm rows h hp
      have hunf := rowsBest_unfit rows h2 hm (recordEval c S).swarm
      have hues := fun hne => rowsBest_unfit_error rows h2 hm hne (recordEval c S).swarm
      rcases hgb with hgb | ⟨hg, hgb⟩
      · rw [hgb]
        rcases hunf with ⟨e, hu⟩ | ⟨l, b, hu⟩
        · rw [hu]
          refine ⟨_, _, rfl, rfl, rfl, fun c' _ _ _ hne => ⟨fun hex => ?_, fun hall => ?_⟩⟩
          · have := (hues hne).1 hex
            rw [hu] at this
            injection this
          · obtain ⟨l', b', h'⟩ := (hues hne).2 hall
            rw [hu] at h'
            cases h'
        · rw [hu]
          dsimp only
          have hw' : ¬ (decide (¬ 0 < cfg.window) && (dequeAppend cfg.window []
              (ftolDelta cfg.ftol (recordAnswer (.rows l b) (recordEval c S)).swarm.bestCostVal
                (recordEval c S).swarm.bestCostVal)).all id) = true := by
            simp [hw]
          rw [if_neg hw']
          have hpos : (recordAnswer (.rows l b) (recordEval c S)).swarm.position =
              S.swarm.position := rfl
          have hvel : (recordAnswer (.rows l b) (recordEval c S)).swarm.velocity =
              S.swarm.velocity := rfl
          rw [← hpos, ← hvel]
          generalize recordAnswer (.rows l b) (recordEval c S) = S2
          obtain ⟨s', e, hmv, h3, h4⟩ := moveAnswer_rows cfg (env 0) (m + 1) 0 l b S2
          rw [hmv]
          refine ⟨s', e, rfl, h3, h4, fun c' _ _ _ hne => ⟨fun hex => ?_, ?_⟩⟩
          · have := (hues hne).1 hex
            rw [hu] at this
            cases this
          · intro hall hkd hoh hc1 hc2 hcw
            unfold moveAnswer callOptions at hmv
            rw [hkd, hoh] at hmv
            dsimp only [ohCall, List.isEmpty] at hmv
            obtain ⟨a1, h1⟩ := Option.isSome_iff_exists.1 hc1
            obtain ⟨a2, h2'⟩ := Option.isSome_iff_exists.1 hc2
            obtain ⟨a3, h3'⟩ := Option.isSome_iff_exists.1 hcw
            simp only [if_true, h1, h2', h3'] at hmv
            injection hmv with _ hmv
            injection hmv with hmv
            exact hmv.symm
      · rw [hgb]
        exact ⟨_, _, rfl, rfl, rfl, fun c' _ _ hg' => absurd hg' hg⟩

/-- **C97** (swarms of another size).  Once a static topology object holds the neighbour lists of
`m ≥ 2` particles, then after any calls on its optimizers, every call of `optimize` on an optimizer
whose swarm has a different size raises and moves nothing. -/
theorem C97_size (top : TopKind) (hs : top.Static) (cfg : (j : ι) → Config (N j) (D j) K)
    (hl : ∀ j, top.Looks (cfg j).args (N j) (D j)) (P : Sharing ι N D K)
    (rows : List (List Nat)) (h : P.obj.neighbor = some rows) (h2 : 2 ≤ rows.length)
    (hp : top = .ring true ∨ top = .vonNeumann → P.obj.ndim = 2)
    (calls : List ((j : ι) × Op (N j) (D j) K)) (j : ι) (hj : N j ≠ rows.length)
    (hw : 0 < (cfg j).window)
    (ev : Nat → Mat (N j) (D j) K → Except Err (Costs (N j) K)) (iters : Nat) (hi : 0 < iters)
    (nproc : Option Nat) (env : Nat → Draw (N j) (D j) K) :
    let Q := runSharing top cfg P calls
    ∃ s e, optimizeObj top (cfg j) ev iters nproc env Q.obj (Q.opt j) = (Q.obj, s, .error e) ∧
      s.swarm.position = (Q.opt j).swarm.position ∧ s.swarm.velocity = (Q.opt j).swarm.velocity := by
  intro Q
  have hI : Q.obj.neighbor = some rows ∧ (top = .ring true ∨ top = .vonNeumann → Q.obj.ndim = 2) := by
    refine runSharing_inv
      (I := fun t => t.neighbor = some rows ∧ (top = .ring true ∨ top = .vonNeumann → t.ndim = 2))
      top cfg ?_ calls P ⟨h, hp⟩
    rintro l t ⟨ht, ht'⟩ o s
    obtain ⟨h1, h2⟩ := gbestObj_kept top hs (cfg l).args (hl l).2 o t s ht
    refine ⟨h1, ?_⟩
    rw [h2 (hl l).1]
    exact ht'
  have hring : (top.degree (cfg j).args (D j)).isSome → Q.obj.ndim = 2 := by
    intro hd
    apply hI.2
    rcases hs with hk | hk | hk | hk <;> subst hk
    · exact .inl rfl
    · exact .inr rfl
    · cases hd
    · cases hd
  obtain ⟨s, e, h1, h3, h4, _⟩ := optimizeObj_unfit top hs (cfg j) (hl j) hw Q.obj rows hI.1 hring h2
    (Ne.symm hj) ev iters hi nproc env (Q.opt j)
  exact ⟨s, e, h1, h3, h4⟩

/-- **C97** (swarms of another size: the exception).  It is `IndexError` if the lists name a particle
that the swarm does not have, and otherwise `ValueError`, if nothing else is wrong with the call. -/
theorem C97_size_error (top : TopKind) (hs : top.Static) (cfg : Config n d K)
    (hk : cfg.kind = .general top) (hl : top.Looks cfg.args n d) (hg : top.Given cfg.args)
    (hw : 0 < cfg.window) (hoh : cfg.ohStrategy = [])
    (ho : ∀ x ∈ ["c1", "c2", "w"], (cfg.options.lookup x).isSome) (t : TopObj)
    (rows : List (List Nat)) (h : t.neighbor = some rows)
    (hp : top = .ring true ∨ top = .vonNeumann → t.ndim = 2)
    (h2 : 2 ≤ rows.length) (hm : rows.length ≠ n) (hne : ∀ row ∈ rows, row ≠ [])
    (ev : Nat → Mat n d K → Except Err (Costs n K)) (iters : Nat) (hi : 0 < iters)
    (nproc : Option Nat) (hn : nproc ≠ some 0) (env : Nat → Draw n d K) (s : Opt n d K)
    (c : Costs n K) (hc : ev 0 s.swarm.position = .ok c) :
    ((∃ row ∈ rows, ∃ i ∈ row, n ≤ i) →
      (optimizeObj top cfg ev iters nproc env t s).2.2 = .error .indexError) ∧
    ((∀ row ∈ rows, ∀ i ∈ row, i < n) →
      (optimizeObj top cfg ev iters nproc env t s).2.2 = .error .valueError) := by
  have hring : (top.degree cfg.args d).isSome → t.ndim = 2 := by
    intro hd
    apply hp
    rcases hs with hk | hk | hk | hk <;> subst hk
    · exact .inl rfl
    · exact .inr rfl
    · cases hd
    · cases hd
  obtain ⟨s', e, h1, _, _, h5⟩ := optimizeObj_unfit top hs cfg hl hw t rows h hring h2 hm ev iters hi
    nproc env s
  obtain ⟨h6, h7⟩ := h5 c hn hc hg hne
  rw [h1]
  refine ⟨fun hex => by rw [h6 hex], fun hall => ?_⟩
  rw [h7 hall hk hoh (ho "c1" (by simp)) (ho "c2" (by simp)) (ho "w" (by simp))]

/-- **C97** (lists of one particle).  If the lists are those of a swarm of one particle, all particles
of a larger swarm are drawn to the personal best of its first particle, and its cost is the best cost
of the swarm. -/
theorem C97_one_particle (top : TopKind) (hs : top.Static) (args : TopArgs)
    (hl : top.Looks args n d) (hg : top.Given args) (t : TopObj) (h : t.neighbor = some [[0]])
    (hp : top = .ring true ∨ top = .vonNeumann → t.ndim = 2) (h1 : 1 < n) (o : Oracle n d K)
    (s : Swarm n d K) :
    gbestObj top args o t s = (t, .ok (.fits (.single (s.pbestPos ⟨0, by omega⟩),
      some (s.pbestCost ⟨0, by omega⟩)))) := by
  have hring : (top.degree args d).isSome → t.ndim = 2 := by
    intro hd
    apply hp
    rcases hs with hk | hk | hk | hk <;> subst hk
    · exact .inl rfl
    · exact .inr rfl
    · cases hd
    · cases hd
  rcases gbestObj_look top hs args hl o t s [[0]] h hring with h' | ⟨h', _⟩
  · rw [h']
    have hz : [0] = [(⟨0, by omega⟩ : Fin n)].map Fin.val := rfl
    have hpick : pickRows s.pbestCost [[0]] = .ok [(⟨0, by omega⟩ : Fin n)] := by
      rw [pickRows, hz, rowFins_map]
      rfl
    unfold rowsBest
    rw [hpick]
    dsimp only
    unfold gatherRows
    have ha : argminOver s.pbestCost [(⟨0, by omega⟩ : Fin n)] = some ⟨0, by omega⟩ := rfl
    rw [ha]
    dsimp only
    rw [dif_neg (by simp; omega)]
  · exact absurd hg h'

end

/-! ### Witnesses and examples -/

namespace Ex

/-- A GeneralOptimizerPSO configuration. -/
def gencfg (n d : Nat) (top : TopKind) : Config n d ℚ where
  kind := .general top
  options := opts
  args := { k := some 2, p := some 2, r := some 1 }
  center := fun _ => 4

/-- Every particle with its nearest other particle, in one dimension. -/
def nearDraw (n : Nat) : Draw n 1 ℚ :=
  { draw n 1 with oracle := { (draw n 1).oracle with
      knn := fun _ _ x i =>
        match argminOver (fun j => XR.fin ((x i 0 - x j 0) * (x i 0 - x j 0)))
          ((List.finRange n).filter (· ≠ i)) with
        | none => [i]
        | some j => [i, j] } }

/-- The given initial positions. -/
def startAt {n : Nat} (l : List ℚ) : InitDraw n 1 ℚ :=
  { init n 1 with pos := fun i _ => l.getD i 0 / 4 }

/-- The objective `(x - 2)²`. -/
def shifted (n : Nat) : Nat → Mat n 1 ℚ → Except Err (Costs n ℚ) := fun _ x =>
  .ok fun i => .fin ((x i 0 - 2) * (x i 0 - 2))

end Ex

open Ex

/-- **C97** (static topologies: the outcome depends on the sharing).  Two optimizers with three
particles each: the result of the second is another if the first has used the topology object
before. -/
theorem C97_static_witness : ∃ sA sB : Opt 3 1 ℚ,
    construct (gencfg 3 1 (.ring true)) (startAt [0, 1, 3]) (startAt [0, 1, 3]) = .ok sA ∧
    construct (gencfg 3 1 (.ring true)) (startAt [3, 0, 1]) (startAt [3, 0, 1]) = .ok sB ∧
    ∃ a b p q, a ≠ b ∧
      (optimizeObj (.ring true) (gencfg 3 1 (.ring true)) (shifted 3) 3 none (fun _ => nearDraw 3)
        (optimizeObj (.ring true) (gencfg 3 1 (.ring true)) (shifted 3) 1 none (fun _ => nearDraw 3)
          {} sA).1 sB).2.2 = .ok (a, p) ∧
      (optimizeObj (.ring true) (gencfg 3 1 (.ring true)) (shifted 3) 3 none (fun _ => nearDraw 3)
        {} sB).2.2 = .ok (b, q) := by
  have key : (match construct (gencfg 3 1 (.ring true)) (startAt [0, 1, 3]) (startAt [0, 1, 3]),
        construct (gencfg 3 1 (.ring true)) (startAt [3, 0, 1]) (startAt [3, 0, 1]) with
      | .ok sA, .ok sB =>
        match (optimizeObj (.ring true) (gencfg 3 1 (.ring true)) (shifted 3) 3 none
            (fun _ => nearDraw 3)
            (optimizeObj (.ring true) (gencfg 3 1 (.ring true)) (shifted 3) 1 none
              (fun _ => nearDraw 3) {} sA).1 sB).2.2,
          (optimizeObj (.ring true) (gencfg 3 1 (.ring true)) (shifted 3) 3 none
            (fun _ => nearDraw 3) {} sB).2.2 with
        | .ok (a, _), .ok (b, _) => decide (a ≠ b)
        | _, _ => false
      | _, _ => false) = true := by decide +kernel
  cases hA : construct (gencfg 3 1 (.ring true)) (startAt [0, 1, 3]) (startAt [0, 1, 3]) with
  | error e => rw [hA] at key; cases key
  | ok sA =>
    cases hB : construct (gencfg 3 1 (.ring true)) (startAt [3, 0, 1]) (startAt [3, 0, 1]) with
    | error e => rw [hA, hB] at key; cases key
    | ok sB =>
      rw [hA, hB] at key
      dsimp only at key
      refine ⟨sA, sB, rfl, rfl, ?_⟩
      revert key
      generalize (optimizeObj (.ring true) (gencfg 3 1 (.ring true)) (shifted 3) 3 none
        (fun _ => nearDraw 3)
        (optimizeObj (.ring true) (gencfg 3 1 (.ring true)) (shifted 3) 1 none
          (fun _ => nearDraw 3) {} sA).1 sB).2.2 = X
      generalize (optimizeObj (.ring true) (gencfg 3 1 (.ring true)) (shifted 3) 3 none
        (fun _ => nearDraw 3) {} sB).2.2 = Y
      intro key
      cases X with
      | error e => cases key
      | ok X =>
        cases Y with
        | error e => cases key
        | ok Y =>
          obtain ⟨a, p⟩ := X
          obtain ⟨b, q⟩ := Y
          exact ⟨a, b, p, q, of_decide_eq_true key, rfl, rfl⟩

/-- **C97** (lists of one particle: the outcome).  An optimizer with one particle, then one with three,
on one static `Pyramid` object: the second returns a cost that is not the cost of the position it
returns, although it has evaluated a better position. -/
theorem C97_one_particle_witness : ∃ (sA : Opt 1 1 ℚ) (sB : Opt 3 1 ℚ),
    construct (gencfg 1 1 (.pyramid true)) (init 1 1) (init 1 1) = .ok sA ∧
    construct (gencfg 3 1 (.pyramid true)) (init 3 1) (init 3 1) = .ok sB ∧
    ∃ p, (optimizeObj (.pyramid true) (gencfg 3 1 (.pyramid true)) (shifted 3) 1 none
        (fun _ => draw 3 1)
        (optimizeObj (.pyramid true) (gencfg 1 1 (.pyramid true)) (shifted 1) 1 none
          (fun _ => draw 1 1) {} sA).1 sB).2.2 = .ok (.fin 4, p) ∧ (p 0 - 2) * (p 0 - 2) = 0 := by
  have key : (match construct (gencfg 1 1 (.pyramid true)) (init 1 1) (init 1 1),
        construct (gencfg 3 1 (.pyramid true)) (init 3 1) (init 3 1) with
      | .ok sA, .ok sB =>
        match (optimizeObj (.pyramid true) (gencfg 3 1 (.pyramid true)) (shifted 3) 1 none
            (fun _ => draw 3 1)
            (optimizeObj (.pyramid true) (gencfg 1 1 (.pyramid true)) (shifted 1) 1 none
              (fun _ => draw 1 1) {} sA).1 sB).2.2 with
        | .ok (a, p) => decide (a = .fin 4) && decide ((p 0 - 2) * (p 0 - 2) = 0)
        | _ => false
      | _, _ => false) = true := by decide +kernel
  cases hA : construct (gencfg 1 1 (.pyramid true)) (init 1 1) (init 1 1) with
  | error e => rw [hA] at key; cases key
  | ok sA =>
    cases hB : construct (gencfg 3 1 (.pyramid true)) (init 3 1) (init 3 1) with
    | error e => rw [hA, hB] at key; cases key
    | ok sB =>
      rw [hA, hB] at key
      dsimp only at key
      refine ⟨sA, sB, rfl, rfl, ?_⟩
      revert key
      generalize (optimizeObj (.pyramid true) (gencfg 3 1 (.pyramid true)) (shifted 3) 1 none
        (fun _ => draw 3 1)
        (optimizeObj (.pyramid true) (gencfg 1 1 (.pyramid true)) (shifted 1) 1 none
          (fun _ => draw 1 1) {} sA).1 sB).2.2 = X
      intro key
      cases X with
      | error e => cases key
      | ok X =>
        obtain ⟨a, p⟩ := X
        rw [Bool.and_eq_true] at key
        obtain ⟨h1, h2⟩ := key
        have ha := of_decide_eq_true h1
        subst ha
        exact ⟨p, rfl, of_decide_eq_true h2⟩

/-- `C97_dynamic` applies to two optimizers of different sizes that are called alternately, and both
calls on the first are among its calls. -/
example (P : Sharing (Fin 2) (fun j : Fin 2 => j.val + 3) (fun j : Fin 2 => j.val + 1) ℚ)
    (ev : (j : Fin 2) → Nat → Mat (j.val + 3) (j.val + 1) ℚ →
      Except Err (Costs (j.val + 3) ℚ)) (r : InitDraw 3 1 ℚ) :
    let calls : List ((j : Fin 2) × Op (j.val + 3) (j.val + 1) ℚ) :=
      [⟨0, .optimize (ev 0) 5 none (fun _ => draw _ _)⟩,
        ⟨1, .optimize (ev 1) 7 none (fun _ => draw _ _)⟩, ⟨0, .reset r⟩]
    (runSharing (.ring false) (fun j : Fin 2 => gencfg (j.val + 3) (j.val + 1) (.ring false)) P
      calls).opt 0 =
      { runOps (gencfg 3 1 (.ring false)) (P.opt 0)
          [.optimize (ev 0) 5 none (fun _ => draw _ _), .reset r] with top := (P.opt 0).top } := by
  intro calls
  exact C97_dynamic (.ring false) (.inr (.inl rfl))
    (fun j : Fin 2 => gencfg (j.val + 3) (j.val + 1) (.ring false)) (fun _ => rfl) P calls 0

/-- The hypotheses of `C97_size` and `C97_size_error` are met: the object holds the lists of four
particles, the swarm has three (or five). -/
example : (TopKind.ring true).Static ∧
    (TopKind.ring true).Looks (gencfg 3 1 (.ring true)).args 3 1 ∧
    (TopKind.ring true).Given (gencfg 3 1 (.ring true)).args ∧ 0 < (gencfg 3 1 (.ring true)).window ∧
    (∀ x ∈ ["c1", "c2", "w"], ((gencfg 3 1 (.ring true)).options.lookup x).isSome) := by
  refine ⟨.inl rfl, ⟨by decide, fun ⟨st, h⟩ => by cases h⟩, ⟨rfl, rfl⟩, by decide, by decide⟩

/-- The two exceptions, in runs: four particles first, then three, then five. -/
example : (match construct (gencfg 4 1 (.ring true)) (init 4 1) (init 4 1),
      construct (gencfg 3 1 (.ring true)) (init 3 1) (init 3 1),
      construct (gencfg 5 1 (.ring true)) (init 5 1) (init 5 1) with
    | .ok s4, .ok s3, .ok s5 =>
      let t := (optimizeObj (.ring true) (gencfg 4 1 (.ring true)) (shifted 4) 2 none
        (fun _ => nearDraw 4) {} s4).1
      decide (t.neighbor = some [[0, 1], [1, 0], [2, 1], [3, 2]]) &&
      (match (optimizeObj (.ring true) (gencfg 3 1 (.ring true)) (shifted 3) 2 none
          (fun _ => nearDraw 3) t s3).2.2 with
        | .error .indexError => true
        | _ => false) &&
      (match (optimizeObj (.ring true) (gencfg 5 1 (.ring true)) (shifted 5) 2 none
          (fun _ => nearDraw 5) t s5).2.2 with
        | .error .valueError => true
        | _ => false)
    | _, _, _ => false) = true := by decide +kernel

/-- `C97_call` applies to the lists of a static ring. -/
example (s : Opt 3 1 ℚ) (nbr : Fin 3 → List (Fin 3)) :
    (optimizeObj (.ring true) (gencfg 3 1 (.ring true)) (shifted 3) 4 none (fun _ => nearDraw 3)
      { neighbor := some (neighborRows nbr), ndim := 2 } s).2.2 =
    (optimize (gencfg 3 1 (.ring true)) (shifted 3) 4 none (fun _ => nearDraw 3)
      { s with top := { neighbor := some nbr, ndim := 2 } }).2 :=
  (C97_call (.ring true) (gencfg 3 1 (.ring true)) rfl { neighbor := some nbr, ndim := 2 }
    (fun _ _ _ => rfl) (shifted 3) 4 none (fun _ => nearDraw 3) s).1

end PySwarms

import Verif.Model.SharedTop
import Verif.Lemmas.XR

/-!
# Lemmas about topology objects used by several optimizers
-/

set_option linter.unusedSectionVars false

namespace PySwarms

variable {n d : Nat} {K : Type}

/-! ### Rows of numbers and lists of particles -/

theorem rowFins_map (l : List (Fin n)) : rowFins n (l.map Fin.val) = some l := by
  unfold rowFins
  have h : (l.map Fin.val).all (· < n) = true := by
    simp [List.all_eq_true]
  rw [if_pos h]
  congr 1
  rw [List.filterMap_map]
  induction l with
  | nil => rfl
  | cons a l ih =>
    have ha : ((fun j : Nat => if h : j < n then some (⟨j, h⟩ : Fin n) else none) ∘ Fin.val) a =
        some a := by simp
    rw [List.filterMap_cons_some ha, ih]
    simp [List.all_eq_true]

section
variable [LT K] [DecidableLT K]

theorem argminOver_comp {ι κ : Type} (c : κ → XR K) (f : ι → κ) (l : List ι) :
    (argminOver (fun i => c (f i)) l).map f = argminOver c (l.map f) := by
  unfold argminOver
  rw [List.foldl_map]
  have gen : ∀ (l : List ι) (acc : Option ι),
      (l.foldl (fun acc i => match acc with
        | none => some i
        | some j => if npBetter (c (f i)) (c (f j)) then some i else some j) acc).map f =
      l.foldl (fun acc i => match acc with
        | none => some (f i)
        | some j => if npBetter (c (f i)) (c j) then some (f i) else some j) (acc.map f) := by
    intro l
    induction l with
    | nil => intro acc; rfl
    | cons a l ih =>
      intro acc
      rw [List.foldl_cons, List.foldl_cons, ih]
      congr 1
      cases acc with
      | none => rfl
      | some j =>
        by_cases hb : npBetter (c (f a)) (c (f j)) = true
        · simp [hb]
        · simp [hb]
  exact gen l none

theorem pickRows_map (nbr : Fin n → List (Fin n)) (c : Costs n K) (l : List (Fin n)) :
    pickRows c (l.map fun i => (nbr i).map Fin.val) =
      if l.any fun i => (bestNeighbor nbr c i).isNone then .error .valueError
      else .ok (l.map fun i => (bestNeighbor nbr c i).getD i) := by
  induction l with
  | nil => rfl
  | cons a l ih =>
    rw [List.map_cons, pickRows, rowFins_map, ih]
    dsimp only
    have hb : argminOver c (nbr a) = bestNeighbor nbr c a := rfl
    rw [hb, List.any_cons, List.map_cons]
    cases bestNeighbor nbr c a with
    | none => rfl
    | some b =>
      by_cases ha : (l.any fun i => (bestNeighbor nbr c i).isNone) = true
      · simp only [ha, if_true, Option.isNone_some, Bool.false_or]
      · simp only [ha, if_false, Option.isNone_some, Bool.false_or, Bool.false_eq_true,
          Option.getD_some]

theorem rowsBest_neighborRows (nbr : Fin n → List (Fin n)) (s : Swarm n d K) :
    rowsBest (neighborRows nbr) s = fitting (nbrBest nbr s) := by
  unfold rowsBest neighborRows nbrBest
  rw [pickRows_map]
  by_cases ha : ((List.finRange n).any fun i => (bestNeighbor nbr s.pbestCost i).isNone) = true
  · rw [if_pos ha, if_pos ha]
    rfl
  · rw [if_neg ha, if_neg ha]
    dsimp only
    unfold gatherRows gatherBest npMin npArgmin
    have hc := argminOver_comp s.pbestCost
      (fun i => (bestNeighbor nbr s.pbestCost i).getD i) (List.finRange n)
    rw [← hc]
    cases argminOver (fun i => s.pbestCost ((bestNeighbor nbr s.pbestCost i).getD i))
        (List.finRange n) with
    | none => rfl
    | some b =>
      dsimp only [Option.map, fitting]
      rw [dif_pos (by simp)]
      congr 4
      funext i
      simp

/-! ### `compute_gbest` on an object and on the typed state -/

theorem toObj_isNone (t : TopState n) : t.toObj.neighbor.isNone = t.neighbor.isNone := by
  unfold TopState.toObj
  cases t.neighbor <;> rfl

theorem starObj_toObj (t : TopState n) (s : Swarm n d K) :
    starObj t.toObj s = ((starGbest t s).1.toObj, fitting (starGbest t s).2) := by
  unfold starObj starGbest
  cases h : t.neighbor with
  | none =>
    have h' : t.toObj.neighbor = none := by simp [TopState.toObj, h]
    rw [h']
    cases npArgmin s.pbestCost with
    | none => rfl
    | some i =>
      dsimp only
      split <;> rfl
  | some f =>
    have h' : t.toObj.neighbor = some (neighborRows f) := by simp [TopState.toObj, h]
    rw [h']
    cases npArgmin s.pbestCost with
    | none => rfl
    | some i =>
      dsimp only
      split <;> rfl

theorem ringObj_toObj (st : Bool) (k p : Nat) (o : Oracle n d K) (t : TopState n)
    (s : Swarm n d K) (hr : k ≠ 1 → st = true → t.neighbor ≠ none → t.ndim = 2) :
    ringObj st k p o t.toObj s =
      ((ringGbest st k p o t s).1.toObj, fitting (ringGbest st k p o t s).2) := by
  unfold ringObj ringGbest
  rw [toObj_isNone]
  by_cases hq : ((st && t.neighbor.isNone) || !st) = true
  · rw [if_pos hq, if_pos hq]
    cases hx : ringQuery k p o s.position with
    | error e => rfl
    | ok t1 =>
      dsimp only
      by_cases hk : k = 1
      · rw [if_pos hk, if_pos hk]
        have : t1.toObj.ndim = t1.ndim := rfl
        rw [this]
        split <;> rfl
      · rw [if_neg hk, if_neg hk]
        have hn : t1.ndim = 2 := by
          unfold ringQuery at hx
          split at hx
          · cases hx
          · split at hx
            · cases hx
            · cases hx
              simp
        cases h1 : t1.neighbor with
        | none =>
          have : t1.toObj.neighbor = none := by simp [TopState.toObj, h1]
          rw [this]
          rfl
        | some nbr =>
          have : t1.toObj.neighbor = some (neighborRows nbr) := by simp [TopState.toObj, h1]
          rw [this]
          dsimp only
          rw [if_pos (show t1.toObj.ndim = 2 from hn), rowsBest_neighborRows]
  · rw [if_neg hq, if_neg hq]
    dsimp only
    by_cases hk : k = 1
    · rw [if_pos hk, if_pos hk]
      have : t.toObj.ndim = t.ndim := rfl
      rw [this]
      split <;> rfl
    · rw [if_neg hk, if_neg hk]
      cases h1 : t.neighbor with
      | none =>
        rw [h1] at hq
        cases st <;> simp at hq
      | some nbr =>
        have hst : st = true := by cases st <;> simp at hq ⊢
        have hn : t.ndim = 2 := hr hk hst (by rw [h1]; simp)
        have : t.toObj.neighbor = some (neighborRows nbr) := by simp [TopState.toObj, h1]
        rw [this]
        dsimp only
        rw [if_pos (show t.toObj.ndim = 2 from hn), rowsBest_neighborRows]

theorem pyramidObj_toObj (st : Bool) (o : Oracle n d K) (t : TopState n) (s : Swarm n d K) :
    pyramidObj st o t.toObj s =
      ((pyramidGbest st o t s).1.toObj, fitting (pyramidGbest st o t s).2) := by
  unfold pyramidObj pyramidGbest
  rw [toObj_isNone]
  split
  · cases npArgmin s.pbestCost <;> rfl
  · by_cases hq : ((st && t.neighbor.isNone) || !st) = true
    · rw [if_pos hq, if_pos hq]
      cases o.delaunay s.position with
      | error e => rfl
      | ok nbr =>
        dsimp only
        rw [rowsBest_neighborRows]
        rfl
    · rw [if_neg hq, if_neg hq]
      dsimp only
      cases h1 : t.neighbor with
      | none =>
        rw [h1] at hq
        cases st <;> simp at hq
      | some nbr =>
        have : t.toObj.neighbor = some (neighborRows nbr) := by simp [TopState.toObj, h1]
        rw [this]
        dsimp only
        rw [rowsBest_neighborRows]

theorem randomObj_toObj (st : Bool) (k : Nat) (o : Oracle n d K) (t : TopState n)
    (s : Swarm n d K) :
    randomObj st k o t.toObj s =
      ((randomGbest st k o t s).1.toObj, fitting (randomGbest st k o t s).2) := by
  unfold randomObj randomGbest
  rw [toObj_isNone]
  by_cases hq : ((st && t.neighbor.isNone) || !st) = true
  · rw [if_pos hq, if_pos hq]
    cases randomNeighbors k (o.choice k) with
    | error e => rfl
    | ok a =>
      dsimp only
      rw [rowsBest_neighborRows]
      rfl
  · rw [if_neg hq, if_neg hq]
    dsimp only
    cases h1 : t.neighbor with
    | none =>
      rw [h1] at hq
      cases st <;> simp at hq
    | some nbr =>
      have : t.toObj.neighbor = some (neighborRows nbr) := by simp [TopState.toObj, h1]
      rw [this]
      dsimp only
      rw [rowsBest_neighborRows]

/-- The number of neighbours asked for by a `Ring` or a `VonNeumann` topology. -/
def TopKind.degree (kind : TopKind) (args : TopArgs) (d : Nat) : Option Nat :=
  match kind with
  | .ring _ => args.k
  | .vonNeumann => args.r.map (delannoy d)
  | _ => none

/-- Lists computed by `Ring` or `VonNeumann` with more than one neighbour are a matrix. -/
def TopObj.Plain (kind : TopKind) (args : TopArgs) (d : Nat) (t : TopObj) : Prop :=
  ∀ k, kind.degree args d = some k → k ≠ 1 → t.neighbor ≠ none → t.ndim = 2

theorem gbestObj_toObj (kind : TopKind) (args : TopArgs) (o : Oracle n d K) (t : TopState n)
    (s : Swarm n d K) (hr : t.toObj.Plain kind args d) :
    gbestObj kind args o t.toObj s =
      ((computeGbest kind args o t s).1.toObj, fitting (computeGbest kind args o t s).2) := by
  have hn : t.neighbor ≠ none → t.toObj.neighbor ≠ none := by
    unfold TopState.toObj
    cases t.neighbor <;> simp
  unfold gbestObj computeGbest
  cases kind with
  | star => exact starObj_toObj t s
  | ring st =>
    cases hk : args.k with
    | none => rfl
    | some k =>
      cases hp : args.p with
      | none => rfl
      | some p =>
        exact ringObj_toObj st k p o t s fun h _ h' => hr k (by simp [TopKind.degree, hk]) h (hn h')
  | vonNeumann =>
    cases hp : args.p with
    | none => rfl
    | some p =>
      cases hk : args.r with
      | none => rfl
      | some r =>
        exact ringObj_toObj true (delannoy d r) p o t s
          fun h _ h' => hr _ (by simp [TopKind.degree, hk]) h (hn h')
  | pyramid st => exact pyramidObj_toObj st o t s
  | random st =>
    cases hk : args.k with
    | none => rfl
    | some k => exact randomObj_toObj st k o t s

theorem ringObj_plain (st : Bool) (k p : Nat) (o : Oracle n d K) (t : TopObj) (s : Swarm n d K)
    (hk : k ≠ 1) (hr : t.neighbor ≠ none → t.ndim = 2) :
    (ringObj st k p o t s).1.neighbor ≠ none → (ringObj st k p o t s).1.ndim = 2 := by
  unfold ringObj
  by_cases hq : ((st && t.neighbor.isNone) || !st) = true
  · rw [if_pos hq]
    cases hx : ringQuery k p o s.position with
    | error e => exact hr
    | ok t1 =>
      have hn : t1.ndim = 2 := by
        unfold ringQuery at hx
        split at hx
        · cases hx
        · split at hx
          · cases hx
          · cases hx
            simp
      dsimp only
      rw [if_neg hk]
      cases t1.toObj.neighbor with
      | none => exact fun _ => hn
      | some rows =>
        dsimp only
        split <;> exact fun _ => hn
  · rw [if_neg hq]
    dsimp only
    rw [if_neg hk]
    cases h1 : t.neighbor with
    | none => exact fun h => absurd h1 h
    | some rows =>
      dsimp only
      split <;> exact fun h => hr h

theorem gbestObj_plain (kind : TopKind) (args : TopArgs) (o : Oracle n d K) (t : TopObj)
    (s : Swarm n d K) (hr : t.Plain kind args d) : (gbestObj kind args o t s).1.Plain kind args d := by
  intro k hk h1
  have h2 := hr k hk h1
  unfold gbestObj
  cases kind with
  | star => cases hk
  | ring st =>
    have hk' : args.k = some k := hk
    rw [hk']
    cases hp : args.p with
    | none => exact h2
    | some p => exact ringObj_plain st k p o t s h1 h2
  | vonNeumann =>
    cases hp : args.p with
    | none => exact h2
    | some p =>
      cases hr' : args.r with
      | none => exact h2
      | some r =>
        have hk' : delannoy d r = k := by
          unfold TopKind.degree at hk
          rw [hr'] at hk
          simpa using hk
        rw [← hk'] at h1
        exact ringObj_plain true _ p o t s h1 h2
  | pyramid st => cases hk
  | random st => cases hk

/-- Topologies whose answers do not depend on stored neighbours. -/
def TopKind.Dynamic (kind : TopKind) : Prop :=
  kind = .star ∨ kind = .ring false ∨ kind = .pyramid false ∨ kind = .random false

theorem gbestObj_dynamic (kind : TopKind) (hd : kind.Dynamic) (args : TopArgs) (o : Oracle n d K)
    (t t' : TopObj) (s : Swarm n d K) :
    (gbestObj kind args o t s).2 = (gbestObj kind args o t' s).2 := by
  rcases hd with h | h | h | h <;> subst h <;> unfold gbestObj <;> dsimp only
  · unfold starObj
    cases npArgmin s.pbestCost with
    | none => rfl
    | some i =>
      dsimp only
      split <;> rfl
  · cases args.k with
    | none => rfl
    | some k =>
      cases args.p with
      | none => rfl
      | some p =>
        dsimp only
        unfold ringObj
        simp only [Bool.not_false, Bool.or_true, if_true]
        cases ringQuery k p o s.position with
        | error e => rfl
        | ok t1 => rfl
  · unfold pyramidObj
    split
    · cases npArgmin s.pbestCost <;> rfl
    · simp only [Bool.not_false, Bool.or_true, if_true]
      cases o.delaunay s.position with
      | error e => rfl
      | ok t1 => rfl
  · cases args.k with
    | none => rfl
    | some k =>
      dsimp only
      unfold randomObj
      simp only [Bool.not_false, Bool.or_true, if_true]
      cases randomNeighbors k (o.choice k) with
      | error e => rfl
      | ok a => rfl

theorem gbestObj_dynamic_typed (kind : TopKind) (hd : kind.Dynamic) (args : TopArgs)
    (o : Oracle n d K) (t : TopObj) (t' : TopState n) (s : Swarm n d K) :
    (gbestObj kind args o t s).2 = fitting (computeGbest kind args o t' s).2 := by
  have h : ∀ x : TopState n, (computeGbest kind args o x s).2 =
      (computeGbest kind args o ({} : TopState n) s).2 := by
    intro x
    rcases hd with h | h | h | h <;> subst h <;> unfold computeGbest <;> dsimp only
    · unfold starGbest
      cases npArgmin s.pbestCost with
      | none => rfl
      | some i =>
        dsimp only
        split <;> rfl
    · cases args.k with
      | none => rfl
      | some k =>
        cases args.p with
        | none => rfl
        | some p =>
          dsimp only
          unfold ringGbest
          simp only [Bool.not_false, Bool.or_true, if_true]
          cases ringQuery k p o s.position with
          | error e => rfl
          | ok t1 => rfl
    · unfold pyramidGbest
      split
      · cases npArgmin s.pbestCost <;> rfl
      · simp only [Bool.not_false, Bool.or_true, if_true]
        cases o.delaunay s.position with
        | error e => rfl
        | ok t1 => rfl
    · cases args.k with
      | none => rfl
      | some k =>
        dsimp only
        unfold randomGbest
        simp only [Bool.not_false, Bool.or_true, if_true]
        cases randomNeighbors k (o.choice k) with
        | error e => rfl
        | ok a => rfl
  rw [gbestObj_dynamic kind hd args o t ({} : TopState n).toObj s,
    gbestObj_toObj kind args o {} s (fun k _ _ hx => absurd rfl hx), h t']

end

/-! ### Whole calls -/

/-- The state with another topology. -/
def Opt.withTop (s : Opt n d K) (t : TopState n) : Opt n d K := { s with top := t }

section
variable [Field K] [LinearOrder K] [Transc K] [FloorRing K]

theorem moveSwarm_withTop (cfg : Config n d K) (r : Draw n d K) (iters i : Nat) (s : Opt n d K)
    (t : TopState n) :
    moveSwarm cfg r iters i (s.withTop t) =
      ((moveSwarm cfg r iters i s).1.withTop t, (moveSwarm cfg r iters i s).2) := by
  unfold moveSwarm
  have h1 : (s.withTop t).swarm = s.swarm := rfl
  have h2 : (s.withTop t).vhMem = s.vhMem := rfl
  have h3 : (s.withTop t).bhMem = s.bhMem := rfl
  rw [h1]
  cases callOptions cfg iters i r s.swarm with
  | error e => rfl
  | ok o =>
    dsimp only
    rw [h2]
    generalize computeVelocity { s.swarm with options := o } cfg.clamp cfg.vhStrategy s.vhMem
      (velBounds cfg) r.r1 r.r2 = x
    obtain ⟨vm, x⟩ := x
    cases x with
    | error e => rfl
    | ok v =>
      dsimp only
      rw [h3]
      generalize callPosition cfg r s.bhMem _ = y
      obtain ⟨bm, y⟩ := y
      cases y <;> rfl

/-- `R` relates topology objects and typed topology states that answer alike for ever. -/
def Alike (top : TopKind) (args : TopArgs) (R : TopObj → TopState n → Prop) (d : Nat) (K : Type)
    [LT K] [DecidableLT K] : Prop :=
  ∀ t t', R t t' → ∀ (o : Oracle n d K) (s : Swarm n d K),
    (gbestObj top args o t s).2 = fitting (computeGbest top args o t' s).2 ∧
    R (gbestObj top args o t s).1 (computeGbest top args o t' s).1

variable {R : TopObj → TopState n → Prop}

theorem moveSwarm_top (cfg : Config n d K) (r : Draw n d K) (iters i : Nat) (s : Opt n d K) :
    (moveSwarm cfg r iters i s).1.top = s.top := by
  unfold moveSwarm
  cases callOptions cfg iters i r s.swarm with
  | error e => rfl
  | ok o =>
    dsimp only
    generalize computeVelocity { s.swarm with options := o } cfg.clamp cfg.vhStrategy s.vhMem
      (velBounds cfg) r.r1 r.r2 = x
    obtain ⟨vm, x⟩ := x
    cases x with
    | error e => rfl
    | ok v =>
      dsimp only
      generalize callPosition cfg r s.bhMem _ = y
      obtain ⟨bm, y⟩ := y
      cases y <;> rfl

theorem iterateObj_alike (top : TopKind) (cfg : Config n d K) (hk : cfg.kind = .general top)
    (hR : Alike top cfg.args R d K) (ev : Mat n d K → Except Err (Costs n K)) (r : Draw n d K)
    (iters i : Nat) (q : List Bool) (t : TopObj) (s : Opt n d K) (t0 : TopState n)
    (h : R t s.top) :
    let x := iterateObj top cfg ev r iters i q t (s.withTop t0)
    let y := iterate cfg ev r iters i q s
    x.2.1 = y.1.withTop t0 ∧ x.2.2 = y.2 ∧ R x.1 y.1.top := by
  intro x y
  have hx : x = iterateObj top cfg ev r iters i q t (s.withTop t0) := rfl
  have hy : y = iterate cfg ev r iters i q s := rfl
  unfold iterateObj at hx
  unfold iterate at hy
  have hp : (s.withTop t0).swarm = s.swarm := rfl
  rw [hp] at hx
  cases he : ev s.swarm.position with
  | error e =>
    rw [he] at hx hy
    rw [hx, hy]
    exact ⟨rfl, rfl, h⟩
  | ok c =>
    rw [he] at hx hy
    dsimp only at hx hy
    have hs1 : recordEval c (s.withTop t0) = (recordEval c s).withTop t0 := rfl
    have ht1 : (recordEval c s).top = s.top := rfl
    have hg : callGbest cfg r.oracle (recordEval c s).top (recordEval c s).swarm =
        computeGbest top cfg.args r.oracle s.top (recordEval c s).swarm := by
      unfold callGbest
      rw [hk]
      rfl
    rw [hg] at hy
    rw [hs1] at hx
    have hsw : ((recordEval c s).withTop t0).swarm = (recordEval c s).swarm := rfl
    rw [hsw] at hx
    obtain ⟨ha, hb⟩ := hR t s.top h r.oracle (recordEval c s).swarm
    revert hx hy ha hb
    generalize gbestObj top cfg.args r.oracle t (recordEval c s).swarm = X
    generalize computeGbest top cfg.args r.oracle s.top (recordEval c s).swarm = Y
    obtain ⟨t', X⟩ := X
    obtain ⟨u', Y⟩ := Y
    intro hy hx ha hb
    dsimp only at ha hb
    subst ha
    cases Y with
    | error e =>
      dsimp only [fitting] at hx hy
      rw [hx, hy]
      exact ⟨rfl, rfl, hb⟩
    | ok g =>
      dsimp only [fitting] at hx hy
      have hs2 : recordAnswer (.fits g) ((recordEval c s).withTop t0) =
          (recordBest u' g (recordEval c s)).withTop t0 := rfl
      rw [hs2] at hx
      have hsw2 : ((recordBest u' g (recordEval c s)).withTop t0).swarm =
          (recordBest u' g (recordEval c s)).swarm := rfl
      have ht2 : (recordBest u' g (recordEval c s)).top = u' := rfl
      rw [hsw2] at hx
      revert hx hy ht2
      generalize recordBest u' g (recordEval c s) = S
      intro hy hx ht2
      split at hx
      · next hc =>
        rw [if_pos hc] at hy
        rw [hx, hy]
        exact ⟨rfl, rfl, by rw [ht2]; exact hb⟩
      · next hc =>
        rw [if_neg hc] at hy
        have hm : moveAnswer cfg r iters i (.fits g) (S.withTop t0) =
            moveSwarm cfg r iters i (S.withTop t0) := rfl
        rw [hm, moveSwarm_withTop] at hx
        have ht3 := moveSwarm_top cfg r iters i S
        revert hx hy ht3
        generalize moveSwarm cfg r iters i S = Z
        obtain ⟨s3, Z⟩ := Z
        intro hx hy ht3
        dsimp only at hx hy ht3
        cases Z with
        | error e =>
          dsimp only at hx hy
          rw [hx, hy]
          exact ⟨rfl, rfl, by rw [ht3, ht2]; exact hb⟩
        | ok v =>
          dsimp only at hx hy
          rw [hx, hy]
          exact ⟨rfl, rfl, by rw [ht3, ht2]; exact hb⟩

theorem loopObj_alike (top : TopKind) (cfg : Config n d K) (hk : cfg.kind = .general top)
    (hR : Alike top cfg.args R d K) (ev : Nat → Mat n d K → Except Err (Costs n K))
    (env : Nat → Draw n d K) (iters : Nat) (t0 : TopState n) :
    ∀ (m i : Nat) (q : List Bool) (t : TopObj) (s : Opt n d K), R t s.top →
    let x := loopObj top cfg ev env iters m i q t (s.withTop t0)
    let y := loop cfg ev env iters m i q s
    x.2.1 = y.1.withTop t0 ∧ x.2.2 = y.2 ∧ R x.1 y.1.top := by
  intro m
  induction m with
  | zero => exact fun i q t s h => ⟨rfl, rfl, h⟩
  | succ m ih =>
    intro i q t s h
    have key := iterateObj_alike top cfg hk hR (ev i) (env i) iters i q t s t0 h
    unfold loopObj loop
    revert key
    generalize iterateObj top cfg (ev i) (env i) iters i q t (s.withTop t0) = X
    generalize iterate cfg (ev i) (env i) iters i q s = Y
    obtain ⟨t', u', X⟩ := X
    obtain ⟨s', Y⟩ := Y
    rintro ⟨h1, h2, h3⟩
    dsimp only at h1 h2 h3
    subst h1 h2
    cases X with
    | error e => exact ⟨rfl, rfl, h3⟩
    | ok f =>
      cases f with
      | stop => exact ⟨rfl, rfl, h3⟩
      | «continue» q' => exact ih (i + 1) q' t' s' h3

theorem optimizeObj_alike (top : TopKind) (cfg : Config n d K) (hk : cfg.kind = .general top)
    (hR : Alike top cfg.args R d K) (ev : Nat → Mat n d K → Except Err (Costs n K)) (iters : Nat)
    (nproc : Option Nat) (env : Nat → Draw n d K) (t : TopObj) (s : Opt n d K) (t0 : TopState n)
    (h : R t s.top) :
    let x := optimizeObj top cfg ev iters nproc env t (s.withTop t0)
    let y := optimize cfg ev iters nproc env s
    x.2.1 = y.1.withTop t0 ∧ x.2.2 = y.2 ∧ R x.1 y.1.top := by
  unfold optimizeObj optimize
  split
  · exact ⟨rfl, rfl, h⟩
  · dsimp only
    have hs0 : ({ prepare cfg (s.withTop t0) with
          openPools := (s.withTop t0).openPools + (if nproc.isSome then 1 else 0) } : Opt n d K) =
        ({ prepare cfg s with
          openPools := s.openPools + (if nproc.isSome then 1 else 0) } : Opt n d K).withTop t0 := rfl
    have ht0 : ({ prepare cfg s with
          openPools := s.openPools + (if nproc.isSome then 1 else 0) } : Opt n d K).top = s.top := rfl
    rw [hs0]
    have key := loopObj_alike top cfg hk hR ev env iters t0 iters 0 [] t
      { prepare cfg s with openPools := s.openPools + (if nproc.isSome then 1 else 0) } h
    revert key
    generalize ({ prepare cfg s with
      openPools := s.openPools + (if nproc.isSome then 1 else 0) } : Opt n d K) = S
    generalize loopObj top cfg ev env iters iters 0 [] t (S.withTop t0) = X
    generalize loop cfg ev env iters iters 0 [] S = Y
    obtain ⟨t', u', X⟩ := X
    obtain ⟨s', Y⟩ := Y
    rintro ⟨h1, h2, h3⟩
    dsimp only at h1 h2 h3
    subst h1 h2
    cases X with
    | error e => exact ⟨rfl, rfl, h3⟩
    | ok f =>
      dsimp only
      have hf : finish (s'.withTop t0) = finish s' := rfl
      rw [hf]
      cases finish s' with
      | error e => exact ⟨rfl, rfl, h3⟩
      | ok r => exact ⟨rfl, rfl, h3⟩

theorem stepObj_alike (top : TopKind) (cfg : Config n d K) (hk : cfg.kind = .general top)
    (hR : Alike top cfg.args R d K) (t : TopObj) (s : Opt n d K) (t0 : TopState n)
    (h : R t s.top) (op : Op n d K) :
    (stepObj top cfg t (s.withTop t0) op).2 = (stepOp cfg s op).withTop t0 ∧
      R (stepObj top cfg t (s.withTop t0) op).1 (stepOp cfg s op).top := by
  cases op with
  | optimize ev iters nproc env =>
    obtain ⟨h1, h2, h3⟩ := optimizeObj_alike top cfg hk hR ev iters nproc env t s t0 h
    exact ⟨h1, h3⟩
  | reset r =>
    unfold stepObj stepOp reset
    dsimp only
    cases resetSwarm cfg r with
    | error e => exact ⟨rfl, h⟩
    | ok sw => exact ⟨rfl, h⟩

theorem alike_dynamic (top : TopKind) (hd : top.Dynamic) (args : TopArgs) :
    Alike top args (fun _ (_ : TopState n) => True) d K :=
  fun t t' _ o s => ⟨gbestObj_dynamic_typed top hd args o t t' s, trivial⟩

theorem alike_typed (top : TopKind) (args : TopArgs) :
    Alike top args (fun t (t' : TopState n) => t = t'.toObj ∧ t.Plain top args d) d K := by
  rintro t t' ⟨h1, h2⟩ o s
  subst h1
  have h3 := gbestObj_toObj top args o t' s h2
  have h4 := gbestObj_plain top args o t'.toObj s h2
  rw [h3] at h4
  rw [h3]
  exact ⟨rfl, rfl, h4⟩

end

end PySwarms

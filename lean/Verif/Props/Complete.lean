import Verif.Props.Local
import Verif.Lemmas.First
import Verif.Examples

/-!
# Fully connected neighbourhoods are the global best (C66)
-/

set_option linter.unusedSectionVars false

namespace PySwarms

variable {n d : Nat} {K : Type} [Field K] [LinearOrder K] [IsStrictOrderedRing K] [Transc K]
  [FloorRing K]

/-- No two different positions in the log got the same cost below `+inf`. -/
def NoTies (E : List (Mat n d K × Costs n K)) : Prop :=
  ∀ e ∈ E, ∀ f ∈ E, ∀ i j, XR.lt (e.2 i) XR.pinf = true → e.2 i = f.2 j → e.1 i = f.1 j

/-- The settings under which every particle is informed by the whole swarm: a ring (LocalBestPSO
or `Ring`) with `k = n_particles`, a `VonNeumann` topology whose range gives `n_particles`
neighbours, a `Pyramid` with at most as many particles as dimensions, a `Random` topology with
`k = n_particles - 1`.  `o` gives the answers of the k-d tree and of `np.random.choice`. -/
inductive FullyConnected (dist : Vec d K → Vec d K → K) (o : Oracle n d K) : Kind → TopArgs → Prop
  | localBest (st : Bool) (p : Nat) (r : Option Nat) (hp : p ≠ 0) (hn : 2 ≤ n)
      (hknn : ∀ x, IsKnn dist n x (o.knn n p x)) :
      FullyConnected dist o (.localBest st) ⟨some n, some p, r⟩
  | ring (st : Bool) (p : Nat) (r : Option Nat) (hp : p ≠ 0) (hn : 2 ≤ n)
      (hknn : ∀ x, IsKnn dist n x (o.knn n p x)) :
      FullyConnected dist o (.general (.ring st)) ⟨some n, some p, r⟩
  | vonNeumann (k : Option Nat) (p r : Nat) (hp : p ≠ 0) (hn : 2 ≤ n) (hr : delannoy d r = n)
      (hknn : ∀ x, IsKnn dist n x (o.knn n p x)) :
      FullyConnected dist o (.general .vonNeumann) ⟨k, some p, some r⟩
  | pyramid (st : Bool) (args : TopArgs) (hn : 0 < n) (hd : n < d + 1) :
      FullyConnected dist o (.general (.pyramid st)) args
  | random (st : Bool) (p r : Option Nat) (hn : 0 < n)
      (hch : ∀ i, (o.choice (n - 1) i).length = n - 1 ∧ (o.choice (n - 1) i).Nodup ∧
        i ∉ o.choice (n - 1) i) :
      FullyConnected dist o (.general (.random st)) ⟨some (n - 1), p, r⟩

/-- All neighbour lists are complete. -/
def AllKnown (nbr : Fin n → List (Fin n)) : Prop := ∀ i j, j ∈ nbr i

/-- What a fully connected topology answers. -/
def AnswersBest (s : Swarm n d K) (o : TopState n × Except Err (GBest n d K)) : Prop :=
  TopInv AllKnown o.1 ∧ ∃ bp m, o.2 = .ok (bp, some (s.pbestCost m)) ∧
    (∀ i, XR.lt (s.pbestCost i) (s.pbestCost m) = false) ∧
    ((∃ k, bp = .single (s.pbestPos k) ∧ s.pbestCost k = s.pbestCost m) ∨
      ∃ b : Fin n → Fin n, bp = .perParticle (fun i => s.pbestPos (b i)) ∧
        ∀ i, s.pbestCost (b i) = s.pbestCost m)

theorem allKnown_knn {dist : Vec d K → Vec d K → K} {x : Mat n d K} {nbr : Fin n → List (Fin n)}
    (h : IsKnn dist n x nbr) : AllKnown nbr := by
  intro i j
  obtain ⟨h1, h2, -⟩ := h i
  have hp := (List.subperm_of_subset h2 (l₂ := List.finRange n) (fun a _ => List.mem_finRange a))
  exact (hp.perm_of_length_le (by simp [h1])).symm.subset (List.mem_finRange j)

theorem nbrBest_answers {nbr : Fin n → List (Fin n)} (hn : 0 < n) (ha : AllKnown nbr)
    {s : Swarm n d K} (hp : ∀ i, s.pbestCost i ≠ XR.nan) (t : TopState n)
    (ht : TopInv AllKnown t) : AnswersBest s (t, nbrBest nbr s) := by
  refine ⟨ht, ?_⟩
  obtain ⟨g, hg⟩ := nbrBest_ok (nbr := nbr) s hn (fun i h => by
    have := ha i ⟨0, hn⟩
    rw [h] at this
    cases this)
  obtain ⟨rows, c, rfl, b, h1, h2, ⟨i0, h3⟩, h4⟩ := nbrBest_spec hp hg
  have hmin : ∀ i j, XR.lt (s.pbestCost j) (s.pbestCost (b i)) = false := by
    intro i j
    obtain ⟨_, _, _, _, h6⟩ := h1 i
    exact h6 j (ha i j)
  refine ⟨.perParticle rows, b i0, by rw [hg, h3], hmin i0, Or.inr ⟨b, ?_, ?_⟩⟩
  · congr 1
    funext i
    exact h2 i
  · intro i
    exact XR.eq_of_not_lt (hp _) (hp _) (hmin i0 _) (hmin i _)

theorem ringGbest_answers {st : Bool} {k p : Nat} {o : Oracle n d K} (hn : 2 ≤ n) (hk : k = n)
    (hp : p ≠ 0) {t : TopState n} {s : Swarm n d K} (ho : ∀ x, AllKnown (o.knn n p x))
    (hpc : ∀ i, s.pbestCost i ≠ XR.nan) (ht : TopInv AllKnown t) :
    AnswersBest s (ringGbest st k p o t s) := by
  subst hk
  have h1 : ¬ k = 1 := by omega
  have h2 : ¬ (k = 0 ∨ p = 0) := by omega
  have h3 : ¬ (k > k ∧ k ≠ 1) := by omega
  unfold ringGbest ringQuery
  simp only [h1, h2, h3, if_false]
  by_cases hc : ((st && t.neighbor.isNone) || !st) = true
  · simp only [hc, if_true]
    exact nbrBest_answers (by omega) (ho _) hpc _ (by intro nbr h; cases h; exact ho _)
  · simp only [hc]
    cases hnb : t.neighbor with
    | none => simp [hnb] at hc
    | some nbr =>
      have := nbrBest_answers (by omega) (ht nbr hnb) hpc _ ht
      simpa [hnb] using this

theorem allKnown_random {k : Nat} {choice : Fin n → List (Fin n)} {a : Adj n} (hn : 0 < n)
    (hk : k = n - 1)
    (hch : ∀ i, (choice i).length = n - 1 ∧ (choice i).Nodup ∧ i ∉ choice i)
    (h : randomNeighbors k choice = .ok a) : AllKnown (adjLists a) := by
  intro i j
  have hmem : i = j ∨ j ∈ choice i := by
    obtain ⟨h1, h2, h3⟩ := hch i
    have hnd : (i :: choice i).Nodup := List.nodup_cons.2 ⟨h3, h2⟩
    have hp := (List.subperm_of_subset hnd (l₂ := List.finRange n)
      (fun a _ => List.mem_finRange a))
    have := (hp.perm_of_length_le (by simp [h1]; omega)).symm.subset (List.mem_finRange j)
    rcases List.mem_cons.1 this with h | h
    · exact Or.inl h.symm
    · exact Or.inr h
  have hdr : drawnAdj choice i j = true := by
    unfold drawnAdj
    rcases hmem with h | h <;> simp [h]
  rw [randomNeighbors_ok k choice hn (by omega)] at h
  cases h
  unfold adjLists
  rw [List.mem_filter]
  refine ⟨List.mem_finRange j, ?_⟩
  split
  · exact hdr
  · unfold addMissing
    split
    · rfl
    · exact hdr

theorem callGbest_answers {dist : Vec d K → Vec d K → K} {o : Oracle n d K} {cfg : Config n d K}
    (hf : FullyConnected dist o cfg.kind cfg.args) {t : TopState n} {s : Swarm n d K}
    (hpc : ∀ i, s.pbestCost i ≠ XR.nan) (ht : TopInv AllKnown t) :
    AnswersBest s (callGbest cfg o t s) := by
  unfold callGbest
  generalize cfg.kind = kind at hf
  generalize cfg.args = args at hf
  cases hf with
  | localBest st p r hp hn hknn =>
    exact ringGbest_answers hn rfl hp (fun x => allKnown_knn (hknn x)) hpc ht
  | ring st p r hp hn hknn =>
    exact ringGbest_answers hn rfl hp (fun x => allKnown_knn (hknn x)) hpc ht
  | vonNeumann k p r hp hn hr hknn =>
    exact ringGbest_answers hn hr hp (fun x => allKnown_knn (hknn x)) hpc ht
  | pyramid st _ hn hd =>
    obtain ⟨k, h1, h2, -⟩ := npArgmin_spec s.pbestCost hn hpc
    simp only [computeGbest, pyramidGbest, hd, if_true, h1]
    refine ⟨?_, _, k, rfl, h2, Or.inl ⟨k, rfl, rfl⟩⟩
    intro nbr h
    cases h
    intro i j
    exact List.mem_finRange j
  | random st p r hn hch =>
    simp only [computeGbest, randomGbest]
    by_cases hc : ((st && t.neighbor.isNone) || !st) = true
    · have hok := randomNeighbors_ok (n - 1) (o.choice (n - 1)) hn (by omega)
      simp only [hc, if_true, hok]
      have := allKnown_random hn rfl hch hok
      exact nbrBest_answers hn this hpc _ (by intro nbr h; cases h; exact this)
    · simp only [hc]
      cases hnb : t.neighbor with
      | none => simp [hnb] at hc
      | some nbr =>
        have := nbrBest_answers hn (ht nbr hnb) hpc _ ht
        simpa [hnb] using this

/-- The two representations of one attraction point. -/
def Agree (a b : BestPos n d K) : Prop :=
  (a = .empty ∧ b = .empty) ∨ ∃ v, a = .single v ∧ (b = .single v ∨ b = .perParticle fun _ => v)

/-- The second state is the first one except for the topology object and the shape of
`best_pos`. -/
def Twin (s s' : Opt n d K) : Prop :=
  ∃ t bp, s' = { s with top := t, swarm := { s.swarm with bestPos := bp } } ∧
    Agree s.swarm.bestPos bp ∧ TopInv AllKnown t

theorem computeVelocity_agree {s : Swarm n d K} {bp : BestPos n d K} (h : Agree s.bestPos bp)
    (clamp : Option (Clamp d K)) (strategy : String) (mem : Option (Mat n d K))
    (b : Option (Bounds d K)) (r1 r2 : Mat n d K) :
    computeVelocity { s with bestPos := bp } clamp strategy mem b r1 r2 =
      computeVelocity s clamp strategy mem b r1 r2 := by
  obtain ⟨pos, vel, opt, pp, pc, bestPos, bc, cc⟩ := s
  rcases h with ⟨h1, h2⟩ | ⟨v, h1, h2 | h2⟩ <;> simp only at h1 <;> subst h1 <;> subst h2 <;> rfl

theorem moveSwarm_twin (cfg : Config n d K) (hk : cfg.kind.isStar) (kind : Kind) (args : TopArgs)
    (hb : kind ≠ .binary) (r : Draw n d K) (iters i : Nat) {s s' : Opt n d K} (h : Twin s s') :
    Twin (moveSwarm cfg r iters i s).1
      (moveSwarm { cfg with kind := kind, args := args } r iters i s').1 ∧
    (moveSwarm cfg r iters i s).2 =
      (moveSwarm { cfg with kind := kind, args := args } r iters i s').2 := by
  obtain ⟨t, bp, rfl, ha, ht⟩ := h
  have e1 : ∀ sw sw' : Swarm n d K, callOptions { cfg with kind := kind, args := args } iters i r sw'
      = callOptions cfg iters i r sw := by
    intro sw sw'
    unfold callOptions
    rcases hk' : cfg.kind with _ | _ | _ | _ <;> rcases kind with _ | _ | _ | _ <;>
      first
        | rfl
        | exact absurd rfl hb
        | (rw [hk'] at hk; exact hk.elim)
  have e2 : velBounds { cfg with kind := kind, args := args } = velBounds cfg := by
    unfold velBounds
    rcases hk' : cfg.kind with _ | _ | _ | _ <;> rcases kind with _ | _ | _ | _ <;>
      first
        | rfl
        | exact absurd rfl hb
        | (rw [hk'] at hk; exact hk.elim)
  have e3 : ∀ (mem : Option (Mat n d K)) (sw : Swarm n d K) (b : BestPos n d K),
      callPosition { cfg with kind := kind, args := args } r mem { sw with bestPos := b } =
        callPosition cfg r mem sw := by
    intro mem sw b
    unfold callPosition
    rcases hk' : cfg.kind with _ | _ | _ | _ <;> rcases kind with _ | _ | _ | _ <;>
      first
        | rfl
        | exact absurd rfl hb
        | (rw [hk'] at hk; exact hk.elim)
  unfold moveSwarm
  dsimp only
  rw [e1 s.swarm]
  cases callOptions cfg iters i r s.swarm with
  | error e => exact ⟨⟨t, bp, rfl, ha, ht⟩, rfl⟩
  | ok o =>
    dsimp only
    rw [e2]
    have e4 := computeVelocity_agree (s := { s.swarm with options := o }) (bp := bp) ha cfg.clamp
      cfg.vhStrategy s.vhMem (velBounds cfg) r.r1 r.r2
    dsimp only at e4
    rw [e4]
    generalize computeVelocity { s.swarm with options := o } cfg.clamp cfg.vhStrategy s.vhMem
      (velBounds cfg) r.r1 r.r2 = vv
    obtain ⟨vm, e | v⟩ := vv
    · exact ⟨⟨t, bp, rfl, ha, ht⟩, rfl⟩
    · dsimp only
      have e5 := e3 s.bhMem { s.swarm with options := o, velocity := v } bp
      dsimp only at e5
      rw [e5]
      generalize callPosition cfg r s.bhMem { s.swarm with options := o, velocity := v } = pp
      obtain ⟨bm, e | x⟩ := pp
      · exact ⟨⟨t, bp, rfl, ha, ht⟩, rfl⟩
      · exact ⟨⟨t, bp, rfl, ha, ht⟩, rfl⟩

/-- The swarm best is a minimal personal best below `+inf`. -/
def Linked (s : Opt n d K) : Prop :=
  ∃ k, s.swarm.bestPos = .single (s.swarm.pbestPos k) ∧
    s.swarm.bestCost = some (s.swarm.pbestCost k) ∧ XR.lt (s.swarm.pbestCost k) XR.pinf = true ∧
    ∀ i, XR.lt (s.swarm.pbestCost i) (s.swarm.pbestCost k) = false

/-- Every personal best below `+inf` is in the log. -/
def Logged (s : Opt n d K) : Prop :=
  ∀ i, s.swarm.pbestCost i = XR.pinf ∨ (s.swarm.pbestCost i ≠ XR.nan ∧
    ∃ e ∈ s.evals, e.1 i = s.swarm.pbestPos i ∧ e.2 i = s.swarm.pbestCost i)

theorem logged_recordEval {s : Opt n d K} (h : Logged s) (c : Costs n K) :
    Logged (recordEval c s) := by
  intro i
  have he : (recordEval c s).evals = s.evals ++ [(s.swarm.position, c)] := rfl
  rw [recordEval_pbestCost, recordEval_pbestPos, he]
  by_cases hl : XR.lt (c i) (s.swarm.pbestCost i) = true
  · simp only [hl, if_true]
    exact Or.inr ⟨XR.left_ne_nan hl, (s.swarm.position, c), by simp, rfl, rfl⟩
  · simp only [hl]
    rcases h i with h | ⟨h1, e, h2, h3⟩
    · exact Or.inl h
    · exact Or.inr ⟨h1, e, by simp [h2], h3⟩

theorem logged_ne_nan {s : Opt n d K} (h : Logged s) (i : Fin n) :
    s.swarm.pbestCost i ≠ XR.nan := by
  rcases h i with h | h
  · rw [h]; simp
  · exact h.1

theorem logged_tie {s : Opt n d K} (h : Logged s) (hE : NoTies s.evals) {i j : Fin n}
    (hi : XR.lt (s.swarm.pbestCost i) XR.pinf = true)
    (hij : s.swarm.pbestCost i = s.swarm.pbestCost j) :
    s.swarm.pbestPos i = s.swarm.pbestPos j := by
  have hf := (XR.lt_pinf_iff _).1 hi
  rcases h i with h1 | ⟨-, e, he, h1, h2⟩
  · exact absurd h1 hf.2
  · rcases h j with h3 | ⟨-, f, hf', h3, h4⟩
    · rw [← hij] at h3; exact absurd h3 hf.2
    · rw [← h1, ← h3]
      exact hE e he f hf' i j (by rw [h2]; exact hi) (by rw [h2, h4, hij])

/-- The start of a call: nothing known, or the best of the call so far known. -/
def Known (i : Nat) (s : Opt n d K) : Prop :=
  Logged s ∧ ((i = 0 ∧ s.swarm.bestCost = none ∧ s.swarm.bestPos = .empty ∧
    ∀ j, s.swarm.pbestCost j = XR.pinf) ∨ Linked s)

/-- The answer of `Star` in the middle of an iteration. -/
theorem star_known {i : Nat} {s : Opt n d K} (h : Known i s) {c : Costs n K}
    (hc : i = 0 → ∃ j, XR.lt (c j) XR.pinf = true)
    (hE : NoTies (recordEval c s).evals) (t : TopState n) :
    ∃ t' k, starGbest t (recordEval c s).swarm =
        (t', .ok (.single ((recordEval c s).swarm.pbestPos k),
          some ((recordEval c s).swarm.pbestCost k))) ∧
      XR.lt ((recordEval c s).swarm.pbestCost k) XR.pinf = true ∧
      ∀ j, XR.lt ((recordEval c s).swarm.pbestCost j) ((recordEval c s).swarm.pbestCost k) = false := by
  obtain ⟨hL, hK⟩ := h
  have hLa := logged_recordEval hL c
  have hnn := logged_ne_nan hLa
  have hn : 0 < n := by
    rcases hK with ⟨h0, -⟩ | ⟨k, -⟩
    · obtain ⟨j, -⟩ := hc h0
      exact Nat.lt_of_le_of_lt (Nat.zero_le _) j.2
    · exact Nat.lt_of_le_of_lt (Nat.zero_le _) k.2
  obtain ⟨t', k, -, hmin, -, hcase⟩ := starGbest_spec hn t (recordEval c s).swarm hnn
  have hval : (recordEval c s).swarm.bestCostVal = s.swarm.bestCostVal := rfl
  have hpos : (recordEval c s).swarm.bestPos = s.swarm.bestPos := rfl
  have hcost : (recordEval c s).swarm.bestCost = s.swarm.bestCost := rfl
  rcases hK with ⟨h0, h1, h2, h3⟩ | ⟨k0, h1, h2, h3, h4⟩
  · obtain ⟨j, hj⟩ := hc h0
    have hj' : XR.lt ((recordEval c s).swarm.pbestCost j) XR.pinf = true := by
      rw [recordEval_pbestCost, h3 j]
      simp only [hj, if_true]
    have hk : XR.lt ((recordEval c s).swarm.pbestCost k) XR.pinf = true :=
      XR.lt_of_not_lt_of_lt (hnn k) (hmin j) hj'
    have hbv : (recordEval c s).swarm.bestCostVal = XR.pinf := by
      rw [hval]; unfold Swarm.bestCostVal; rw [h1]; rfl
    rcases hcase with ⟨-, hcase⟩ | ⟨hcase, -⟩
    · exact ⟨t', k, hcase, hk, hmin⟩
    · rw [hbv, hk] at hcase; cases hcase
  · have hbv : s.swarm.bestCostVal = s.swarm.pbestCost k0 := by
      unfold Swarm.bestCostVal; rw [h2]; rfl
    by_cases hl : XR.lt (c k0) (s.swarm.pbestCost k0) = true
    · have hk0 : (recordEval c s).swarm.pbestCost k0 = c k0 := by
        rw [recordEval_pbestCost]; simp only [hl, if_true]
      have hlt : XR.lt ((recordEval c s).swarm.pbestCost k) (s.swarm.pbestCost k0) = true :=
        XR.lt_of_not_lt_of_lt (hnn k) (hmin k0) (by rw [hk0]; exact hl)
      rcases hcase with ⟨-, hcase⟩ | ⟨hcase, -⟩
      · exact ⟨t', k, hcase, XR.lt_trans hlt h3, hmin⟩
      · rw [hval, hbv, hlt] at hcase; cases hcase
    · have hk0 : (recordEval c s).swarm.pbestCost k0 = s.swarm.pbestCost k0 := by
        rw [recordEval_pbestCost]; simp only [hl]; rfl
      have hp0 : (recordEval c s).swarm.pbestPos k0 = s.swarm.pbestPos k0 := by
        rw [recordEval_pbestPos]; simp only [hl]; rfl
      have hk : XR.lt ((recordEval c s).swarm.pbestCost k) XR.pinf = true :=
        XR.lt_of_not_lt_of_lt (hnn k) (hmin k0) (by rw [hk0]; exact h3)
      rcases hcase with ⟨-, hcase⟩ | ⟨hcase, hs⟩
      · exact ⟨t', k, hcase, hk, hmin⟩
      · rw [hval, hbv, ← hk0] at hcase
        have heq : (recordEval c s).swarm.pbestCost k = (recordEval c s).swarm.pbestCost k0 :=
          XR.eq_of_not_lt (hnn _) (hnn _) hcase (hmin k0)
        refine ⟨t', k, ?_, hk, hmin⟩
        rw [hs, hpos, hcost, h1, h2, logged_tie hLa hE hk heq, hp0, heq, hk0]

theorem iterate_evals {cfg : Config n d K} {ev : Mat n d K → Except Err (Costs n K)}
    {r : Draw n d K} {iters i : Nat} {q : List Bool} {s : Opt n d K} {c : Costs n K}
    (h : ev s.swarm.position = .ok c) :
    (iterate cfg ev r iters i q s).1.evals = s.evals ++ [(s.swarm.position, c)] := by
  have hc := iterate_cases cfg ev r iters i q s
  generalize (iterate cfg ev r iters i q s).1 = s' at hc ⊢
  generalize (iterate cfg ev r iters i q s).2 = o at hc
  cases hc with
  | evalError e he => rw [h] at he; cases he
  | gbestError c' t e he hg => rw [h] at he; cases he; rfl
  | stop c' t g he hg => rw [h] at he; cases he; rfl
  | moveError c' t g s' e he hg _ hm =>
    rw [h] at he; cases he
    have hf := moveSwarm_frame cfg r iters i (recordBest t g (recordEval c s))
    rw [hm] at hf
    exact hf.2.2.2.2.2.2.2.2.2.2.2.1
  | moved c' t g s' he hg _ hm =>
    rw [h] at he; cases he
    have hf := moveSwarm_frame cfg r iters i (recordBest t g (recordEval c s))
    rw [hm] at hf
    exact hf.2.2.2.2.2.2.2.2.2.2.2.1

theorem noTies_left {E F : List (Mat n d K × Costs n K)} (h : NoTies (E ++ F)) : NoTies E :=
  fun e he f hf => h e (by simp [he]) f (by simp [hf])

/-- One iteration side by side. -/
theorem iterate_twin (cfg : Config n d K) (hk : cfg.kind.isStar) (kind : Kind) (args : TopArgs)
    (hb : kind ≠ .binary) (ev : Mat n d K → Except Err (Costs n K)) (r : Draw n d K)
    (dist : Vec d K → Vec d K → K) (hf : FullyConnected dist r.oracle kind args)
    (iters i : Nat) (q : List Bool) {s s' : Opt n d K} (h : Twin s s') (hs : Known i s)
    (hc : ∀ c, i = 0 → ev s.swarm.position = .ok c → ∃ j, XR.lt (c j) XR.pinf = true)
    (hE : NoTies (iterate cfg ev r iters i q s).1.evals) :
    Twin (iterate cfg ev r iters i q s).1
      (iterate { cfg with kind := kind, args := args } ev r iters i q s').1 ∧
    (iterate cfg ev r iters i q s).2 =
      (iterate { cfg with kind := kind, args := args } ev r iters i q s').2 ∧
    ∀ q', (iterate cfg ev r iters i q s).2 = .ok (.continue q') →
      Known (i + 1) (iterate cfg ev r iters i q s).1 := by
  cases he : ev s.swarm.position with
  | error e =>
    obtain ⟨t, bp, rfl, ha, ht⟩ := h
    unfold iterate
    simp only [he]
    exact ⟨⟨t, bp, rfl, ha, ht⟩, trivial, fun q' h => by cases h⟩
  | ok c =>
    rw [iterate_evals he] at hE
    have hE' : NoTies (recordEval c s).evals := hE
    obtain ⟨t1, k, hst, hk1, hmin⟩ := star_known hs (c := c) (fun h0 => hc c h0 he) hE' s.top
    have hLa := logged_recordEval hs.1 c
    obtain ⟨t, bp, rfl, ha, ht⟩ := h
    have hans := callGbest_answers (cfg := { cfg with kind := kind, args := args })
      (o := r.oracle) hf (t := t) (s := { (recordEval c s).swarm with bestPos := bp })
      (logged_ne_nan hLa) ht
    have hre : recordEval c { s with top := t, swarm := { s.swarm with bestPos := bp } } =
      { recordEval c s with top := t, swarm := { (recordEval c s).swarm with bestPos := bp } } := rfl
    unfold iterate
    dsimp only
    simp only [he]
    rw [callGbest_star cfg hk, hre]
    have htop : (recordEval c s).top = s.top := rfl
    rw [htop, hst]
    dsimp only
    generalize callGbest { cfg with kind := kind, args := args } r.oracle t
      { (recordEval c s).swarm with bestPos := bp } = oo at hans
    obtain ⟨t2, o2⟩ := oo
    obtain ⟨ht2, bp2, m, ho2, hm, hrows⟩ := hans
    dsimp only at ht2 ho2 hm hrows
    subst ho2
    dsimp only
    have hmk : (recordEval c s).swarm.pbestCost m = (recordEval c s).swarm.pbestCost k :=
      XR.eq_of_not_lt (logged_ne_nan hLa _) (logged_ne_nan hLa _) (hmin m) (hm k)
    have hag : Agree (.single ((recordEval c s).swarm.pbestPos k)) bp2 := by
      right
      refine ⟨_, rfl, ?_⟩
      rcases hrows with ⟨k', rfl, hk'⟩ | ⟨b, rfl, hb'⟩
      · left
        rw [logged_tie hLa hE' hk1 (hmk.symm.trans hk'.symm)]
      · right
        congr 1
        funext i'
        exact (logged_tie hLa hE' hk1 (hmk.symm.trans (hb' i').symm)).symm
    rw [hmk]
    generalize hA : recordBest t1 (BestPos.single ((recordEval c s).swarm.pbestPos k),
      some ((recordEval c s).swarm.pbestCost k)) (recordEval c s) = A
    generalize hB : recordBest t2 (bp2, some ((recordEval c s).swarm.pbestCost k))
      { recordEval c s with top := t, swarm := { (recordEval c s).swarm with bestPos := bp } } = B
    have hAB : Twin A B := by
      subst hA hB
      exact ⟨t2, bp2, rfl, hag, ht2⟩
    have hbc : B.swarm.bestCostVal = A.swarm.bestCostVal := by subst hA hB; rfl
    have hKA : ∀ s3, s3.evals = A.evals → s3.swarm.pbestPos = A.swarm.pbestPos →
        s3.swarm.pbestCost = A.swarm.pbestCost → s3.swarm.bestPos = A.swarm.bestPos →
        s3.swarm.bestCost = A.swarm.bestCost → Known (i + 1) s3 := by
      intro s3 g1 g2 g3 g4 g5
      subst hA
      refine ⟨?_, Or.inr ⟨k, ?_, ?_, ?_, ?_⟩⟩
      · intro i'
        rw [g1, g2, g3]
        exact hLa i'
      · rw [g4, g2]; rfl
      · rw [g5, g3]; rfl
      · rw [g3]; exact hk1
      · rw [g3]; exact hmin
    rw [hbc]
    have hw : Config.window { cfg with kind := kind, args := args } = cfg.window := rfl
    have hbv : Swarm.bestCostVal { (recordEval c s).swarm with bestPos := bp } =
      (recordEval c s).swarm.bestCostVal := rfl
    rw [hw, hbv]
    split
    · exact ⟨hAB, rfl, fun q' h => by cases h⟩
    · obtain ⟨m1, m2⟩ := moveSwarm_twin cfg hk kind args hb r iters i hAB
      have hfr := moveSwarm_frame cfg r iters i A
      generalize moveSwarm cfg r iters i A = u at m1 m2 hfr
      generalize moveSwarm { cfg with kind := kind, args := args } r iters i B = u' at m1 m2
      obtain ⟨s3, o⟩ := u
      obtain ⟨s3', o'⟩ := u'
      dsimp only at m2 hfr
      subst m2
      cases o with
      | error e => exact ⟨m1, rfl, fun q' h => by cases h⟩
      | ok u =>
        refine ⟨m1, rfl, fun q' _ => ?_⟩
        exact hKA s3 hfr.2.2.2.2.2.2.2.2.2.2.2.1 hfr.1 hfr.2.1 hfr.2.2.1 hfr.2.2.2.1

theorem loop_twin (cfg : Config n d K) (hk : cfg.kind.isStar) (kind : Kind) (args : TopArgs)
    (hb : kind ≠ .binary) (ev : Nat → Mat n d K → Except Err (Costs n K)) (env : Nat → Draw n d K)
    (dist : Vec d K → Vec d K → K)
    (hf : ∀ i, FullyConnected dist (env i).oracle kind args)
    (hc : ∀ x c, ev 0 x = .ok c → ∃ j, XR.lt (c j) XR.pinf = true)
    (iters m i : Nat) (q : List Bool) {s s' : Opt n d K} (h : Twin s s') (hs : Known i s)
    (hE : NoTies (loop cfg ev env iters m i q s).1.evals) :
    Twin (loop cfg ev env iters m i q s).1
      (loop { cfg with kind := kind, args := args } ev env iters m i q s').1 ∧
    (loop cfg ev env iters m i q s).2 =
      (loop { cfg with kind := kind, args := args } ev env iters m i q s').2 := by
  induction m generalizing i q s s' with
  | zero => exact ⟨h, rfl⟩
  | succ m ih =>
    have hE1 : NoTies (iterate cfg (ev i) (env i) iters i q s).1.evals := by
      rw [loop] at hE
      generalize iterate cfg (ev i) (env i) iters i q s = o at hE
      obtain ⟨s1, e | f⟩ := o
      · exact hE
      · cases f with
        | stop => exact hE
        | «continue» q' =>
          obtain ⟨E, hE', -⟩ := loop_log cfg ev env iters m (i + 1) q' s1
          dsimp only at hE
          rw [hE'] at hE
          exact noTies_left hE
    obtain ⟨h1, h2, h3⟩ := iterate_twin cfg hk kind args hb (ev i) (env i) dist (hf i) iters i q h hs
      (fun c h0 hcc => hc _ c (by subst h0; exact hcc)) hE1
    rw [loop] at hE ⊢
    rw [loop]
    generalize iterate cfg (ev i) (env i) iters i q s = o at h1 h2 h3 hE
    generalize iterate { cfg with kind := kind, args := args } (ev i) (env i) iters i q s' = o' at h1 h2
    obtain ⟨s1, o⟩ := o
    obtain ⟨s1', o'⟩ := o'
    dsimp only at h2
    subst h2
    rcases o with e | f
    · exact ⟨h1, rfl⟩
    · cases f with
      | stop => exact ⟨h1, rfl⟩
      | «continue» q' => exact ih (i + 1) q' h1 (h3 q' rfl) hE

/-- The two optimizers have the same swarm apart from the shape of `best_pos`, the same histories
and the same evaluations. -/
structure SameSearch (s s' : Opt n d K) : Prop where
  position : s'.swarm.position = s.swarm.position
  velocity : s'.swarm.velocity = s.swarm.velocity
  pbestPos : s'.swarm.pbestPos = s.swarm.pbestPos
  pbestCost : s'.swarm.pbestCost = s.swarm.pbestCost
  currentCost : s'.swarm.currentCost = s.swarm.currentCost
  bestCost : s'.swarm.bestCost = s.swarm.bestCost
  bestPos : ∀ i, s'.swarm.bestPos.row s.swarm.position i = s.swarm.bestPos.row s.swarm.position i
  costHistory : s'.costHistory = s.costHistory
  meanPbestHistory : s'.meanPbestHistory = s.meanPbestHistory
  meanNeighborHistory : s'.meanNeighborHistory = s.meanNeighborHistory
  posHistory : s'.posHistory = s.posHistory
  velocityHistory : s'.velocityHistory = s.velocityHistory
  evals : s'.evals = s.evals

theorem Twin.same {s s' : Opt n d K} (h : Twin s s') : SameSearch s s' := by
  obtain ⟨t, bp, rfl, ha, -⟩ := h
  refine ⟨rfl, rfl, rfl, rfl, rfl, rfl, ?_, rfl, rfl, rfl, rfl, rfl, rfl⟩
  intro i
  dsimp only
  rcases ha with ⟨h1, h2⟩ | ⟨v, h1, h2 | h2⟩ <;> rw [h1, h2] <;> rfl

theorem optimize_twin (cfg : Config n d K) (hk : cfg.kind.isStar) (kind : Kind) (args : TopArgs)
    (hb : kind ≠ .binary) (ev : Nat → Mat n d K → Except Err (Costs n K)) (env : Nat → Draw n d K)
    (dist : Vec d K → Vec d K → K) (hf : ∀ i, FullyConnected dist (env i).oracle kind args)
    (hc : ∀ x c, ev 0 x = .ok c → ∃ j, XR.lt (c j) XR.pinf = true)
    (iters : Nat) (nproc : Option Nat) {s s' : Opt n d K} (h : Twin s s')
    (h0 : s.swarm.bestCost = none) (h0' : s.swarm.bestPos = .empty)
    (hE : NoTies (optimize cfg ev iters nproc env s).1.evals) :
    Twin (optimize cfg ev iters nproc env s).1
      (optimize { cfg with kind := kind, args := args } ev iters nproc env s').1 ∧
    (optimize cfg ev iters nproc env s).2 =
      (optimize { cfg with kind := kind, args := args } ev iters nproc env s').2 := by
  obtain ⟨t, bp, rfl, ha, ht⟩ := h
  have hbm : ∀ x : Opt n d K, (prepare { cfg with kind := kind, args := args } x).bhMem =
      (prepare cfg x).bhMem := by
    intro x
    unfold prepare
    rcases hk' : cfg.kind with _ | _ | _ | _ <;> rcases kind with _ | _ | _ | _ <;>
      first
        | rfl
        | exact absurd rfl hb
        | (rw [hk'] at hk; exact hk.elim)
  have hbm' : ∀ x : Opt n d K, (prepare cfg x).bhMem = some x.swarm.position := by
    intro x
    unfold prepare
    rcases hk' : cfg.kind with _ | _ | _ | _ <;>
      first
        | rfl
        | (rw [hk'] at hk; exact hk.elim)
  have htw : Twin (startState cfg nproc s) (startState { cfg with kind := kind, args := args } nproc
      { s with top := t, swarm := { s.swarm with bestPos := bp } }) := by
    refine ⟨t, bp, ?_, ha, ht⟩
    have e := hbm' { s with top := t, swarm := { s.swarm with bestPos := bp } }
    rw [← hbm] at e
    have e2 := hbm' s
    unfold startState
    generalize hX : prepare { cfg with kind := kind, args := args }
      { s with top := t, swarm := { s.swarm with bestPos := bp } } = X at e ⊢
    generalize hY : prepare cfg s = Y at e2 ⊢
    have : X = { Y with top := t, swarm := { Y.swarm with bestPos := bp } } := by
      have e3 : X.bhMem = Y.bhMem := by rw [e, e2]
      subst hX hY
      unfold prepare at e3 ⊢
      dsimp only at e3 ⊢
      rw [e3]
    rw [this]
  have hK : Known 0 (startState cfg nproc s) := ⟨fun i => Or.inl rfl, Or.inl ⟨rfl, h0, h0', fun _ => rfl⟩⟩
  unfold optimize at hE ⊢
  split
  · refine ⟨⟨t, bp, ?_, ha, ht⟩, rfl⟩
    rw [hbm, hbm', hbm']
    rfl
  · next hnp =>
    simp only [hnp, if_false] at hE
    have hE1 : NoTies (loop cfg ev env iters iters 0 [] (startState cfg nproc s)).1.evals := by
      unfold startState
      generalize loop cfg ev env iters iters 0 [] _ = o at hE ⊢
      obtain ⟨s1, e | u⟩ := o
      · exact hE
      · dsimp only at hE ⊢
        cases hfi : finish s1 with
        | error e => rw [hfi] at hE; exact hE
        | ok v => rw [hfi] at hE; exact hE
    obtain ⟨h1, h2⟩ := loop_twin cfg hk kind args hb ev env dist hf hc iters iters 0 [] htw hK hE1
    unfold startState at h1 h2
    dsimp only at h1 h2 ⊢
    generalize loop cfg ev env iters iters 0 [] _ = o at h1 h2 ⊢
    generalize loop { cfg with kind := kind, args := args } ev env iters iters 0 [] _ = o' at h1 h2 ⊢
    obtain ⟨s1, o⟩ := o
    obtain ⟨s1', o'⟩ := o'
    dsimp only at h1 h2 ⊢
    subst h2
    cases o with
    | error e => exact ⟨h1, rfl⟩
    | ok u =>
      dsimp only
      obtain ⟨t', bp', rfl, ha', ht'⟩ := h1
      have hfi : finish { s1 with top := t', swarm := { s1.swarm with bestPos := bp' } } =
        finish s1 := rfl
      rw [hfi]
      cases finish s1 with
      | error e => exact ⟨⟨t', bp', rfl, ha', ht'⟩, rfl⟩
      | ok v => exact ⟨⟨t', bp', rfl, ha', ht'⟩, rfl⟩

/-- **C66**.  Take a GlobalBestPSO (or a GeneralOptimizerPSO with `Star`) and a second optimizer
built with the same arguments and the same initial draws, except that its topology is fully
connected.  If the first evaluation has some cost below `+inf` and no two different positions of
the Star run tie, then `optimize` has the same outcome on both (same returned cost and position, or
same exception), and leaves the same swarm, histories and evaluations. -/
theorem C66_fully_connected (cfg : Config n d K) (hk : cfg.kind.isStar) (kind : Kind)
    (args : TopArgs) (r1 r2 : InitDraw n d K) (s s' : Opt n d K)
    (hs : construct cfg r1 r2 = .ok s)
    (hs' : construct { cfg with kind := kind, args := args } r1 r2 = .ok s')
    (ev : Nat → Mat n d K → Except Err (Costs n K)) (iters : Nat) (nproc : Option Nat)
    (env : Nat → Draw n d K) (dist : Vec d K → Vec d K → K)
    (hf : ∀ i, FullyConnected dist (env i).oracle kind args)
    (hfirst : ∀ x c, ev 0 x = .ok c → ∃ j, XR.lt (c j) XR.pinf = true)
    (hties : NoTies (optimize cfg ev iters nproc env s).1.evals) :
    (optimize { cfg with kind := kind, args := args } ev iters nproc env s').2 =
      (optimize cfg ev iters nproc env s).2 ∧
    SameSearch (optimize cfg ev iters nproc env s).1
      (optimize { cfg with kind := kind, args := args } ev iters nproc env s').1 := by
  have hb : kind ≠ .binary := by
    rintro rfl
    cases hf 0
  obtain ⟨sw, h1, rfl⟩ := construct_ok cfg r1 r2 s hs
  obtain ⟨sw', h1', rfl⟩ := construct_ok _ r1 r2 s' hs'
  have hsw : sw' = sw := by
    have : resetSwarm { cfg with kind := kind, args := args } r2 = resetSwarm cfg r2 := by
      unfold resetSwarm Config.isBinary
      rcases hk' : cfg.kind with _ | _ | _ | _ <;> rcases kind with _ | _ | _ | _ <;>
        first
          | rfl
          | exact absurd rfl hb
          | (rw [hk'] at hk; exact hk.elim)
    rw [this, h1] at h1'
    cases h1'
    rfl
  subst hsw
  obtain ⟨hbc, hbp⟩ : sw'.bestCost = none ∧ sw'.bestPos = .empty := by
    have := fresh_reachable_init cfg r2 sw' h1
    exact ⟨this.2.1, this.2.2.1⟩
  obtain ⟨h2, h3⟩ := optimize_twin cfg hk kind args hb ev env dist hf hfirst iters nproc
    (s := { swarm := sw' }) (s' := { swarm := sw' })
    ⟨{}, .empty, by rw [← hbp], Or.inl ⟨hbp, rfl⟩, by intro nbr h; cases h⟩ hbc hbp hties
  exact ⟨h3.symm, h2.same⟩

/-- The 1-norm. -/
def Ex.dist1 (x y : Vec 1 ℚ) : ℚ := |x 0 - y 0|

theorem Ex.knn2 (x : Mat 2 1 ℚ) : IsKnn Ex.dist1 2 x ((Ex.draw 2 1).oracle.knn 2 2 x) := by
  have h0 : (Ex.draw 2 1).oracle.knn 2 2 x 0 = [0, 1] := rfl
  have h1 : (Ex.draw 2 1).oracle.knn 2 2 x 1 = [1, 0] := rfl
  intro i
  have hi : i = 0 ∨ i = 1 := by omega
  have hall : ∀ b : Fin 2, b = 0 ∨ b = 1 := by intro b; omega
  rcases hi with rfl | rfl
  · rw [h0]
    refine ⟨rfl, by decide, by simp [Ex.dist1], ?_⟩
    intro a _ b hb
    exact absurd (by rcases hall b with rfl | rfl <;> simp) hb
  · rw [h1]
    refine ⟨rfl, by decide, by simp [Ex.dist1], ?_⟩
    intro a _ b hb
    exact absurd (by rcases hall b with rfl | rfl <;> simp) hb

/-- Two particles, `k = 2`: the hypotheses of `C66_fully_connected` hold and the swarm moves. -/
example : ∃ s s' : Opt 2 1 ℚ,
    construct (Ex.gcfg 2 1) (Ex.init 2 1) (Ex.init 2 1) = .ok s ∧
    construct { Ex.gcfg 2 1 with kind := .localBest false, args := ⟨some 2, some 2, none⟩ }
      (Ex.init 2 1) (Ex.init 2 1) = .ok s' ∧
    FullyConnected Ex.dist1 (Ex.draw 2 1).oracle (.localBest false) ⟨some 2, some 2, none⟩ ∧
    NoTies (optimize (Ex.gcfg 2 1) (Ex.sphere 2 1) 3 none (fun _ => Ex.draw 2 1) s).1.evals ∧
    (optimize (Ex.gcfg 2 1) (Ex.sphere 2 1) 3 none (fun _ => Ex.draw 2 1) s).1.swarm.position ≠
      s.swarm.position := by
  have h : (match construct (Ex.gcfg 2 1) (Ex.init 2 1) (Ex.init 2 1),
        construct { Ex.gcfg 2 1 with kind := .localBest false, args := ⟨some 2, some 2, none⟩ }
          (Ex.init 2 1) (Ex.init 2 1) with
      | .ok s, .ok _ =>
        decide (∀ e ∈ (optimize (Ex.gcfg 2 1) (Ex.sphere 2 1) 3 none
            (fun _ => Ex.draw 2 1) s).1.evals,
          ∀ f ∈ (optimize (Ex.gcfg 2 1) (Ex.sphere 2 1) 3 none
            (fun _ => Ex.draw 2 1) s).1.evals, ∀ i j : Fin 2, XR.lt (e.2 i) XR.pinf = true →
          e.2 i = f.2 j → e.1 i = f.1 j) &&
        decide ((optimize (Ex.gcfg 2 1) (Ex.sphere 2 1) 3 none
          (fun _ => Ex.draw 2 1) s).1.swarm.position ≠ s.swarm.position)
      | _, _ => false) = true := by decide +kernel
  split at h
  · next s s' hs hs' =>
    rw [Bool.and_eq_true] at h
    have h1 := of_decide_eq_true h.1
    exact ⟨s, s', hs, hs', .localBest false 2 none (by decide) (by decide) Ex.knn2, h1,
      of_decide_eq_true h.2⟩
  · cases h

/-- The other fully connected settings exist too. -/
example : FullyConnected Ex.dist1 (Ex.draw 2 1).oracle (.general (.random true))
    ⟨some 1, none, none⟩ :=
  .random true none none (by decide) (by decide)

example : FullyConnected (fun _ _ => (0 : ℚ)) (Ex.draw 2 3).oracle (.general (.pyramid false)) {} :=
  .pyramid false {} (by decide) (by decide)

/-- Both particles at distance 1 from the optimum, on opposite sides. -/
def Ex.tiedCfg : Config 2 1 ℚ :=
  { Ex.gcfg 2 1 with center := fun _ => 1, initPos := some fun i _ => if i = 0 then -1 else 1 }

/-- **C66** (why ties are excluded).  Two particles at `-1` and `1` minimise `x²`: Star attracts
both to `-1`, the ring with `k = 2` attracts each particle to itself, and the positions differ
after one iteration. -/
theorem C66_ties_matter : ∃ s s' : Opt 2 1 ℚ,
    construct Ex.tiedCfg (Ex.init 2 1) (Ex.init 2 1) = .ok s ∧
    construct { Ex.tiedCfg with kind := .localBest false, args := ⟨some 2, some 2, none⟩ }
      (Ex.init 2 1) (Ex.init 2 1) = .ok s' ∧
    FullyConnected Ex.dist1 (Ex.draw 2 1).oracle (.localBest false) ⟨some 2, some 2, none⟩ ∧
    (optimize { Ex.tiedCfg with kind := .localBest false, args := ⟨some 2, some 2, none⟩ }
        (Ex.sphere 2 1) 1 none (fun _ => Ex.draw 2 1) s').1.swarm.position ≠
      (optimize Ex.tiedCfg (Ex.sphere 2 1) 1 none (fun _ => Ex.draw 2 1) s).1.swarm.position := by
  have h : (match construct Ex.tiedCfg (Ex.init 2 1) (Ex.init 2 1),
        construct { Ex.tiedCfg with kind := .localBest false, args := ⟨some 2, some 2, none⟩ }
          (Ex.init 2 1) (Ex.init 2 1) with
      | .ok s, .ok s' =>
        decide ((optimize { Ex.tiedCfg with kind := .localBest false, args := ⟨some 2, some 2, none⟩ }
            (Ex.sphere 2 1) 1 none (fun _ => Ex.draw 2 1) s').1.swarm.position ≠
          (optimize Ex.tiedCfg (Ex.sphere 2 1) 1 none (fun _ => Ex.draw 2 1) s).1.swarm.position)
      | _, _ => false) = true := by decide +kernel
  split at h
  · next s s' hs hs' =>
    exact ⟨s, s', hs, hs', .localBest false 2 none (by decide) (by decide) Ex.knn2,
      of_decide_eq_true h⟩
  · cases h

end PySwarms

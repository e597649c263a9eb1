import Verif.Lemmas.Heap
import Verif.Lemmas.Best

/-! Runs with an objective that may write into the array it is given. -/

set_option linter.unusedSectionVars false

namespace PySwarms.Mem

variable {n d : Nat} {K : Type} [Field K] [LinearOrder K] [Transc K] [FloorRing K]

theorem bhCall_fresh (strategy : String) {mem : Option Nat} (b : Bounds d K) (r : BHDraw d K)
    {h : Heap n d K} {base a p : Nat} (hb : base ≤ a) (ha : a < h.next)
    (hp : (bhCall strategy mem b r h a).2.2 = .ok p) : base ≤ p := by
  unfold bhCall at hp
  split_ifs at hp
  · simp only [nearest, alloc_addr, alloc_next, Except.ok.injEq] at hp
    omega
  · dsimp only at hp
    have := (reflective_spec b hb r.passes h).2.2.1 p hp
    omega
  · unfold shrink at hp
    split at hp
    · cases hp; exact hb
    · dsimp only at hp
      split_ifs at hp
      · cases hp; exact hb
  · cases hp; exact hb
  · unfold intermediate at hp
    split at hp
    · cases hp; exact hb
    · cases hp; exact hb
  · unfold periodic at hp
    dsimp only at hp
    split_ifs at hp
    · cases hp; exact hb

theorem callPosition_fresh (cfg : Config n d K) (r : Draw n d K) {s : Obj n d K} {p : Nat}
    (hp : (callPosition cfg r s).2.2 = .ok p) : s.heap.next ≤ p := by
  unfold callPosition at hp
  have key : (computePosition s cfg.bounds cfg.bhStrategy r.bh).2.2 = .ok p → s.heap.next ≤ p := by
    intro h
    unfold computePosition at h
    dsimp only at h
    split at h
    · cases h; exact le_refl _
    · exact bhCall_fresh _ _ _ (le_refl _) (Nat.lt_succ_self _) h
  split at hp
  · cases hp; exact le_refl _
  · exact key hp

/-- Addresses after a move. -/
theorem moveSwarm_addr (cfg : Config n d K) (r : Draw n d K) (iters i : Nat) {s : Obj n d K}
    (g : Good s) :
    (moveSwarm cfg r iters i s).1.pbestPos = s.pbestPos ∧
    (moveSwarm cfg r iters i s).1.pbestCost = s.pbestCost ∧
    (moveSwarm cfg r iters i s).1.evals = s.evals ∧
    (moveSwarm cfg r iters i s).1.posHistory = s.posHistory ∧
    ((moveSwarm cfg r iters i s).1.position = s.position ∨
      s.heap.next ≤ (moveSwarm cfg r iters i s).1.position) ∧
    ((moveSwarm cfg r iters i s).2 = .ok () → s.heap.next ≤ (moveSwarm cfg r iters i s).1.position) := by
  unfold moveSwarm
  cases callOptions cfg iters i r s.swarm with
  | error e => exact ⟨rfl, rfl, rfl, rfl, .inl rfl, fun h => by cases h⟩
  | ok o =>
    dsimp only
    have g1 : Good { s with options := o } := ⟨g.position, g.velocity, g.pbestPos, g.bestPos,
      g.bhMem, g.vhMem, g.posHistory, g.velocityHistory⟩
    have hv := (computeVelocity_spec g1 cfg.clamp cfg.vhStrategy (velBounds cfg) r.r1 r.r2).ext.1
    revert hv
    generalize computeVelocity { s with options := o } cfg.clamp cfg.vhStrategy (velBounds cfg)
      r.r1 r.r2 = out
    obtain ⟨h, vm, rr⟩ := out
    intro hv
    cases rr with
    | error er => exact ⟨rfl, rfl, rfl, rfl, .inl rfl, fun h => by cases h⟩
    | ok v =>
      dsimp only
      have hf := @callPosition_fresh n d K _ _ _ _ cfg r
        { s with options := o, heap := h, vhMem := vm, velocity := v }
      revert hf
      generalize callPosition cfg r _ = out2
      obtain ⟨h', bm, rr⟩ := out2
      intro hf
      cases rr with
      | error er => exact ⟨rfl, rfl, rfl, rfl, .inl rfl, fun h => by cases h⟩
      | ok p =>
        have hp : s.heap.next ≤ p := le_trans hv (hf rfl)
        exact ⟨rfl, rfl, rfl, rfl, .inr hp, fun _ => hp⟩

/-- What one iteration does to the arrays. -/
structure IterW (ev : Mat n d K → Except Err (Costs n K) × Mat n d K) (w s s' : Obj n d K)
    (o : Except Err Flow) (c : Costs n K) : Prop where
  evals : s'.evals = s.evals ++ [(w.heap.get s.position, c)]
  pbestAddr : s'.pbestPos = s.heap.next
  pbestCost : ∀ i, s'.pbestCost i = if XR.lt (c i) (s.pbestCost i) then c i else s.pbestCost i
  pbestPos : ∀ i, s'.heap.get s'.pbestPos i =
    if XR.lt (c i) (s.pbestCost i) then w.heap.get s.position i else w.heap.get s.pbestPos i
  position : s'.position = s.position ∨ s.heap.next < s'.position
  moved : ∀ q', o = .ok (.continue q') → s.heap.next < s'.position
  posHistory : ∀ f, o = .ok f → s'.posHistory = s.posHistory ++ [s.position]

theorem evaluate_next (ev : Mat n d K → Except Err (Costs n K) × Mat n d K) (pool : Bool)
    (s : Obj n d K) : (evaluate ev pool s).1.heap.next = s.heap.next := by
  unfold evaluate
  cases pool <;> rfl

theorem evaluate_good (ev : Mat n d K → Except Err (Costs n K) × Mat n d K) (pool : Bool)
    {s : Obj n d K} (g : Good s) : Good (evaluate ev pool s).1 := by
  unfold evaluate
  cases pool
  · exact ⟨g.position, g.velocity, g.pbestPos, g.bestPos, g.bhMem, g.vhMem, g.posHistory,
      g.velocityHistory⟩
  · exact g

/-- Only the position array is written. -/
theorem evaluate_get (ev : Mat n d K → Except Err (Costs n K) × Mat n d K) (pool : Bool)
    (s : Obj n d K) {a : Nat} (ha : a ≠ s.position) :
    (evaluate ev pool s).1.heap.get a = s.heap.get a := by
  unfold evaluate
  cases pool
  · exact write_get_ne _ _ _ ha
  · rfl

theorem iterate_w (cfg : Config n d K) (ev : Mat n d K → Except Err (Costs n K) × Mat n d K)
    (pool : Bool) (r : Draw n d K) (iters i : Nat) (q : List Bool) {s : Obj n d K} (g : Good s) :
    Good (iterate cfg ev pool r iters i q s).1 ∧
    Ext s.heap.next (evaluate ev pool s).1.heap (iterate cfg ev pool r iters i q s).1.heap ∧
    ((∃ e, (ev (s.heap.get s.position)).1 = .error e ∧
        iterate cfg ev pool r iters i q s = ((evaluate ev pool s).1, .error e)) ∨
      ∃ c, (ev (s.heap.get s.position)).1 = .ok c ∧
        IterW ev (evaluate ev pool s).1 s (iterate cfg ev pool r iters i q s).1
          (iterate cfg ev pool r iters i q s).2 c) := by
  have gw := evaluate_good ev pool g
  have hn := evaluate_next ev pool s
  have hpos : (evaluate ev pool s).1.position = s.position := by
    unfold evaluate; cases pool <;> rfl
  have hpa : (evaluate ev pool s).1.pbestPos = s.pbestPos := by
    unfold evaluate; cases pool <;> rfl
  have hpc : (evaluate ev pool s).1.pbestCost = s.pbestCost := by
    unfold evaluate; cases pool <;> rfl
  have hevs : (evaluate ev pool s).1.evals = s.evals := by
    unfold evaluate; cases pool <;> rfl
  have hph : (evaluate ev pool s).1.posHistory = s.posHistory := by
    unfold evaluate; cases pool <;> rfl
  have hres : (evaluate ev pool s).2 = (ev (s.heap.get s.position)).1 := rfl
  unfold iterate
  revert gw hn hpos hpa hpc hevs hph hres
  generalize evaluate ev pool s = we
  obtain ⟨w, o⟩ := we
  intro gw hn hpos hpa hpc hevs hph hres
  dsimp only at gw hn hpos hpa hpc hevs hph hres ⊢
  rw [← hres, ← hn]
  cases o with
  | error e => exact ⟨gw, Ext.refl _ _, .inl ⟨e, rfl, rfl⟩⟩
  | ok c =>
    dsimp only
    have h1 := recordEval_spec c gw
    have hp1 : (recordEval c w).pbestPos = w.heap.next := rfl
    have hpos1 : (recordEval c w).position = w.position := rfl
    have hev1 : (recordEval c w).evals = w.evals ++ [(w.heap.get w.position, c)] := rfl
    have hph1 : (recordEval c w).posHistory = w.posHistory := rfl
    have hn1 : (recordEval c w).heap.next = w.heap.next + 1 := rfl
    have hc1 : ∀ i, (recordEval c w).pbestCost i =
        if XR.lt (c i) (w.pbestCost i) then c i else w.pbestCost i := fun i =>
      computePbest_cost _ i
    have hx1 : ∀ i, (recordEval c w).heap.get w.heap.next i =
        if XR.lt (c i) (w.pbestCost i) then w.heap.get w.position i
        else w.heap.get w.pbestPos i := by
      intro i
      have : (recordEval c w).heap.get w.heap.next =
        (computePbest { w.swarm with currentCost := c }).1 := alloc_get _ _
      rw [this]
      exact computePbest_pos _ i
    revert h1 hp1 hpos1 hev1 hph1 hn1 hc1 hx1
    generalize recordEval c w = s1
    generalize PySwarms.recordEval c w.read = v1
    intro h1 hp1 hpos1 hev1 hph1 hn1 hc1 hx1
    obtain ⟨e1, g1, r1⟩ := h1
    cases hg : callGbest cfg r.oracle s1.top s1.swarm with
    | mk t rr =>
      cases rr with
      | error e =>
        refine ⟨⟨g1.position, g1.velocity, g1.pbestPos, g1.bestPos, g1.bhMem, g1.vhMem,
          g1.posHistory, g1.velocityHistory⟩, e1, .inr ⟨c, rfl, ?_⟩⟩
        refine ⟨?_, hp1.trans hn, ?_, ?_, .inl (hpos1.trans hpos), fun q' h => (by cases h),
          fun q' h => (by cases h)⟩
        · show s1.evals = _
          rw [hev1, hevs, hpos]
        · intro i
          show s1.pbestCost i = _
          rw [hc1, hpc]
        · intro i
          show s1.heap.get s1.pbestPos i = _
          rw [hp1, hx1, hpc, hpos, hpa]
      | ok gb =>
        dsimp only
        have h2 := recordBest_spec cfg g1 r.oracle t gb hg
        have hp2 : (recordBest cfg t gb s1).pbestPos = s1.pbestPos := rfl
        have hc2 : (recordBest cfg t gb s1).pbestCost = s1.pbestCost := rfl
        have hpos2 : (recordBest cfg t gb s1).position = s1.position := rfl
        have hev2 : (recordBest cfg t gb s1).evals = s1.evals := rfl
        have hph2 : (recordBest cfg t gb s1).posHistory = s1.posHistory ++ [s1.position] := rfl
        revert h2 hp2 hc2 hpos2 hev2 hph2
        generalize recordBest cfg t gb s1 = s2
        generalize PySwarms.recordBest t gb s1.read = v2
        intro h2 hp2 hc2 hpos2 hev2 hph2
        obtain ⟨e2, g2, r2⟩ := h2
        have e12 : Ext w.heap.next w.heap s2.heap := e1.trans (e2.mono e1.1)
        have hn2 : w.heap.next < s2.heap.next := by
          have := e2.1
          omega
        have hx2 : ∀ i, s2.heap.get s2.pbestPos i =
            if XR.lt (c i) (s.pbestCost i) then w.heap.get s.position i
            else w.heap.get s.pbestPos i := by
          intro i
          rw [hp2, e2.2 _ g1.pbestPos, hp1, hx1, hpc, hpos, hpa]
        have hcc : ∀ i, s2.pbestCost i =
            if XR.lt (c i) (s.pbestCost i) then c i else s.pbestCost i := by
          intro i
          rw [hc2, hc1, hpc]
        have hevv : s2.evals = s.evals ++ [(w.heap.get s.position, c)] := by
          rw [hev2, hev1, hevs, hpos]
        have hphh : s2.posHistory = s.posHistory ++ [s.position] := by
          rw [hph2, hph1, hpos1, hph, hpos]
        have haa : s2.pbestPos = s.heap.next := by rw [hp2, hp1, hn]
        split
        · exact ⟨g2, e12, .inr ⟨c, rfl, hevv, haa, hcc, hx2,
            .inl (by rw [hpos2, hpos1, hpos]), fun q' h => (by cases h), fun f h => hphh⟩⟩
        · have h3 := moveSwarm_spec cfg r iters i g2
          have a3 := moveSwarm_addr cfg r iters i g2
          revert h3 a3
          generalize moveSwarm cfg r iters i s2 = out
          generalize PySwarms.moveSwarm cfg r iters i s2.read = pout
          intro h3 a3
          obtain ⟨s3, rr⟩ := out
          obtain ⟨v3, pr⟩ := pout
          obtain ⟨⟨e3, g3, r3⟩, hr⟩ := h3
          dsimp only at e3 g3 a3
          obtain ⟨a1, a2, a3, a4, a5, a6⟩ := a3
          have e := e12.trans (e3.mono e12.1)
          have hx3 : ∀ i, s3.heap.get s3.pbestPos i =
              if XR.lt (c i) (s.pbestCost i) then w.heap.get s.position i
              else w.heap.get s.pbestPos i := by
            intro i
            rw [a1, e3.2 _ g2.pbestPos, hx2]
          have hpp : s3.position = s.position ∨ s.heap.next < s3.position := by
            rcases a5 with h | h
            · exact .inl (by rw [h, hpos2, hpos1, hpos])
            · exact .inr (by omega)
          cases rr with
          | error e' =>
            exact ⟨g3, e, .inr ⟨c, rfl, a3.trans hevv, a1.trans haa, fun i => by rw [a2, hcc],
              hx3, hpp, fun q' h => (by cases h), fun f h => (by cases h)⟩⟩
          | ok u =>
            have hmv : s.heap.next < s3.position := by
              have := a6 rfl
              omega
            exact ⟨g3, e, .inr ⟨c, rfl, a3.trans hevv, a1.trans haa, fun i => by rw [a2, hcc],
              hx3, hpp, fun q' h => hmv, fun f h => a4.trans hphh⟩⟩

/-- An invariant `J` at the start of an iteration and `L` where the loop is left. -/
theorem loop_winv (cfg : Config n d K) (ev : WritingObjective n d K) (pool : Bool)
    (env : Nat → Draw n d K) (iters : Nat) (J L : Nat → Obj n d K → Prop)
    (h : ∀ i q s, J i s → L i (iterate cfg (ev i) pool (env i) iters i q s).1 ∧
      ∀ q', (iterate cfg (ev i) pool (env i) iters i q s).2 = .ok (.continue q') →
        J (i + 1) (iterate cfg (ev i) pool (env i) iters i q s).1)
    (m i : Nat) (q : List Bool) (s : Obj n d K) (hs : J i s) :
    J (i + m) (loop cfg ev pool env iters m i q s).1 ∨
      ∃ k < m, L (i + k) (loop cfg ev pool env iters m i q s).1 := by
  induction m generalizing i q s with
  | zero => exact .inl hs
  | succ m ih =>
    have h1 := h i q s hs
    unfold loop
    generalize iterate cfg (ev i) pool (env i) iters i q s = out at h1 ⊢
    obtain ⟨s', e | f⟩ := out
    · exact .inr ⟨0, by omega, h1.1⟩
    · cases f with
      | stop => exact .inr ⟨0, by omega, h1.1⟩
      | «continue» q' =>
        rcases ih (i + 1) q' s' (h1.2 q' rfl) with h2 | ⟨k, hk, h2⟩
        · left
          rw [show i + (m + 1) = i + 1 + m by omega]
          exact h2
        · right
          refine ⟨k + 1, by omega, ?_⟩
          rw [show i + (k + 1) = i + 1 + k by omega]
          exact h2

/-- The state in which the loop starts (global_best.py:197-205). -/
def callStart (cfg : Config n d K) (nproc : Option Nat) (s : Obj n d K) : Obj n d K :=
  { setMemories cfg s with
    pbestCost := fun _ => XR.pinf
    openPools := s.openPools + (if nproc.isSome then 1 else 0) }

theorem setMemories_good (cfg : Config n d K) {s : Obj n d K} (g : Good s) (pc : Costs n K)
    (op : Nat) : Good { setMemories cfg s with pbestCost := pc, openPools := op } := by
  refine ⟨g.position, g.velocity, g.pbestPos, g.bestPos, ?_, ?_, g.posHistory, g.velocityHistory⟩
  · intro m hm
    unfold setMemories at hm
    cases hk : cfg.kind <;> simp only [hk] at hm <;>
      first
        | exact g.bhMem m hm
        | (cases hm; exact g.position)
  · intro m hm; cases hm; exact g.position

/-- A property that does not look at the number of open pools and holds at the end of the loop
holds after the call. -/
theorem optimize_w (cfg : Config n d K) (ev : WritingObjective n d K) (iters : Nat)
    (nproc : Option Nat) (h0 : nproc ≠ some 0) (env : Nat → Draw n d K) (s : Obj n d K)
    (P : Obj n d K → Prop) (hP : ∀ s k, P s → P { s with openPools := k })
    (h : P (loop cfg ev nproc.isSome env iters iters 0 [] (callStart cfg nproc s)).1) :
    P (optimize cfg ev iters nproc env s).1 := by
  unfold optimize
  rw [if_neg h0]
  dsimp only
  change P (loop cfg ev nproc.isSome env iters iters 0 [] (callStart cfg nproc s)).1 at h
  revert h
  unfold callStart
  generalize loop cfg ev nproc.isSome env iters iters 0 [] _ = out
  obtain ⟨s1, rr⟩ := out
  intro h
  cases rr with
  | error e => exact h
  | ok u =>
    dsimp only
    cases finish s1.read with
    | error e => exact h
    | ok r => exact hP _ _ h

/-! ### The arrays of the user -/

/-- The optimizer works on arrays of its own and on `init_pos`; the other arrays of the user are as
they were. -/
structure Owns (h0 : Heap n d K) (initPos : Option Nat) (s : Obj n d K) : Prop where
  good : Good s
  next : h0.next ≤ s.heap.next
  position : h0.next ≤ s.position ∨ initPos = some s.position
  kept : ∀ c < h0.next, initPos ≠ some c → s.heap.get c = h0.get c

theorem Owns.iterate {h0 : Heap n d K} {initPos : Option Nat} {s : Obj n d K}
    (h : Owns h0 initPos s) (cfg : Config n d K)
    (ev : Mat n d K → Except Err (Costs n K) × Mat n d K) (pool : Bool) (r : Draw n d K)
    (iters i : Nat) (q : List Bool) : Owns h0 initPos (iterate cfg ev pool r iters i q s).1 := by
  obtain ⟨g', e, hc⟩ := iterate_w cfg ev pool r iters i q h.good
  have hn : s.heap.next ≤ (Mem.iterate cfg ev pool r iters i q s).1.heap.next := by
    have := e.1
    rwa [evaluate_next] at this
  refine ⟨g', h.next.trans hn, ?_, ?_⟩
  · rcases hc with ⟨er, _, he⟩ | ⟨c, _, hw⟩
    · rw [he]
      have : (evaluate ev pool s).1.position = s.position := by
        unfold evaluate; cases pool <;> rfl
      rw [this]
      exact h.position
    · rcases hw.position with hp | hp
      · rw [hp]; exact h.position
      · have := h.next
        exact .inl (by omega)
  · intro c hc1 hc2
    have hne : c ≠ s.position := by
      rintro rfl
      rcases h.position with hp | hp
      · omega
      · exact hc2 hp
    rw [e.2 c (hc1.trans_le h.next), evaluate_get _ _ _ hne]
    exact h.kept c hc1 hc2

theorem Owns.optimize {h0 : Heap n d K} {initPos : Option Nat} {s : Obj n d K}
    (h : Owns h0 initPos s) (cfg : Config n d K) (ev : WritingObjective n d K) (iters : Nat)
    (nproc : Option Nat) (env : Nat → Draw n d K) :
    Owns h0 initPos (optimize cfg ev iters nproc env s).1 := by
  by_cases hz : nproc = some 0
  · unfold Mem.optimize
    rw [if_pos hz]
    exact ⟨setMemories_good cfg h.good s.pbestCost s.openPools, h.next, h.position, h.kept⟩
  · apply optimize_w cfg ev iters nproc hz env s (Owns h0 initPos)
    · intro s k hs
      exact ⟨⟨hs.good.position, hs.good.velocity, hs.good.pbestPos, hs.good.bestPos, hs.good.bhMem,
        hs.good.vhMem, hs.good.posHistory, hs.good.velocityHistory⟩, hs.next, hs.position, hs.kept⟩
    · have hs0 : Owns h0 initPos (callStart cfg nproc s) :=
        ⟨setMemories_good cfg h.good _ _, h.next, h.position, h.kept⟩
      rcases loop_winv cfg ev nproc.isSome env iters (fun _ => Owns h0 initPos)
        (fun _ => Owns h0 initPos)
        (fun i q s hs => ⟨hs.iterate cfg _ _ _ _ _ _, fun _ _ => hs.iterate cfg _ _ _ _ _ _⟩)
        iters 0 [] _ hs0 with h1 | ⟨_, _, h1⟩
      · exact h1
      · exact h1

theorem reset_position (cfg : Config n d K) (initPos : Option Nat) (r : InitDraw n d K)
    (s : Obj n d K) :
    ((reset cfg initPos r s).1.position = s.position ∧ (reset cfg initPos r s).2 ≠ .ok ()) ∨
      ((reset cfg initPos r s).1.position = initPos.getD s.heap.next ∧
        (reset cfg initPos r s).2 = .ok ()) := by
  unfold reset
  cases resetSwarm (configOf cfg initPos s.heap) r with
  | error e => exact .inl ⟨rfl, by intro h; cases h⟩
  | ok sw => cases initPos <;> exact .inr ⟨rfl, rfl⟩

theorem Owns.reset {h0 : Heap n d K} {initPos : Option Nat} (hi : ∀ a ∈ initPos, a < h0.next)
    {s : Obj n d K} (h : Owns h0 initPos s) (cfg : Config n d K) (r : InitDraw n d K) :
    Owns h0 initPos (reset cfg initPos r s).1 := by
  have h1 := (reset_spec cfg r h.good fun a ha => (hi a ha).trans_le h.next).step
  refine ⟨h1.good, h.next.trans h1.ext.1, ?_, ?_⟩
  · rcases reset_position cfg initPos r s with ⟨hp, _⟩ | ⟨hp, _⟩
    · rw [hp]; exact h.position
    · rw [hp]
      cases initPos with
      | none => exact .inl h.next
      | some a => exact .inr rfl
  · intro c hc1 hc2
    rw [h1.ext.2 c (hc1.trans_le h.next)]
    exact h.kept c hc1 hc2

theorem Owns.run {h0 : Heap n d K} {initPos : Option Nat} (hi : ∀ a ∈ initPos, a < h0.next)
    (cfg : Config n d K) (calls : List (Call n d K)) {s : Obj n d K} (h : Owns h0 initPos s) :
    Owns h0 initPos (run cfg initPos s calls) := by
  induction calls generalizing s with
  | nil => exact h
  | cons c cs ih =>
    apply ih
    cases c with
    | optimize ev iters nproc env => exact h.optimize cfg ev iters nproc env
    | reset r => exact h.reset hi cfg r

theorem construct_position {cfg : Config n d K} {initPos : Option Nat} {h : Heap n d K}
    {r1 r2 : InitDraw n d K} {s : Obj n d K} (hs : construct cfg initPos h r1 r2 = .ok s) :
    s.position = initPos.getD h.next ∧ s.pbestPos = s.position ∧ s.posHistory = [] ∧
      s.evals = [] := by
  unfold construct at hs
  split at hs
  · cases hs
  · next o ho =>
    cases hs
    cases initPos <;> exact ⟨rfl, rfl, rfl, rfl⟩

theorem Owns.construct {cfg : Config n d K} {initPos : Option Nat} {h : Heap n d K}
    (hi : ∀ a ∈ initPos, a < h.next) {r1 r2 : InitDraw n d K} {s : Obj n d K}
    (hs : construct cfg initPos h r1 r2 = .ok s) : Owns h initPos s := by
  obtain ⟨e, g⟩ := (construct_spec cfg r1 r2 hi).1 s hs
  refine ⟨g, e.1, ?_, fun c hc _ => e.2 c hc⟩
  rw [(construct_position hs).1]
  cases initPos with
  | none => exact .inl (le_refl _)
  | some a => exact .inr rfl

/-! ### Personal bests -/

theorem pinf_of_nil {old x : Vec d K} {c : XR K} (h : IsPersonalBest [] old x c) : c = XR.pinf := by
  rcases h with ⟨_, h, _⟩ | ⟨pre, post, h, _⟩
  · exact h
  · simp at h

/-- The personal bests are those of the log `E`, whose positions are what the objective left in the
array. -/
structure Tracks (ev : WritingObjective n d K) (base : List (Mat n d K × Costs n K))
    (E : List (Mat n d K × Costs n K)) (s : Obj n d K) : Prop where
  good : Good s
  evals : s.evals = base ++ E
  log : ∀ (k : Nat) (h : k < E.length), ∃ x, ev k x = (.ok E[k].2, E[k].1)
  apart : s.pbestPos ≠ s.position ∨ E = []
  best : ∀ i, ∃ old, IsPersonalBest (particleLog E i) old (s.heap.get s.pbestPos i) (s.pbestCost i)

theorem Tracks.iterate {ev : WritingObjective n d K} {base E : List (Mat n d K × Costs n K)}
    {s : Obj n d K} (h : Tracks ev base E s) (cfg : Config n d K) (r : Draw n d K)
    (iters : Nat) (q : List Bool) :
    (∃ e, (Mem.iterate cfg (ev E.length) false r iters E.length q s).2 = .error e ∧
      Tracks ev base E (Mem.iterate cfg (ev E.length) false r iters E.length q s).1) ∨
    ∃ x, Tracks ev base (E ++ [x]) (Mem.iterate cfg (ev E.length) false r iters E.length q s).1 := by
  obtain ⟨g', e, hc⟩ := iterate_w cfg (ev E.length) false r iters E.length q h.good
  have hw0 : (evaluate (ev E.length) false s).1.heap.get s.position =
      (ev E.length (s.heap.get s.position)).2 := write_get _ _ _
  have hold : ∀ i, s.pbestPos ≠ s.position →
      (evaluate (ev E.length) false s).1.heap.get s.pbestPos i = s.heap.get s.pbestPos i :=
    fun i hne => by rw [evaluate_get _ _ _ hne]
  rcases hc with ⟨er, he, hit⟩ | ⟨c, he, hw⟩
  · left
    refine ⟨er, by rw [hit], ?_⟩
    rw [hit]
    refine ⟨(evaluate_good (ev E.length) false h.good : Good (evaluate (ev E.length) false s).1),
      h.evals, h.log, h.apart, ?_⟩
    intro i
    obtain ⟨old, hb⟩ := h.best i
    rcases h.apart with ha | ha
    · refine ⟨old, ?_⟩
      show IsPersonalBest _ _ ((evaluate (ev E.length) false s).1.heap.get s.pbestPos i)
        (s.pbestCost i)
      rw [hold i ha]
      exact hb
    · subst ha
      have hinf := pinf_of_nil hb
      refine ⟨(evaluate (ev ([] : List (Mat n d K × Costs n K)).length) false s).1.heap.get
        s.pbestPos i, ?_⟩
      show IsPersonalBest _ _ _ (s.pbestCost i)
      rw [hinf]
      exact isPersonalBest_nil _
  · right
    refine ⟨((evaluate (ev E.length) false s).1.heap.get s.position, c), g', ?_, ?_, ?_, ?_⟩
    · rw [hw.evals, h.evals, List.append_assoc]
    · intro k hk
      by_cases hkl : k < E.length
      · obtain ⟨x, hx⟩ := h.log k hkl
        refine ⟨x, ?_⟩
        rw [List.getElem_append_left hkl]
        exact hx
      · have hke : k = E.length := by
          rw [List.length_append] at hk
          simp only [List.length_singleton] at hk
          omega
        subst hke
        refine ⟨s.heap.get s.position, ?_⟩
        simp only [List.getElem_append_right (le_refl _), Nat.sub_self, List.getElem_cons_zero]
        rw [hw0, ← he]
    · left
      rw [hw.pbestAddr]
      rcases hw.position with hp | hp
      · rw [hp]
        have := h.good.position
        omega
      · omega
    · intro i
      obtain ⟨old, hb⟩ := h.best i
      rw [hw.pbestPos, hw.pbestCost, particleLog_append]
      rcases h.apart with ha | ha
      · rw [hold i ha]
        exact ⟨old, isPersonalBest_snoc hb _ _⟩
      · subst ha
        have hinf := pinf_of_nil hb
        rw [hinf]
        exact ⟨_, isPersonalBest_snoc (isPersonalBest_nil _) _ _⟩

theorem Tracks.loop {ev : WritingObjective n d K} {s : Obj n d K} (g : Good s)
    (cfg : Config n d K) (env : Nat → Draw n d K) (iters : Nat) :
    ∃ E, E.length ≤ iters ∧
      Tracks ev s.evals E (loop cfg ev false env iters iters 0 [] (callStart cfg none s)).1 := by
  have h0 : Tracks ev s.evals [] (callStart cfg none s) :=
    ⟨setMemories_good cfg g _ _, by rw [List.append_nil]; rfl, fun k h => absurd h (by simp),
      .inr rfl, fun i => ⟨_, isPersonalBest_nil _⟩⟩
  rcases loop_winv cfg ev false env iters
    (fun i t => ∃ E, E.length = i ∧ Tracks ev s.evals E t)
    (fun i t => ∃ E, E.length ≤ i + 1 ∧ Tracks ev s.evals E t) (by
      rintro i q t ⟨E, rfl, h⟩
      rcases h.iterate cfg (env E.length) iters q with ⟨e, he, h1⟩ | ⟨x, h1⟩
      · exact ⟨⟨E, by omega, h1⟩, fun q' hq => by rw [he] at hq; cases hq⟩
      · exact ⟨⟨_, by simp, h1⟩, fun q' hq => ⟨_, by simp, h1⟩⟩)
    iters 0 [] _ ⟨[], rfl, h0⟩ with ⟨E, hE, h1⟩ | ⟨k, hk, E, hE, h1⟩
  · exact ⟨E, by omega, h1⟩
  · exact ⟨E, by omega, h1⟩

/-- The log only grows, and it grows in a loop that runs at least once and returns. -/
theorem loop_log_grows (cfg : Config n d K) (ev : WritingObjective n d K) (env : Nat → Draw n d K)
    (iters m i : Nat) (q : List Bool) {s : Obj n d K} (g : Good s) :
    ∃ F, (loop cfg ev false env iters m i q s).1.evals = s.evals ++ F ∧
      (m ≠ 0 → (loop cfg ev false env iters m i q s).2 = .ok () → F ≠ []) := by
  induction m generalizing i q s with
  | zero => exact ⟨[], (List.append_nil _).symm, fun h => absurd rfl h⟩
  | succ m ih =>
    obtain ⟨g', _, hc⟩ := iterate_w cfg (ev i) false (env i) iters i q g
    unfold loop
    rcases hc with ⟨e, _, hit⟩ | ⟨c, _, hw⟩
    · rw [hit]
      exact ⟨[], (List.append_nil _).symm, fun _ h => by cases h⟩
    · have hev := hw.evals
      clear hw
      revert g' hev
      generalize Mem.iterate cfg (ev i) false (env i) iters i q s = out
      obtain ⟨s', e | f⟩ := out
      · intro _ hev
        exact ⟨_, hev, fun _ _ => by simp⟩
      · cases f with
        | stop =>
          intro _ hev
          exact ⟨_, hev, fun _ _ => by simp⟩
        | «continue» q' =>
          intro g' hev
          obtain ⟨F, hF, _⟩ := ih (i + 1) q' g'
          refine ⟨((evaluate (ev i) false s).1.heap.get s.position, c) :: F, ?_, fun _ _ => by simp⟩
          dsimp only at hev hF ⊢
          rw [hF, hev, List.append_assoc]
          rfl

/-! ### The first array -/

/-- After the first iteration the array given to the first evaluation is left alone. -/
theorem first_array (cfg : Config n d K) (ev : WritingObjective n d K) (env : Nat → Draw n d K)
    (iters m : Nat) {s : Obj n d K} (g : Good s) :
    (loop cfg ev false env iters (m + 1) 0 [] s).1.heap.get s.position =
      (ev 0 (s.heap.get s.position)).2 := by
  obtain ⟨g', e, hc⟩ := iterate_w cfg (ev 0) false (env 0) iters 0 [] g
  have hw0 : (evaluate (ev 0) false s).1.heap.get s.position =
      (ev 0 (s.heap.get s.position)).2 := write_get _ _ _
  have h1 : (Mem.iterate cfg (ev 0) false (env 0) iters 0 [] s).1.heap.get s.position =
      (ev 0 (s.heap.get s.position)).2 := by rw [e.2 _ g.position, hw0]
  have hmv : ∀ q', (Mem.iterate cfg (ev 0) false (env 0) iters 0 [] s).2 = .ok (.continue q') →
      s.position < (Mem.iterate cfg (ev 0) false (env 0) iters 0 [] s).1.position := by
    intro q' hq
    rcases hc with ⟨er, _, hit⟩ | ⟨c, _, hw⟩
    · rw [hit] at hq; cases hq
    · have := hw.moved q' hq
      have := g.position
      omega
  have hnext : s.position < (Mem.iterate cfg (ev 0) false (env 0) iters 0 [] s).1.heap.next := by
    have h2 := e.1
    rw [evaluate_next] at h2
    exact g.position.trans_le h2
  unfold loop
  revert g' h1 hmv hnext
  generalize Mem.iterate cfg (ev 0) false (env 0) iters 0 [] s = out
  obtain ⟨s', e | f⟩ := out
  · intro _ h1 _ _; exact h1
  · cases f with
    | stop => intro _ h1 _ _; exact h1
    | «continue» q' =>
      intro g' h1 hmv hnext
      dsimp only at g' h1 hmv hnext ⊢
      let J : Nat → Obj n d K → Prop := fun _ t => Good t ∧ s.position < t.position ∧
        t.heap.get s.position = (ev 0 (s.heap.get s.position)).2 ∧ s.position < t.heap.next
      have hJ : ∀ i q t, J i t → J i (Mem.iterate cfg (ev i) false (env i) iters i q t).1 := by
        rintro i q t ⟨gt, ht1, ht2, ht3⟩
        obtain ⟨g2, e2, hc2⟩ := iterate_w cfg (ev i) false (env i) iters i q gt
        refine ⟨g2, ?_, ?_, ?_⟩
        · rcases hc2 with ⟨er, _, hit⟩ | ⟨c, _, hw⟩
          · rw [hit]; exact ht1
          · rcases hw.position with hp | hp
            · rw [hp]; exact ht1
            · omega
        · rw [e2.2 _ ht3, evaluate_get _ _ _ (by omega)]
          exact ht2
        · have h2 := e2.1
          rw [evaluate_next] at h2
          exact ht3.trans_le h2
      rcases loop_winv cfg ev false env iters J J
        (fun i q t ht => ⟨hJ i q t ht, fun _ _ => hJ i q t ht⟩) m 1 q' s'
        ⟨g', hmv q' rfl, h1, hnext⟩ with h2 | ⟨_, _, h2⟩
      · exact h2.2.2.1
      · exact h2.2.2.1

/-! ### Histories -/

/-- The recorded arrays show the log, and repairing them again changes nothing. -/
structure Shows (rep : Mat n d K → Mat n d K) (s : Obj n d K) : Prop where
  good : Good s
  shown : s.posHistory.map s.heap.get = s.evals.map Prod.fst
  fixed : ∀ a ∈ s.posHistory, rep (s.heap.get a) = s.heap.get a

theorem Shows.iterate {rep : Mat n d K → Mat n d K} (hrep : ∀ x, rep (rep x) = rep x)
    {s : Obj n d K} (h : Shows rep s) (cfg : Config n d K)
    {ev : Mat n d K → Except Err (Costs n K) × Mat n d K} (hev : ∀ x, (ev x).2 = rep x)
    (r : Draw n d K) (iters i : Nat) (q : List Bool) {f : Flow}
    (hf : (Mem.iterate cfg ev false r iters i q s).2 = .ok f) :
    Shows rep (Mem.iterate cfg ev false r iters i q s).1 := by
  obtain ⟨g', e, hc⟩ := iterate_w cfg ev false r iters i q h.good
  have hw0 : (evaluate ev false s).1.heap.get s.position = rep (s.heap.get s.position) := by
    rw [← hev]; exact write_get _ _ _
  have hsame : ∀ a ∈ s.posHistory,
      (Mem.iterate cfg ev false r iters i q s).1.heap.get a = s.heap.get a := by
    intro a ha
    rw [e.2 a (h.good.posHistory a ha)]
    by_cases hp : a = s.position
    · rw [hp, hw0, ← hp]
      exact h.fixed a ha
    · exact evaluate_get _ _ _ hp
  have hpos : (Mem.iterate cfg ev false r iters i q s).1.heap.get s.position =
      rep (s.heap.get s.position) := by rw [e.2 _ h.good.position, hw0]
  rcases hc with ⟨er, _, hit⟩ | ⟨c, _, hw⟩
  · rw [hit] at hf; cases hf
  · refine ⟨g', ?_, ?_⟩
    · rw [hw.posHistory f hf, hw.evals, List.map_append, List.map_append,
        List.map_congr_left hsame, h.shown]
      simp only [List.map_cons, List.map_nil, hpos, hw0]
    · intro a ha
      rw [hw.posHistory f hf] at ha
      rcases List.mem_append.1 ha with ha | ha
      · rw [hsame a ha]; exact h.fixed a ha
      · rw [List.mem_singleton.1 ha, hpos, hrep]

theorem Shows.loop {rep : Mat n d K → Mat n d K} (hrep : ∀ x, rep (rep x) = rep x)
    (cfg : Config n d K) {ev : WritingObjective n d K} (hev : ∀ k x, (ev k x).2 = rep x)
    (env : Nat → Draw n d K) (iters m i : Nat) (q : List Bool) {s : Obj n d K} (h : Shows rep s)
    (hok : (Mem.loop cfg ev false env iters m i q s).2 = .ok ()) :
    Shows rep (Mem.loop cfg ev false env iters m i q s).1 := by
  induction m generalizing i q s with
  | zero => exact h
  | succ m ih =>
    have h1 := @Shows.iterate n d K _ _ _ _ rep hrep s h cfg (ev i) (hev i) (env i) iters i q
    unfold Mem.loop at hok ⊢
    revert h1 hok
    generalize Mem.iterate cfg (ev i) false (env i) iters i q s = out
    obtain ⟨s', e | f⟩ := out
    · intro _ hok; cases hok
    · cases f with
      | stop => intro h1 _; exact h1 rfl
      | «continue» q' => intro h1 hok; exact ih (i + 1) q' (h1 rfl) hok

end PySwarms.Mem

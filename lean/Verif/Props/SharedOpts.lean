import Verif.Model.SharedOpts
import Verif.Lemmas.Reach
import Verif.Examples

/-!
# C93: options dictionaries are shared, not copied
-/

set_option linter.unusedSectionVars false

namespace PySwarms

variable {n d : Nat} {K : Type} [Field K] [LinearOrder K] [Transc K] [FloorRing K]

/-! ## Specification -/

/-- The configuration an optimizer has at this moment: the constructor's arguments, with the present
content of the dictionary that was passed as `options`; LocalBestPSO and BinaryPSO keep the `k`
and `p` it had when they were constructed. -/
def Shared.cfgNow (D : Dicts K) (o : Shared n d K) : Config n d K :=
  { o.cfg with
    options := (D.get o.opt).opts
    args := match o.cfg.kind with
      | .general _ => (D.get o.opt).args
      | _ => o.kp }

/-- The state of an optimizer, where `swarm.options` is the content of the dictionary found there. -/
def Shared.image (D : Dicts K) (o : Shared n d K) : Opt n d K :=
  { o.st with swarm := { o.st.swarm with options := (D.get o.sw).opts } }

/-- No dictionary that existed before has changed. -/
def Dicts.Kept (D D' : Dicts K) : Prop :=
  D.next ≤ D'.next ∧ ∀ a, a < D.next → D'.get a = D.get a

/-- `x` is an optimizer of a program that started with no optimizers and no dictionaries. -/
def InProgram (P : Program n d K) (x : Shared n d K) : Prop :=
  ∃ (g : Nat → PyDict K) (ops : List (ShOp n d K)),
    P = runProgram { dicts := { get := g, next := 0 } } ops ∧ x ∈ P.objs

/-! ## Lemmas -/

theorem Dicts.Kept.refl (D : Dicts K) : D.Kept D := ⟨Nat.le_refl _, fun _ _ => rfl⟩

theorem Dicts.Kept.trans {D D' D'' : Dicts K} (h : D.Kept D') (h' : D'.Kept D'') : D.Kept D'' :=
  ⟨Nat.le_trans h.1 h'.1, fun a ha => by rw [h'.2 a (Nat.lt_of_lt_of_le ha h.1), h.2 a ha]⟩

/-- The addresses an optimizer holds exist. -/
structure Shared.Valid (D : Dicts K) (o : Shared n d K) : Prop where
  opt : o.opt < D.next
  sw : o.sw < D.next
  binary : o.cfg.kind = .binary → o.sw = o.opt
  plain : o.cfg.ohStrategy = [] → o.sw = o.opt

/-- The parts of an optimizer that no method changes. -/
structure Shared.Same (o o' : Shared n d K) : Prop where
  cfg : o'.cfg = o.cfg
  opt : o'.opt = o.opt
  kp : o'.kp = o.kp

theorem Shared.Same.trans {o o' o'' : Shared n d K} (h : o.Same o') (h' : o'.Same o'') :
    o.Same o'' := ⟨h'.1.trans h.1, h'.2.trans h.2, h'.3.trans h.3⟩

theorem cfgNow_kept {D D' : Dicts K} {o o' : Shared n d K} (hv : o.Valid D) (hk : D.Kept D')
    (hs : o.Same o') : o'.cfgNow D' = o.cfgNow D := by
  unfold Shared.cfgNow
  rw [hs.cfg, hs.opt, hs.kp, hk.2 _ hv.opt]

/-- One result of the shared model stands for one of the model of values. -/
structure Stands {α : Type} (D : Dicts K) (o : Shared n d K)
    (x : Dicts K × Shared n d K × Except Err α) (y : Opt n d K × Except Err α) : Prop where
  res : x.2.2 = y.2
  image : x.2.1.image x.1 = y.1
  kept : D.Kept x.1
  same : o.Same x.2.1
  valid : x.2.1.Valid x.1
  fresh : o.cfg.ohStrategy ≠ [] → o.cfg.kind ≠ .binary → x.2.1.sw = o.sw ∨ D.next ≤ x.2.1.sw

theorem sharedOptions_stands (D : Dicts K) (o : Shared n d K) (hv : o.Valid D) (r : Draw n d K)
    (iters i : Nat) (s : Swarm n d K) (hs : s.options = (D.get o.sw).opts) :
    (∃ e, sharedOptions D o iters i r.oh = .error e ∧
      callOptions (o.cfgNow D) iters i r s = .error e) ∨
    ∃ D' a, sharedOptions D o iters i r.oh = .ok (D', a) ∧
      callOptions (o.cfgNow D) iters i r s = .ok (D'.get a).opts ∧ D.Kept D' ∧
      Shared.Valid D' { o with sw := a } ∧
      (o.cfg.ohStrategy ≠ [] → o.cfg.kind ≠ .binary → D.next ≤ a) := by
  unfold sharedOptions callOptions
  have hkind : (o.cfgNow D).kind = o.cfg.kind := rfl
  rw [hkind]
  split
  · next hb => exact .inr ⟨D, o.sw, rfl, by simp only [hb, hs], .refl D, hv, fun _ h => absurd hb h⟩
  · next hb =>
    have hoh : ohCall (o.cfgNow D).ohStrategy (o.cfgNow D).options
        { iternow := some (i : K), itermax := some (iters : K) } r.oh =
        if o.cfg.ohStrategy.isEmpty then .ok (D.get o.opt).opts
        else ohLoop o.cfg.ohStrategy (D.get o.opt).opts
          { iternow := some (i : K), itermax := some (iters : K) } r.oh (D.get o.opt).opts := rfl
    simp only [hoh]
    split
    · next he =>
      exact .inr ⟨D, o.opt, rfl, rfl, .refl D,
        ⟨hv.opt, hv.opt, fun _ => rfl, fun _ => rfl⟩, fun h => absurd (List.isEmpty_iff.1 he) h⟩
    · next he =>

      generalize ohLoop o.cfg.ohStrategy (D.get o.opt).opts
        { iternow := some (i : K), itermax := some (iters : K) } r.oh (D.get o.opt).opts = y
      cases y with
      | error e => exact .inl ⟨e, rfl, rfl⟩
      | ok y =>
        refine .inr ⟨_, _, rfl, by simp only [if_true], ⟨Nat.le_succ _, fun a ha => ?_⟩,
          ⟨?_, ?_, ?_, ?_⟩, fun _ _ => Nat.le_refl _⟩
        · have : a ≠ D.next := by omega
          simp [this]
        · exact Nat.lt_succ_of_lt hv.opt
        · exact Nat.lt_succ_self _
        · intro h; exact absurd h hb
        · intro h
          exact absurd (List.isEmpty_iff.2 (show o.cfg.ohStrategy = [] from h)) he

theorem moveShared_stands (D : Dicts K) (o : Shared n d K) (hv : o.Valid D) (r : Draw n d K)
    (iters i : Nat) :
    Stands D o (moveShared D o r iters i) (moveSwarm (o.cfgNow D) r iters i (o.image D)) := by
  unfold moveShared moveSwarm
  rcases sharedOptions_stands D o hv r iters i (o.image D).swarm rfl with
    ⟨e, h1, h2⟩ | ⟨D', a, h1, h2, hk, hva, hfr⟩
  · rw [h1, h2]
    exact ⟨rfl, rfl, .refl D, ⟨rfl, rfl, rfl⟩, hv, fun _ _ => .inl rfl⟩
  · rw [h1, h2]
    have hsw : ({ (o.image D).swarm with options := (D'.get a).opts } : Swarm n d K) =
        { o.st.swarm with options := (D'.get a).opts } := rfl
    have hvb : velBounds (o.cfgNow D) = velBounds o.cfg := rfl
    have hcl : (o.cfgNow D).clamp = o.cfg.clamp := rfl
    have hvs : (o.cfgNow D).vhStrategy = o.cfg.vhStrategy := rfl
    have hm : (o.image D).vhMem = o.st.vhMem := rfl
    simp only [hsw, hvb, hcl, hvs, hm]
    generalize computeVelocity { o.st.swarm with options := (D'.get a).opts } o.cfg.clamp
      o.cfg.vhStrategy o.st.vhMem (velBounds o.cfg) r.r1 r.r2 = y
    obtain ⟨vm, y⟩ := y
    cases y with
    | error e => exact ⟨rfl, rfl, hk, ⟨rfl, rfl, rfl⟩, ⟨hva.1, hva.2, hva.3, hva.4⟩,
      fun h h' => .inr (hfr h h')⟩
    | ok v =>
      simp only
      have hp : callPosition (o.cfgNow D) r (o.image D).bhMem
          { (o.image D).swarm with options := (D'.get a).opts, velocity := v } =
          callPosition o.cfg r o.st.bhMem { o.st.swarm with velocity := v } := rfl
      dsimp only at hp
      rw [hp]
      generalize callPosition o.cfg r o.st.bhMem { o.st.swarm with velocity := v } = z
      obtain ⟨bm, z⟩ := z
      cases z with
      | error e => exact ⟨rfl, rfl, hk, ⟨rfl, rfl, rfl⟩, ⟨hva.1, hva.2, hva.3, hva.4⟩,
      fun h h' => .inr (hfr h h')⟩
      | ok p => exact ⟨rfl, rfl, hk, ⟨rfl, rfl, rfl⟩, ⟨hva.1, hva.2, hva.3, hva.4⟩,
      fun h h' => .inr (hfr h h')⟩

theorem iterateShared_stands (D : Dicts K) (o : Shared n d K) (hv : o.Valid D)
    (ev : Mat n d K → Except Err (Costs n K)) (r : Draw n d K) (iters i : Nat) (q : List Bool) :
    Stands D o (iterateShared D o ev r iters i q)
      (iterate (o.cfgNow D) ev r iters i q (o.image D)) := by
  unfold iterateShared iterate
  have hpos : (o.image D).swarm.position = o.st.swarm.position := rfl
  rw [hpos]
  cases ev o.st.swarm.position with
  | error e => exact ⟨rfl, rfl, .refl D, ⟨rfl, rfl, rfl⟩, hv, fun _ _ => .inl rfl⟩
  | ok c =>
    have hg : callGbest (o.cfgNow D) r.oracle (recordEval c (o.image D)).top
        (recordEval c (o.image D)).swarm =
        callGbest { o.cfg with args := o.argsNow D } r.oracle (recordEval c o.st).top
          (recordEval c o.st).swarm := by
      rfl
    simp only [hg]
    generalize callGbest { o.cfg with args := o.argsNow D } r.oracle (recordEval c o.st).top
      (recordEval c o.st).swarm = y
    obtain ⟨t, y⟩ := y
    cases y with
    | error e => exact ⟨rfl, rfl, .refl D, ⟨rfl, rfl, rfl⟩, ⟨hv.1, hv.2, hv.3, hv.4⟩,
      fun _ _ => .inl rfl⟩
    | ok g =>
      have him : recordBest t g (recordEval c (o.image D)) =
          Shared.image D { o with st := recordBest t g (recordEval c o.st) } := rfl
      have hb1 : (recordEval c (o.image D)).swarm.bestCostVal =
        (recordEval c o.st).swarm.bestCostVal := rfl
      have hb2 : (Shared.image D { o with st := recordBest t g (recordEval c o.st) }).swarm.bestCostVal
        = (recordBest t g (recordEval c o.st)).swarm.bestCostVal := rfl
      have hw : (o.cfgNow D).window = o.cfg.window := rfl
      have hf : (o.cfgNow D).ftol = o.cfg.ftol := rfl
      simp only [him, hb1, hb2, hw, hf]
      have hv2 : Shared.Valid D { o with st := recordBest t g (recordEval c o.st) } :=
        ⟨hv.1, hv.2, hv.3, hv.4⟩
      split
      · exact ⟨rfl, rfl, .refl D, ⟨rfl, rfl, rfl⟩, hv2, fun _ _ => .inl rfl⟩
      · have hm := moveShared_stands D _ hv2 r iters i
        have hc : Shared.cfgNow D { o with st := recordBest t g (recordEval c o.st) } =
          o.cfgNow D := rfl
        rw [hc] at hm
        generalize moveShared D { o with st := recordBest t g (recordEval c o.st) } r iters i = x
          at hm
        generalize moveSwarm (o.cfgNow D) r iters i
          (Shared.image D { o with st := recordBest t g (recordEval c o.st) }) = y at hm
        obtain ⟨D3, o3, x⟩ := x
        obtain ⟨s3, y⟩ := y
        obtain ⟨h1, h2, h3, h4, h5, h6⟩ := hm
        simp only at h1 h2 h3 h4 h5 h6
        subst h1
        have h4' : o.Same o3 := ⟨h4.1, h4.2, h4.3⟩
        cases x with
        | error e => exact ⟨rfl, h2, h3, h4', h5, h6⟩
        | ok x => exact ⟨rfl, h2, h3, h4', h5, h6⟩

theorem loopShared_stands (ev : Nat → Mat n d K → Except Err (Costs n K)) (env : Nat → Draw n d K)
    (iters m i : Nat) (q : List Bool) (D : Dicts K) (o : Shared n d K) (hv : o.Valid D) :
    Stands D o (loopShared ev env iters m i q D o)
      (loop (o.cfgNow D) ev env iters m i q (o.image D)) := by
  induction m generalizing i q D o with
  | zero => exact ⟨rfl, rfl, .refl D, ⟨rfl, rfl, rfl⟩, hv, fun _ _ => .inl rfl⟩
  | succ m ih =>
    have hi := iterateShared_stands D o hv (ev i) (env i) iters i q
    unfold loopShared loop
    generalize iterateShared D o (ev i) (env i) iters i q = x at hi
    generalize iterate (o.cfgNow D) (ev i) (env i) iters i q (o.image D) = y at hi
    obtain ⟨D3, o3, x⟩ := x
    obtain ⟨s3, y⟩ := y
    obtain ⟨h1, h2, h3, h4, h5, h6⟩ := hi
    simp only at h1 h2 h3 h4 h5 h6
    subst h1
    match x with
    | .error e => exact ⟨rfl, h2, h3, h4, h5, h6⟩
    | .ok .stop => exact ⟨rfl, h2, h3, h4, h5, h6⟩
    | .ok (.continue q') =>
      have hr := ih (i + 1) q' D3 o3 h5
      rw [cfgNow_kept hv h3 h4, h2] at hr
      refine ⟨hr.res, hr.image, h3.trans hr.kept, h4.trans hr.same, hr.valid, fun h h' => ?_⟩
      rcases hr.fresh (by rw [h4.cfg]; exact h) (by rw [h4.cfg]; exact h') with h7 | h7
      · rw [h7]; exact h6 h h'
      · exact .inr (Nat.le_trans h3.1 h7)

theorem optimizeShared_stands (D : Dicts K) (o : Shared n d K) (hv : o.Valid D)
    (ev : Nat → Mat n d K → Except Err (Costs n K)) (iters : Nat) (nproc : Option Nat)
    (env : Nat → Draw n d K) :
    Stands D o (optimizeShared D o ev iters nproc env)
      (optimize (o.cfgNow D) ev iters nproc env (o.image D)) := by
  unfold optimizeShared optimize
  split
  · exact ⟨rfl, rfl, .refl D, ⟨rfl, rfl, rfl⟩, ⟨hv.1, hv.2, hv.3, hv.4⟩,
      fun _ _ => .inl rfl⟩
  · have hl := loopShared_stands ev env iters iters 0 [] D
      { o with st := { prepare o.cfg o.st with
        openPools := o.st.openPools + (if nproc.isSome then 1 else 0) } }
      ⟨hv.1, hv.2, hv.3, hv.4⟩
    have hc : Shared.cfgNow D { o with st := { prepare o.cfg o.st with
        openPools := o.st.openPools + (if nproc.isSome then 1 else 0) } } = o.cfgNow D := rfl
    have him : Shared.image D { o with st := { prepare o.cfg o.st with
        openPools := o.st.openPools + (if nproc.isSome then 1 else 0) } } =
      { prepare (o.cfgNow D) (o.image D) with
        openPools := (o.image D).openPools + (if nproc.isSome then 1 else 0) } := rfl
    rw [hc, him] at hl
    dsimp only
    generalize loopShared ev env iters iters 0 [] D
      { o with st := { prepare o.cfg o.st with
        openPools := o.st.openPools + (if nproc.isSome then 1 else 0) } } = x at hl
    generalize loop (o.cfgNow D) ev env iters iters 0 []
      { prepare (o.cfgNow D) (o.image D) with
        openPools := (o.image D).openPools + (if nproc.isSome then 1 else 0) } = y at hl
    obtain ⟨D3, o3, x⟩ := x
    obtain ⟨s3, y⟩ := y
    obtain ⟨h1, h2, h3, h4, h5, h6⟩ := hl
    simp only at h1 h2 h3 h4 h5 h6
    subst h1
    have h4' : o.Same o3 := ⟨h4.1, h4.2, h4.3⟩
    cases x with
    | error e => exact ⟨rfl, h2, h3, h4', h5, h6⟩
    | ok x =>
      subst h2
      have hf : finish (o3.image D3) = finish o3.st := rfl
      simp only [hf]
      cases finish o3.st with
      | error e => exact ⟨rfl, rfl, h3, h4', h5, h6⟩
      | ok y => exact ⟨rfl, rfl, h3, ⟨h4.1, h4.2, h4.3⟩, ⟨h5.1, h5.2, h5.3, h5.4⟩, h6⟩

theorem resetShared_stands (D : Dicts K) (o : Shared n d K) (hv : o.Valid D) (r : InitDraw n d K) :
    (resetShared D o r).2 = (reset (o.cfgNow D) r (o.image D)).2 ∧
    (resetShared D o r).1.image D = (reset (o.cfgNow D) r (o.image D)).1 ∧
    o.Same (resetShared D o r).1 ∧ (resetShared D o r).1.Valid D ∧
    ((resetShared D o r).2 = .ok () → (resetShared D o r).1.sw = o.opt) := by
  unfold resetShared reset
  have hr : resetSwarm (o.cfgNow D) r = resetSwarm { o.cfg with options := (D.get o.opt).opts } r :=
    rfl
  rw [hr]
  cases hsw : resetSwarm { o.cfg with options := (D.get o.opt).opts } r with
  | error e => exact ⟨rfl, rfl, ⟨rfl, rfl, rfl⟩, ⟨hv.1, hv.2, hv.3, hv.4⟩, fun h => by cases h⟩
  | ok sw =>
    have ho : sw.options = (D.get o.opt).opts := (fresh_reachable_init _ r sw hsw).2.2.2.2
    refine ⟨rfl, ?_, ⟨rfl, rfl, rfl⟩, ⟨hv.1, hv.1, fun _ => rfl, fun _ => rfl⟩, fun _ => rfl⟩
    simp only [Shared.image, ← ho]

/-- The invariant of a program. -/
def ProgramOk (P : Program n d K) : Prop := ∀ o ∈ P.objs, o.Valid P.dicts

theorem step_ok (P : Program n d K) (h : ProgramOk P) (op : ShOp n d K) :
    ProgramOk (op.step P) := by
  cases op with
  | new x =>
    intro o ho
    have := h o ho
    exact ⟨Nat.lt_succ_of_lt this.1, Nat.lt_succ_of_lt this.2, this.3, this.4⟩
  | write a f =>
    simp only [ShOp.step]
    split
    · intro o ho
      have := h o ho
      exact ⟨this.1, this.2, this.3, this.4⟩
    · exact h
  | construct cfg a r1 r2 =>
    simp only [ShOp.step]
    split
    · next ha =>
      unfold constructShared
      split
      · exact h
      · next o ho =>
        split at ho
        · cases ho
        · cases ho
          intro o ho
          simp only [List.mem_append, List.mem_singleton] at ho
          rcases ho with ho | rfl
          · exact h o ho
          · exact ⟨ha, ha, fun _ => rfl, fun _ => rfl⟩
    · exact h
  | optimize j ev iters nproc env =>
    simp only [ShOp.step]
    split
    · exact h
    · next o ho =>
      have hs := optimizeShared_stands P.dicts o (h o (List.mem_of_getElem? ho)) ev iters nproc env
      intro o' ho'
      rcases List.mem_or_eq_of_mem_set ho' with hm | rfl
      · have := h o' hm
        exact ⟨Nat.lt_of_lt_of_le this.1 hs.kept.1, Nat.lt_of_lt_of_le this.2 hs.kept.1, this.3,
          this.4⟩
      · exact hs.valid
  | reset j r =>
    simp only [ShOp.step]
    split
    · exact h
    · next o ho =>
      have hs := resetShared_stands P.dicts o (h o (List.mem_of_getElem? ho)) r
      intro o' ho'
      rcases List.mem_or_eq_of_mem_set ho' with hm | rfl
      · exact h o' hm
      · exact hs.2.2.2.1

theorem runProgram_ok (P : Program n d K) (h : ProgramOk P) (ops : List (ShOp n d K)) :
    ProgramOk (runProgram P ops) := by
  induction ops generalizing P with
  | nil => exact h
  | cons op ops ih => exact ih _ (step_ok P h op)

theorem inProgram_valid {P : Program n d K} {o : Shared n d K} (h : InProgram P o) :
    o.Valid P.dicts := by
  obtain ⟨g, ops, rfl, ho⟩ := h
  exact runProgram_ok _ (fun o h => by simp at h) ops o ho

/-! ## Theorems -/

/-- **C93** (a call).  In any program, `optimize` of any optimizer does exactly what it would do with
the present content of the dictionary its constructor was given (`k` and `p` of LocalBestPSO and
BinaryPSO: as at construction), and changes no dictionary that existed before the call. -/
theorem C93_call (P : Program n d K) (o : Shared n d K) (h : InProgram P o)
    (ev : Nat → Mat n d K → Except Err (Costs n K)) (iters : Nat) (nproc : Option Nat)
    (env : Nat → Draw n d K) :
    let x := optimizeShared P.dicts o ev iters nproc env
    let y := optimize (o.cfgNow P.dicts) ev iters nproc env (o.image P.dicts)
    x.2.2 = y.2 ∧ x.2.1.image x.1 = y.1 ∧ P.dicts.Kept x.1 := by
  have hs := optimizeShared_stands P.dicts o (inProgram_valid h) ev iters nproc env
  exact ⟨hs.res, hs.image, hs.kept⟩

/-- **C93** (reset).  The same for `reset`; after it, `swarm.options` is the user's dictionary. -/
theorem C93_reset (P : Program n d K) (o : Shared n d K) (h : InProgram P o) (r : InitDraw n d K) :
    let x := resetShared P.dicts o r
    let y := reset (o.cfgNow P.dicts) r (o.image P.dicts)
    x.2 = y.2 ∧ x.1.image P.dicts = y.1 ∧ (x.2 = .ok () → x.1.sw = x.1.opt) := by
  obtain ⟨h1, h2, h3, h4, h5⟩ := resetShared_stands P.dicts o (inProgram_valid h) r
  exact ⟨h1, h2, fun hx => by rw [h5 hx, h3.opt]⟩

/-- **C93** (construction).  An optimizer constructed with the dictionary at `a` is in the state
`construct` gives for the content of the dictionary, and holds that very dictionary. -/
theorem C93_construct (D : Dicts K) (cfg : Config n d K) (a : Nat) (r1 r2 : InitDraw n d K)
    (o : Shared n d K) (h : constructShared D cfg a r1 r2 = .ok o) :
    construct { cfg with options := (D.get a).opts, args := (D.get a).args } r1 r2 =
      .ok (o.image D) ∧
    o.cfg = cfg ∧ o.opt = a ∧ o.sw = a ∧ o.kp = (D.get a).args := by
  unfold constructShared at h
  split at h
  · cases h
  · next s hs =>
    cases h
    refine ⟨?_, rfl, rfl, rfl, rfl⟩
    rw [hs]
    have ho : s.swarm.options = (D.get a).opts := by
      unfold construct at hs
      split at hs
      · cases hs
      · split at hs
        · cases hs
        · split at hs
          · cases hs
          · split at hs
            · cases hs
            · next sw hsw =>
              cases hs
              exact (fresh_reachable_init _ r2 sw hsw).2.2.2.2
    simp only [Shared.image, ← ho]

theorem step_same (P : Program n d K) (h : ProgramOk P) (op : ShOp n d K) (j : Nat)
    (o : Shared n d K) (hj : P.objs[j]? = some o) :
    ∃ o', (op.step P).objs[j]? = some o' ∧ o.Same o' := by
  have hset : ∀ (k : Nat) (p p' : Shared n d K), P.objs[k]? = some p → p.Same p' →
      ∃ o', (P.objs.set k p')[j]? = some o' ∧ o.Same o' := by
    intro k p p' hk hs
    by_cases hkj : k = j
    · subst hkj
      rw [hk] at hj
      cases hj
      have hlt : k < P.objs.length := (List.getElem?_eq_some_iff.1 hk).1
      exact ⟨p', by simp [hlt], hs⟩
    · exact ⟨o, by rw [List.getElem?_set_ne hkj]; exact hj, ⟨rfl, rfl, rfl⟩⟩
  cases op with
  | new x => exact ⟨o, hj, ⟨rfl, rfl, rfl⟩⟩
  | write a f =>
    simp only [ShOp.step]
    split <;> exact ⟨o, hj, ⟨rfl, rfl, rfl⟩⟩
  | construct cfg a r1 r2 =>
    simp only [ShOp.step]
    split
    · split
      · exact ⟨o, hj, ⟨rfl, rfl, rfl⟩⟩
      · refine ⟨o, ?_, ⟨rfl, rfl, rfl⟩⟩
        have hlt : j < P.objs.length := (List.getElem?_eq_some_iff.1 hj).1
        simp only
        rw [List.getElem?_append_left hlt]
        exact hj
    · exact ⟨o, hj, ⟨rfl, rfl, rfl⟩⟩
  | optimize k ev iters nproc env =>
    simp only [ShOp.step]
    split
    · exact ⟨o, hj, ⟨rfl, rfl, rfl⟩⟩
    · next p hp =>
      exact hset k p _ hp
        (optimizeShared_stands P.dicts p (h p (List.mem_of_getElem? hp)) ev iters nproc env).same
  | reset k r =>
    simp only [ShOp.step]
    split
    · exact ⟨o, hj, ⟨rfl, rfl, rfl⟩⟩
    · next p hp =>
      exact hset k p _ hp
        (resetShared_stands P.dicts p (h p (List.mem_of_getElem? hp)) r).2.2.1

/-- **C93** (identity).  Whatever the rest of a program does, an optimizer keeps its constructor
arguments, its dictionary and the `k` and `p` it read from it. -/
theorem C93_identity (g : Nat → PyDict K) (ops more : List (ShOp n d K)) (j : Nat)
    (o : Shared n d K)
    (hj : (runProgram { dicts := { get := g, next := 0 } } ops).objs[j]? = some o) :
    ∃ o', (runProgram { dicts := { get := g, next := 0 } } (ops ++ more)).objs[j]? = some o' ∧
      o'.cfg = o.cfg ∧ o'.opt = o.opt ∧ o'.kp = o.kp := by
  have hok : ProgramOk (runProgram { dicts := { get := g, next := 0 } } ops) :=
    runProgram_ok _ (fun o h => by simp at h) ops
  have key : ∀ (more : List (ShOp n d K)) (P : Program n d K) (o : Shared n d K), ProgramOk P →
      P.objs[j]? = some o → ∃ o', (runProgram P more).objs[j]? = some o' ∧ o.Same o' := by
    intro more
    induction more with
    | nil => exact fun P o _ ho => ⟨o, ho, ⟨rfl, rfl, rfl⟩⟩
    | cons op more ih =>
      intro P o hP ho
      obtain ⟨o1, h1, h2⟩ := step_same P hP op j o ho
      obtain ⟨o2, h3, h4⟩ := ih _ o1 (step_ok P hP op) h1
      exact ⟨o2, h3, h2.trans h4⟩
  obtain ⟨o', h1, h2⟩ := key more _ o hok hj
  refine ⟨o', ?_, h2.cfg, h2.opt, h2.kp⟩
  rw [← h1]
  simp [runProgram]

/-- **C93** (a change in place).  Changing the dictionary at `a` changes the configuration of every
optimizer constructed with it, at once, and of no other. -/
theorem C93_write (P : Program n d K) (a : Nat) (ha : a < P.dicts.next)
    (f : PyDict K → PyDict K) :
    ((ShOp.write a f).step P).objs = P.objs ∧
    ∀ o ∈ P.objs,
      (o.opt = a → o.cfgNow ((ShOp.write a f).step P).dicts =
        { o.cfg with
          options := (f (P.dicts.get a)).opts
          args := match o.cfg.kind with
            | .general _ => (f (P.dicts.get a)).args
            | _ => o.kp }) ∧
      (o.opt ≠ a → o.cfgNow ((ShOp.write a f).step P).dicts = o.cfgNow P.dicts) := by
  simp only [ShOp.step, if_pos ha]
  refine ⟨trivial, fun o _ => ⟨fun h => ?_, fun h => ?_⟩⟩
  · simp [Shared.cfgNow, h]
  · simp [Shared.cfgNow, h]

/-- **C93** (`swarm.options`).  Without option strategies, and always for BinaryPSO, `swarm.options`
is the user's dictionary itself. -/
theorem C93_swarm_options (P : Program n d K) (o : Shared n d K) (h : InProgram P o)
    (hs : o.cfg.ohStrategy = [] ∨ o.cfg.kind = .binary) : o.sw = o.opt := by
  have hv := inProgram_valid h
  rcases hs with hs | hs
  · exact hv.plain hs
  · exact hv.binary hs

/-- **C93** (`swarm.options` with strategies).  With option strategies a call leaves `swarm.options`
as it was, if it never moved the swarm, or makes it a dictionary that did not exist before. -/
theorem C93_swarm_options_fresh (P : Program n d K) (o : Shared n d K) (h : InProgram P o)
    (hs : o.cfg.ohStrategy ≠ []) (hb : o.cfg.kind ≠ .binary)
    (ev : Nat → Mat n d K → Except Err (Costs n K)) (iters : Nat) (nproc : Option Nat)
    (env : Nat → Draw n d K) :
    (optimizeShared P.dicts o ev iters nproc env).2.1.sw = o.sw ∨
      P.dicts.next ≤ (optimizeShared P.dicts o ev iters nproc env).2.1.sw :=
  (optimizeShared_stands P.dicts o (inProgram_valid h) ev iters nproc env).fresh hs hb

/-! ### Assigning another dictionary to `swarm.options` -/

/-- The state with other options in the swarm. -/
def Opt.withOptions (s : Opt n d K) (x : Opts K) : Opt n d K :=
  { s with swarm := { s.swarm with options := x } }

theorem moveSwarm_withOptions (cfg : Config n d K) (hk : cfg.kind ≠ .binary) (r : Draw n d K)
    (iters i : Nat) (s : Opt n d K) (x : Opts K) :
    (moveSwarm cfg r iters i (s.withOptions x)).2 = (moveSwarm cfg r iters i s).2 ∧
    ∃ y, (moveSwarm cfg r iters i (s.withOptions x)).1 =
      (moveSwarm cfg r iters i s).1.withOptions y := by
  have hc : callOptions cfg iters i r (s.withOptions x).swarm = callOptions cfg iters i r s.swarm := by
    unfold callOptions
    split
    · next h => exact absurd h hk
    · rfl
  unfold moveSwarm
  rw [hc]
  cases callOptions cfg iters i r s.swarm with
  | error e => exact ⟨rfl, x, rfl⟩
  | ok o =>
    have hs : ({ (s.withOptions x).swarm with options := o } : Swarm n d K) =
      { s.swarm with options := o } := rfl
    have hm : (s.withOptions x).vhMem = s.vhMem := rfl
    have hb : (s.withOptions x).bhMem = s.bhMem := rfl
    simp only [hs, hm, hb]
    generalize computeVelocity { s.swarm with options := o } cfg.clamp cfg.vhStrategy s.vhMem
      (velBounds cfg) r.r1 r.r2 = y
    obtain ⟨vm, y⟩ := y
    cases y with
    | error e => exact ⟨rfl, o, rfl⟩
    | ok v =>
      simp only
      have hp : callPosition cfg r s.bhMem
          { (s.withOptions x).swarm with options := o, velocity := v } =
          callPosition cfg r s.bhMem { s.swarm with options := o, velocity := v } := rfl
      dsimp only at hp
      rw [hp]
      generalize callPosition cfg r s.bhMem { s.swarm with options := o, velocity := v } = z
      obtain ⟨bm, z⟩ := z
      cases z <;> exact ⟨rfl, o, rfl⟩

theorem iterate_withOptions (cfg : Config n d K) (hk : cfg.kind ≠ .binary)
    (ev : Mat n d K → Except Err (Costs n K)) (r : Draw n d K) (iters i : Nat) (q : List Bool)
    (s : Opt n d K) (x : Opts K) :
    (iterate cfg ev r iters i q (s.withOptions x)).2 = (iterate cfg ev r iters i q s).2 ∧
    ∃ y, (iterate cfg ev r iters i q (s.withOptions x)).1 =
      (iterate cfg ev r iters i q s).1.withOptions y := by
  unfold iterate
  have hp : (s.withOptions x).swarm.position = s.swarm.position := rfl
  rw [hp]
  cases ev s.swarm.position with
  | error e => exact ⟨rfl, x, rfl⟩
  | ok c =>
    have hg : callGbest cfg r.oracle (recordEval c (s.withOptions x)).top
        (recordEval c (s.withOptions x)).swarm =
        callGbest cfg r.oracle (recordEval c s).top (recordEval c s).swarm := rfl
    simp only [hg]
    generalize callGbest cfg r.oracle (recordEval c s).top (recordEval c s).swarm = y
    obtain ⟨t, y⟩ := y
    cases y with
    | error e => exact ⟨rfl, x, rfl⟩
    | ok g =>
      have h1 : recordBest t g (recordEval c (s.withOptions x)) =
        (recordBest t g (recordEval c s)).withOptions x := rfl
      have h2 : ((recordBest t g (recordEval c s)).withOptions x).swarm.bestCostVal =
        (recordBest t g (recordEval c s)).swarm.bestCostVal := rfl
      have h3 : (recordEval c (s.withOptions x)).swarm.bestCostVal =
        (recordEval c s).swarm.bestCostVal := rfl
      simp only [h1, h2, h3]
      split
      · exact ⟨rfl, x, rfl⟩
      · obtain ⟨h4, y, h5⟩ := moveSwarm_withOptions cfg hk r iters i
          (recordBest t g (recordEval c s)) x
        generalize moveSwarm cfg r iters i ((recordBest t g (recordEval c s)).withOptions x) = a
          at h4 h5
        generalize moveSwarm cfg r iters i (recordBest t g (recordEval c s)) = b at h4 h5
        obtain ⟨a1, a2⟩ := a
        obtain ⟨b1, b2⟩ := b
        simp only at h4 h5
        subst h4 h5
        cases a2 <;> exact ⟨rfl, y, rfl⟩

theorem loop_withOptions (cfg : Config n d K) (hk : cfg.kind ≠ .binary)
    (ev : Nat → Mat n d K → Except Err (Costs n K)) (env : Nat → Draw n d K) (iters m i : Nat)
    (q : List Bool) (s : Opt n d K) (x : Opts K) :
    (loop cfg ev env iters m i q (s.withOptions x)).2 = (loop cfg ev env iters m i q s).2 ∧
    ∃ y, (loop cfg ev env iters m i q (s.withOptions x)).1 =
      (loop cfg ev env iters m i q s).1.withOptions y := by
  induction m generalizing i q s x with
  | zero => exact ⟨rfl, x, rfl⟩
  | succ m ih =>
    unfold loop
    obtain ⟨h4, y, h5⟩ := iterate_withOptions cfg hk (ev i) (env i) iters i q s x
    generalize iterate cfg (ev i) (env i) iters i q (s.withOptions x) = a at h4 h5
    generalize iterate cfg (ev i) (env i) iters i q s = b at h4 h5
    obtain ⟨a1, a2⟩ := a
    obtain ⟨b1, b2⟩ := b
    simp only at h4 h5
    subst h4 h5
    match a2 with
    | .error e => exact ⟨rfl, y, rfl⟩
    | .ok .stop => exact ⟨rfl, y, rfl⟩
    | .ok (.continue q') => exact ih (i + 1) q' b1 y

/-- **C93** (assignment).  Replacing `optimizer.swarm.options` by another dictionary `x` between
calls has no effect on a GlobalBestPSO, LocalBestPSO or GeneralOptimizerPSO: the next call ends in
the same way, in the same state up to what is found in `swarm.options`. -/
theorem C93_assign (cfg : Config n d K) (hk : cfg.kind ≠ .binary)
    (ev : Nat → Mat n d K → Except Err (Costs n K)) (iters : Nat) (nproc : Option Nat)
    (env : Nat → Draw n d K) (s : Opt n d K) (x : Opts K) :
    (optimize cfg ev iters nproc env { s with swarm := { s.swarm with options := x } }).2 =
      (optimize cfg ev iters nproc env s).2 ∧
    ∃ y, (optimize cfg ev iters nproc env { s with swarm := { s.swarm with options := x } }).1 =
      { (optimize cfg ev iters nproc env s).1 with
        swarm := { (optimize cfg ev iters nproc env s).1.swarm with options := y } } := by
  have hx : ({ s with swarm := { s.swarm with options := x } } : Opt n d K) = s.withOptions x := rfl
  rw [hx]
  unfold optimize
  split
  · exact ⟨rfl, x, rfl⟩
  · have h0 : ({ prepare cfg (s.withOptions x) with
        openPools := (s.withOptions x).openPools + (if nproc.isSome then 1 else 0) } : Opt n d K) =
      ({ prepare cfg s with
        openPools := s.openPools + (if nproc.isSome then 1 else 0) } : Opt n d K).withOptions x := rfl
    simp only [h0]
    obtain ⟨h4, y, h5⟩ := loop_withOptions cfg hk ev env iters iters 0 []
      { prepare cfg s with openPools := s.openPools + (if nproc.isSome then 1 else 0) } x
    generalize loop cfg ev env iters iters 0 [] (({ prepare cfg s with
        openPools := s.openPools + (if nproc.isSome then 1 else 0) } : Opt n d K).withOptions x) = a
      at h4 h5
    generalize loop cfg ev env iters iters 0 [] ({ prepare cfg s with
        openPools := s.openPools + (if nproc.isSome then 1 else 0) } : Opt n d K) = b at h4 h5
    obtain ⟨a1, a2⟩ := a
    obtain ⟨b1, b2⟩ := b
    simp only at h4 h5
    subst h4 h5
    cases a2 with
    | error e => exact ⟨rfl, y, rfl⟩
    | ok u =>
      have hf : finish (b1.withOptions y) = finish b1 := rfl
      simp only [hf]
      cases finish b1 <;> exact ⟨rfl, y, rfl⟩

/-! ## Concrete cases -/

namespace Ex

/-- One dictionary, two optimizers (`general` with a static ring, and BinaryPSO), a change of `w` and
of `k` in place, then a run of both. -/
def sharing : List (ShOp 3 1 ℚ) :=
  [.new { opts := opts, args := { k := some 2, p := some 2 } },
   .construct { gcfg 3 1 with kind := .general (.ring true) } 0 (init 3 1) (init 3 1),
   .construct (bcfg 3 1 2) 0 (init 3 1) (init 3 1),
   .write 0 (fun x => { opts := [("c1", 1 / 2), ("c2", 1 / 3), ("w", 5)],
                        args := { x.args with k := some 3 } }),
   .optimize 0 (sphere 3 1) 2 none (fun _ => draw 3 1),
   .optimize 1 (sphere 3 1) 2 none (fun _ => draw 3 1)]

/-- The program. -/
def shared : Program 3 1 ℚ := runProgram { dicts := { get := fun _ => { opts := [] }, next := 0 } } sharing

end Ex

/-- Both hold the one dictionary, LocalBest-like `k` was read before the change and the general
optimizer reads the present one. -/
example : Ex.shared.objs.map (fun o => (o.opt, o.sw, o.kp.k, (o.argsNow Ex.shared.dicts).k)) =
    [(0, 0, some 2, some 3), (0, 0, some 2, some 2)] := by decide +kernel

/-- The change is seen: the velocities are not those of a program without the change. -/
example : Ex.shared.objs.map (fun o => o.st.swarm.velocity 0 0) ≠
    (runProgram { dicts := { get := fun _ => { opts := [] }, next := 0 } }
      (Ex.sharing.eraseIdx 3)).objs.map (fun o => o.st.swarm.velocity 0 0) := by decide +kernel

/-- The hypothesis of `C93_call` and the others holds of both optimizers. -/
example : ∀ o ∈ Ex.shared.objs, InProgram Ex.shared o := fun _ h => ⟨_, Ex.sharing, rfl, h⟩

example : Ex.shared.objs.length = 2 := by decide +kernel

/-- With a strategy, `swarm.options` is a new dictionary after a call and the user's is as it was. -/
example :
    let P := runProgram (n := 2) (d := 1) { dicts := { get := fun _ => { opts := [] }, next := 0 } }
      [.new { opts := Ex.opts },
       .construct { Ex.gcfg 2 1 with ohStrategy := [("w", "lin_variation")] } 0 (Ex.init 2 1) (Ex.init 2 1),
       .optimize 0 (Ex.sphere 2 1) 3 none (fun _ => Ex.draw 2 1)]
    P.objs.map (fun o => (o.opt, o.sw)) = [(0, 3)] ∧ (P.dicts.get 0).opts = Ex.opts ∧
      (P.dicts.get 3).opts ≠ Ex.opts := by decide +kernel

/-- `C93_assign` fails for BinaryPSO, which does use what was assigned. -/
theorem C93_assign_binary : ∃ (s : Opt 3 1 ℚ) (x : Opts ℚ),
    construct (Ex.bcfg 3 1 2) (Ex.init 3 1) (Ex.init 3 1) = .ok s ∧
    (optimize (Ex.bcfg 3 1 2) (Ex.sphere 3 1) 2 none (fun _ => Ex.draw 3 1)
      { s with swarm := { s.swarm with options := x } }).1.swarm.velocity 0 0 ≠
    (optimize (Ex.bcfg 3 1 2) (Ex.sphere 3 1) 2 none (fun _ => Ex.draw 3 1)
      s).1.swarm.velocity 0 0 := by
  have key : (match construct (Ex.bcfg 3 1 2) (Ex.init 3 1) (Ex.init 3 1) with
      | .ok s => decide ((optimize (Ex.bcfg 3 1 2) (Ex.sphere 3 1) 2 none (fun _ => Ex.draw 3 1)
          { s with swarm := { s.swarm with
            options := [("c1", 1 / 2), ("c2", 1 / 3), ("w", 5)] } }).1.swarm.velocity 0 0 ≠
          (optimize (Ex.bcfg 3 1 2) (Ex.sphere 3 1) 2 none (fun _ => Ex.draw 3 1)
            s).1.swarm.velocity 0 0)
      | .error _ => false) = true := by decide +kernel
  generalize construct (Ex.bcfg 3 1 2) (Ex.init 3 1) (Ex.init 3 1) = y at key
  cases y with
  | error e => exact absurd key Bool.false_ne_true
  | ok s => exact ⟨s, _, rfl, of_decide_eq_true key⟩

end PySwarms

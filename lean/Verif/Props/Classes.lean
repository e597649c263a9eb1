import Verif.Lemmas.Classes

/-! # C115: what the attrs classes check -/

namespace PySwarms.Cls

/-! ## C115 -/

/-- `Swarm(...)` succeeds exactly if every argument has the right type and the position has the
dimensions needed to compute the missing sizes; then the attributes are the arguments, and the
defaults come from the position. -/
theorem C115_swarm (a : SwarmArgs) :
    (∃ s, swarmInit a = .ok s) ↔ a.Typed ∧ ∃ nd, a.position.ndim = some nd ∧ a.needed ≤ nd := by
  rw [swarmInit_eq]
  simp only [bind_ok]
  constructor
  · rintro ⟨s, np, hnp, dm, hdm, u, hc, -⟩
    obtain ⟨h1, h2, h3, h4, h5, h6, h7, h8, h9, h10⟩ := (checks_ok a np dm).1 hc
    refine ⟨⟨h1, h2, ?_, ?_, h5, h6, h7, h8, h9, h10⟩, ?_⟩
    · intro o ho
      rw [ho] at hnp
      cases hnp
      exact h3
    · intro o ho
      rw [ho] at hdm
      cases hdm
      exact h4
    · obtain ⟨sh, hsh⟩ := h1
      refine ⟨sh.length, by rw [hsh]; rfl, ?_⟩
      unfold SwarmArgs.needed
      split_ifs with hd hn
      · rw [hd] at hdm
        rcases shapeAt_cases a.position 1 with ⟨m, -, ⟨nd, hnd, hlt⟩, -⟩ | ⟨h, -⟩ | ⟨h, -⟩
        · rw [hsh] at hnd; cases hnd; omega
        · simp only [sizeArg, h] at hdm; cases hdm
        · simp only [sizeArg, h] at hdm; cases hdm
      · rw [hn] at hnp
        rcases shapeAt_cases a.position 0 with ⟨m, -, ⟨nd, hnd, hlt⟩, -⟩ | ⟨h, -⟩ | ⟨h, -⟩
        · rw [hsh] at hnd; cases hnd; omega
        · simp only [sizeArg, h] at hnp; cases hnp
        · simp only [sizeArg, h] at hnp; cases hnp
      · omega
  · rintro ⟨ht, nd, hnd, hle⟩
    have size : ∀ (o : Option Obj) k, (o = none → k < nd) → Given o Obj.IsInt →
        ∃ v, sizeArg o a.position k = .ok v ∧ v.IsInt := by
      intro o k hk hg
      cases o with
      | some v => exact ⟨v, rfl, hg v rfl⟩
      | none =>
        rcases shapeAt_cases a.position k with ⟨m, h, -⟩ | ⟨-, nd', hnd', h⟩ | ⟨-, h⟩
        · exact ⟨_, h, .inl ⟨_, rfl⟩⟩
        · rw [hnd] at hnd'; cases hnd'; have := hk rfl; omega
        · rw [hnd] at h; cases h
    obtain ⟨np, hnp, inp⟩ := size a.nParticles 0 (fun h => by
      unfold SwarmArgs.needed at hle; rw [if_pos h] at hle; split_ifs at hle <;> omega) ht.nParticles
    obtain ⟨dm, hdm, idm⟩ := size a.dimensions 1 (fun h => by
      unfold SwarmArgs.needed at hle; rw [if_pos h] at hle; omega) ht.dimensions
    exact ⟨_, np, hnp, dm, hdm, (), (checks_ok a np dm).2 ⟨ht.position, ht.velocity, inp, idm,
      ht.options, ht.pbestPos, ht.bestPos, ht.pbestCost, ht.bestCost, ht.currentCost⟩, rfl⟩

/-- Which exception it raises otherwise: the missing sizes are computed before any type is checked,
so a position without the attribute `shape` (a list) gives `AttributeError`, one with too few
dimensions `IndexError`, and only then a wrong type gives `TypeError`. -/
theorem C115_swarm_error (a : SwarmArgs) (e : Err) :
    swarmInit a = .error e ↔
      (0 < a.needed ∧ a.position.ndim = none ∧ e = .attributeError) ∨
      (∃ nd, a.position.ndim = some nd ∧ nd < a.needed ∧ e = .indexError) ∨
      ((a.needed = 0 ∨ ∃ nd, a.position.ndim = some nd ∧ a.needed ≤ nd) ∧ ¬ a.Typed ∧
        e = .typeError) := by
  -- the three situations exclude each other and cover everything
  have main : (0 < a.needed ∧ a.position.ndim = none ∧ swarmInit a = .error .attributeError) ∨
      (∃ nd, a.position.ndim = some nd ∧ nd < a.needed ∧ swarmInit a = .error .indexError) ∨
      ((a.needed = 0 ∨ ∃ nd, a.position.ndim = some nd ∧ a.needed ≤ nd) ∧
        ((∃ s, swarmInit a = .ok s) ∨ (¬ a.Typed ∧ swarmInit a = .error .typeError))) := by
    have fin : ∀ np dm, sizeArg a.nParticles a.position 0 = .ok np →
        sizeArg a.dimensions a.position 1 = .ok dm →
        (a.needed = 0 ∨ ∃ nd, a.position.ndim = some nd ∧ a.needed ≤ nd) →
        (∃ s, swarmInit a = .ok s) ∨ (¬ a.Typed ∧ swarmInit a = .error .typeError) := by
      intro np dm hnp hdm hnd
      obtain ⟨s, he⟩ : ∃ s, swarmInit a = (checks a np dm >>= fun _ => .ok s) := by
        rw [swarmInit_eq, hnp, hdm]; exact ⟨_, rfl⟩
      cases hc : checks a np dm with
      | ok u => left; exact ⟨_, by rw [he, hc]; rfl⟩
      | error e' =>
        right
        have := checks_error a np dm e' hc
        subst this
        have hr : swarmInit a = .error .typeError := by rw [he, hc]; rfl
        refine ⟨fun ht => ?_, hr⟩
        have hnd' : ∃ nd, a.position.ndim = some nd ∧ a.needed ≤ nd := by
          rcases hnd with h | h
          · obtain ⟨sh, hsh⟩ := ht.position
            exact ⟨sh.length, by rw [hsh]; rfl, by omega⟩
          · exact h
        obtain ⟨s, hs⟩ := (C115_swarm a).2 ⟨ht, hnd'⟩
        rw [hr] at hs
        cases hs
    cases hn : a.nParticles with
    | some np =>
      have hnp : sizeArg a.nParticles a.position 0 = .ok np := by rw [hn]; rfl
      cases hd : a.dimensions with
      | some dm =>
        have hdm : sizeArg a.dimensions a.position 1 = .ok dm := by rw [hd]; rfl
        have h0 : a.needed = 0 := by simp [SwarmArgs.needed, hn, hd]
        exact .inr (.inr ⟨.inl h0, fin np dm hnp hdm (.inl h0)⟩)
      | none =>
        have h2 : a.needed = 2 := by simp [SwarmArgs.needed, hd]
        rcases shapeAt_cases a.position 1 with ⟨m, h, ⟨nd, hnd, hlt⟩, -⟩ | ⟨h, nd, hnd, hle⟩ | ⟨h, hnd⟩
        · have hdm : sizeArg a.dimensions a.position 1 = .ok (.int m) := by rw [hd]; exact h
          have hq : a.needed = 0 ∨ ∃ nd, a.position.ndim = some nd ∧ a.needed ≤ nd :=
            .inr ⟨nd, hnd, by omega⟩
          exact .inr (.inr ⟨hq, fin np _ hnp hdm hq⟩)
        · refine .inr (.inl ⟨nd, hnd, by omega, ?_⟩)
          rw [swarmInit_eq, hnp, hd]
          simp only [sizeArg, h]
          rfl
        · refine .inl ⟨by omega, hnd, ?_⟩
          rw [swarmInit_eq, hnp, hd]
          simp only [sizeArg, h]
          rfl
    | none =>
      rcases shapeAt_cases a.position 0 with ⟨m, h, ⟨nd, hnd, hlt⟩, -⟩ | ⟨h, nd, hnd, hle⟩ | ⟨h, hnd⟩
      · have hnp : sizeArg a.nParticles a.position 0 = .ok (.int m) := by rw [hn]; exact h
        cases hd : a.dimensions with
        | some dm =>
          have hdm : sizeArg a.dimensions a.position 1 = .ok dm := by rw [hd]; rfl
          have h1 : a.needed = 1 := by simp [SwarmArgs.needed, hn, hd]
          have hq : a.needed = 0 ∨ ∃ nd, a.position.ndim = some nd ∧ a.needed ≤ nd :=
            .inr ⟨nd, hnd, by omega⟩
          exact .inr (.inr ⟨hq, fin _ dm hnp hdm hq⟩)
        | none =>
          have h2 : a.needed = 2 := by simp [SwarmArgs.needed, hd]
          rcases shapeAt_cases a.position 1 with ⟨m', h', ⟨nd', hnd', hlt'⟩, -⟩ | ⟨h', nd', hnd', hle'⟩ | ⟨h', hnd'⟩
          · have hdm : sizeArg a.dimensions a.position 1 = .ok (.int m') := by rw [hd]; exact h'
            have hq : a.needed = 0 ∨ ∃ nd, a.position.ndim = some nd ∧ a.needed ≤ nd :=
              .inr ⟨nd', hnd', by omega⟩
            exact .inr (.inr ⟨hq, fin _ _ hnp hdm hq⟩)
          · refine .inr (.inl ⟨nd', hnd', by omega, ?_⟩)
            rw [swarmInit_eq, hnp, hd]
            simp only [sizeArg, h']
            rfl
          · rw [hnd] at hnd'; cases hnd'
      · have hpos : 0 < a.needed := by
          unfold SwarmArgs.needed; rw [if_pos hn]; split_ifs <;> omega
        refine .inr (.inl ⟨nd, hnd, by omega, ?_⟩)
        rw [swarmInit_eq, hn]
        simp only [sizeArg, h]
        rfl
      · have hpos : 0 < a.needed := by
          unfold SwarmArgs.needed; rw [if_pos hn]; split_ifs <;> omega
        refine .inl ⟨hpos, hnd, ?_⟩
        rw [swarmInit_eq, hn]
        simp only [sizeArg, h]
        rfl
  rcases main with ⟨h1, h2, h3⟩ | ⟨nd, h1, h2, h3⟩ | ⟨h1, ⟨s, h3⟩ | ⟨h2, h3⟩⟩
  · rw [h3]
    constructor
    · intro h; cases h; exact .inl ⟨h1, h2, rfl⟩
    · rintro (⟨-, -, rfl⟩ | ⟨nd, h, -⟩ | ⟨h | ⟨nd, h, -⟩, -⟩)
      · rfl
      · rw [h2] at h; cases h
      · omega
      · rw [h2] at h; cases h
  · rw [h3]
    constructor
    · intro h; cases h; exact .inr (.inl ⟨nd, h1, h2, rfl⟩)
    · rintro (⟨-, h, -⟩ | ⟨-, -, -, rfl⟩ | ⟨h | ⟨nd', h, h'⟩, -⟩)
      · rw [h1] at h; cases h
      · rfl
      · omega
      · rw [h1] at h; cases h; omega
  · rw [h3]
    have ht := ((C115_swarm a).1 ⟨s, h3⟩)
    constructor
    · intro h; cases h
    · obtain ⟨ht, nd, hnd, hle⟩ := ht
      rintro (⟨-, h, -⟩ | ⟨nd', h, h', -⟩ | ⟨-, h, -⟩)
      · rw [hnd] at h; cases h
      · rw [hnd] at h; cases h; omega
      · exact absurd ht h
  · rw [h3]
    constructor
    · intro h; cases h; exact .inr (.inr ⟨h1, h2, rfl⟩)
    · rintro (⟨h, h', -⟩ | ⟨nd', h, h', -⟩ | ⟨-, -, rfl⟩)
      · rcases h1 with h1 | ⟨nd, h1, -⟩
        · omega
        · rw [h1] at h'; cases h'
      · rcases h1 with h1 | ⟨nd, h1, h1'⟩
        · omega
        · rw [h1] at h; cases h; omega
      · rfl

/-- The attributes of a new swarm: what was given; the sizes default to the shape of the position,
the personal best position to the position, and the other attributes to an empty dictionary, empty
arrays and a float (infinity). -/
theorem C115_swarm_attributes (a : SwarmArgs) (s : SwarmObj) (h : swarmInit a = .ok s) :
    (∀ x o, a.given x = some o → s.get x = o) ∧
    (∀ m k rest, a.position = .ndarray (m :: k :: rest) →
      (a.nParticles = none → s.nParticles = .int m) ∧ (a.dimensions = none → s.dimensions = .int k)) ∧
    (a.pbestPos = none → s.pbestPos = a.position) ∧
    (a.options = none → s.options = .dict) ∧ (a.bestPos = none → s.bestPos = .ndarray [0]) ∧
    (a.pbestCost = none → s.pbestCost = .ndarray [0]) ∧ (a.bestCost = none → s.bestCost = .float) ∧
    (a.currentCost = none → s.currentCost = .ndarray [0]) := by
  rw [swarmInit_eq] at h
  simp only [bind_ok] at h
  obtain ⟨np, hnp, dm, hdm, u, hc, hs⟩ := h
  cases hs
  refine ⟨fun x o ho => ?_, fun m k rest hp => ⟨fun hn => ?_, fun hd => ?_⟩, ?_, ?_, ?_, ?_, ?_, ?_⟩
  · cases x with
    | nParticles =>
      simp only [SwarmArgs.given] at ho
      rw [ho] at hnp; cases hnp; rfl
    | dimensions =>
      simp only [SwarmArgs.given] at ho
      rw [ho] at hdm; cases hdm; rfl
    | _ =>
      simp only [SwarmArgs.given, Option.some.injEq] at ho
      simp [SwarmObj.get, ho]
  · rw [hn, hp] at hnp; cases hnp; rfl
  · rw [hd, hp] at hdm; cases hdm; rfl
  all_goals intro hp; simp [hp]

/-- Assignments are not checked: any object can be assigned to any attribute of any swarm, and the
other attributes stay as they are; in particular the sizes do not follow the position. -/
theorem C115_assign (s : SwarmObj) (o : Obj) (x y : SwarmAttr) :
    (s.set o x).get y = if y = x then o else s.get y := by
  cases x <;> cases y <;> rfl

/-- The formatting classes. -/
theorem C115_formatters (figsize titleFontsize textFontsize legend label limits colormap : Option Obj)
    (interval repeatDelay rep : Option Obj) (func : Obj) (delta mlimits levels alpha : Option Obj) :
    (designerInit figsize titleFontsize textFontsize legend label limits colormap = .ok () ↔
      Given figsize (· = .tuple) ∧
      Given titleFontsize (fun o => o = .str ∨ o.IsInt ∨ o.IsFloat) ∧
      Given textFontsize (fun o => o = .str ∨ o.IsInt ∨ o.IsFloat) ∧
      Given legend (· = .str) ∧ Given label (fun o => o = .str ∨ o = .list ∨ o = .tuple) ∧
      Given limits (fun o => o = .list ∨ o = .tuple) ∧ Given colormap (· = .colormap)) ∧
    (animatorInit interval repeatDelay rep = .ok () ↔
      Given interval Obj.IsInt ∧ Given rep (fun o => ∃ b, o = .bool b)) ∧
    (mesherInit func delta mlimits levels alpha = .ok () ↔
      Given mlimits (fun o => o = .list ∨ o = .tuple) ∧ Given alpha Obj.IsFloat) := by
  have one : ∀ (o : Option Obj) (dflt : Obj) (cs : List Class) (P : Obj → Prop),
      (∀ x, cs.any (isInstance x) = true ↔ P x) → cs.any (isInstance dflt) = true →
      (validate (o.getD dflt) cs = .ok () ↔ Given o P) := by
    intro o dflt cs P hP hd
    rw [validate_ok, hP]
    exact getD_given o dflt P ((hP _).1 hd)
  refine ⟨?_, ?_, ?_⟩
  · unfold designerInit
    simp only [bind_okU]
    rw [one figsize _ _ (· = .tuple) (by intro x; cases x <;> simp [isInstance]) rfl,
      one titleFontsize _ _ (fun o => o = .str ∨ o.IsInt ∨ o.IsFloat)
        (by intro x; cases x <;> simp [isInstance, Obj.IsInt, Obj.IsFloat]) rfl,
      one textFontsize _ _ (fun o => o = .str ∨ o.IsInt ∨ o.IsFloat)
        (by intro x; cases x <;> simp [isInstance, Obj.IsInt, Obj.IsFloat]) rfl,
      one legend _ _ (· = .str) (by intro x; cases x <;> simp [isInstance]) rfl,
      one label _ _ (fun o => o = .str ∨ o = .list ∨ o = .tuple)
        (by intro x; cases x <;> simp [isInstance]) rfl,
      one limits _ _ (fun o => o = .list ∨ o = .tuple)
        (by intro x; cases x <;> simp [isInstance]) rfl,
      one colormap _ _ (· = .colormap) (by intro x; cases x <;> simp [isInstance]) rfl]
  · unfold animatorInit
    simp only [bind_okU]
    rw [one interval _ _ Obj.IsInt any_int rfl,
      one rep _ _ (fun o => ∃ b, o = .bool b) (by intro x; cases x <;> simp [isInstance]) rfl]
  · unfold mesherInit
    simp only [bind_okU]
    rw [one mlimits _ _ (fun o => o = .list ∨ o = .tuple)
        (by intro x; cases x <;> simp [isInstance]) rfl,
      one alpha _ _ Obj.IsFloat (by intro x; cases x <;> simp [isInstance, Obj.IsFloat]) rfl]

/-! ## Examples -/

/-- Non-vacuity: a swarm of arrays; a list as position raises `AttributeError`, but `TypeError` if
the sizes are given; a NumPy integer is not accepted as a size; `alpha=1` is refused. -/
example : (∃ s, swarmInit { position := .ndarray [5, 2], velocity := .ndarray [5, 2] } = .ok s ∧
      s.nParticles = .int 5 ∧ s.dimensions = .int 2 ∧ s.pbestPos = .ndarray [5, 2]) ∧
    swarmInit { position := .list, velocity := .ndarray [5, 2] } = .error .attributeError ∧
    swarmInit { position := .list, velocity := .ndarray [5, 2], nParticles := some (.int 5),
                dimensions := some (.int 2) } = .error .typeError ∧
    swarmInit { position := .ndarray [5], velocity := .ndarray [5] } = .error .indexError ∧
    swarmInit { position := .ndarray [5, 2], velocity := .ndarray [5, 2],
                nParticles := some .npScalar } = .error .typeError ∧
    mesherInit .other none none none (some (.int 1)) = .error .typeError :=
  ⟨⟨_, rfl, rfl, rfl, rfl⟩, rfl, rfl, rfl, rfl, rfl⟩

/-- After `swarm.position = array of another shape` the sizes are the old ones. -/
example : ((SwarmObj.mk (.ndarray [5, 2]) (.ndarray [5, 2]) (.int 5) (.int 2) .dict (.ndarray [5, 2])
      (.ndarray [0]) (.ndarray [0]) .float (.ndarray [0])).set (.ndarray [7, 3]) .position).get
      .nParticles = .int 5 := by
  rw [C115_assign]; decide

end PySwarms.Cls

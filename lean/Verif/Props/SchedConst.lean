import Verif.Props.SchedFloat
import Verif.Props.SchedKeys

/-!
# C63: schedules that never change anything
-/

set_option linter.unusedSectionVars false

namespace PySwarms

variable {n d : Nat} {K : Type} [Field K] [LinearOrder K] [IsStrictOrderedRing K] [Transc K]
  [FloorRing K]

/-- The loop of `optimize` under two configurations whose iterations agree inside the call. -/
theorem loop_congr_lt (cfg cfg' : Config n d K) (ev : Nat → Mat n d K → Except Err (Costs n K))
    (env : Nat → Draw n d K) (iters : Nat)
    (heq : ∀ i q s, i < iters → iterate cfg (ev i) (env i) iters i q s =
      iterate cfg' (ev i) (env i) iters i q s)
    (m i : Nat) (hm : i + m ≤ iters) (q : List Bool) (s : Opt n d K) :
    loop cfg ev env iters m i q s = loop cfg' ev env iters m i q s := by
  induction m generalizing i q s with
  | zero => rfl
  | succ m ih =>
    rw [loop, loop, ← heq i q s (by omega)]
    generalize iterate cfg (ev i) (env i) iters i q s = o
    obtain ⟨s', e | f⟩ := o
    · rfl
    · cases f with
      | stop => rfl
      | «continue» q' => exact ih _ (by omega) _ _

theorem startEnd_const {start : Opts K} {opt : String} {kw : OHKw K} (hkw : kw.endOpts = none)
    {c1 c2 v : K} (h1 : start.lookup "c1" = some c1) (h2 : start.lookup "c2" = some c2)
    (hv : start.lookup opt = some v) (ho : opt = "c2" ∨ opt = "w" ∧ v = 2 / 5) :
    startEnd start opt kw = .ok (v, v) := by
  unfold startEnd
  rw [h1, h2, hkw]
  dsimp only
  rcases ho with rfl | ⟨rfl, rfl⟩
  · rw [h2] at hv ⊢
    cases hv
    have e1 : (("c2" : String) == "w") = false := by decide
    have e2 : (("c2" : String) == "c1") = false := by decide
    simp [List.lookup, e1, e2]
  · rw [hv]
    simp [List.lookup]

theorem ohStrategy_const {name : String} (hn : name = "lin_variation" ∨ name = "nonlin_mod")
    {start : Opts K} {opt : String} {c1 c2 v : K} (h1 : start.lookup "c1" = some c1)
    (h2 : start.lookup "c2" = some c2) (hv : start.lookup opt = some v)
    (ho : opt = "c2" ∨ opt = "w" ∧ v = 2 / 5) {iters i : Nat} (hi : i < iters) (u : K) :
    ohStrategy name start opt { iternow := some (i : K), itermax := some (iters : K) } u =
      .ok v := by
  have hm : (0 : K) < iters := by exact_mod_cast (by omega : 0 < iters)
  have hlt : (i : K) < iters := by exact_mod_cast hi
  have hs : startEnd start opt { iternow := some (i : K), itermax := some (iters : K) } =
      .ok (v, v) := startEnd_const rfl h1 h2 hv ho
  rcases hn with rfl | rfl
  · have : ohStrategy "lin_variation" start opt
        { iternow := some (i : K), itermax := some (iters : K) } u =
        ohLinVariation start opt { iternow := some (i : K), itermax := some (iters : K) } := rfl
    rw [this]
    unfold ohLinVariation
    rw [hs]
    dsimp only
    rw [if_neg hm.ne']
    simp
  · have : ohStrategy "nonlin_mod" start opt
        { iternow := some (i : K), itermax := some (iters : K) } u =
        ohNonlinMod start opt { iternow := some (i : K), itermax := some (iters : K) } := rfl
    rw [this]
    unfold ohNonlinMod
    rw [hs]
    dsimp only
    rw [if_neg (by push Not; exact ⟨by linarith, hm.le⟩), if_neg]
    · simp
    · rintro (⟨h, -⟩ | ⟨h, -⟩) <;> linarith

theorem ohLoop_const {opt name : String} {strategy : List (String × String)} {start : Opts K}
    {kw : OHKw K} {u : String → K} {v : K} (hn : strategy.lookup opt = none)
    (hs : ohStrategy name start opt kw (u opt) = .ok v) {l : Opts K}
    (hl : ∀ x, (opt, x) ∈ l → x = v) :
    ohLoop ((opt, name) :: strategy) start kw u l = ohLoop strategy start kw u l := by
  induction l with
  | nil => rfl
  | cons a l ih =>
    obtain ⟨o, x⟩ := a
    rw [ohLoop, ohLoop, ih fun x hx => hl x (List.mem_cons_of_mem _ hx), List.lookup_cons]
    by_cases h : o = opt
    · subst h
      rw [beq_self_eq_true, hn, hl x (by simp)]
      dsimp only
      rw [hs]
    · have : (o == opt) = false := by simpa using h
      rw [this]

/-- C63: with `lin_variation` or `nonlin_mod`, putting `c2` into `oh_strategy` has no effect on any
call of `optimize`: its default end value is its start value, and `optimize` cannot be given another
one.  The same holds for `w` if it starts at `0.4`. -/
theorem C63_no_effect (cfg : Config n d K) (opt name : String)
    (hn : name = "lin_variation" ∨ name = "nonlin_mod")
    (hkeys : (cfg.options.map Prod.fst).Nodup) (c1 c2 v : K) (h1 : ("c1", c1) ∈ cfg.options)
    (h2 : ("c2", c2) ∈ cfg.options) (hv : (opt, v) ∈ cfg.options)
    (ho : opt = "c2" ∨ opt = "w" ∧ v = 2 / 5) (hs : cfg.ohStrategy.lookup opt = none)
    (ev : Nat → Mat n d K → Except Err (Costs n K)) (iters : Nat) (nproc : Option Nat)
    (env : Nat → Draw n d K) (s : Opt n d K) :
    optimize { cfg with ohStrategy := (opt, name) :: cfg.ohStrategy } ev iters nproc env s =
      optimize cfg ev iters nproc env s := by
  have key : ∀ {l : Opts K}, (l.map Prod.fst).Nodup → ∀ {o : String} {x : K}, (o, x) ∈ l →
      l.lookup o = some x := by
    intro l
    induction l with
    | nil => intro _ o x h; cases h
    | cons a l ih =>
      intro hnd o x h
      obtain ⟨o', x'⟩ := a
      rw [List.map_cons, List.nodup_cons] at hnd
      rw [List.lookup_cons]
      rcases List.mem_cons.mp h with h' | h'
      · cases h'; simp
      · have : (o == o') = false := by
          simp only [beq_eq_false_iff_ne]
          rintro rfl
          exact hnd.1 (List.mem_map.mpr ⟨_, h', rfl⟩)
        rw [this]
        exact ih hnd.2 h'
  have hcall : ∀ i, i < iters → ∀ r sw,
      callOptions { cfg with ohStrategy := (opt, name) :: cfg.ohStrategy } iters i r sw =
        callOptions cfg iters i r sw := by
    intro i hi r sw
    unfold callOptions ohCall
    dsimp only
    rw [ohLoop_const hs (ohStrategy_const hn (key hkeys h1) (key hkeys h2) (key hkeys hv) ho hi _)
      fun x hx => by
        have e1 := key hkeys hx
        rw [key hkeys hv] at e1
        exact (Option.some.inj e1).symm]
    cases h : cfg.ohStrategy with
    | nil => rw [ohLoop_nil]; rfl
    | cons a l => rfl
  have hmove : ∀ i, i < iters → ∀ r s,
      moveSwarm { cfg with ohStrategy := (opt, name) :: cfg.ohStrategy } r iters i s =
        moveSwarm cfg r iters i s := by
    intro i hi r s
    unfold moveSwarm
    rw [hcall i hi]
    rfl
  have hpr : prepare { cfg with ohStrategy := (opt, name) :: cfg.ohStrategy } s =
      prepare cfg s := rfl
  unfold optimize
  rw [hpr]
  dsimp only
  rw [loop_congr_lt { cfg with ohStrategy := (opt, name) :: cfg.ohStrategy } cfg ev env iters
    (fun i q s hi => iterate_congr { cfg with ohStrategy := (opt, name) :: cfg.ohStrategy } cfg rfl
      rfl rfl rfl (ev i) (env i) iters i q s fun _ _ _ => hmove i hi _ _) iters 0 (by omega)]

/-- C106: on the machine too `c2` under `lin_variation` or `nonlin_mod` is at every point of every
history of calls exactly the `c2` the user gave, and so is a `w` that starts at `0.4`. -/
theorem C106_no_effect {n d : Nat} (A : Arith n d ℚ) (M : MachineMath ℚ) (cfg : Config n d ℚ)
    (hA : A.oh = callOptionsR f64 M cfg) (hM : GoodPow M (f64 (6 / 5)))
    (P V : Mat n d ℚ → Prop) (D : Draw n d ℚ → Prop) (s : Opt n d ℚ) (h : RunsR A cfg P V D s)
    (opt name : String) (hl : cfg.ohStrategy.lookup opt = some name)
    (hname : name = "lin_variation" ∨ name = "nonlin_mod") (c1 c2 v : ℚ)
    (h1 : cfg.options.lookup "c1" = some c1) (h2 : cfg.options.lookup "c2" = some c2)
    (hv : cfg.options.lookup opt = some v)
    (ho : opt = "c2" ∧ IsDouble v ∨ opt = "w" ∧ v = f64 (2 / 5)) :
    s.swarm.options.lookup opt = some v := by
  have he : IsEnd64 c1 c2 {} opt v := by
    rcases ho with ⟨rfl, hd⟩ | ⟨rfl, rfl⟩
    · rw [h2] at hv
      cases hv
      exact .c2 (by simp) hd
    · exact .w (by simp)
  obtain ⟨x, hx, ha, hb⟩ := C106_run A M cfg hA hM P V D s h opt name hl hname c1 c2 v v h1 h2 hv he
  rw [hx, le_antisymm (hb le_rfl) (ha le_rfl)]

/-- Non-vacuity: GlobalBestPSO with `c1 = w = 1/2` and `c2 = 1/3`; scheduling `c2` changes nothing, whereas
scheduling `c1` or `w` in the same way moves the particles elsewhere. -/
example (name : String) (hn : name = "lin_variation" ∨ name = "nonlin_mod")
    (ev : Nat → Mat 2 2 ℚ → Except Err (Costs 2 ℚ)) (iters : Nat) (env : Nat → Draw 2 2 ℚ)
    (s : Opt 2 2 ℚ) :
    optimize { Ex.gcfg 2 2 with ohStrategy := [("c2", name)] } ev iters none env s =
      optimize (Ex.gcfg 2 2) ev iters none env s :=
  C63_no_effect (Ex.gcfg 2 2) "c2" name hn (by decide) (1 / 2) (1 / 3) (1 / 3)
    (by simp [Ex.gcfg, Ex.opts]) (by simp [Ex.gcfg, Ex.opts]) (by simp [Ex.gcfg, Ex.opts])
    (Or.inl rfl) rfl ev iters none env s

example : (match construct (Ex.gcfg 2 2) (Ex.init 2 2) (Ex.init 2 2) with
    | .ok s =>
      let pos := fun strat => ((optimize { Ex.gcfg 2 2 with ohStrategy := strat } (Ex.sphere 2 2) 3
        none (fun _ => Ex.draw 2 2) s).1).swarm.position
      decide (pos [("c2", "lin_variation")] = pos [] ∧ pos [("w", "lin_variation")] ≠ pos [] ∧
        pos [("c1", "lin_variation")] ≠ pos [])
    | _ => false) = true := by decide +kernel

/-- Non-vacuity of the hypotheses of `C106_no_effect`: `c2 = 0.3` and `w = 0.4`. -/
example : ([("c1", f64 (1 / 2)), ("c2", f64 (3 / 10)), ("w", f64 (2 / 5))] : Opts ℚ).lookup "c2" =
      some (f64 (3 / 10)) ∧ IsDouble (f64 (3 / 10)) ∧
    ([("c1", f64 (1 / 2)), ("c2", f64 (3 / 10)), ("w", f64 (2 / 5))] : Opts ℚ).lookup "w" =
      some (f64 (2 / 5)) ∧ GoodPow Ex.crudeMath (f64 (6 / 5)) :=
  ⟨rfl, isDouble_f64 _, rfl, ⟨rfl, rfl, fun _ _ _ h => h⟩⟩

end PySwarms

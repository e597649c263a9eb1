import Verif.Model.OptionsDict
import Verif.Props.Keywords
import Verif.Examples

/-! # C104: which entries of the options dictionary matter -/

set_option linter.unusedSectionVars false

namespace PySwarms.Od

open PySwarms

variable {n d : Nat} {K : Type} [Field K] [LinearOrder K] [IsStrictOrderedRing K] [FloorRing K]
  [Transc K]

/-! ## Specification -/

/-- The three coefficients. -/
def coefficients : List String := ["c1", "c2", "w"]

/-- The topology parameters an optimizer reads from the dictionary. -/
def topologyKeys : Kind → List String
  | .globalBest => []
  | .localBest _ => ["k", "p"]
  | .general .star => []
  | .general (.ring _) => ["k", "p"]
  | .general .vonNeumann => ["p", "r"]
  | .general (.pyramid _) => []
  | .general (.random _) => ["k"]
  | .binary => ["k", "p"]

/-- The keys an optimizer reads. -/
def relevant (k : Kind) : List String := coefficients ++ topologyKeys k

/-- The names of the entries. -/
def keys (o : Opts K) : List String := o.map Prod.fst

/-- A dictionary that can be used: it has every key once (as every dictionary), and for
GeneralOptimizerPSO no key `self` or `swarm`; no schedule for anything but the coefficients. -/
structure Usable (cfg : Config n d K) : Prop where
  distinct : (keys cfg.options).Nodup
  free : (∃ top, cfg.kind = .general top) → "self" ∉ keys cfg.options ∧ "swarm" ∉ keys cfg.options
  schedules : ∀ p ∈ keys cfg.options, (cfg.ohStrategy.lookup p).isSome → p ∈ coefficients

/-- The same state with another dictionary in `swarm.options`. -/
def withOptions (o : Opts K) (s : Opt n d K) : Opt n d K :=
  { s with swarm := { s.swarm with options := o } }

/-- Two dictionaries with the same entries for the keys `l`. -/
def Agree (l : List String) (o o' : Opts K) : Prop := ∀ p ∈ l, o.lookup p = o'.lookup p

/-! ## Lemmas: schedules -/

section schedules

variable (strat : List (String × String))

/-- The schedule of `opt`, if any, gives a value. -/
def Fine (start : Opts K) (kw : OHKw K) (u : String → K) (p : String) : Prop :=
  ∀ name, strat.lookup p = some name → ∃ v, ohStrategy name start p kw (u p) = .ok v

theorem ohLoop_ok (start : Opts K) (kw : OHKw K) (u : String → K) (l : Opts K)
    (h : ∀ p ∈ keys l, Fine strat start kw u p) :
    ∃ r, ohLoop strat start kw u l = .ok r ∧ ∀ p, r.lookup p =
      match l.lookup p with
      | none => none
      | some v =>
        match strat.lookup p with
        | none => some v
        | some name => (ohStrategy name start p kw (u p)).toOption := by
  induction l with
  | nil => exact ⟨[], rfl, fun p => rfl⟩
  | cons a l ih =>
    obtain ⟨opt, v⟩ := a
    obtain ⟨r, hr, hl⟩ := ih fun p hp => h p (List.mem_cons_of_mem _ hp)
    have hf := h opt List.mem_cons_self
    rw [ohLoop]
    cases hs : strat.lookup opt with
    | none =>
      simp only [hr]
      refine ⟨_, rfl, fun p => ?_⟩
      rw [List.lookup_cons, List.lookup_cons]
      by_cases hp : p = opt
      · subst hp; simp [hs]
      · have : (p == opt) = false := by simpa using hp
        simp only [this]
        exact hl p
    | some name =>
      obtain ⟨v', hv⟩ := hf name hs
      simp only [hr, hv]
      refine ⟨_, rfl, fun p => ?_⟩
      rw [List.lookup_cons, List.lookup_cons]
      by_cases hp : p = opt
      · subst hp; simp [hs, hv, Except.toOption]
      · have : (p == opt) = false := by simpa using hp
        simp only [this]
        exact hl p

theorem ohLoop_error (start : Opts K) (kw : OHKw K) (u : String → K) (l : Opts K)
    (he : ∀ name p e, ohStrategy name start p kw (u p) = .error e → e = .keyError)
    (h : ∃ p ∈ keys l, ¬ Fine strat start kw u p) :
    ohLoop strat start kw u l = .error .keyError := by
  induction l with
  | nil => obtain ⟨p, hp, _⟩ := h; cases hp
  | cons a l ih =>
    obtain ⟨opt, v⟩ := a
    rw [ohLoop]
    have hrest : Fine strat start kw u opt → ohLoop strat start kw u l = .error .keyError := by
      intro hf
      apply ih
      obtain ⟨p, hp, hn⟩ := h
      rcases List.mem_cons.1 hp with rfl | hp
      · exact absurd hf hn
      · exact ⟨p, hp, hn⟩
    cases hs : strat.lookup opt with
    | none =>
      have : Fine strat start kw u opt := by intro name hn; rw [hs] at hn; cases hn
      simp only [hrest this]
    | some name =>
      cases hv : ohStrategy name start opt kw (u opt) with
      | error e => simp only [hv]; rw [he _ _ _ hv]
      | ok v' =>
        have : Fine strat start kw u opt := by
          intro nm hn; rw [hs] at hn; cases hn; exact ⟨v', hv⟩
        simp only [hv, hrest this]

end schedules

theorem startEnd_error (start : Opts K) (opt : String) (kw : OHKw K) (e : Err)
    (h : startEnd start opt kw = .error e) : e = .keyError := by
  unfold startEnd at h
  split at h
  · dsimp only at h
    split at h
    · cases h
    · cases h; rfl
  · cases h; rfl

/-- In a run, a schedule that fails fails with `KeyError`. -/
theorem ohStrategy_error (name : String) (start : Opts K) (opt : String) (iters i : Nat)
    (hi : i < iters) (u : K) (e : Err)
    (h : ohStrategy name start opt { iternow := some (i : K), itermax := some (iters : K) } u =
      .error e) : e = .keyError := by
  have hm : (0 : K) < iters := by exact_mod_cast Nat.lt_of_le_of_lt (Nat.zero_le i) hi
  have hi0 : (0 : K) ≤ i := Nat.cast_nonneg i
  have him : (i : K) < iters := by exact_mod_cast hi
  unfold ohStrategy at h
  split at h
  · unfold ohExpDecay at h
    dsimp only [Option.getD] at h
    split at h
    · rename_i e' he; cases h; exact startEnd_error _ _ _ _ he
    · rw [if_neg hm.ne'] at h
      have : (0 : K) < 1 + 7 * i / iters := by positivity
      rw [if_neg this.ne'] at h
      cases h
  split at h
  · unfold ohLinVariation at h
    split at h
    · rename_i e' he; cases h; exact startEnd_error _ _ _ _ he
    · dsimp only at h
      rw [if_neg hm.ne'] at h
      cases h
  split at h
  · unfold ohRandom at h
    split at h
    · cases h; rfl
    · cases h; rfl
  split at h
  · unfold ohNonlinMod at h
    dsimp only [Option.getD] at h
    split at h
    · rename_i e' he; cases h; exact startEnd_error _ _ _ _ he
    · rw [if_neg (by rintro (h | h) <;> linarith), if_neg] at h
      · cases h
      · rintro (⟨h, _⟩ | ⟨h, _⟩) <;> linarith
  · cases h; rfl

theorem startEnd_congr (o o' : Opts K) (h : Agree coefficients o o') (opt : String)
    (ho : opt ∈ coefficients) (kw : OHKw K) : startEnd o opt kw = startEnd o' opt kw := by
  unfold startEnd
  rw [h "c1" (by simp [coefficients]), h "c2" (by simp [coefficients]), h opt ho]

theorem ohStrategy_congr (o o' : Opts K) (h : Agree coefficients o o') (name opt : String)
    (ho : opt ∈ coefficients) (kw : OHKw K) (u : K) :
    ohStrategy name o opt kw u = ohStrategy name o' opt kw u := by
  unfold ohStrategy ohExpDecay ohLinVariation ohRandom ohNonlinMod
  rw [startEnd_congr o o' h opt ho kw, h opt ho]

theorem lookup_keys (o : Opts K) (p : String) : p ∈ keys o ↔ ∃ x, o.lookup p = some x := by
  rw [← Option.isSome_iff_exists]
  exact (Kw.lookup_isSome o p).symm

/-- Dictionaries that agree on the coefficients are scheduled alike. -/
theorem ohCall_agree (strat : List (String × String)) (o o' : Opts K)
    (h : Agree coefficients o o')
    (hs : ∀ p ∈ keys o, (strat.lookup p).isSome → p ∈ coefficients)
    (hs' : ∀ p ∈ keys o', (strat.lookup p).isSome → p ∈ coefficients) (iters i : Nat)
    (hi : i < iters) (u : String → K) :
    (∃ r r', ohCall strat o { iternow := some (i : K), itermax := some (iters : K) } u = .ok r ∧
        ohCall strat o' { iternow := some (i : K), itermax := some (iters : K) } u = .ok r' ∧
        Agree coefficients r r') ∨
      (ohCall strat o { iternow := some (i : K), itermax := some (iters : K) } u =
          .error .keyError ∧
        ohCall strat o' { iternow := some (i : K), itermax := some (iters : K) } u =
          .error .keyError) := by
  unfold ohCall
  by_cases he : strat.isEmpty
  · rw [if_pos he, if_pos he]
    exact Or.inl ⟨o, o', rfl, rfl, h⟩
  · rw [if_neg he, if_neg he]
    have hfine : ∀ p ∈ coefficients,
        (Fine strat o { iternow := some (i : K), itermax := some (iters : K) } u p ↔
          Fine strat o' { iternow := some (i : K), itermax := some (iters : K) } u p) := by
      intro p hp
      unfold Fine
      simp only [ohStrategy_congr o o' h _ p hp]
    have htriv : ∀ (o : Opts K), (∀ p ∈ keys o, (strat.lookup p).isSome → p ∈ coefficients) →
        ∀ p ∈ keys o, p ∉ coefficients →
        Fine strat o { iternow := some (i : K), itermax := some (iters : K) } u p := by
      intro o hs p hp hn name hname
      exact absurd (hs p hp (by rw [hname]; rfl)) hn
    have hmem : ∀ p ∈ coefficients, (p ∈ keys o ↔ p ∈ keys o') := by
      intro p hp
      rw [lookup_keys, lookup_keys, h p hp]
    have herr : ∀ (o : Opts K) (name p : String) (e : Err),
        ohStrategy name o p { iternow := some (i : K), itermax := some (iters : K) } (u p) =
          .error e → e = .keyError :=
      fun o name p e => ohStrategy_error name o p iters i hi (u p) e
    by_cases hall : ∀ p ∈ keys o,
        Fine strat o { iternow := some (i : K), itermax := some (iters : K) } u p
    · left
      have hall' : ∀ p ∈ keys o',
          Fine strat o' { iternow := some (i : K), itermax := some (iters : K) } u p := by
        intro p hp
        by_cases hc : p ∈ coefficients
        · exact (hfine p hc).1 (hall p ((hmem p hc).2 hp))
        · exact htriv o' hs' p hp hc
      obtain ⟨r, hr, hl⟩ := ohLoop_ok strat o _ u o hall
      obtain ⟨r', hr', hl'⟩ := ohLoop_ok strat o' _ u o' hall'
      refine ⟨r, r', hr, hr', fun p hp => ?_⟩
      rw [hl, hl', h p hp]
      simp only [ohStrategy_congr o o' h _ p hp]
    · right
      simp only [not_forall] at hall
      obtain ⟨p, hp, hn⟩ := hall
      have hc : p ∈ coefficients := by
        by_contra hc
        exact hn (htriv o hs p hp hc)
      exact ⟨ohLoop_error strat o _ u o (herr o) ⟨p, hp, hn⟩,
        ohLoop_error strat o' _ u o' (herr o') ⟨p, (hmem p hc).1 hp, fun hh => hn ((hfine p hc).2 hh)⟩⟩

/-! ## Lemmas: the topology -/

theorem lookup_map_num (o : Opts K) (p : String) :
    (o.map fun a => (a.1, TArg.num a.2)).lookup p = (o.lookup p).map TArg.num := by
  induction o with
  | nil => rfl
  | cons a l ih =>
    rw [List.map_cons, List.lookup_cons, List.lookup_cons, ih]
    cases p == a.1 <;> rfl

theorem names_map_num (o : Opts K) :
    Kw.names (o.map fun a => (a.1, TArg.num a.2)) = keys o := by
  unfold Kw.names keys
  rw [List.map_map]
  rfl

/-- The integer parameters in the dictionary. -/
def argsOf (o : Opts K) : TopArgs :=
  { k := (o.lookup "k").bind natOf, p := (o.lookup "p").bind natOf, r := (o.lookup "r").bind natOf }

/-- The call `compute_gbest(swarm, **options)`. -/
theorem generalGbest_eq (top : TopKind) (o : Opts K) (hd : (keys o).Nodup) (h1 : "self" ∉ keys o)
    (h2 : "swarm" ∉ keys o) (orc : Oracle n d K) (t : TopState n) (s : Swarm n d K) :
    generalGbest top o orc t s =
      if (wanted top).any fun p => (o.lookup p).isNone then (t, .error .typeError)
      else if (wanted top).any fun p => ((o.lookup p).bind natOf).isNone then (t, .error .unmodelled)
      else computeGbest top (argsOf o) orc t s := by
  have hb : ∀ p ∈ wanted top, p ≠ "self" ∧ p ≠ "swarm" := by
    intro p hp
    cases top <;> simp [wanted] at hp <;> rcases hp with rfl | rfl <;> decide
  have hbound : ∀ p, p ≠ "self" → p ≠ "swarm" →
      Kw.bound (gbestParams top) [TArg.self, TArg.swarm] (o.map fun a => (a.1, TArg.num a.2)) p =
        (o.lookup p).map TArg.num := by
    intro p hs hw
    have e1 : (p == "self") = false := by simpa using hs
    have e2 : (p == "swarm") = false := by simpa using hw
    have e3 : ((gbestParams top : Kw.Params (TArg K)).lookup p).join = none := by
      cases top <;> simp only [gbestParams, List.lookup_cons, e1, e2, List.lookup_nil] <;>
        (repeat' split) <;> rfl
    have e4 : (((gbestParams top : Kw.Params (TArg K)).map Prod.fst).zip
        [(TArg.self : TArg K), TArg.swarm]).lookup p = none := by
      cases top <;> simp [gbestParams, List.lookup_cons, e1, e2]
    unfold Kw.bound
    rw [e4, e3, lookup_map_num]
    cases o.lookup p <;> rfl
  have hnames : Kw.names (gbestParams top : Kw.Params (TArg K)) =
      "self" :: "swarm" :: wanted top := by
    cases top <;> rfl
  have hlen : 2 ≤ (gbestParams top : Kw.Params (TArg K)).length := by
    cases top <;> simp [gbestParams]
  have hself : Kw.bound (gbestParams top) [TArg.self, TArg.swarm]
      (o.map fun a => (a.1, TArg.num a.2)) "self" = some TArg.self := by
    cases top <;> simp [Kw.bound, gbestParams]
  have hswarm : Kw.bound (gbestParams top) [TArg.self, TArg.swarm]
      (o.map fun a => (a.1, TArg.num a.2)) "swarm" = some TArg.swarm := by
    cases top <;> simp [Kw.bound, gbestParams, List.lookup_cons]
  unfold generalGbest
  by_cases hm : (wanted top).any (fun p => (o.lookup p).isNone) = true
  · rw [if_pos hm, Kw.bindArgs_error]
    rw [List.any_eq_true] at hm
    obtain ⟨p, hp, hq⟩ := hm
    refine Or.inr (Or.inr (Or.inr (Or.inr ⟨p, ?_, ?_⟩)))
    · rw [hnames]; exact List.mem_cons_of_mem _ (List.mem_cons_of_mem _ hp)
    · rw [hbound p (hb p hp).1 (hb p hp).2, Option.isSome_map]
      simpa using hq
  · rw [if_neg hm, Kw.bindArgs_ok]
    · have hany : ((wanted top).any fun p => (argNat (Kw.bound (gbestParams top)
          [TArg.self, TArg.swarm] (o.map fun a => (a.1, TArg.num a.2)) p)).isNone) =
          (wanted top).any fun p => ((o.lookup p).bind natOf).isNone := by
        rw [Bool.eq_iff_iff, List.any_eq_true, List.any_eq_true]
        refine exists_congr fun p => and_congr_right fun hp => ?_
        rw [hbound p (hb p hp).1 (hb p hp).2]
        cases o.lookup p <;> rfl
      simp only [hany]
      congr 1
      have harg : ∀ p, p ≠ "self" → p ≠ "swarm" → argNat (Kw.bound (gbestParams top)
          [TArg.self, TArg.swarm] (o.map fun a => (a.1, TArg.num a.2)) p) =
            (o.lookup p).bind natOf := by
        intro p hs hw
        rw [hbound p hs hw]
        cases o.lookup p <;> rfl
      rw [harg "k" (by decide) (by decide), harg "p" (by decide) (by decide),
        harg "r" (by decide) (by decide)]
      rfl
    · rw [names_map_num]; exact hd
    · exact hlen
    · rw [names_map_num, hnames]
      intro p hp
      simp at hp
      rcases hp with rfl | rfl
      · exact h1
      · exact h2
    · left; rfl
    · rw [hnames]
      intro p hp
      rcases List.mem_cons.1 hp with rfl | hp
      · rw [hself]; rfl
      rcases List.mem_cons.1 hp with rfl | hp
      · rw [hswarm]; rfl
      · rw [hbound p (hb p hp).1 (hb p hp).2, Option.isSome_map]
        by_contra hc
        apply hm
        rw [List.any_eq_true]
        refine ⟨p, hp, ?_⟩
        rw [Option.isNone_iff_eq_none, ← Option.not_isSome_iff_eq_none]
        exact hc

/-- `compute_gbest` does not look at the options of the swarm. -/
theorem computeGbest_options (top : TopKind) (a : TopArgs) (orc : Oracle n d K) (t : TopState n)
    (s : Swarm n d K) (o : Opts K) :
    computeGbest top a orc t { s with options := o } = computeGbest top a orc t s := by
  cases top <;> rfl

/-- `compute_gbest` only uses the parameters it wants. -/
theorem computeGbest_args (top : TopKind) (a a' : TopArgs)
    (hk : "k" ∈ wanted top → a.k = a'.k) (hp : "p" ∈ wanted top → a.p = a'.p)
    (hr : "r" ∈ wanted top → a.r = a'.r) (orc : Oracle n d K) (t : TopState n)
    (s : Swarm n d K) : computeGbest top a orc t s = computeGbest top a' orc t s := by
  cases top
  · rfl
  · unfold computeGbest; rw [hk (by simp [wanted]), hp (by simp [wanted])]
  · unfold computeGbest; rw [hr (by simp [wanted]), hp (by simp [wanted])]
  · rfl
  · unfold computeGbest; rw [hk (by simp [wanted])]

theorem wanted_topologyKeys (top : TopKind) (p : String) :
    p ∈ wanted top → p ∈ topologyKeys (.general top) := by
  cases top <;> (simp [wanted, topologyKeys]; try tauto)

theorem callGbestD_agree (cfg : Config n d K) (o' : Opts K)
    (h : Agree (topologyKeys cfg.kind) cfg.options o') (hu : Usable cfg)
    (hu' : Usable { cfg with options := o' }) (orc : Oracle n d K) (t : TopState n)
    (s : Swarm n d K) (so : Opts K) :
    callGbestD { cfg with options := o' } orc t { s with options := so } =
      callGbestD cfg orc t s := by
  unfold callGbestD
  cases hk : cfg.kind with
  | globalBest => exact computeGbest_options _ _ _ _ _ _
  | localBest st =>
    rw [hk] at h
    simp only [storedGbest, ← h "k" (by simp [topologyKeys]), ← h "p" (by simp [topologyKeys]),
      computeGbest_options]
  | binary =>
    rw [hk] at h
    simp only [storedGbest, ← h "k" (by simp [topologyKeys]), ← h "p" (by simp [topologyKeys]),
      computeGbest_options]
  | general top =>
    rw [hk] at h
    have hl : ∀ p ∈ wanted top, cfg.options.lookup p = o'.lookup p := fun p hp =>
      h p (wanted_topologyKeys top p hp)
    have f := hu.free ⟨top, hk⟩
    have f' := hu'.free ⟨top, hk⟩
    simp only
    rw [generalGbest_eq top o' hu'.distinct f'.1 f'.2,
      generalGbest_eq top cfg.options hu.distinct f.1 f.2]
    have e1 : ((wanted top).any fun p => (o'.lookup p).isNone) =
        (wanted top).any fun p => (cfg.options.lookup p).isNone := by
      rw [Bool.eq_iff_iff, List.any_eq_true, List.any_eq_true]
      exact exists_congr fun p => and_congr_right fun hp => by rw [hl p hp]
    have e2 : ((wanted top).any fun p => ((o'.lookup p).bind natOf).isNone) =
        (wanted top).any fun p => ((cfg.options.lookup p).bind natOf).isNone := by
      rw [Bool.eq_iff_iff, List.any_eq_true, List.any_eq_true]
      exact exists_congr fun p => and_congr_right fun hp => by rw [hl p hp]
    rw [e1, e2, computeGbest_options]
    rw [computeGbest_args top (argsOf o') (argsOf cfg.options)
      (fun hp => by simp only [argsOf, hl _ hp]) (fun hp => by simp only [argsOf, hl _ hp])
      (fun hp => by simp only [argsOf, hl _ hp])]

/-! ## Lemmas: the loop -/

/-- The two states differ only in `swarm.options`; for BinaryPSO, which reads them, these agree on
the coefficients. -/
def Alike (kind : Kind) (s s' : Opt n d K) : Prop :=
  (∃ o, s' = withOptions o s) ∧
    (kind = .binary → Agree coefficients s.swarm.options s'.swarm.options)

theorem computeVelocity_agree (s : Swarm n d K) (o : Opts K) (h : Agree coefficients s.options o)
    (clamp : Option (Clamp d K)) (strategy : String) (mem : Option (Mat n d K))
    (bounds : Option (Bounds d K)) (r1 r2 : Mat n d K) :
    computeVelocity { s with options := o } clamp strategy mem bounds r1 r2 =
      computeVelocity s clamp strategy mem bounds r1 r2 := by
  unfold computeVelocity
  simp only [← h "c1" (by simp [coefficients]), ← h "c2" (by simp [coefficients]),
    ← h "w" (by simp [coefficients])]
  rfl

theorem callPosition_options (cfg : Config n d K) (o' : Opts K) (r : Draw n d K)
    (mem : Option (Mat n d K)) (s : Swarm n d K) (o : Opts K) :
    callPosition { cfg with options := o' } r mem { s with options := o } =
      callPosition cfg r mem s := by
  unfold callPosition
  cases cfg.kind <;> rfl

theorem velBounds_options (cfg : Config n d K) (o' : Opts K) :
    velBounds { cfg with options := o' } = velBounds cfg := by
  unfold velBounds
  cases cfg.kind <;> rfl

/-- The rest of `moveSwarm` once the options are there. -/
def moveRest (cfg : Config n d K) (r : Draw n d K) (s1 : Opt n d K) : Opt n d K × Except Err Unit :=
  match computeVelocity s1.swarm cfg.clamp cfg.vhStrategy s1.vhMem (velBounds cfg) r.r1 r.r2 with
  | (vm, .error e) => ({ s1 with vhMem := vm }, .error e)
  | (vm, .ok v) =>
    let s2 := { s1 with vhMem := vm, swarm := { s1.swarm with velocity := v } }
    match callPosition cfg r s2.bhMem s2.swarm with
    | (bm, .error e) => ({ s2 with bhMem := bm }, .error e)
    | (bm, .ok p) => ({ s2 with bhMem := bm, swarm := { s2.swarm with position := p } }, .ok ())

theorem moveSwarm_rest (cfg : Config n d K) (r : Draw n d K) (iters i : Nat) (s : Opt n d K) :
    moveSwarm cfg r iters i s =
      match callOptions cfg iters i r s.swarm with
      | .error e => (s, .error e)
      | .ok o => moveRest cfg r (withOptions o s) := by
  unfold moveSwarm moveRest withOptions
  cases callOptions cfg iters i r s.swarm <;> rfl

theorem moveRest_agree (cfg : Config n d K) (o' : Opts K) (r : Draw n d K) (s : Opt n d K)
    (o : Opts K) (h : Agree coefficients s.swarm.options o) :
    ∃ s', moveRest { cfg with options := o' } r (withOptions o s) =
        (withOptions o s', (moveRest cfg r s).2) ∧ (moveRest cfg r s).1 = s' ∧
      s'.swarm.options = s.swarm.options := by
  unfold moveRest
  have hv := computeVelocity_agree s.swarm o h cfg.clamp cfg.vhStrategy s.vhMem (velBounds cfg)
    r.r1 r.r2
  rw [velBounds_options]
  simp only [withOptions]
  rw [hv]
  cases hc : computeVelocity s.swarm cfg.clamp cfg.vhStrategy s.vhMem (velBounds cfg) r.r1 r.r2 with
  | mk vm res =>
    cases res with
    | error e => exact ⟨_, rfl, rfl, rfl⟩
    | ok v =>
      simp only
      have hp := callPosition_options cfg o' r s.bhMem { s.swarm with velocity := v } o
      simp only at hp
      rw [hp]
      cases hq : callPosition cfg r s.bhMem { s.swarm with velocity := v } with
      | mk bm res =>
        cases res with
        | error e => exact ⟨_, rfl, rfl, rfl⟩
        | ok p => exact ⟨_, rfl, rfl, rfl⟩

theorem moveSwarm_agree (cfg : Config n d K) (o' : Opts K)
    (h : Agree coefficients cfg.options o') (hu : Usable cfg)
    (hu' : Usable { cfg with options := o' }) (r : Draw n d K) (iters i : Nat) (hi : i < iters)
    (s s' : Opt n d K) (hs : Alike cfg.kind s s') :
    ∃ t t' e, moveSwarm cfg r iters i s = (t, e) ∧
      moveSwarm { cfg with options := o' } r iters i s' = (t', e) ∧ Alike cfg.kind t t' := by
  obtain ⟨⟨o, rfl⟩, hb⟩ := hs
  rw [moveSwarm_rest, moveSwarm_rest]
  have key : (∃ q q', callOptions cfg iters i r s.swarm = .ok q ∧
        callOptions { cfg with options := o' } iters i r (withOptions o s).swarm = .ok q' ∧
        Agree coefficients q q') ∨
      (callOptions cfg iters i r s.swarm = .error .keyError ∧
        callOptions { cfg with options := o' } iters i r (withOptions o s).swarm =
          .error .keyError) := by
    unfold callOptions
    cases hk : cfg.kind with
    | binary => exact Or.inl ⟨_, _, rfl, rfl, hb hk⟩
    | globalBest =>
      exact ohCall_agree cfg.ohStrategy cfg.options o' h hu.schedules hu'.schedules iters i hi r.oh
    | localBest st =>
      exact ohCall_agree cfg.ohStrategy cfg.options o' h hu.schedules hu'.schedules iters i hi r.oh
    | general top =>
      exact ohCall_agree cfg.ohStrategy cfg.options o' h hu.schedules hu'.schedules iters i hi r.oh
  rcases key with ⟨q, q', h1, h2, h3⟩ | ⟨h1, h2⟩
  · rw [h1, h2]
    simp only
    obtain ⟨t, ht, ht1, ht2⟩ := moveRest_agree cfg o' r (withOptions q s) q' h3
    refine ⟨t, withOptions q' t, (moveRest cfg r (withOptions q s)).2, ?_, ?_, ⟨q', rfl⟩, ?_⟩
    · rw [← ht1]
    · exact ht
    · intro _
      rw [ht2]
      exact h3
  · rw [h1, h2]
    exact ⟨_, _, _, rfl, rfl, ⟨o, rfl⟩, hb⟩

theorem iterateD_agree (cfg : Config n d K) (o' : Opts K)
    (h : Agree (relevant cfg.kind) cfg.options o') (hu : Usable cfg)
    (hu' : Usable { cfg with options := o' }) (ev : Mat n d K → Except Err (Costs n K))
    (r : Draw n d K) (iters i : Nat) (hi : i < iters) (q : List Bool)
    (s s' : Opt n d K) (hs : Alike cfg.kind s s') :
    ∃ t t' e, iterateD cfg ev r iters i q s = (t, e) ∧
      iterateD { cfg with options := o' } ev r iters i q s' = (t', e) ∧ Alike cfg.kind t t' := by
  have hc : Agree coefficients cfg.options o' := fun p hp => h p (List.mem_append_left _ hp)
  have ht : Agree (topologyKeys cfg.kind) cfg.options o' :=
    fun p hp => h p (List.mem_append_right _ hp)
  obtain ⟨⟨o, rfl⟩, hb⟩ := hs
  unfold iterateD
  have hpos : (withOptions o s).swarm.position = s.swarm.position := rfl
  rw [hpos]
  cases hev : ev s.swarm.position with
  | error e => exact ⟨_, _, _, rfl, rfl, ⟨o, rfl⟩, hb⟩
  | ok c =>
    have hrec : recordEval c (withOptions o s) = withOptions o (recordEval c s) := rfl
    simp only [hrec]
    have hg := callGbestD_agree cfg o' ht hu hu' r.oracle (recordEval c s).top
      (recordEval c s).swarm o
    have hg' : callGbestD { cfg with options := o' } r.oracle
        (withOptions o (recordEval c s)).top (withOptions o (recordEval c s)).swarm =
          callGbestD cfg r.oracle (recordEval c s).top (recordEval c s).swarm := hg
    rw [hg']
    cases hgb : callGbestD cfg r.oracle (recordEval c s).top (recordEval c s).swarm with
    | mk t res =>
      cases res with
      | error e => exact ⟨_, _, _, rfl, rfl, ⟨o, rfl⟩, hb⟩
      | ok g =>
        simp only
        have hb2 : recordBest t g (withOptions o (recordEval c s)) =
            withOptions o (recordBest t g (recordEval c s)) := rfl
        have hval : ∀ x : Opt n d K, (withOptions o x).swarm.bestCostVal = x.swarm.bestCostVal :=
          fun _ => rfl
        have hwin : Config.window { cfg with options := o' } = cfg.window := rfl
        rw [hb2, hval, hval, hwin]
        split
        · exact ⟨_, _, _, rfl, rfl, ⟨o, rfl⟩, hb⟩
        · obtain ⟨t1, t2, e, h1, h2, h3⟩ := moveSwarm_agree cfg o' hc hu hu' r iters i hi
            (recordBest t g (recordEval c s)) (withOptions o (recordBest t g (recordEval c s)))
            ⟨⟨o, rfl⟩, hb⟩
          rw [h1, h2]
          cases e with
          | error e => exact ⟨_, _, _, rfl, rfl, h3⟩
          | ok u => exact ⟨_, _, _, rfl, rfl, h3⟩

theorem loopD_agree (cfg : Config n d K) (o' : Opts K)
    (h : Agree (relevant cfg.kind) cfg.options o') (hu : Usable cfg)
    (hu' : Usable { cfg with options := o' }) (ev : Nat → Mat n d K → Except Err (Costs n K))
    (env : Nat → Draw n d K) (iters m i : Nat) (hi : i + m ≤ iters) (q : List Bool)
    (s s' : Opt n d K) (hs : Alike cfg.kind s s') :
    ∃ t t' e, loopD cfg ev env iters m i q s = (t, e) ∧
      loopD { cfg with options := o' } ev env iters m i q s' = (t', e) ∧ Alike cfg.kind t t' := by
  induction m generalizing i q s s' with
  | zero => exact ⟨_, _, _, rfl, rfl, hs⟩
  | succ m ih =>
    obtain ⟨t, t', e, h1, h2, h3⟩ := iterateD_agree cfg o' h hu hu' (ev i) (env i) iters i
      (by omega) q s s' hs
    simp only [loopD, h1, h2]
    cases e with
    | error e => exact ⟨_, _, _, rfl, rfl, h3⟩
    | ok f =>
      cases f with
      | stop => exact ⟨_, _, _, rfl, rfl, h3⟩
      | «continue» q' => exact ih (i + 1) (by omega) q' t t' h3

theorem optimizeD_agree (cfg : Config n d K) (o' : Opts K)
    (h : Agree (relevant cfg.kind) cfg.options o') (hu : Usable cfg)
    (hu' : Usable { cfg with options := o' }) (ev : Nat → Mat n d K → Except Err (Costs n K))
    (env : Nat → Draw n d K) (iters : Nat) (np : Option Nat)
    (s s' : Opt n d K) (hs : Alike cfg.kind s s') :
    ∃ t t' e, optimizeD cfg ev iters np env s = (t, e) ∧
      optimizeD { cfg with options := o' } ev iters np env s' = (t', e) ∧ Alike cfg.kind t t' := by
  obtain ⟨⟨o, rfl⟩, hb⟩ := hs
  unfold optimizeD
  have hprep : prepare { cfg with options := o' } (withOptions o s) =
      withOptions o (prepare cfg s) := by
    unfold prepare withOptions
    cases cfg.kind <;> rfl
  rw [hprep]
  by_cases hp : np = some 0
  · rw [if_pos hp, if_pos hp]
    exact ⟨_, _, _, rfl, rfl, ⟨o, rfl⟩, hb⟩
  · rw [if_neg hp, if_neg hp]
    obtain ⟨t, t', e, h1, h2, h3⟩ := loopD_agree cfg o' h hu hu' ev env iters iters 0 (by omega) []
      { prepare cfg s with openPools := s.openPools + (if np.isSome then 1 else 0) }
      { withOptions o (prepare cfg s) with
        openPools := (withOptions o s).openPools + (if np.isSome then 1 else 0) }
      ⟨⟨o, rfl⟩, hb⟩
    simp only [h1, h2]
    obtain ⟨⟨o2, rfl⟩, hb2⟩ := h3
    cases e with
    | error e => exact ⟨_, _, _, rfl, rfl, ⟨o2, rfl⟩, hb2⟩
    | ok u =>
      have hfin : finish (withOptions o2 t) = finish t := rfl
      simp only [hfin]
      cases finish t with
      | error e => exact ⟨_, _, _, rfl, rfl, ⟨o2, rfl⟩, hb2⟩
      | ok r => exact ⟨_, _, _, rfl, rfl, ⟨o2, rfl⟩, hb2⟩

theorem resetSwarm_agree (cfg : Config n d K) (o' : Opts K) (r : InitDraw n d K) :
    (∃ e, resetSwarm cfg r = .error e ∧ resetSwarm { cfg with options := o' } r = .error e) ∨
      ∃ sw, resetSwarm cfg r = .ok sw ∧ sw.options = cfg.options ∧
        resetSwarm { cfg with options := o' } r = .ok { sw with options := o' } := by
  unfold resetSwarm createSwarm
  have hb : Config.isBinary { cfg with options := o' } = cfg.isBinary := by
    unfold Config.isBinary
    cases cfg.kind <;> rfl
  rw [hb]
  dsimp only
  generalize (if cfg.isBinary = true then generateDiscreteSwarm cfg.isBinary cfg.initPos r.bits r.argsort
    else generateSwarm (if cfg.isBinary = true then none else cfg.bounds) cfg.center cfg.initPos
      r.pos) = x
  cases x with
  | error e => exact Or.inl ⟨e, rfl, rfl⟩
  | ok p => exact Or.inr ⟨_, rfl, rfl, rfl⟩

theorem reset_agree (cfg : Config n d K) (o' : Opts K) (h : Agree coefficients cfg.options o')
    (r : InitDraw n d K) (s s' : Opt n d K) (hs : Alike cfg.kind s s') :
    Alike cfg.kind (reset cfg r s).1 (reset { cfg with options := o' } r s').1 := by
  obtain ⟨⟨o, rfl⟩, hb⟩ := hs
  unfold reset
  rcases resetSwarm_agree cfg o' r with ⟨e, h1, h2⟩ | ⟨sw, h1, h2, h3⟩
  · rw [h1, h2]
    exact ⟨⟨o, rfl⟩, hb⟩
  · rw [h1, h3]
    refine ⟨⟨o', rfl⟩, fun _ => ?_⟩
    show Agree coefficients sw.options o'
    rw [h2]
    exact h

theorem runOpsD_agree (cfg : Config n d K) (o' : Opts K)
    (h : Agree (relevant cfg.kind) cfg.options o') (hu : Usable cfg)
    (hu' : Usable { cfg with options := o' }) (ops : List (Op n d K)) (s s' : Opt n d K)
    (hs : Alike cfg.kind s s') :
    Alike cfg.kind (runOpsD cfg s ops) (runOpsD { cfg with options := o' } s' ops) := by
  unfold runOpsD
  induction ops generalizing s s' with
  | nil => exact hs
  | cons op l ih =>
    rw [List.foldl_cons, List.foldl_cons]
    apply ih
    cases op with
    | optimize ev iters np env =>
      obtain ⟨t, t', e, h1, h2, h3⟩ := optimizeD_agree cfg o' h hu hu' ev env iters np s s' hs
      simp only [stepOpD, h1, h2]
      exact h3
    | reset r =>
      exact reset_agree cfg o' (fun p hp => h p (List.mem_append_left _ hp)) r s s' hs

/-! ## Theorems -/

/-- C104: only the entries the optimizer reads matter: `c1`, `c2`, `w`, and the parameters of its
topology.  With dictionaries that agree on these (whatever else they contain, in whatever order) the
constructors succeed or fail alike, and after any sequence of calls the two optimizers are in the same
state, except for `swarm.options`, and the next `optimize` has the same outcome. -/
theorem C104_irrelevant (cfg : Config n d K) (o' : Opts K)
    (h : ∀ p ∈ relevant cfg.kind, cfg.options.lookup p = o'.lookup p) (hu : Usable cfg)
    (hu' : Usable { cfg with options := o' }) (r1 r2 : InitDraw n d K) (ops : List (Op n d K)) :
    match constructD cfg r1 r2, constructD { cfg with options := o' } r1 r2 with
    | .ok a, .ok a' =>
      (∃ o, runOpsD { cfg with options := o' } a' ops = withOptions o (runOpsD cfg a ops)) ∧
        ∀ ev iters np env,
          (optimizeD { cfg with options := o' } ev iters np env
            (runOpsD { cfg with options := o' } a' ops)).2 =
          (optimizeD cfg ev iters np env (runOpsD cfg a ops)).2
    | .error e, .error e' => e = e'
    | _, _ => False := by
  have hc : Agree coefficients cfg.options o' := fun p hp => h p (List.mem_append_left _ hp)
  have hcase : (∃ e, constructD cfg r1 r2 = .error e ∧
        constructD { cfg with options := o' } r1 r2 = .error e) ∨
      ∃ a a', constructD cfg r1 r2 = .ok a ∧ constructD { cfg with options := o' } r1 r2 = .ok a' ∧
        Alike cfg.kind a a' := by
    unfold constructD
    have hkp : (cfg.kind.needsKP &&
          ((o'.lookup "k").isNone || (o'.lookup "p").isNone)) =
        (cfg.kind.needsKP &&
          ((cfg.options.lookup "k").isNone || (cfg.options.lookup "p").isNone)) := by
      cases hk : cfg.kind with
      | globalBest => rfl
      | general top => rfl
      | localBest st =>
        rw [h "k" (by simp [relevant, hk, topologyKeys]), h "p" (by simp [relevant, hk, topologyKeys])]
      | binary =>
        rw [h "k" (by simp [relevant, hk, topologyKeys]), h "p" (by simp [relevant, hk, topologyKeys])]
    simp only [hkp]
    split
    · exact Or.inl ⟨_, rfl, rfl⟩
    · cases checkFtolIter cfg.ftolIter with
      | error e => exact Or.inl ⟨_, rfl, rfl⟩
      | ok u =>
        simp only
        rcases resetSwarm_agree cfg o' r1 with ⟨e, h1, h2⟩ | ⟨sw, h1, h2, h3⟩
        · rw [h1, h2]
          exact Or.inl ⟨_, rfl, rfl⟩
        · rw [h1, h3]
          simp only
          rcases resetSwarm_agree cfg o' r2 with ⟨e, h4, h5⟩ | ⟨sw', h4, h5, h6⟩
          · rw [h4, h5]
            exact Or.inl ⟨_, rfl, rfl⟩
          · rw [h4, h6]
            refine Or.inr ⟨_, _, rfl, rfl, ⟨o', rfl⟩, fun _ => ?_⟩
            show Agree coefficients sw'.options o'
            rw [h5]
            exact hc
  rcases hcase with ⟨e, h1, h2⟩ | ⟨a, a', h1, h2, h3⟩
  · rw [h1, h2]
  · rw [h1, h2]
    have hr := runOpsD_agree cfg o' h hu hu' ops a a' h3
    refine ⟨hr.1, fun ev iters np env => ?_⟩
    obtain ⟨t, t', e, e1, e2, _⟩ := optimizeD_agree cfg o' h hu hu' ev env iters np _ _ hr
    rw [e1, e2]

theorem natOf_cast (m : Nat) : natOf (m : K) = some m := by
  unfold natOf
  rw [Int.floor_natCast, Int.toNat_natCast, if_pos rfl]

/-- The topology gets what `Model/Optimizer.lean` gives it. -/
theorem callGbestD_split (cfg : Config n d K) (hu : Usable cfg)
    (hk : cfg.options.lookup "k" = cfg.args.k.map (Nat.cast : Nat → K))
    (hp : cfg.options.lookup "p" = cfg.args.p.map (Nat.cast : Nat → K))
    (hr : cfg.options.lookup "r" = cfg.args.r.map (Nat.cast : Nat → K))
    (hkp : cfg.kind.needsKP = true → cfg.args.k.isSome = true ∧ cfg.args.p.isSome = true)
    (orc : Oracle n d K) (t : TopState n) (s : Swarm n d K) :
    callGbestD cfg orc t s = callGbest cfg orc t s := by
  have hb : ∀ x : Option Nat, (x.map (Nat.cast : Nat → K)).bind natOf = x := by
    intro x
    cases x with
    | none => rfl
    | some m => exact natOf_cast m
  have hargs : argsOf cfg.options = cfg.args := by
    unfold argsOf
    rw [hk, hp, hr, hb, hb, hb]
  unfold callGbestD callGbest
  cases hkind : cfg.kind with
  | globalBest => rfl
  | localBest st =>
    rw [hkind] at hkp
    obtain ⟨h1, h2⟩ := hkp rfl
    obtain ⟨k, h1⟩ := Option.isSome_iff_exists.1 h1
    obtain ⟨q, h2⟩ := Option.isSome_iff_exists.1 h2
    simp only [storedGbest, hk, hp, hb, h1, h2]
  | binary =>
    rw [hkind] at hkp
    obtain ⟨h1, h2⟩ := hkp rfl
    obtain ⟨k, h1⟩ := Option.isSome_iff_exists.1 h1
    obtain ⟨q, h2⟩ := Option.isSome_iff_exists.1 h2
    simp only [storedGbest, hk, hp, hb, h1, h2]
  | general top =>
    have f := hu.free ⟨top, hkind⟩
    simp only
    rw [generalGbest_eq top cfg.options hu.distinct f.1 f.2, hargs]
    cases top with
    | star => simp [wanted]
    | pyramid st => simp [wanted]
    | ring st =>
      simp only [wanted, List.any_cons, List.any_nil, Bool.or_false, hk, hp, hb]
      cases h1 : cfg.args.k <;> cases h2 : cfg.args.p <;> simp [computeGbest, h1, h2]
    | vonNeumann =>
      simp only [wanted, List.any_cons, List.any_nil, Bool.or_false, hr, hp, hb]
      cases h1 : cfg.args.r <;> cases h2 : cfg.args.p <;> simp [computeGbest, h1, h2]
    | random st =>
      simp only [wanted, List.any_cons, List.any_nil, Bool.or_false, hk, hb]
      cases h1 : cfg.args.k <;> simp [computeGbest, h1]

/-- C104: the model of the other properties, in which `k`, `p` and `r` are kept apart, is the model
with one dictionary, when they are integers. -/
theorem C104_split (cfg : Config n d K) (hu : Usable cfg)
    (hk : cfg.options.lookup "k" = cfg.args.k.map (Nat.cast : Nat → K))
    (hp : cfg.options.lookup "p" = cfg.args.p.map (Nat.cast : Nat → K))
    (hr : cfg.options.lookup "r" = cfg.args.r.map (Nat.cast : Nat → K)) (r1 r2 : InitDraw n d K) :
    constructD cfg r1 r2 = construct cfg r1 r2 ∧
      ∀ a, constructD cfg r1 r2 = .ok a →
        ∀ s, (∀ ev iters np env, optimizeD cfg ev iters np env s = optimize cfg ev iters np env s) ∧
          ∀ ops, runOpsD cfg s ops = runOps cfg s ops := by
  constructor
  · unfold constructD construct
    rw [hk, hp, Option.isNone_map, Option.isNone_map]
    rfl
  · intro a ha
    have hkp : cfg.kind.needsKP = true → cfg.args.k.isSome = true ∧ cfg.args.p.isSome = true := by
      intro hn
      unfold constructD at ha
      rw [hk, hp, Option.isNone_map, Option.isNone_map, hn] at ha
      cases h1 : cfg.args.k with
      | none => rw [h1] at ha; cases ha
      | some k =>
        cases h2 : cfg.args.p with
        | none => rw [h1, h2] at ha; cases ha
        | some q => exact ⟨rfl, rfl⟩
    have hiter : ∀ ev r iters i q s, iterateD cfg ev r iters i q s = iterate cfg ev r iters i q s := by
      intro ev r iters i q s
      unfold iterateD iterate
      simp only [callGbestD_split cfg hu hk hp hr hkp]
      rfl
    have hloop : ∀ ev env iters m i q s,
        loopD cfg ev env iters m i q s = loop cfg ev env iters m i q s := by
      intro ev env iters m
      induction m with
      | zero => intros; rfl
      | succ m ih =>
        intro i q s
        simp only [loopD, loop, hiter, ih]
        rfl
    have hopt : ∀ ev iters np env s,
        optimizeD cfg ev iters np env s = optimize cfg ev iters np env s := by
      intro ev iters np env s
      unfold optimizeD optimize
      simp only [hloop]
      rfl
    intro s
    refine ⟨fun ev iters np env => hopt ev iters np env s, fun ops => ?_⟩
    unfold runOpsD runOps
    congr 1
    funext s op
    cases op with
    | optimize ev iters np env => simp only [stepOpD, stepOp, hopt]
    | reset r => rfl

/-- C104: in GeneralOptimizerPSO an entry called `swarm` or `self`, whatever its value, makes every
call of `optimize` raise `TypeError` after one evaluation. -/
theorem C104_reserved (cfg : Config n d K) (top : TopKind) (hkind : cfg.kind = .general top)
    (hbad : "swarm" ∈ keys cfg.options ∨ "self" ∈ keys cfg.options)
    (ev : Nat → Mat n d K → Except Err (Costs n K)) (iters : Nat) (hi : 1 ≤ iters)
    (np : Option Nat) (hp : np ≠ some 0) (env : Nat → Draw n d K) (s : Opt n d K)
    (c : Costs n K) (hc : ev 0 s.swarm.position = .ok c) :
    ∃ t, optimizeD cfg ev iters np env s = (t, .error .typeError) ∧
      t.evals = s.evals ++ [(s.swarm.position, c)] ∧ t.costHistory = s.costHistory ∧
      t.swarm.position = s.swarm.position := by
  obtain ⟨m, rfl⟩ : ∃ m, iters = m + 1 := ⟨iters - 1, by omega⟩
  have hg : ∀ orc t sw, callGbestD cfg orc t sw = (t, .error .typeError) := by
    intro orc t sw
    unfold callGbestD
    rw [hkind]
    simp only
    unfold generalGbest
    rw [Kw.bindArgs_error]
    refine Or.inr (Or.inr (Or.inl ?_))
    rw [names_map_num]
    rcases hbad with h | h
    · exact ⟨"swarm", by cases top <;> simp [gbestParams, Kw.names], h⟩
    · exact ⟨"self", by cases top <;> simp [gbestParams, Kw.names], h⟩
  unfold optimizeD
  rw [if_neg hp]
  have h1 : (prepare cfg s).swarm.position = s.swarm.position := rfl
  simp only [loopD, iterateD, h1, hc, hg]
  exact ⟨_, rfl, rfl, rfl, rfl⟩

/-- C104: a topology parameter is missing.  LocalBestPSO and BinaryPSO refuse at once with `KeyError`;
GeneralOptimizerPSO is built, and each call of `optimize` raises `TypeError` after one evaluation. -/
theorem C104_parameter (cfg : Config n d K) (hu : Usable cfg) (p : String)
    (hp : p ∈ topologyKeys cfg.kind) (hm : p ∉ keys cfg.options) :
    (cfg.kind = .binary ∨ (∃ st, cfg.kind = .localBest st) →
      ∀ r1 r2, constructD cfg r1 r2 = .error .keyError) ∧
    ((∃ top, cfg.kind = .general top) →
      ∀ (ev : Nat → Mat n d K → Except Err (Costs n K)) (iters : Nat), 1 ≤ iters →
      ∀ (np : Option Nat), np ≠ some 0 → ∀ (env : Nat → Draw n d K) (s : Opt n d K) (c : Costs n K),
        ev 0 s.swarm.position = .ok c →
        ∃ t, optimizeD cfg ev iters np env s = (t, .error .typeError) ∧
          t.evals = s.evals ++ [(s.swarm.position, c)] ∧ t.costHistory = s.costHistory ∧
          t.swarm.position = s.swarm.position) := by
  have hl : cfg.options.lookup p = none := by
    cases h : cfg.options.lookup p with
    | none => rfl
    | some x => exact absurd ((lookup_keys _ _).2 ⟨x, h⟩) hm
  constructor
  · intro hk r1 r2
    have hkp : p = "k" ∨ p = "p" := by
      rcases hk with hk | ⟨st, hk⟩ <;> rw [hk] at hp <;>
        simpa [topologyKeys] using hp
    have hn : cfg.kind.needsKP = true := by
      rcases hk with hk | ⟨st, hk⟩ <;> rw [hk] <;> rfl
    unfold constructD
    rw [if_pos]
    rw [hn]
    rcases hkp with rfl | rfl
    · rw [hl]; rfl
    · rw [hl]; simp
  · rintro ⟨top, hkind⟩ ev iters hi np hnp env s c hc
    obtain ⟨m, rfl⟩ : ∃ m, iters = m + 1 := ⟨iters - 1, by omega⟩
    have hg : ∀ orc t sw, callGbestD cfg orc t sw = (t, .error .typeError) := by
      intro orc t sw
      have f := hu.free ⟨top, hkind⟩
      unfold callGbestD
      rw [hkind]
      simp only
      rw [generalGbest_eq top cfg.options hu.distinct f.1 f.2, if_pos]
      rw [List.any_eq_true]
      refine ⟨p, ?_, by rw [hl]; rfl⟩
      rw [hkind] at hp
      cases top <;> simp [topologyKeys, wanted] at hp ⊢ <;> tauto
    unfold optimizeD
    rw [if_neg hnp]
    have h1 : (prepare cfg s).swarm.position = s.swarm.position := rfl
    simp only [loopD, iterateD, h1, hc, hg]
    exact ⟨_, rfl, rfl, rfl, rfl⟩

/-! ### Missing coefficients -/

/-- BinaryPSO never changes the options of its swarm. -/
theorem binary_options (cfg : Config n d K) (hk : cfg.kind = .binary) (o : Opts K)
    (ho : o = cfg.options) (s : Opt n d K) (hs : s.swarm.options = o) (ops : List (Op n d K)) :
    (runOpsD cfg s ops).swarm.options = o := by
  have hmove : ∀ r iters i (s : Opt n d K), (moveSwarm cfg r iters i s).1.swarm.options =
      s.swarm.options := by
    intro r iters i s
    rw [moveSwarm_rest]
    have : callOptions cfg iters i r s.swarm = .ok s.swarm.options := by
      unfold callOptions; rw [hk]
    rw [this]
    simp only [moveRest, withOptions]
    cases computeVelocity s.swarm cfg.clamp cfg.vhStrategy s.vhMem (velBounds cfg) r.r1 r.r2 with
    | mk vm res =>
      cases res with
      | error e => rfl
      | ok v =>
        simp only
        cases callPosition cfg r s.bhMem { s.swarm with velocity := v } with
        | mk bm res => cases res <;> rfl
  have hiter : ∀ ev r iters i q (s : Opt n d K),
      (iterateD cfg ev r iters i q s).1.swarm.options = s.swarm.options := by
    intro ev r iters i q s
    unfold iterateD
    cases ev s.swarm.position with
    | error e => rfl
    | ok c =>
      simp only
      cases callGbestD cfg r.oracle (recordEval c s).top (recordEval c s).swarm with
      | mk t res =>
        cases res with
        | error e => rfl
        | ok g =>
          simp only
          split
          · rfl
          · have := hmove r iters i (recordBest t g (recordEval c s))
            cases hm : moveSwarm cfg r iters i (recordBest t g (recordEval c s)) with
            | mk s3 res =>
              rw [hm] at this
              cases res <;> exact this
  have hloop : ∀ ev env iters m i q (s : Opt n d K),
      (loopD cfg ev env iters m i q s).1.swarm.options = s.swarm.options := by
    intro ev env iters m
    induction m with
    | zero => intros; rfl
    | succ m ih =>
      intro i q s
      have := hiter (ev i) (env i) iters i q s
      rw [loopD]
      cases hc : iterateD cfg (ev i) (env i) iters i q s with
      | mk s' res =>
        rw [hc] at this
        cases res with
        | error e => exact this
        | ok f =>
          cases f with
          | stop => exact this
          | «continue» q' => simp only; rw [ih]; exact this
  unfold runOpsD
  induction ops generalizing s with
  | nil => exact hs
  | cons op l ih =>
    rw [List.foldl_cons]
    apply ih
    cases op with
    | optimize ev iters np env =>
      simp only [stepOpD, optimizeD]
      split
      · exact hs
      · have := hloop ev env iters iters 0 []
          { prepare cfg s with openPools := s.openPools + (if np.isSome then 1 else 0) }
        cases hc : loopD cfg ev env iters iters 0 []
          { prepare cfg s with openPools := s.openPools + (if np.isSome then 1 else 0) } with
        | mk s1 res =>
          rw [hc] at this
          have h1 : s1.swarm.options = o := this.trans hs
          cases res with
          | error e => exact h1
          | ok u =>
            simp only
            cases finish s1 with
            | error e => exact h1
            | ok r => exact h1
    | reset r =>
      simp only [stepOpD, reset]
      rcases resetSwarm_agree cfg [] r with ⟨e, h1, _⟩ | ⟨sw, h1, h2, _⟩
      · rw [h1]; exact hs
      · rw [h1]; exact h2.trans ho.symm

/-- Without one of the coefficients the swarm cannot be moved. -/
theorem moveSwarm_missing (cfg : Config n d K) (c : String) (hc : c ∈ coefficients)
    (hm : c ∉ keys cfg.options) (r : Draw n d K) (iters i : Nat) (hi : i < iters) (s : Opt n d K)
    (hs : cfg.kind = .binary → s.swarm.options = cfg.options) :
    (moveSwarm cfg r iters i s).2 = .error .keyError ∧
      (moveSwarm cfg r iters i s).1.evals = s.evals ∧
      (moveSwarm cfg r iters i s).1.costHistory = s.costHistory ∧
      (moveSwarm cfg r iters i s).1.swarm.position = s.swarm.position := by
  have hl : cfg.options.lookup c = none := by
    cases h : cfg.options.lookup c with
    | none => rfl
    | some x => exact absurd ((lookup_keys _ _).2 ⟨x, h⟩) hm
  have hopt : callOptions cfg iters i r s.swarm = .error .keyError ∨
      ∃ o, callOptions cfg iters i r s.swarm = .ok o ∧ o.lookup c = none := by
    have hoh : ohCall cfg.ohStrategy cfg.options
          { iternow := some (i : K), itermax := some (iters : K) } r.oh = .error .keyError ∨
        ∃ o, ohCall cfg.ohStrategy cfg.options
          { iternow := some (i : K), itermax := some (iters : K) } r.oh = .ok o ∧
          o.lookup c = none := by
      unfold ohCall
      split
      · exact Or.inr ⟨_, rfl, hl⟩
      · by_cases hall : ∀ p ∈ keys cfg.options, Fine cfg.ohStrategy cfg.options
            { iternow := some (i : K), itermax := some (iters : K) } r.oh p
        · obtain ⟨o, h1, h2⟩ := ohLoop_ok cfg.ohStrategy cfg.options _ r.oh cfg.options hall
          refine Or.inr ⟨o, h1, ?_⟩
          rw [h2, hl]
        · simp only [not_forall] at hall
          obtain ⟨p, hp, hn⟩ := hall
          exact Or.inl (ohLoop_error cfg.ohStrategy cfg.options _ r.oh cfg.options
            (fun name p e => ohStrategy_error name cfg.options p iters i hi (r.oh p) e)
            ⟨p, hp, hn⟩)
    unfold callOptions
    cases hk : cfg.kind with
    | binary => exact Or.inr ⟨_, rfl, by rw [hs hk]; exact hl⟩
    | globalBest => exact hoh
    | localBest st => exact hoh
    | general top => exact hoh
  rw [moveSwarm_rest]
  rcases hopt with h | ⟨o, h, ho⟩
  · rw [h]; exact ⟨rfl, rfl, rfl, rfl⟩
  · rw [h]
    have hv : computeVelocity (withOptions o s).swarm cfg.clamp cfg.vhStrategy
        (withOptions o s).vhMem (velBounds cfg) r.r1 r.r2 =
          ((withOptions o s).vhMem, .error .keyError) := by
      unfold computeVelocity
      have hopts : (withOptions o s).swarm.options = o := rfl
      rw [hopts]
      simp only [coefficients, List.mem_cons, List.not_mem_nil, or_false] at hc
      rcases hc with rfl | rfl | rfl
      · rw [ho]
      · rw [ho]; cases o.lookup "c1" <;> rfl
      · rw [ho]; cases o.lookup "c1" <;> cases o.lookup "c2" <;> rfl
    simp only [moveRest, hv]
    exact ⟨trivial, rfl, rfl, rfl⟩

theorem iterateD_missing (cfg : Config n d K) (c : String) (hc : c ∈ coefficients)
    (hm : c ∉ keys cfg.options) (hwin : 0 < cfg.window)
    (ev : Mat n d K → Except Err (Costs n K)) (r : Draw n d K)
    (iters : Nat) (hi : 0 < iters) (q : List Bool) (s : Opt n d K)
    (hs : cfg.kind = .binary → s.swarm.options = cfg.options) :
    (∃ t e, iterateD cfg ev r iters 0 q s = (t, .error e)) ∧
      ∀ x t g, ev s.swarm.position = .ok x →
        callGbestD cfg r.oracle (recordEval x s).top (recordEval x s).swarm = (t, .ok g) →
        ∃ s3, iterateD cfg ev r iters 0 q s = (s3, .error .keyError) ∧
          s3.evals = s.evals ++ [(s.swarm.position, x)] ∧
          s3.costHistory.length = s.costHistory.length + 1 ∧
          s3.swarm.position = s.swarm.position := by
  have key : ∀ x t g, ev s.swarm.position = .ok x →
        callGbestD cfg r.oracle (recordEval x s).top (recordEval x s).swarm = (t, .ok g) →
        ∃ s3, iterateD cfg ev r iters 0 q s = (s3, .error .keyError) ∧
          s3.evals = s.evals ++ [(s.swarm.position, x)] ∧
          s3.costHistory.length = s.costHistory.length + 1 ∧
          s3.swarm.position = s.swarm.position := by
    intro x t g hx hg
    obtain ⟨h1, h2, h3, h4⟩ := moveSwarm_missing cfg c hc hm r iters 0 hi
      (recordBest t g (recordEval x s)) hs
    refine ⟨(moveSwarm cfg r iters 0 (recordBest t g (recordEval x s))).1, ?_, ?_, ?_, ?_⟩
    · unfold iterateD
      simp only [hx, hg]
      rw [if_neg]
      · cases hmv : moveSwarm cfg r iters 0 (recordBest t g (recordEval x s)) with
        | mk s3 res =>
          rw [hmv] at h1
          cases h1
          rfl
      · intro h
        rw [Bool.and_eq_true, decide_eq_true_eq] at h
        exact h.1 hwin
    · rw [h2]; rfl
    · rw [h3]
      show (s.costHistory ++ [_]).length = _
      rw [List.length_append]; rfl
    · rw [h4]; rfl
  refine ⟨?_, key⟩
  cases hx : ev s.swarm.position with
  | error e =>
    refine ⟨s, e, ?_⟩
    unfold iterateD
    rw [hx]
  | ok x =>
    cases hg : callGbestD cfg r.oracle (recordEval x s).top (recordEval x s).swarm with
    | mk t res =>
      cases res with
      | error e =>
        refine ⟨{ recordEval x s with top := t }, e, ?_⟩
        unfold iterateD
        simp only [hx, hg]
      | ok g =>
        obtain ⟨s3, h, _⟩ := key x t g hx hg
        exact ⟨s3, _, h⟩

/-- C104: without `c1`, `c2` or `w` the constructor does not complain, but no call of `optimize`
with at least one iteration ever returns, on any optimizer, after any history.  If the call would have
returned with the missing entries supplied, it raises `KeyError`, after exactly one evaluation, which is
recorded, and nothing has moved. -/
theorem C104_missing (cfg : Config n d K) (c : String) (hc : c ∈ ["c1", "c2", "w"])
    (hm : c ∉ keys cfg.options) (r1 r2 : InitDraw n d K) (a : Opt n d K)
    (ha : constructD cfg r1 r2 = .ok a) (ops : List (Op n d K)) (s : Opt n d K)
    (hs : s = runOpsD cfg a ops) (ev : Nat → Mat n d K → Except Err (Costs n K)) (iters : Nat)
    (hi : 1 ≤ iters) (np : Option Nat) (env : Nat → Draw n d K) :
    (∃ e, (optimizeD cfg ev iters np env s).2 = .error e) ∧
      ∀ o', (∀ p ∈ topologyKeys cfg.kind, cfg.options.lookup p = o'.lookup p) → Usable cfg →
        Usable { cfg with options := o' } → ∀ so v,
        (optimizeD { cfg with options := o' } ev iters np env (withOptions so s)).2 = .ok v →
        ∃ t x, optimizeD cfg ev iters np env s = (t, .error .keyError) ∧
          ev 0 s.swarm.position = .ok x ∧ t.evals = s.evals ++ [(s.swarm.position, x)] ∧
          t.costHistory.length = s.costHistory.length + 1 ∧
          t.swarm.position = s.swarm.position := by
  obtain ⟨m, rfl⟩ : ∃ m, iters = m + 1 := ⟨iters - 1, by omega⟩
  have hwin : 0 < cfg.window := by
    unfold constructD at ha
    split at ha
    · cases ha
    · unfold Config.window
      cases hf : cfg.ftolIter with
      | int z =>
        rw [hf] at ha
        simp only [checkFtolIter] at ha
        split at ha
        · cases ha
        · rename_i h
          split at h
          · rename_i hz; simp only; omega
          · cases h
      | float x => rw [hf] at ha; cases ha
      | other => rw [hf] at ha; cases ha
  have hbin : cfg.kind = .binary → s.swarm.options = cfg.options := by
    intro hk
    rw [hs]
    apply binary_options cfg hk _ rfl
    unfold constructD at ha
    split at ha
    · cases ha
    · split at ha
      · cases ha
      · split at ha
        · cases ha
        · rcases resetSwarm_agree cfg [] r2 with ⟨e, h1, _⟩ | ⟨sw, h1, h2, _⟩
          · rw [h1] at ha; cases ha
          · rw [h1] at ha; cases ha; exact h2
  clear hs ha
  obtain ⟨h1, h2⟩ := iterateD_missing cfg c hc hm hwin (ev 0) (env 0) (m + 1) (by omega) []
    { prepare cfg s with openPools := s.openPools + (if np.isSome then 1 else 0) } hbin
  constructor
  · obtain ⟨t, e, h⟩ := h1
    unfold optimizeD
    by_cases hp : np = some 0
    · rw [if_pos hp]; exact ⟨_, rfl⟩
    · rw [if_neg hp]
      simp only [loopD, h]
      exact ⟨_, rfl⟩
  · intro o' ht hu hu' so v hv
    have hp : np ≠ some 0 := by
      intro hp
      rw [optimizeD, if_pos hp] at hv
      cases hv
    rw [optimizeD, if_neg hp] at hv
    have hprep : prepare { cfg with options := o' } (withOptions so s) =
        withOptions so (prepare cfg s) := by
      unfold prepare withOptions
      cases cfg.kind <;> rfl
    rw [hprep] at hv
    simp only [loopD] at hv
    cases hx : ev 0 s.swarm.position with
    | error e =>
      have : ∀ q u, iterateD { cfg with options := o' } (ev 0) (env 0) (m + 1) 0 q
          { withOptions so (prepare cfg s) with openPools := u } =
            ({ withOptions so (prepare cfg s) with openPools := u }, .error e) := by
        intro q u
        unfold iterateD
        have hpos : ({ withOptions so (prepare cfg s) with openPools := u } :
          Opt n d K).swarm.position = s.swarm.position := rfl
        rw [hpos, hx]
      rw [this] at hv
      cases hv
    | ok x =>
      have hg := callGbestD_agree cfg o' ht hu hu' (env 0).oracle s.top
        (recordEval x (prepare cfg s)).swarm so
      cases hgb : callGbestD cfg (env 0).oracle s.top (recordEval x (prepare cfg s)).swarm with
      | mk t res =>
        rw [hgb] at hg
        cases res with
        | error e =>
          have : ∀ q u, ∃ y, iterateD { cfg with options := o' } (ev 0) (env 0) (m + 1) 0 q
              { withOptions so (prepare cfg s) with openPools := u } = (y, .error e) := by
            intro q u
            refine ⟨{ recordEval x { withOptions so (prepare cfg s) with openPools := u } with
              top := t }, ?_⟩
            unfold iterateD
            have hpos : ({ withOptions so (prepare cfg s) with openPools := u } :
              Opt n d K).swarm.position = s.swarm.position := rfl
            rw [hpos, hx]
            have hgu : callGbestD { cfg with options := o' } (env 0).oracle
                (recordEval x { withOptions so (prepare cfg s) with openPools := u }).top
                (recordEval x { withOptions so (prepare cfg s) with openPools := u }).swarm =
                  (t, .error e) := hg
            simp only [hgu]
          obtain ⟨y, hy⟩ := this [] ((withOptions so s).openPools + if np.isSome then 1 else 0)
          rw [hy] at hv
          cases hv
        | ok g =>
          obtain ⟨s3, h, h3, h4, h5⟩ := h2 x t g hx hgb
          refine ⟨s3, x, ?_, rfl, h3, h4, h5⟩
          rw [optimizeD, if_neg hp]
          simp only [loopD, h]

/-! ## Examples -/

section examples

open PySwarms.Ex

/-- GeneralOptimizerPSO with a Ring and an entry nobody reads. -/
def exCfg : Config 3 1 ℚ where
  kind := .general (.ring false)
  options := [("c1", 1 / 2), ("c2", 1 / 3), ("w", 1 / 2), ("k", 2), ("p", 1), ("alpha", 7)]
  args := { k := some 2, p := some 1 }
  center := fun _ => 4
  ohStrategy := [("w", "lin_variation")]

/-- The same entries in another order, without `alpha`. -/
def exOpts : Opts ℚ := [("p", 1), ("w", 1 / 2), ("k", 2), ("c2", 1 / 3), ("c1", 1 / 2)]

/-- The two dictionaries differ, both can be used, and they agree on what a Ring reads. -/
example : exCfg.options ≠ exOpts ∧ Usable exCfg ∧ Usable { exCfg with options := exOpts } ∧
    ∀ p ∈ relevant exCfg.kind, exCfg.options.lookup p = exOpts.lookup p := by
  refine ⟨by decide +kernel, ⟨by decide +kernel, fun _ => by decide +kernel, by decide +kernel⟩,
    ⟨by decide +kernel, fun _ => by decide +kernel, by decide +kernel⟩, by decide +kernel⟩

/-- The distance from 9/2, squared. -/
def exObj : Nat → Mat 3 1 ℚ → Except Err (Costs 3 ℚ) := fun _ x =>
  .ok fun i => .fin ((x i 0 - 9 / 2) * (x i 0 - 9 / 2))

/-- What a call of `optimize` with three iterations does: its error or returned cost, the number of
evaluations, the recorded costs and the final positions. -/
def exRun (cfg : Config 3 1 ℚ) : Except Err (Except Err (XR ℚ) × Nat × List (XR ℚ) × List ℚ) :=
  match constructD cfg (init 3 1) (init 3 1) with
  | .error e => .error e
  | .ok a =>
    let r := optimizeD cfg exObj 3 none (fun _ => draw 3 1) a
    .ok (match r.2 with
      | .error e => .error e
      | .ok v => .ok v.1, r.1.evals.length, r.1.costHistory,
      List.ofFn fun i => r.1.swarm.position i 0)

/-- C104_irrelevant is about something: the two runs return, and they are the same; C104_split too. -/
example : exRun exCfg = .ok (.ok (.fin (1024 / 225)), 3,
      [.fin (25 / 4), .fin (81 / 16), .fin (1024 / 225)], [359 / 360, 2551 / 1800, 4351 / 1800]) ∧
    exRun { exCfg with options := exOpts } = exRun exCfg := by
  refine ⟨by decide +kernel, by decide +kernel⟩

example : Usable exCfg ∧
    exCfg.options.lookup "k" = exCfg.args.k.map (Nat.cast : Nat → ℚ) ∧
    exCfg.options.lookup "p" = exCfg.args.p.map (Nat.cast : Nat → ℚ) ∧
    exCfg.options.lookup "r" = exCfg.args.r.map (Nat.cast : Nat → ℚ) := by
  refine ⟨⟨by decide +kernel, fun _ => by decide +kernel, by decide +kernel⟩, by decide +kernel,
    by decide +kernel, by decide +kernel⟩

/-- C104_reserved: an entry `swarm` breaks GeneralOptimizerPSO, but not LocalBestPSO. -/
example : exRun { exCfg with options := ("swarm", 3) :: exCfg.options } =
      .ok (.error .typeError, 1, [], [0, 1, 2]) ∧
    exRun { exCfg with options := ("swarm", 3) :: exCfg.options, kind := .localBest false } =
      exRun exCfg := by
  refine ⟨by decide +kernel, by decide +kernel⟩

/-- C104_missing: without `w`. -/
example : "w" ∉ keys (exCfg.options.filter fun a => a.1 ≠ "w") ∧
    exRun { exCfg with options := exCfg.options.filter fun a => a.1 ≠ "w" } =
      .ok (.error .keyError, 1, [.fin (25 / 4)], [0, 1, 2]) := by
  refine ⟨by decide +kernel, by decide +kernel⟩

/-- C104_parameter: without `k` and `p`. -/
example : exRun { exCfg with options := exCfg.options.take 3 } =
      .ok (.error .typeError, 1, [], [0, 1, 2]) ∧
    exRun { exCfg with options := exCfg.options.take 3, kind := .localBest false } =
      .error .keyError := by
  refine ⟨by decide +kernel, by decide +kernel⟩

end examples

end PySwarms.Od

import Verif.Model.ClampForm
import Verif.Examples
import Mathlib.Data.Fin.VecNotation

/-!
# Which forms of `velocity_clamp` work (C102)
-/

set_option linter.unusedSectionVars false

namespace PySwarms

variable {n d : Nat} {K : Type} [Field K] [LinearOrder K]

/-! ### Specification -/

/-- The entry stands for the numbers `x 0, …, x (d - 1)`: it is one number for all dimensions (a
Python number, or a list or array holding just one), or a list or array of all of them. -/
def Entry.Reads (e : Entry K) (x : Vec d K) : Prop :=
  match e with
  | .number y => ∀ j, x j = y
  | .list ys => (∃ y, ys = [y] ∧ ∀ j, x j = y) ∨ ys = List.ofFn x
  | .array ys => (∃ y, ys = [y] ∧ ∀ j, x j = y) ∨ ys = List.ofFn x

/-- Python can subtract the two entries: one of them is an array, or both are numbers. -/
def Subtractable (lo hi : Entry K) : Prop :=
  (∃ xs, lo = .array xs) ∨ (∃ xs, hi = .array xs) ∨ ∃ x y, lo = .number x ∧ hi = .number y

/-! ### Lemmas -/

theorem Entry.Reads.fits {e : Entry K} {x : Vec d K} (h : e.Reads x) : e.fits d = true := by
  cases e with
  | number y => rfl
  | list ys =>
    rcases h with ⟨y, rfl, -⟩ | rfl
    · rfl
    · simp [Entry.fits, Entry.vals]
  | array ys =>
    rcases h with ⟨y, rfl, -⟩ | rfl
    · rfl
    · simp [Entry.fits, Entry.vals]

theorem Entry.Reads.row {e : Entry K} {x : Vec d K} (h : e.Reads x) : e.row d = x := by
  have key : ∀ ys : List K, ((∃ y, ys = [y] ∧ ∀ j, x j = y) ∨ ys = List.ofFn x) → ∀ j : Fin d,
      (if ys.length = 1 then ys.getD 0 0 else ys.getD j.val 0) = x j := by
    intro ys h j
    rcases h with ⟨y, rfl, h⟩ | rfl
    · simp [h j]
    · have hj := j.isLt
      split
      · rename_i h1
        have hd : d = 1 := by simpa using h1
        subst hd
        have hj0 : j = 0 := Subsingleton.elim _ _
        subst hj0
        simp
      · simp [List.getD_eq_getElem?_getD]
  funext j
  cases e with
  | number y => exact (h j).symm
  | list ys => exact key ys h j
  | array ys => exact key ys h j

theorem Entry.fits_reads {e : Entry K} (h : e.fits d = true) : e.Reads (e.row d) := by
  have key : ∀ ys : List K, (ys.length == 1 || ys.length == d) = true → ∀ x : Vec d K,
      (∀ j : Fin d, x j = if ys.length = 1 then ys.getD 0 0 else ys.getD j.val 0) →
      (∃ y, ys = [y] ∧ ∀ j, x j = y) ∨ ys = List.ofFn x := by
    intro ys h x hx
    by_cases h1 : ys.length = 1
    · obtain ⟨y, rfl⟩ := List.length_eq_one_iff.1 h1
      exact .inl ⟨y, rfl, fun j => by rw [hx j]; simp⟩
    · right
      have hd : ys.length = d := by
        simp only [Bool.or_eq_true, beq_iff_eq] at h
        exact h.resolve_left h1
      apply List.ext_getElem
      · simp [hd]
      · intro k hk hk'
        rw [List.getElem_ofFn, hx, if_neg h1]
        simp [List.getD_eq_getElem?_getD, hk]
  cases e with
  | number y => intro j; rfl
  | list ys => exact key ys h _ fun j => rfl
  | array ys => exact key ys h _ fun j => rfl

theorem subEntries_ok {lo hi : Entry K} {x y : Vec d K} (hl : lo.Reads x) (hh : hi.Reads y)
    (hs : Subtractable lo hi) : subEntries hi lo = .ok () := by
  have h1 := hl.fits
  have h2 := hh.fits
  unfold subEntries
  rw [if_neg, if_pos]
  · simp only [Entry.fits, Bool.or_eq_true, beq_iff_eq] at h1 h2 ⊢
    rcases h1 with h1 | h1 <;> rcases h2 with h2 | h2 <;> simp [h1, h2]
  · rcases hs with ⟨xs, rfl⟩ | ⟨xs, rfl⟩ | ⟨a, b, rfl, rfl⟩ <;>
      simp [Entry.isArray, Entry.isList]

theorem subEntries_typeError {lo hi : Entry K} (hs : ¬ Subtractable lo hi) :
    subEntries hi lo = .error .typeError := by
  unfold subEntries
  rw [if_pos]
  unfold Subtractable at hs
  cases lo <;> cases hi <;> simp_all [Entry.isArray, Entry.isList]

theorem generateVelocityCl_reads {lo hi : Entry K} {c : Clamp d K} (hl : lo.Reads c.1)
    (hh : hi.Reads c.2) (hs : Subtractable lo hi) (u : Mat n d K) :
    generateVelocityCl (.seq [lo, hi]) u = .ok (generateVelocity (some c) u) := by
  have h : generateVelocityCl (.seq [lo, hi]) u = match subEntries hi lo with
      | .error e => .error e
      | .ok () =>
        if d = 1 && !(lo.fits d && hi.fits d) then .error .unmodelled
        else if lo.fits d && hi.fits d then
          .ok fun i j => (hi.row d j - lo.row d j) * u i j + lo.row d j
        else .error .valueError := rfl
  rw [h, subEntries_ok hl hh hs, hl.fits, hh.fits, hl.row, hh.row]
  simp [generateVelocity]

theorem clampOptCl_reads {lo hi : Entry K} {c : Clamp d K} (hl : lo.Reads c.1) (hh : hi.Reads c.2)
    (v : Mat n d K) : clampOptCl (.seq [lo, hi]) v = .ok (clampOpt (some c) v) := by
  have h : clampOptCl (.seq [lo, hi]) v = (
    if d = 1 && !(lo.fits d && hi.fits d) then .error .unmodelled
    else if lo.fits d && hi.fits d then
      .ok fun i j =>
        let low := decide (v i j ≤ lo.row d j)
        let high := decide (v i j ≥ hi.row d j)
        let v1 := if low then lo.row d j else v i j
        if high then hi.row d j else v1
    else .error .valueError) := rfl
  rw [h, hl.fits, hh.fits, hl.row, hh.row]
  simp only [clampOpt, Bool.and_self, Bool.not_true, Bool.and_false, Bool.false_eq_true, if_false,
    if_true]
  rfl

/-- What `a` and `c` have to do with each other for the velocity handler. -/
def ClampArg.Means (a : ClampArg K) (c : Option (Clamp d K)) : Prop :=
  (a = .none ∧ c = Option.none) ∨
    ∃ lo hi x, a = .seq [lo, hi] ∧ c = some x ∧ lo.Reads x.1 ∧ hi.Reads x.2

theorem clampOptCl_means {a : ClampArg K} {c : Option (Clamp d K)} (h : a.Means c) (v : Mat n d K) :
    clampOptCl a v = .ok (clampOpt c v) := by
  rcases h with ⟨rfl, rfl⟩ | ⟨lo, hi, x, rfl, rfl, hl, hh⟩
  · rfl
  · exact clampOptCl_reads hl hh v

theorem vhCallCl_means {a : ClampArg K} {c : Option (Clamp d K)} (h : a.Means c) (st : String)
    (mem : Option (Mat n d K)) (kw : VHKw n d K) (v : Mat n d K) :
    vhCallCl st mem a kw v = vhCall st mem c kw v := by
  unfold vhCallCl vhCall
  split
  · rw [clampOptCl_means h]; rfl
  split
  · unfold vhAdjust
    cases kw.position with
    | none => rfl
    | some p =>
      cases mem with
      | none => rfl
      | some m => dsimp only; rw [clampOptCl_means h]
  split
  · unfold vhInvert
    dsimp only
    cases kw.position with
    | none => rfl
    | some p =>
      cases kw.bounds with
      | none => rfl
      | some b =>
        cases b with
        | none => rfl
        | some b => dsimp only; rw [clampOptCl_means h]; rfl
  · rfl

variable [FloorRing K] [Transc K]

theorem moveSwarmCl_means {a : ClampArg K} {cfg : Config n d K} (h : a.Means cfg.clamp)
    (r : Draw n d K) (iters i : Nat) (s : Opt n d K) :
    moveSwarmCl a cfg r iters i s = moveSwarm cfg r iters i s := by
  unfold moveSwarmCl moveSwarm computeVelocityCl computeVelocity
  simp only [vhCallCl_means h]
  rfl

theorem loopCl_means {a : ClampArg K} {cfg : Config n d K} (h : a.Means cfg.clamp)
    (ev : Nat → Mat n d K → Except Err (Costs n K)) (env : Nat → Draw n d K) (iters m i : Nat)
    (q : List Bool) (s : Opt n d K) :
    loopCl a cfg ev env iters m i q s = loop cfg ev env iters m i q s := by
  induction m generalizing i q s with
  | zero => rfl
  | succ m ih =>
    have hi : iterateCl a cfg (ev i) (env i) iters i q s = iterate cfg (ev i) (env i) iters i q s := by
      unfold iterateCl iterate
      simp only [moveSwarmCl_means h]
      rfl
    unfold loopCl loop
    rw [hi]
    simp only [ih]
    rfl

theorem optimizeCl_means {a : ClampArg K} {cfg : Config n d K} (h : a.Means cfg.clamp)
    (ev : Nat → Mat n d K → Except Err (Costs n K)) (iters : Nat) (nproc : Option Nat)
    (env : Nat → Draw n d K) (s : Opt n d K) :
    optimizeCl a cfg ev iters nproc env s = optimize cfg ev iters nproc env s := by
  unfold optimizeCl optimize
  simp only [loopCl_means h]
  rfl

omit [FloorRing K] [Transc K] in
theorem resetSwarmCl_of {a : ClampArg K} {cfg : Config n d K} {r : InitDraw n d K}
    (h : generateVelocityCl a r.vel = .ok (generateVelocity cfg.clamp r.vel)) :
    resetSwarmCl a cfg r = resetSwarm cfg r := by
  unfold resetSwarmCl resetSwarm createSwarm
  dsimp only
  rw [h]
  cases cfg.isBinary <;> rfl

/-! ### C102 -/

/-- C102, accepted forms: two entries that Python can subtract – an array on one side, or two
numbers – holding one number or one per dimension. The constructor and every sequence of calls do
exactly what they do with the two vectors the entries stand for. -/
theorem C102_accepted (lo hi : Entry K) (hs : Subtractable lo hi) (cfg : Config n d K)
    (c : Clamp d K) (hc : cfg.clamp = some c) (hl : lo.Reads c.1) (hh : hi.Reads c.2) :
    (∀ r1 r2, constructCl (.seq [lo, hi]) cfg r1 r2 = construct cfg r1 r2) ∧
    ∀ s ops, runOpsCl (.seq [lo, hi]) cfg s ops = runOps cfg s ops := by
  have hm : (ClampArg.seq [lo, hi]).Means cfg.clamp := .inr ⟨lo, hi, c, rfl, hc, hl, hh⟩
  have hr : ∀ r, resetSwarmCl (.seq [lo, hi]) cfg r = resetSwarm cfg r := fun r =>
    resetSwarmCl_of (by rw [hc]; exact generateVelocityCl_reads hl hh hs _)
  refine ⟨fun r1 r2 => ?_, fun s ops => ?_⟩
  · unfold constructCl construct
    rw [hr, hr]
    rfl
  · unfold runOpsCl runOps
    congr 1
    funext s op
    cases op with
    | optimize ev iters nproc env => exact congrArg Prod.fst (optimizeCl_means hm ev iters nproc env s)
    | reset r =>
      show (resetCl _ cfg r s).1 = (reset cfg r s).1
      unfold resetCl reset
      rw [hr]
      rfl

/-- C102, lists as far as velocities are concerned: a call of `optimize` does not mind the form at
all. Whatever two entries the attribute holds, the call does exactly what it does with the two
vectors they stand for. -/
theorem C102_optimize (lo hi : Entry K) (cfg : Config n d K) (c : Clamp d K)
    (hc : cfg.clamp = some c) (hl : lo.Reads c.1) (hh : hi.Reads c.2)
    (ev : Nat → Mat n d K → Except Err (Costs n K)) (iters : Nat) (nproc : Option Nat)
    (env : Nat → Draw n d K) (s : Opt n d K) :
    optimizeCl (.seq [lo, hi]) cfg ev iters nproc env s = optimize cfg ev iters nproc env s :=
  optimizeCl_means (.inr ⟨lo, hi, c, rfl, hc, hl, hh⟩) ev iters nproc env s

/-- Creating a swarm with an unusable clamp raises the exception of the clamp if the rest of the
arguments is fine. -/
theorem resetSwarmCl_error {a : ClampArg K} {e : Err} {cfg : Config n d K} {r : InitDraw n d K}
    (h : generateVelocityCl a r.vel = .error e) {sw : Swarm n d K} (hok : resetSwarm cfg r = .ok sw) :
    resetSwarmCl a cfg r = .error e := by
  unfold resetSwarm createSwarm at hok
  unfold resetSwarmCl
  dsimp only at hok ⊢
  rw [h]
  cases hb : cfg.isBinary
  · rw [hb] at hok
    simp only [Bool.false_eq_true, if_false] at hok ⊢
    cases hp : generateSwarm cfg.bounds cfg.center cfg.initPos r.pos with
    | error e' => rw [hp] at hok; cases hok
    | ok p => rfl
  · rw [hb] at hok
    simp only [if_true] at hok ⊢
    cases hp : generateDiscreteSwarm true cfg.initPos r.bits r.argsort with
    | error e' => rw [hp] at hok; cases hok
    | ok p => rfl

theorem constructCl_error {a : ClampArg K} {e : Err} {cfg : Config n d K} {r1 r2 : InitDraw n d K}
    (h : generateVelocityCl a r1.vel = .error e) {o : Opt n d K}
    (hok : construct cfg r1 r2 = .ok o) : constructCl a cfg r1 r2 = .error e := by
  unfold construct at hok
  unfold constructCl
  split at hok
  · cases hok
  · rename_i hkp
    rw [if_neg hkp]
    cases hf : checkFtolIter cfg.ftolIter with
    | error e' => rw [hf] at hok; cases hok
    | ok u =>
      rw [hf] at hok
      dsimp only at hok ⊢
      cases h1 : resetSwarm cfg r1 with
      | error e' => rw [h1] at hok; cases hok
      | ok sw => rw [resetSwarmCl_error h h1]

theorem generateVelocityCl_seq (lo hi : Entry K) (u : Mat n d K) :
    generateVelocityCl (.seq [lo, hi]) u = match subEntries hi lo with
      | .error e => .error e
      | .ok () =>
        if d = 1 && !(lo.fits d && hi.fits d) then .error .unmodelled
        else if lo.fits d && hi.fits d then
          .ok fun i j => (hi.row d j - lo.row d j) * u i j + lo.row d j
        else .error .valueError := rfl

/-- C102, lists: two entries that Python cannot subtract – a list, and no array – make the
constructor raise `TypeError`, although all other arguments are fine; and if the attribute is set to
such a pair later, `reset` raises `TypeError` and leaves the old swarm with empty histories. -/
theorem C102_lists (lo hi : Entry K) (hs : ¬ Subtractable lo hi) (cfg : Config n d K)
    (r1 r2 : InitDraw n d K) (o : Opt n d K) (ho : construct cfg r1 r2 = .ok o) :
    constructCl (.seq [lo, hi]) cfg r1 r2 = .error .typeError ∧
    ∀ s, (resetCl (.seq [lo, hi]) cfg r1 s).2 = .error .typeError ∧
      (resetCl (.seq [lo, hi]) cfg r1 s).1 = { s with
        costHistory := [], meanPbestHistory := [], meanNeighborHistory := []
        posHistory := [], velocityHistory := [] } := by
  have hg : ∀ u : Mat n d K, generateVelocityCl (.seq [lo, hi]) u = .error .typeError := by
    intro u
    rw [generateVelocityCl_seq, subEntries_typeError hs]
  refine ⟨constructCl_error (hg _) ho, fun s => ?_⟩
  have h1 : ∃ sw, resetSwarm cfg r1 = .ok sw := by
    unfold construct at ho
    split at ho
    · cases ho
    · cases hf : checkFtolIter cfg.ftolIter with
      | error e' => rw [hf] at ho; cases ho
      | ok u =>
        rw [hf] at ho
        dsimp only at ho
        cases h1 : resetSwarm cfg r1 with
        | error e' => rw [h1] at ho; cases ho
        | ok sw => exact ⟨sw, rfl⟩
  obtain ⟨sw, h1⟩ := h1
  unfold resetCl
  rw [resetSwarmCl_error (hg _) h1]
  exact ⟨rfl, rfl⟩

/-- C102, everything else: with all other arguments fine and `dimensions ≠ 1`, the constructor
succeeds exactly for `None` and for the accepted forms; a single number or an unsubtractable pair
raises `TypeError`, and whatever else is refused raises `ValueError`. -/
theorem C102_constructor (hd : d ≠ 1) (a : ClampArg K) (cfg : Config n d K) (r1 r2 : InitDraw n d K)
    (o : Opt n d K) (ho : construct cfg r1 r2 = .ok o) :
    ((∃ o', constructCl a cfg r1 r2 = .ok o') ↔ a = .none ∨ ∃ lo hi, ∃ c : Clamp d K,
      a = .seq [lo, hi] ∧ Subtractable lo hi ∧ lo.Reads c.1 ∧ hi.Reads c.2) ∧
    (constructCl a cfg r1 r2 = .error .typeError ↔
      (∃ x, a = .number x) ∨ ∃ lo hi, a = .seq [lo, hi] ∧ ¬ Subtractable lo hi) ∧
    ∀ e, constructCl a cfg r1 r2 = .error e → e = .typeError ∨ e = .valueError := by
  -- the constructor with any usable clamp succeeds
  have hok : ∀ c : Option (Clamp d K), ∃ o', construct { cfg with clamp := c } r1 r2 = .ok o' := by
    intro c
    have hrs : ∀ r, ∀ sw, resetSwarm cfg r = .ok sw →
        ∃ sw', resetSwarm { cfg with clamp := c } r = .ok sw' := by
      intro r sw h
      unfold resetSwarm createSwarm at h ⊢
      have hb : ({ cfg with clamp := c } : Config n d K).isBinary = cfg.isBinary := rfl
      rw [hb]
      dsimp only at h ⊢
      split at h
      · cases h
      · rename_i p hp
        exact ⟨_, rfl⟩
    unfold construct at ho ⊢
    dsimp only
    split at ho
    · cases ho
    · rename_i hkp
      rw [if_neg hkp]
      cases hf : checkFtolIter cfg.ftolIter with
      | error e' => rw [hf] at ho; cases ho
      | ok u =>
        rw [hf] at ho
        dsimp only at ho ⊢
        cases h1 : resetSwarm cfg r1 with
        | error e' => rw [h1] at ho; cases ho
        | ok sw =>
          rw [h1] at ho
          dsimp only at ho
          cases h2 : resetSwarm cfg r2 with
          | error e' => rw [h2] at ho; cases ho
          | ok sw2 =>
            obtain ⟨x, hx⟩ := hrs r1 sw h1
            obtain ⟨y, hy⟩ := hrs r2 sw2 h2
            rw [hx]
            dsimp only
            rw [hy]
            exact ⟨_, rfl⟩
  have err : ∀ e, (∀ u : Mat n d K, generateVelocityCl a u = .error e) →
      constructCl a cfg r1 r2 = .error e := fun e h => constructCl_error (h _) ho
  cases a with
  | none =>
    have h : constructCl .none cfg r1 r2 = construct { cfg with clamp := none } r1 r2 := by
      have hr : ∀ r, resetSwarmCl .none cfg r = resetSwarm { cfg with clamp := none } r := by
        intro r
        have h := resetSwarmCl_of (a := .none) (cfg := { cfg with clamp := none }) (r := r) rfl
        exact h
      unfold constructCl construct
      rw [hr, hr]
      rfl
    obtain ⟨o', ho'⟩ := hok none
    rw [h, ho']
    exact ⟨⟨fun _ => .inl rfl, fun _ => ⟨o', rfl⟩⟩, ⟨fun h => (by cases h), fun h => by
      rcases h with ⟨x, h⟩ | ⟨lo, hi, h, -⟩ <;> cases h⟩, fun e h => by cases h⟩
  | number x =>
    rw [err .typeError fun u => rfl]
    exact ⟨⟨fun ⟨o', h⟩ => (by cases h), fun h => by
      rcases h with h | ⟨lo, hi, c, h, -⟩ <;> cases h⟩, ⟨fun _ => .inl ⟨x, rfl⟩, fun _ => rfl⟩,
      fun e h => by cases h; exact .inl rfl⟩
  | seq es =>
    have bad : (∀ lo hi, es ≠ [lo, hi]) → constructCl (.seq es) cfg r1 r2 = .error .valueError := by
      intro h
      apply err
      intro u
      match es, h with
      | [], _ => rfl
      | [_], _ => rfl
      | [lo, hi], h => exact absurd rfl (h lo hi)
      | _ :: _ :: _ :: _, _ => rfl
    by_cases h2 : ∃ lo hi, es = [lo, hi]
    · obtain ⟨lo, hi, rfl⟩ := h2
      by_cases hs : Subtractable lo hi
      · by_cases hfit : lo.fits d = true ∧ hi.fits d = true
        · have hl := Entry.fits_reads hfit.1
          have hh := Entry.fits_reads hfit.2
          have hsame := (C102_accepted lo hi hs { cfg with clamp := some (lo.row d, hi.row d) }
            (lo.row d, hi.row d) rfl hl hh).1 r1 r2
          obtain ⟨o', ho'⟩ := hok (some (lo.row d, hi.row d))
          rw [ho'] at hsame
          have hsame' : constructCl (.seq [lo, hi]) cfg r1 r2 = .ok o' := hsame
          rw [hsame']
          refine ⟨⟨fun _ => .inr ⟨lo, hi, (lo.row d, hi.row d), rfl, hs, hl, hh⟩, fun _ => ⟨o', rfl⟩⟩,
            ⟨fun h => (by cases h), fun h => ?_⟩, fun e h => by cases h⟩
          rcases h with ⟨x, h⟩ | ⟨lo', hi', h, hn⟩
          · cases h
          · cases h; exact absurd hs hn
        · have hv : constructCl (.seq [lo, hi]) cfg r1 r2 = .error .valueError := by
            apply err
            intro u
            rw [generateVelocityCl_seq]
            have hsub : subEntries hi lo = .ok () ∨ subEntries hi lo = .error .valueError := by
              unfold subEntries
              rw [if_neg]
              · split
                · exact .inl rfl
                · exact .inr rfl
              · rcases hs with ⟨xs, rfl⟩ | ⟨xs, rfl⟩ | ⟨a, b, rfl, rfl⟩ <;>
                  simp [Entry.isArray, Entry.isList]
            have hff : (lo.fits d && hi.fits d) = false := by
              rw [← Bool.not_eq_true]
              simpa using hfit
            rcases hsub with h | h
            · rw [h]
              simp [hff, hd]
            · rw [h]
          rw [hv]
          refine ⟨⟨fun ⟨o', h⟩ => (by cases h), fun h => ?_⟩, ⟨fun h => (by cases h), fun h => ?_⟩,
            fun e h => by cases h; exact .inr rfl⟩
          · rcases h with h | ⟨lo', hi', c, h, -, hl, hh⟩
            · cases h
            · cases h; exact absurd ⟨hl.fits, hh.fits⟩ hfit
          · rcases h with ⟨x, h⟩ | ⟨lo', hi', h, hn⟩
            · cases h
            · cases h; exact absurd hs hn
      · rw [(C102_lists lo hi hs cfg r1 r2 o ho).1]
        refine ⟨⟨fun ⟨o', h⟩ => (by cases h), fun h => ?_⟩, ⟨fun _ => .inr ⟨lo, hi, rfl, hs⟩, fun _ => rfl⟩,
          fun e h => by cases h; exact .inl rfl⟩
        rcases h with h | ⟨lo', hi', c, h, hs', -⟩
        · cases h
        · cases h; exact absurd hs' hs
    · rw [bad fun lo hi h => h2 ⟨lo, hi, h⟩]
      refine ⟨⟨fun ⟨o', h⟩ => (by cases h), fun h => ?_⟩, ⟨fun h => (by cases h), fun h => ?_⟩,
        fun e h => by cases h; exact .inr rfl⟩
      · rcases h with h | ⟨lo, hi, c, h, -⟩
        · cases h
        · cases h; exact absurd ⟨lo, hi, rfl⟩ h2
      · rcases h with ⟨x, h⟩ | ⟨lo, hi, h, -⟩
        · cases h
        · cases h; exact absurd ⟨lo, hi, rfl⟩ h2

/-! ### Examples -/

/-- A GlobalBestPSO with two particles in the plane and the clamp `[-1/4, 1/4] × [-1/8, 1/8]`. -/
def Ex.kcfg : Config 2 2 ℚ :=
  { Ex.gcfg 2 2 with clamp := some (![-1 / 4, -1 / 8], ![1 / 4, 1 / 8]) }

/-- The clamp as a list and an array. -/
def Ex.kmixed : Entry ℚ × Entry ℚ := (.list [-1 / 4, -1 / 8], .array [1 / 4, 1 / 8])

example : Ex.kmixed.1.Reads (![-1 / 4, -1 / 8] : Vec 2 ℚ) ∧ Ex.kmixed.2.Reads (![1 / 4, 1 / 8] : Vec 2 ℚ) ∧
    Subtractable Ex.kmixed.1 Ex.kmixed.2 :=
  ⟨.inr (by decide +kernel), .inr (by decide +kernel), .inr (.inl ⟨_, rfl⟩)⟩

/-- Two lists are not subtractable, two numbers are. -/
example : ¬ Subtractable (.list [-1 / 4, -1 / 8] : Entry ℚ) (.list [1 / 4, 1 / 8]) ∧
    Subtractable (.number (-1) : Entry ℚ) (.number 1) := by
  refine ⟨?_, .inr (.inr ⟨_, _, rfl, rfl⟩)⟩
  rintro (⟨_, h⟩ | ⟨_, h⟩ | ⟨_, _, h, -⟩) <;> cases h

/-- The hypotheses about the constructor are met. -/
example : ∃ o, construct Ex.kcfg (Ex.init 2 2) (Ex.init 2 2) = .ok o := by
  have h : (match construct Ex.kcfg (Ex.init 2 2) (Ex.init 2 2) with
    | .ok _ => true
    | .error _ => false) = true := by decide +kernel
  split at h
  · rename_i o ho; exact ⟨o, ho⟩
  · cases h

/-- Outcome codes of constructing with several forms: arrays, list and array, numbers, array and
number, lists of all numbers, list and number, one number, three entries, a wrong length. -/
example : ([.seq [.array [-1 / 4, -1 / 8], .array [1 / 4, 1 / 8]],
      .seq [Ex.kmixed.1, Ex.kmixed.2], .seq [.number (-1), .number 1],
      .seq [.number (-1), .array [1, 2]], .seq [.list [-1, -1], .list [1, 1]],
      .seq [.number (-1), .list [1]], .number 1, .seq [.number 0, .number 1, .number 2],
      .seq [.number 0, .array [1, 2, 3]]] : List (ClampArg ℚ)).map
    (fun a => match constructCl a Ex.kcfg (Ex.init 2 2) (Ex.init 2 2) with
      | .ok _ => none
      | .error e => some e) =
    [none, none, none, none, some .typeError, some .typeError, some .typeError, some .valueError,
      some .valueError] := by
  decide +kernel

/-- The clamp acts: with a list and an array the run records a velocity at its limit. -/
example : (match constructCl (.seq [Ex.kmixed.1, Ex.kmixed.2]) Ex.kcfg (Ex.init 2 2) (Ex.init 2 2) with
    | .ok o => decide (∃ v ∈ (optimizeCl (.seq [Ex.kmixed.1, Ex.kmixed.2]) Ex.kcfg (Ex.sphere 2 2) 3 none
        (fun _ => Ex.draw 2 2) o).1.velocityHistory, ∃ i j, v i j = 1 / 8 ∨ v i j = -1 / 8)
    | .error _ => false) = true := by
  decide +kernel

end PySwarms

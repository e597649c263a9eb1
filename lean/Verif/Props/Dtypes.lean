import Verif.Model.Dtype
import Verif.Props.Moves

/-!
# C88: data types of the initial positions
-/

namespace PySwarms

variable {n d : Nat} {K : Type} [Field K] [LinearOrder K] [IsStrictOrderedRing K] [FloorRing K]
  [Transc K]

/-! ### Specification -/

/-- Types for which nothing special happens: floating point, and for BinaryPSO also signed
integers. -/
def PlainType (kind : Kind) (t : Dtype) : Prop :=
  t = .float32 ∨ t = .float64 ∨ kind = .binary ∧ t = .int64

/-- Types that are refused: booleans; for the continuous optimizers also integers, except when the
velocity is an integer matrix too (`adjust` without clamp). -/
def Refused (cfg : Config n d K) (t : Dtype) : Prop :=
  t = .bool ∨ (cfg.kind ≠ .binary ∧ (t = .int64 ∨ ∃ b, t = .uint b) ∧
    (cfg.vhStrategy ≠ "adjust" ∨ cfg.clamp.isSome))

/-! ### PlainType types -/

theorem plain_promote {kind : Kind} {a b : Dtype} (ha : PlainType kind a) (hb : PlainType kind b) :
    PlainType kind (a.promote b) := by
  rcases ha with rfl | rfl | ⟨hk, rfl⟩ <;> rcases hb with rfl | rfl | ⟨hk', rfl⟩ <;>
    simp_all [PlainType, Dtype.promote]

theorem tempVelocityT_plain {kind : Kind} {tp tb : Dtype} (hp : PlainType kind tp)
    (hb : PlainType kind tb) (c1 c2 w : K) (r1 r2 : Mat n d K) (s : Swarm n d K) :
    tempVelocityT c1 c2 w r1 r2 tp tb s = tempVelocity c1 c2 w r1 r2 s := by
  rcases hp with rfl | rfl | ⟨-, rfl⟩ <;> rcases hb with rfl | rfl | ⟨-, rfl⟩ <;> rfl

theorem computeVelocityT_plain {kind : Kind} {tp tb : Dtype} (hp : PlainType kind tp)
    (hb : PlainType kind tb) (s : Swarm n d K) (clamp : Option (Clamp d K)) (st : String)
    (mem : Option (Mat n d K)) (bounds : Option (Bounds d K)) (r1 r2 : Mat n d K) :
    computeVelocityT s tp tb clamp st mem bounds r1 r2 =
      computeVelocity s clamp st mem bounds r1 r2 := by
  have hs : subRefused tb tp = false := by
    rcases hp with rfl | rfl | ⟨-, rfl⟩ <;> rcases hb with rfl | rfl | ⟨-, rfl⟩ <;> rfl
  unfold computeVelocityT computeVelocity
  simp only [tempVelocityT_plain hp hb, hs, Bool.false_eq_true, if_false]
  rfl

/-- What the typed position update does for a plain type. -/
theorem callPositionT_plain {cfg : Config n d K} {tp : Dtype} (hp : PlainType cfg.kind tp)
    (r : Draw n d K) (mem : Option (Mat n d K)) (s : Swarm n d K) :
    ∃ t, PlainType cfg.kind t ∧ callPositionT cfg r mem tp s =
      ((callPosition cfg r mem s).1, (callPosition cfg r mem s).2.map fun x => (x, t)) := by
  by_cases hk : cfg.kind = .binary
  · refine ⟨.int64, .inr (.inr ⟨hk, rfl⟩), ?_⟩
    unfold callPositionT callPosition
    rw [hk]
    rfl
  · have hf : tp.isFloat = true ∧ tp.isInteger = false := by
      rcases hp with rfl | rfl | ⟨h, -⟩
      · exact ⟨rfl, rfl⟩
      · exact ⟨rfl, rfl⟩
      · exact absurd h hk
    have hadd : castsBack tp (velocityDtype cfg tp) = true := by
      unfold castsBack
      rw [hf.1]
      rfl
    refine ⟨positionDtype cfg tp, ?_, ?_⟩
    · unfold positionDtype
      split
      · exact plain_promote hp (.inr (.inl rfl))
      · exact hp
    · have e : callPosition cfg r mem s = computePosition s cfg.bounds cfg.bhStrategy mem r.bh := by
        unfold callPosition
        cases hkk : cfg.kind <;> simp_all
      have e' : callPositionT cfg r mem tp s =
          match computePosition s cfg.bounds cfg.bhStrategy mem r.bh with
          | (m, .error e) => (m, .error e)
          | (m, .ok x) => (m, .ok (x, positionDtype cfg tp)) := by
        unfold callPositionT
        cases hkk : cfg.kind with
        | binary => exact absurd hkk hk
        | _ => simp only [hadd, hf.2, Bool.false_and, Bool.false_eq_true, if_false, if_true]; rfl
      rw [e, e']
      rcases computePosition s cfg.bounds cfg.bhStrategy mem r.bh with ⟨m, e | x⟩ <;> rfl

/-- The typed state with the value `o`, whose types are still plain. -/
def StaysPlain (kind : Kind) (s : Typed n d K) (o : Opt n d K) : Prop :=
  s.opt = o ∧ PlainType kind s.pos ∧ PlainType kind s.pbest

theorem moveSwarmT_plain {cfg : Config n d K} (r : Draw n d K) (iters i : Nat) (s : Typed n d K)
    (hp : PlainType cfg.kind s.pos) (hb : PlainType cfg.kind s.pbest) :
    StaysPlain cfg.kind (moveSwarmT cfg r iters i s).1 (moveSwarm cfg r iters i s.opt).1 ∧
    (moveSwarmT cfg r iters i s).2 = (moveSwarm cfg r iters i s.opt).2 := by
  unfold moveSwarmT moveSwarm
  cases callOptions cfg iters i r s.opt.swarm with
  | error e => exact ⟨⟨rfl, hp, hb⟩, rfl⟩
  | ok o =>
    dsimp only
    rw [computeVelocityT_plain hp hb]
    rcases computeVelocity { s.opt.swarm with options := o } cfg.clamp cfg.vhStrategy s.opt.vhMem
      (velBounds cfg) r.r1 r.r2 with ⟨vm, e | v⟩
    · exact ⟨⟨rfl, hp, hb⟩, rfl⟩
    · dsimp only
      obtain ⟨t, ht, e⟩ := callPositionT_plain (cfg := cfg) hp r s.opt.bhMem
        { s.opt.swarm with options := o, velocity := v }
      rw [e]
      rcases callPosition cfg r s.opt.bhMem { s.opt.swarm with options := o, velocity := v } with
        ⟨bm, e | p⟩
      · exact ⟨⟨rfl, hp, hb⟩, rfl⟩
      · exact ⟨⟨rfl, ht, hb⟩, rfl⟩

theorem iterateT_plain {cfg : Config n d K} (ev : Mat n d K → Except Err (Costs n K))
    (r : Draw n d K) (iters i : Nat) (q : List Bool) (s : Typed n d K)
    (hp : PlainType cfg.kind s.pos) (hb : PlainType cfg.kind s.pbest) :
    StaysPlain cfg.kind (iterateT cfg ev r iters i q s).1 (iterate cfg ev r iters i q s.opt).1 ∧
    (iterateT cfg ev r iters i q s).2 = (iterate cfg ev r iters i q s.opt).2 := by
  unfold iterateT iterate
  have hpb := plain_promote hb hp
  cases ev s.opt.swarm.position with
  | error e => exact ⟨⟨rfl, hp, hb⟩, rfl⟩
  | ok c =>
    dsimp only
    rcases callGbest cfg r.oracle (recordEval c s.opt).top (recordEval c s.opt).swarm with ⟨t, e | g⟩
    · exact ⟨⟨rfl, hp, hpb⟩, rfl⟩
    · dsimp only
      split
      · exact ⟨⟨rfl, hp, hpb⟩, rfl⟩
      · have h := moveSwarmT_plain (cfg := cfg) r iters i
          ⟨recordBest t g (recordEval c s.opt), s.pos, s.pbest.promote s.pos⟩ hp hpb
        dsimp only at h
        rcases hm : moveSwarmT cfg r iters i
          ⟨recordBest t g (recordEval c s.opt), s.pos, s.pbest.promote s.pos⟩ with ⟨s3, x⟩
        rcases hm' : moveSwarm cfg r iters i (recordBest t g (recordEval c s.opt)) with ⟨o3, x'⟩
        rw [hm, hm'] at h
        dsimp only at h
        obtain ⟨h, rfl⟩ := h
        rcases x with e | u
        · exact ⟨h, rfl⟩
        · exact ⟨h, rfl⟩

theorem loopT_plain {cfg : Config n d K} (ev : Nat → Mat n d K → Except Err (Costs n K))
    (env : Nat → Draw n d K) (iters m i : Nat) (q : List Bool) (s : Typed n d K)
    (hp : PlainType cfg.kind s.pos) (hb : PlainType cfg.kind s.pbest) :
    StaysPlain cfg.kind (loopT cfg ev env iters m i q s).1 (loop cfg ev env iters m i q s.opt).1 ∧
    (loopT cfg ev env iters m i q s).2 = (loop cfg ev env iters m i q s.opt).2 := by
  induction m generalizing i q s with
  | zero => exact ⟨⟨rfl, hp, hb⟩, rfl⟩
  | succ m ih =>
    rw [loopT, loop]
    have h := iterateT_plain (cfg := cfg) (ev i) (env i) iters i q s hp hb
    generalize iterateT cfg (ev i) (env i) iters i q s = a at h ⊢
    generalize iterate cfg (ev i) (env i) iters i q s.opt = b at h ⊢
    obtain ⟨s1, x⟩ := a
    obtain ⟨o1, x'⟩ := b
    dsimp only at h
    obtain ⟨⟨rfl, h1, h2⟩, rfl⟩ := h
    rcases x with e | f
    · exact ⟨⟨rfl, h1, h2⟩, rfl⟩
    · cases f with
      | stop => exact ⟨⟨rfl, h1, h2⟩, rfl⟩
      | «continue» q1 => exact ih (i + 1) q1 s1 h1 h2

theorem optimizeT_plain {cfg : Config n d K} (ev : Nat → Mat n d K → Except Err (Costs n K))
    (iters : Nat) (nproc : Option Nat) (env : Nat → Draw n d K) (s : Typed n d K)
    (hp : PlainType cfg.kind s.pos) (hb : PlainType cfg.kind s.pbest) :
    StaysPlain cfg.kind (optimizeT cfg ev iters nproc env s).1
      (optimize cfg ev iters nproc env s.opt).1 ∧
    (optimizeT cfg ev iters nproc env s).2 = (optimize cfg ev iters nproc env s.opt).2 := by
  unfold optimizeT optimize
  split
  · exact ⟨⟨rfl, hp, hb⟩, rfl⟩
  · dsimp only
    have h := loopT_plain (cfg := cfg) ev env iters iters 0 []
      { s with opt := { prepare cfg s.opt with
        openPools := s.opt.openPools + (if nproc.isSome then 1 else 0) } } hp hb
    dsimp only at h
    generalize loopT cfg ev env iters iters 0 [] _ = a at h ⊢
    generalize loop cfg ev env iters iters 0 [] _ = b at h ⊢
    obtain ⟨s1, x⟩ := a
    obtain ⟨o1, x'⟩ := b
    dsimp only at h
    obtain ⟨⟨rfl, h1, h2⟩, rfl⟩ := h
    rcases x with e | u
    · exact ⟨⟨rfl, h1, h2⟩, rfl⟩
    · dsimp only
      cases finish s1.opt with
      | error e => exact ⟨⟨rfl, h1, h2⟩, rfl⟩
      | ok r => exact ⟨⟨rfl, h1, h2⟩, rfl⟩

/-- C88: an optimizer built with floating point initial positions (or, for BinaryPSO, also with
signed integers, or without `init_pos`) goes through exactly the states, returns and exceptions that
exact numbers would give, whatever is called on it. -/
theorem C88_plain (cfg : Config n d K) (given : Dtype)
    (hg : cfg.initPos.isSome → PlainType cfg.kind given) (r1 r2 : InitDraw n d K) :
    (∀ e, constructT cfg given r1 r2 = .error e ↔ construct cfg r1 r2 = .error e) ∧
    ∀ s, constructT cfg given r1 r2 = .ok s → construct cfg r1 r2 = .ok s.opt ∧
      ∀ ops ev iters nproc env,
        (runOpsT cfg given s ops).opt = runOps cfg s.opt ops ∧
        PlainType cfg.kind (runOpsT cfg given s ops).pos ∧
        (optimizeT cfg ev iters nproc env (runOpsT cfg given s ops)).1.opt =
          (optimize cfg ev iters nproc env (runOps cfg s.opt ops)).1 ∧
        (optimizeT cfg ev iters nproc env (runOpsT cfg given s ops)).2 =
          (optimize cfg ev iters nproc env (runOps cfg s.opt ops)).2 := by
  have hfresh : PlainType cfg.kind (freshDtype cfg given) := by
    unfold freshDtype Config.isBinary
    split
    · next h => exact hg h
    · cases hk : cfg.kind <;> simp [PlainType]
  constructor
  · intro e
    unfold constructT
    cases construct cfg r1 r2 <;> simp
  · intro s hs
    unfold constructT at hs
    cases hc : construct cfg r1 r2 with
    | error e => rw [hc] at hs; cases hs
    | ok o =>
      rw [hc] at hs
      cases hs
      refine ⟨rfl, fun ops ev iters nproc env => ?_⟩
      have key : ∀ (ops : List (Op n d K)) (s : Typed n d K), PlainType cfg.kind s.pos →
          PlainType cfg.kind s.pbest → StaysPlain cfg.kind (runOpsT cfg given s ops)
            (runOps cfg s.opt ops) := by
        intro ops
        induction ops with
        | nil => exact fun s h1 h2 => ⟨rfl, h1, h2⟩
        | cons op ops ih =>
          intro s h1 h2
          simp only [runOpsT, runOps, List.foldl_cons, stepOp] at ih ⊢
          cases op with
          | optimize ev iters nproc env =>
            obtain ⟨⟨e1, h3, h4⟩, -⟩ := optimizeT_plain (cfg := cfg) ev iters nproc env s h1 h2
            dsimp only
            rw [← e1]
            exact ih _ h3 h4
          | reset r =>
            dsimp only
            unfold resetT
            rcases reset cfg r s.opt with ⟨o, e | u⟩
            · exact ih ⟨o, s.pos, s.pbest⟩ h1 h2
            · exact ih ⟨o, _, _⟩ hfresh hfresh
      obtain ⟨e1, h3, h4⟩ := key ops ⟨o, freshDtype cfg given, freshDtype cfg given⟩ hfresh hfresh
      obtain ⟨⟨e2, -, -⟩, e3⟩ := optimizeT_plain (cfg := cfg) ev iters nproc env
        (runOpsT cfg given ⟨o, freshDtype cfg given, freshDtype cfg given⟩ ops) h3 h4
      rw [e1] at e2 e3
      exact ⟨e1, h3, e2, e3⟩

/-! ### Refused types -/

omit [IsStrictOrderedRing K] [FloorRing K] [Transc K] in
/-- Whether a velocity handler succeeds does not depend on the velocities. -/
theorem vhCall_any (st : String) (mem : Option (Mat n d K)) (c : Option (Clamp d K))
    (kw : VHKw n d K) (v v' : Mat n d K) {m : Option (Mat n d K)} {w : Mat n d K}
    (h : vhCall st mem c kw v = (m, .ok w)) : ∃ w', vhCall st mem c kw v' = (m, .ok w') := by
  unfold vhCall at h ⊢
  split_ifs at h ⊢ with h1 h2 h3 h4
  · cases h; exact ⟨_, rfl⟩
  · unfold vhAdjust at h ⊢
    rcases kw with ⟨_ | p, b, z⟩
    · cases h
    · rcases mem with _ | mm
      · cases h; exact ⟨_, rfl⟩
      · cases h; exact ⟨_, rfl⟩
  · unfold vhInvert at h ⊢
    rcases kw with ⟨_ | p, _ | _ | b, z⟩ <;> cases h
    exact ⟨_, rfl⟩
  · unfold vhZero at h ⊢
    rcases kw with ⟨_ | p, _ | _ | b, z⟩ <;> cases h
    exact ⟨_, rfl⟩
  · cases h

/-- Where exact numbers give a velocity, so do the types that can be subtracted. -/
theorem computeVelocityT_ok {s : Swarm n d K} {tp tb : Dtype} (hs : subRefused tb tp = false)
    {clamp : Option (Clamp d K)} {st : String} {mem m : Option (Mat n d K)}
    {bounds : Option (Bounds d K)} {r1 r2 v : Mat n d K}
    (h : computeVelocity s clamp st mem bounds r1 r2 = (m, .ok v)) :
    ∃ v', computeVelocityT s tp tb clamp st mem bounds r1 r2 = (m, .ok v') := by
  unfold computeVelocity at h
  unfold computeVelocityT
  cases h1 : s.options.lookup "c1" <;> cases h2 : s.options.lookup "c2" <;>
    cases h3 : s.options.lookup "w" <;> rw [h1, h2, h3] at h <;> dsimp only at h ⊢ <;>
    try (cases h; done)
  simp only [hs, Bool.false_eq_true, if_false]
  cases hb : s.bestPos with
  | empty =>
    rw [hb] at h
    dsimp only at h ⊢
    split_ifs at h ⊢ with a b c
    · exact vhCall_any _ _ _ _ _ _ h
    · exact vhCall_any _ _ _ _ _ _ h
    · split at h <;> cases h
    · cases h
  | single x => rw [hb] at h; exact vhCall_any _ _ _ _ _ _ h
  | perParticle x => rw [hb] at h; exact vhCall_any _ _ _ _ _ _ h

/-- The situation of an optimizer with initial positions `P` of a refused type `t`. -/
structure Stuck (P : Mat n d K) (t : Dtype) (s : Typed n d K) : Prop where
  position : s.opt.swarm.position = P
  pos : s.pos = t
  pbest : s.pbest = t

theorem resetSwarm_given {cfg : Config n d K} {P : Mat n d K} (hP : cfg.initPos = some P)
    {r : InitDraw n d K} {sw : Swarm n d K} (h : resetSwarm cfg r = .ok sw) : sw.position = P := by
  unfold resetSwarm createSwarm generateSwarm generateDiscreteSwarm at h
  rw [hP] at h
  dsimp only at h
  split at h
  · cases h
  · next p hp =>
    cases h
    change p = P
    split at hp
    · split at hp
      · next e _ => cases e; split at hp <;> cases hp; rfl
      · next e _ => cases e; cases hp; rfl
      · next e _ => cases e
      · next e _ => cases e
    · split at hp
      · next e _ => cases e; cases hp; rfl
      · next e _ => cases e; split at hp <;> cases hp; rfl
      · next e _ => cases e
      · next e _ => cases e

theorem resetSwarm_given_box {cfg : Config n d K} (hk : cfg.kind ≠ .binary) {P : Mat n d K}
    (hP : cfg.initPos = some P) {r : InitDraw n d K} {sw : Swarm n d K}
    (h : resetSwarm cfg r = .ok sw) (b : Bounds d K) (hb : cfg.bounds = some b) : InBox b P := by
  have hbin : cfg.isBinary = false := by
    unfold Config.isBinary
    cases hkk : cfg.kind with
    | binary => exact absurd hkk hk
    | _ => rfl
  unfold resetSwarm createSwarm generateSwarm at h
  rw [hP, hb, hbin] at h
  simp only [Bool.false_eq_true, if_false] at h
  split at h
  · cases h
  · next p hp =>
    split at hp
    · next hin =>
      simp only [Bool.and_eq_true, List.all_eq_true, List.mem_finRange, true_implies,
        decide_eq_true_eq] at hin
      exact fun i j => ⟨hin.1 i j, hin.2 i j⟩
    · cases hp

theorem moveSwarmT_refused {cfg : Config n d K} {t : Dtype} (ht : Refused cfg t) {P : Mat n d K}
    (r : Draw n d K) (iters i : Nat) (s : Typed n d K) (hs : Stuck P t s) :
    ∃ s' e, moveSwarmT cfg r iters i s = (s', .error e) ∧ Stuck P t s' ∧
      s'.opt.evals = s.opt.evals ∧
      (∀ o, moveSwarm cfg r iters i s.opt = (o, .ok ()) → e = .typeError) := by
  obtain ⟨h1, h2, h3⟩ := hs
  unfold moveSwarmT moveSwarm
  cases callOptions cfg iters i r s.opt.swarm with
  | error e => exact ⟨_, _, rfl, ⟨h1, h2, h3⟩, rfl, fun o h => by cases h⟩
  | ok o =>
    dsimp only
    rw [h2, h3]
    rcases hv : computeVelocityT { s.opt.swarm with options := o } t t cfg.clamp cfg.vhStrategy
      s.opt.vhMem (velBounds cfg) r.r1 r.r2 with ⟨vm, e | v⟩
    · refine ⟨_, _, rfl, ⟨h1, rfl, rfl⟩, rfl, fun o' h => ?_⟩
      rcases hv' : computeVelocity { s.opt.swarm with options := o } cfg.clamp cfg.vhStrategy
        s.opt.vhMem (velBounds cfg) r.r1 r.r2 with ⟨vm', e' | v'⟩
      · rw [hv'] at h; cases h
      · by_cases hb : t = .bool
        · subst hb
          obtain ⟨c1, c2, w, l1, l2, l3, -⟩ := computeVelocity_ok hv'
          unfold computeVelocityT at hv
          dsimp only at l1 l2 l3 hv
          rw [l1, l2, l3] at hv
          cases hv; rfl
        · have hs : subRefused t t = false := by simp [subRefused, hb]
          obtain ⟨v'', hv''⟩ := computeVelocityT_ok (tp := t) (tb := t) hs hv'
          rw [hv] at hv''
          cases hv''
    · have hbad : callPositionT cfg r s.opt.bhMem t { s.opt.swarm with options := o, velocity := v } =
          (s.opt.bhMem, .error .typeError) := by
        rcases ht with rfl | ⟨hk, hint, hadj⟩
        · unfold computeVelocityT at hv
          split at hv <;> cases hv
        · have hadd : castsBack t (velocityDtype cfg t) = false := by
            have : velocityDtype cfg t = .float64 := by
              unfold velocityDtype
              rw [if_neg]
              rintro ⟨e1, e2⟩
              rcases hadj with h | h
              · exact h e1
              · cases hc : cfg.clamp <;> simp_all
            rw [this]
            rcases hint with rfl | ⟨b, rfl⟩ <;> rfl
          unfold callPositionT
          cases hkk : cfg.kind with
          | binary => exact absurd hkk hk
          | _ => simp only [hadd, Bool.false_eq_true, if_false]
      dsimp only
      rw [hbad]
      exact ⟨_, _, rfl, ⟨h1, rfl, rfl⟩, rfl, fun _ _ => rfl⟩

theorem refused_promote {cfg : Config n d K} {t : Dtype} (ht : Refused cfg t) : t.promote t = t := by
  rcases ht with rfl | ⟨-, rfl | ⟨b, rfl⟩, -⟩
  · rfl
  · rfl
  · simp [Dtype.promote]

theorem iterateT_refused {cfg : Config n d K} {t : Dtype} (ht : Refused cfg t) {P : Mat n d K}
    (ev : Mat n d K → Except Err (Costs n K)) (r : Draw n d K) (iters i : Nat)
    (hi : i < cfg.window) (q : List Bool) (s : Typed n d K) (hs : Stuck P t s) :
    ∃ s' e, iterateT cfg ev r iters i q s = (s', .error e) ∧ Stuck P t s' ∧
      (s'.opt.evals = s.opt.evals ∨ ∃ c, s'.opt.evals = s.opt.evals ++ [(P, c)]) ∧
      (∀ o f, iterate cfg ev r iters i q s.opt = (o, .ok f) → e = .typeError ∧
        ∃ c, ev P = .ok c ∧ s'.opt.evals = s.opt.evals ++ [(P, c)]) := by
  obtain ⟨h1, h2, h3⟩ := hs
  unfold iterateT iterate
  rw [h1]
  cases hev : ev P with
  | error e => exact ⟨_, _, rfl, ⟨h1, h2, h3⟩, .inl rfl, fun o f h => by cases h⟩
  | ok c =>
    dsimp only
    rw [h2, h3, refused_promote ht]
    have hevals : (recordEval c s.opt).evals = s.opt.evals ++ [(P, c)] := by
      rw [← h1]; rfl
    rcases callGbest cfg r.oracle (recordEval c s.opt).top (recordEval c s.opt).swarm with ⟨tt, e | g⟩
    · exact ⟨_, _, rfl, ⟨h1, rfl, rfl⟩, .inr ⟨c, hevals⟩, fun o f h => by cases h⟩
    · dsimp only
      simp only [hi, not_true, decide_false, Bool.false_and, Bool.false_eq_true, if_false]
      obtain ⟨s', e, hm, hst, hevs, hty⟩ := moveSwarmT_refused ht (P := P) r iters i
        ⟨recordBest tt g (recordEval c s.opt), t, t⟩ ⟨h1, rfl, rfl⟩
      rw [hm]
      have he : s'.opt.evals = s.opt.evals ++ [(P, c)] := by rw [hevs, ← hevals]; rfl
      refine ⟨s', e, rfl, hst, .inr ⟨c, he⟩, fun o f h => ?_⟩
      dsimp only at hty
      rcases hm' : moveSwarm cfg r iters i (recordBest tt g (recordEval c s.opt)) with ⟨o3, e' | u⟩
      · rw [hm'] at h; cases h
      · exact ⟨hty o3 hm', c, rfl, he⟩

theorem optimizeT_refused {cfg : Config n d K} {t : Dtype} (ht : Refused cfg t) {P : Mat n d K}
    (hw : 0 < cfg.window) (ev : Nat → Mat n d K → Except Err (Costs n K)) (iters : Nat)
    (nproc : Option Nat) (env : Nat → Draw n d K) (s : Typed n d K) (hs : Stuck P t s) :
    Stuck P t (optimizeT cfg ev iters nproc env s).1 ∧
    (iters ≠ 0 → ∃ e, (optimizeT cfg ev iters nproc env s).2 = .error e ∧
      ((optimizeT cfg ev iters nproc env s).1.opt.evals = s.opt.evals ∨
        ∃ c, (optimizeT cfg ev iters nproc env s).1.opt.evals = s.opt.evals ++ [(P, c)]) ∧
      ∀ x, (optimize cfg ev iters nproc env s.opt).2 = .ok x → e = .typeError ∧
        ∃ c, ev 0 P = .ok c ∧
          (optimizeT cfg ev iters nproc env s).1.opt.evals = s.opt.evals ++ [(P, c)]) := by
  obtain ⟨h1, h2, h3⟩ := hs
  cases iters with
  | zero =>
    refine ⟨?_, fun h => absurd rfl h⟩
    unfold optimizeT
    split
    · exact ⟨h1, h2, h3⟩
    · have : ∀ s0 : Typed n d K, loopT cfg ev env 0 0 0 [] s0 = (s0, .ok ()) := fun _ => rfl
      dsimp only
      rw [this]
      dsimp only
      split
      · exact ⟨h1, h2, h3⟩
      · exact ⟨h1, h2, h3⟩
  | succ m =>
    unfold optimizeT
    split
    · next hp =>
      refine ⟨⟨h1, h2, h3⟩, fun _ => ⟨_, rfl, .inl rfl, fun x hx => ?_⟩⟩
      unfold optimize at hx
      rw [if_pos hp] at hx
      cases hx
    · next hp =>
      dsimp only
      have hst : Stuck P t { s with opt := { prepare cfg s.opt with
          openPools := s.opt.openPools + (if nproc.isSome then 1 else 0) } } := ⟨h1, h2, h3⟩
      obtain ⟨s', e, hi, hst', hev, hty⟩ := iterateT_refused ht (ev 0) (env 0) (m + 1) 0 hw [] _ hst
      rw [loopT, hi]
      refine ⟨hst', fun _ => ⟨e, rfl, hev, fun x hx => ?_⟩⟩
      unfold optimize at hx
      rw [if_neg hp] at hx
      dsimp only at hx hty
      rw [loop] at hx
      rcases hit : iterate cfg (ev 0) (env 0) (m + 1) 0 [] { prepare cfg s.opt with
        openPools := s.opt.openPools + (if nproc.isSome then 1 else 0) } with ⟨o, e' | f⟩
      · rw [hit] at hx; cases hx
      · exact hty o f hit

/-- C88: an optimizer built with initial positions `P` of a refused type can be constructed, but
whatever is called on it, its positions stay `P`, and every call of `optimize` with at least one
iteration raises, after at most one evaluation; the exception is `TypeError` after exactly one
evaluation whenever exact numbers would have let the call return. -/
theorem C88_refused (cfg : Config n d K) (P : Mat n d K) (hP : cfg.initPos = some P) (given : Dtype)
    (hg : Refused cfg given) (r1 r2 : InitDraw n d K) :
    (∀ o, construct cfg r1 r2 = .ok o → ∃ s, constructT cfg given r1 r2 = .ok s) ∧
    ∀ s, constructT cfg given r1 r2 = .ok s → ∀ ops,
      (runOpsT cfg given s ops).opt.swarm.position = P ∧
      (runOpsT cfg given s ops).pos = given ∧
      ∀ ev iters nproc env, iters ≠ 0 →
        ∃ s' e, optimizeT cfg ev iters nproc env (runOpsT cfg given s ops) = (s', .error e) ∧
          s'.opt.swarm.position = P ∧
          (s'.opt.evals = (runOpsT cfg given s ops).opt.evals ∨
            ∃ c, s'.opt.evals = (runOpsT cfg given s ops).opt.evals ++ [(P, c)]) ∧
          ∀ x, (optimize cfg ev iters nproc env (runOpsT cfg given s ops).opt).2 = .ok x →
            e = .typeError ∧ ∃ c, ev 0 P = .ok c ∧
              s'.opt.evals = (runOpsT cfg given s ops).opt.evals ++ [(P, c)] := by
  have hpos : ∀ r sw, resetSwarm cfg r = .ok sw → sw.position = P := by
    intro r sw h
    have := resetSwarm_given hP h
    exact this
  constructor
  · intro o ho
    unfold constructT
    rw [ho]
    exact ⟨_, rfl⟩
  · intro s hs
    unfold constructT at hs
    cases hc : construct cfg r1 r2 with
    | error e => rw [hc] at hs; cases hs
    | ok o =>
      rw [hc] at hs
      cases hs
      have hw : 0 < cfg.window := construct_window hc
      have hf : freshDtype cfg given = given := by
        unfold freshDtype
        rw [hP]
        rfl
      have key : ∀ (ops : List (Op n d K)) (s : Typed n d K), Stuck P given s →
          Stuck P given (runOpsT cfg given s ops) := by
        intro ops
        induction ops with
        | nil => exact fun s h => h
        | cons op ops ih =>
          intro s h
          simp only [runOpsT, List.foldl_cons] at ih ⊢
          cases op with
          | optimize ev iters nproc env =>
            exact ih _ (optimizeT_refused hg hw ev iters nproc env s h).1
          | reset r =>
            refine ih _ ?_
            dsimp only
            unfold resetT reset
            cases hr : resetSwarm cfg r with
            | error e => exact ⟨h.1, h.2, h.3⟩
            | ok sw => exact ⟨hpos r sw hr, hf, hf⟩
      intro ops
      obtain ⟨sw, hsw, rfl⟩ := construct_ok cfg r1 r2 o hc
      have hst := key ops ⟨{ swarm := sw }, freshDtype cfg given, freshDtype cfg given⟩
        ⟨hpos r2 sw hsw, hf, hf⟩
      refine ⟨hst.position, hst.pos, fun ev iters nproc env hit => ?_⟩
      obtain ⟨h1, h2⟩ := optimizeT_refused hg hw ev iters nproc env _ hst
      obtain ⟨e, he, h3, h4⟩ := h2 hit
      exact ⟨_, e, Prod.ext rfl he, h1.position, h3, h4⟩

/-! ### Integers that stay where they are -/

/-- The situation of a swarm with positions `P`, not boolean, in the middle of a call. -/
structure Resting (P : Mat n d K) (s : Typed n d K) : Prop where
  position : s.opt.swarm.position = P
  pos : s.pos ≠ .bool
  pbest : s.pbest ≠ .bool

theorem promote_ne_bool {a b : Dtype} (ha : a ≠ .bool) (hb : b ≠ .bool) : a.promote b ≠ .bool := by
  cases a <;> cases b <;> simp_all [Dtype.promote] <;> split <;> simp

theorem computeVelocityT_adjust {tp tb : Dtype} (hp : tp ≠ .bool) (s : Swarm n d K)
    (clamp : Option (Clamp d K)) (m : Mat n d K) (bounds : Option (Bounds d K)) (r1 r2 : Mat n d K) :
    computeVelocityT s tp tb clamp "adjust" (some m) bounds r1 r2 =
      computeVelocity s clamp "adjust" (some m) bounds r1 r2 := by
  have hs : subRefused tb tp = false := by simp [subRefused, hp]
  have hv : ∀ v v' : Mat n d K, vhCall "adjust" (some m) clamp ⟨some s.position, some bounds, none⟩ v =
      vhCall "adjust" (some m) clamp ⟨some s.position, some bounds, none⟩ v' := fun _ _ => rfl
  unfold computeVelocityT computeVelocity
  cases h1 : s.options.lookup "c1" <;> cases h2 : s.options.lookup "c2" <;>
    cases h3 : s.options.lookup "w" <;> try rfl
  simp only [hs, Bool.false_eq_true, if_false]
  cases s.bestPos <;> rfl

theorem moveSwarmT_resting {cfg : Config n d K} {P : Mat n d K} (hcfg : FreezeCfg cfg P)
    (hc : cfg.clamp = none) (r : Draw n d K) (iters i : Nat) (s : Typed n d K) (hs : Resting P s)
    (hm : s.opt.vhMem = some P) :
    (moveSwarmT cfg r iters i s).1.opt = (moveSwarm cfg r iters i s.opt).1 ∧
    (moveSwarmT cfg r iters i s).2 = (moveSwarm cfg r iters i s.opt).2 ∧
    Resting P (moveSwarmT cfg r iters i s).1 ∧
    ((moveSwarmT cfg r iters i s).2 = .ok () → (moveSwarmT cfg r iters i s).1.opt.vhMem = some P) := by
  obtain ⟨h1, h2, h3⟩ := hs
  unfold moveSwarmT moveSwarm
  cases callOptions cfg iters i r s.opt.swarm with
  | error e => exact ⟨rfl, rfl, ⟨h1, h2, h3⟩, fun h => by cases h⟩
  | ok o =>
    dsimp only
    rw [hm, hcfg.vh, computeVelocityT_adjust h2]
    rcases hv : computeVelocity { s.opt.swarm with options := o } cfg.clamp "adjust" (some P)
      (velBounds cfg) r.r1 r.r2 with ⟨vm, e | v⟩
    · exact ⟨rfl, rfl, ⟨h1, h2, h3⟩, fun h => by cases h⟩
    · rw [← hcfg.vh] at hv
      obtain ⟨hv0, hvm⟩ := frozen_velocity hcfg (by exact h1) hv
      subst hv0 hvm
      dsimp only
      have hin : anyOutside cfg.bounds (fun i j => s.opt.swarm.position i j + 0) = false := by
        unfold anyOutside
        cases hb : cfg.bounds with
        | none => rfl
        | some b =>
          dsimp only
          rw [decide_eq_false_iff_not]
          rintro ⟨i, j, h⟩
          rw [h1, add_zero] at h
          have := hcfg.bounds b hb i j
          rcases h with h | h
          · exact absurd this.1 (not_le.mpr h)
          · exact absurd this.2 (not_le.mpr h)
      have hadd : castsBack s.pos (velocityDtype cfg s.pos) = true := by
        unfold velocityDtype castsBack
        rw [if_pos ⟨hcfg.vh, by rw [hc]; rfl⟩]
        cases s.pos.isFloat <;> rfl
      have e : callPosition cfg r s.opt.bhMem { s.opt.swarm with options := o, velocity := fun _ _ => 0 } =
          computePosition { s.opt.swarm with options := o, velocity := fun _ _ => 0 } cfg.bounds
            cfg.bhStrategy s.opt.bhMem r.bh := by
        unfold callPosition
        have := hcfg.kind
        cases hkk : cfg.kind <;> simp_all
      have e' : callPositionT cfg r s.opt.bhMem s.pos
          { s.opt.swarm with options := o, velocity := fun _ _ => 0 } =
          match computePosition { s.opt.swarm with options := o, velocity := fun _ _ => 0 } cfg.bounds
            cfg.bhStrategy s.opt.bhMem r.bh with
          | (m, .error e) => (m, .error e)
          | (m, .ok x) => (m, .ok (x, positionDtype cfg s.pos)) := by
        unfold callPositionT
        cases hkk : cfg.kind with
        | binary => exact absurd hkk hcfg.kind
        | _ =>
          simp only [hadd, hin, Bool.and_false, Bool.false_eq_true, if_false, if_true]
          rfl
      have hpd : positionDtype cfg s.pos ≠ .bool := by
        unfold positionDtype
        split
        · exact promote_ne_bool h2 (by decide)
        · exact h2
      rw [e']
      rcases hcp : callPosition cfg r s.opt.bhMem
        { s.opt.swarm with options := o, velocity := fun _ _ => 0 } with ⟨bm, er | p⟩
      · rw [← e, hcp]
        exact ⟨rfl, rfl, ⟨h1, h2, h3⟩, fun h => by cases h⟩
      · have hp := frozen_position hcfg (by exact h1) rfl hcp
        rw [← e, hcp]
        exact ⟨rfl, rfl, ⟨hp, hpd, h3⟩, fun _ => rfl⟩

theorem iterateT_resting {cfg : Config n d K} {P : Mat n d K} (hcfg : FreezeCfg cfg P)
    (hc : cfg.clamp = none) (ev : Mat n d K → Except Err (Costs n K)) (r : Draw n d K)
    (iters i : Nat) (q : List Bool) (s : Typed n d K) (hs : Resting P s)
    (hm : s.opt.vhMem = some P) :
    (iterateT cfg ev r iters i q s).1.opt = (iterate cfg ev r iters i q s.opt).1 ∧
    (iterateT cfg ev r iters i q s).2 = (iterate cfg ev r iters i q s.opt).2 ∧
    Resting P (iterateT cfg ev r iters i q s).1 ∧
    (∀ f, (iterateT cfg ev r iters i q s).2 = .ok f →
      (iterateT cfg ev r iters i q s).1.opt.vhMem = some P) := by
  obtain ⟨h1, h2, h3⟩ := hs
  have hpb := promote_ne_bool h3 h2
  unfold iterateT iterate
  cases ev s.opt.swarm.position with
  | error e => exact ⟨rfl, rfl, ⟨h1, h2, h3⟩, fun f h => by cases h⟩
  | ok c =>
    dsimp only
    rcases callGbest cfg r.oracle (recordEval c s.opt).top (recordEval c s.opt).swarm with ⟨t, e | g⟩
    · exact ⟨rfl, rfl, ⟨h1, h2, hpb⟩, fun f h => by cases h⟩
    · dsimp only
      split
      · exact ⟨rfl, rfl, ⟨h1, h2, hpb⟩, fun f _ => hm⟩
      · have h := moveSwarmT_resting hcfg hc r iters i
          ⟨recordBest t g (recordEval c s.opt), s.pos, s.pbest.promote s.pos⟩ ⟨h1, h2, hpb⟩ hm
        dsimp only at h
        generalize moveSwarmT cfg r iters i
          ⟨recordBest t g (recordEval c s.opt), s.pos, s.pbest.promote s.pos⟩ = a at h ⊢
        generalize moveSwarm cfg r iters i (recordBest t g (recordEval c s.opt)) = b at h ⊢
        obtain ⟨s3, x⟩ := a
        obtain ⟨o3, x'⟩ := b
        dsimp only at h
        obtain ⟨rfl, rfl, hr, hv⟩ := h
        rcases x with e | u
        · exact ⟨rfl, rfl, hr, fun f h => by cases h⟩
        · exact ⟨rfl, rfl, hr, fun f _ => hv rfl⟩

theorem loopT_resting {cfg : Config n d K} {P : Mat n d K} (hcfg : FreezeCfg cfg P)
    (hc : cfg.clamp = none) (ev : Nat → Mat n d K → Except Err (Costs n K))
    (env : Nat → Draw n d K) (iters m i : Nat) (q : List Bool) (s : Typed n d K) (hs : Resting P s)
    (hm : s.opt.vhMem = some P) :
    (loopT cfg ev env iters m i q s).1.opt = (loop cfg ev env iters m i q s.opt).1 ∧
    (loopT cfg ev env iters m i q s).2 = (loop cfg ev env iters m i q s.opt).2 ∧
    Resting P (loopT cfg ev env iters m i q s).1 := by
  induction m generalizing i q s with
  | zero => exact ⟨rfl, rfl, hs⟩
  | succ m ih =>
    rw [loopT, loop]
    have h := iterateT_resting hcfg hc (ev i) (env i) iters i q s hs hm
    generalize iterateT cfg (ev i) (env i) iters i q s = a at h ⊢
    generalize iterate cfg (ev i) (env i) iters i q s.opt = b at h ⊢
    obtain ⟨s1, x⟩ := a
    obtain ⟨o1, x'⟩ := b
    dsimp only at h
    obtain ⟨rfl, rfl, hr, hv⟩ := h
    rcases x with e | f
    · exact ⟨rfl, rfl, hr⟩
    · cases f with
      | stop => exact ⟨rfl, rfl, hr⟩
      | «continue» q1 => exact ih (i + 1) q1 s1 hr (hv _ rfl)

theorem optimizeT_resting {cfg : Config n d K} {P : Mat n d K} (hcfg : FreezeCfg cfg P)
    (hc : cfg.clamp = none) (ev : Nat → Mat n d K → Except Err (Costs n K)) (iters : Nat)
    (nproc : Option Nat) (env : Nat → Draw n d K) (s : Typed n d K) (hs : Resting P s) :
    (optimizeT cfg ev iters nproc env s).1.opt = (optimize cfg ev iters nproc env s.opt).1 ∧
    (optimizeT cfg ev iters nproc env s).2 = (optimize cfg ev iters nproc env s.opt).2 ∧
    Resting P (optimizeT cfg ev iters nproc env s).1 := by
  obtain ⟨h1, h2, h3⟩ := hs
  unfold optimizeT optimize
  split
  · exact ⟨rfl, rfl, ⟨h1, h2, h3⟩⟩
  · dsimp only
    have h := loopT_resting hcfg hc ev env iters iters 0 []
      { s with opt := { prepare cfg s.opt with
        openPools := s.opt.openPools + (if nproc.isSome then 1 else 0) } } ⟨h1, h2, h3⟩
      (by rw [← h1]; rfl)
    dsimp only at h
    generalize loopT cfg ev env iters iters 0 [] _ = a at h ⊢
    generalize loop cfg ev env iters iters 0 [] _ = b at h ⊢
    obtain ⟨s1, x⟩ := a
    obtain ⟨o1, x'⟩ := b
    dsimp only at h
    obtain ⟨rfl, rfl, hr⟩ := h
    rcases x with e | u
    · exact ⟨rfl, rfl, hr⟩
    · dsimp only
      cases finish s1.opt with
      | error e => exact ⟨rfl, rfl, hr⟩
      | ok r => exact ⟨rfl, rfl, ⟨hr.1, hr.2, hr.3⟩⟩

/-- C88: with `vh_strategy='adjust'` and no clamp, integer initial positions are accepted: the run is
the one exact numbers give, and the swarm does not move. -/
theorem C88_adjust (cfg : Config n d K) (hk : cfg.kind ≠ .binary) (hv : cfg.vhStrategy = "adjust")
    (hc : cfg.clamp = none) (P : Mat n d K) (hP : cfg.initPos = some P) (given : Dtype)
    (hg : given ≠ .bool) (r1 r2 : InitDraw n d K) (s : Typed n d K)
    (hs : constructT cfg given r1 r2 = .ok s) (ops : List (Op n d K)) :
    (runOpsT cfg given s ops).opt = runOps cfg s.opt ops ∧
    (runOpsT cfg given s ops).opt.swarm.position = P ∧
    ∀ ev iters nproc env,
      (optimizeT cfg ev iters nproc env (runOpsT cfg given s ops)).1.opt =
        (optimize cfg ev iters nproc env (runOps cfg s.opt ops)).1 ∧
      (optimizeT cfg ev iters nproc env (runOpsT cfg given s ops)).2 =
        (optimize cfg ev iters nproc env (runOps cfg s.opt ops)).2 := by
  have hf : freshDtype cfg given = given := by
    unfold freshDtype
    rw [hP]
    rfl
  unfold constructT at hs
  cases hcs : construct cfg r1 r2 with
  | error e => rw [hcs] at hs; cases hs
  | ok o =>
    rw [hcs] at hs
    cases hs
    obtain ⟨sw, hsw, rfl⟩ := construct_ok cfg r1 r2 o hcs
    have hbox : ∀ b, cfg.bounds = some b → InBox b P := resetSwarm_given_box hk hP hsw
    have hcfg : FreezeCfg cfg P := ⟨hk, hv, (fun c h => by rw [hc] at h; cases h), hbox⟩
    have key : ∀ (ops : List (Op n d K)) (s : Typed n d K), Resting P s →
        (runOpsT cfg given s ops).opt = runOps cfg s.opt ops ∧
        Resting P (runOpsT cfg given s ops) := by
      intro ops
      induction ops with
      | nil => exact fun s h => ⟨rfl, h⟩
      | cons op ops ih =>
        intro s h
        simp only [runOpsT, runOps, List.foldl_cons, stepOp] at ih ⊢
        cases op with
        | optimize ev iters nproc env =>
          obtain ⟨e1, -, hr⟩ := optimizeT_resting hcfg hc ev iters nproc env s h
          dsimp only
          rw [← e1]
          exact ih _ hr
        | reset r =>
          dsimp only
          have h2 : Resting P (resetT cfg given r s).1 ∧
              (resetT cfg given r s).1.opt = (reset cfg r s.opt).1 := by
            unfold resetT reset
            cases hr : resetSwarm cfg r with
            | error e => exact ⟨⟨h.1, h.2, h.3⟩, rfl⟩
            | ok sw' =>
              exact ⟨⟨resetSwarm_given hP hr, by rw [hf]; exact hg, by rw [hf]; exact hg⟩, rfl⟩
          rw [← h2.2]
          exact ih _ h2.1
    obtain ⟨e1, hr⟩ := key ops ⟨{ swarm := sw }, freshDtype cfg given, freshDtype cfg given⟩
      ⟨resetSwarm_given hP hsw, by rw [hf]; exact hg, by rw [hf]; exact hg⟩
    refine ⟨e1, hr.position, fun ev iters nproc env => ?_⟩
    obtain ⟨e2, e3, -⟩ := optimizeT_resting hcfg hc ev iters nproc env _ hr
    rw [e1] at e2 e3
    exact ⟨e2, e3⟩

/-! ### Unsigned integers in BinaryPSO -/

/-- C88: with an unsigned `init_pos` of `b` bits, a bit that is 1 and attracted by a 0 gets, in the
first velocity, the social term of an attraction upwards by `2 ** b - 1`. -/
theorem C88_unsigned (b : Nat) (c1 c2 w : K) (r1 r2 : Mat n d K) (s : Swarm n d K) (i : Fin n)
    (j : Fin d) (hp : s.position i j = 1) (hpb : s.pbestPos i j = 1)
    (hbest : s.bestPos.row s.position i j = 0) (hb : 0 < b) :
    tempVelocityT c1 c2 w r1 r2 (.uint b) (.uint b) s i j =
      w * s.velocity i j + c2 * r2 i j * (2 ^ b - 1) ∧
    tempVelocity c1 c2 w r1 r2 s i j = w * s.velocity i j + c2 * r2 i j * (-1) := by
  have h2 : (0 : K) < 2 ^ b := by positivity
  have h1 : (1 : K) < 2 ^ b := one_lt_pow₀ (by norm_num) (by omega)
  have hfl : ⌊(-1 : K) / 2 ^ b⌋ = -1 := by
    rw [Int.floor_eq_iff]
    constructor
    · rw [le_div_iff₀ h2]
      push_cast
      linarith only [h1]
    · rw [div_lt_iff₀ h2]
      push_cast
      linarith only [h1]
  have hw : wrap b (0 - 1 : K) = 2 ^ b - 1 := by
    unfold wrap
    rw [zero_sub, hfl]
    push_cast
    ring
  have hw0 : wrap b (1 - 1 : K) = 0 := by
    unfold wrap
    simp
  constructor
  · simp only [tempVelocityT, subTyped, max_self, hp, hpb, hbest, hw, hw0]
    ring
  · simp only [tempVelocity, hp, hpb, hbest]
    ring

/-! ### Examples -/

namespace Ex

/-- Integer (or other) initial positions 0 and 1 for a `GlobalBestPSO`. -/
def tcfg : Config 2 1 ℚ := { gcfg 2 1 with initPos := some fun i _ => (i : Nat) }

/-- The same for `BinaryPSO`, with `k = 2`. -/
def tbcfg : Config 2 1 ℚ := { bcfg 2 1 2 with initPos := some fun i _ => (i : Nat) }

/-- What a call of three iterations on a new object does: the error, if any, the number of
evaluations and the coordinates at the end. -/
def typedRun (cfg : Config 2 1 ℚ) (t : Dtype) : Option Err × Nat × List ℚ :=
  match constructT cfg t (init 2 1) (init 2 1) with
  | .error e => (some e, 0, [])
  | .ok s =>
    let (s', x) := optimizeT cfg (sphere 2 1) 3 none (fun _ => draw 2 1) s
    (match x with | .error e => some e | .ok _ => none, s'.opt.evals.length,
      (List.finRange 2).map fun i => s'.opt.swarm.position i 0)

/-- The second recorded velocity of the second particle. -/
def typedVelocity (cfg : Config 2 1 ℚ) (t : Dtype) : Option ℚ :=
  match constructT cfg t (init 2 1) (init 2 1) with
  | .error _ => none
  | .ok s => ((optimizeT cfg (sphere 2 1) 3 none (fun _ => draw 2 1) s).1.opt.velocityHistory[1]?).map
      fun V => V 1 0

end Ex

/-- The hypotheses of `C88_plain` are met and such runs return, moving the swarm. -/
example : PlainType Ex.tcfg.kind .float32 ∧ PlainType Ex.tbcfg.kind .int64 ∧
    (Ex.typedRun Ex.tcfg .float32).1 = none ∧ (Ex.typedRun Ex.tcfg .float32).2.1 = 3 ∧
    (Ex.typedRun Ex.tcfg .float32).2.2 ≠ [0, 1] ∧
    (Ex.typedRun Ex.tbcfg .int64).1 = none ∧ (Ex.typedRun Ex.tbcfg .int64).2.1 = 3 := by
  refine ⟨.inl rfl, .inr (.inr ⟨rfl, rfl⟩), ?_⟩
  decide +kernel

/-- The hypotheses of `C88_refused` are met: integers and booleans in a continuous optimizer, booleans
in `BinaryPSO`; `TypeError` after one evaluation. -/
example : Refused Ex.tcfg .int64 ∧ Refused Ex.tcfg .bool ∧ Refused Ex.tbcfg .bool ∧
    Ex.typedRun Ex.tcfg .int64 = (some .typeError, 1, [0, 1]) ∧
    Ex.typedRun Ex.tcfg .bool = (some .typeError, 1, [0, 1]) ∧
    Ex.typedRun Ex.tbcfg .bool = (some .typeError, 1, [0, 1]) := by
  refine ⟨.inr ⟨by decide, .inl rfl, .inl (by decide)⟩, .inl rfl, .inl rfl, ?_⟩
  decide +kernel

/-- The hypotheses of `C88_adjust` are met: three evaluations of the initial positions. -/
example : Ex.typedRun { Ex.tcfg with vhStrategy := "adjust" } .int64 = (none, 3, [0, 1]) := by
  decide +kernel

/-- C88: an unsigned `init_pos` changes the run of `BinaryPSO`: in this run the velocity of the
second particle, which exact numbers (and signed integers) pull down, goes up by `2 ** 8` times the
social coefficient more. -/
theorem C88_unsigned_run : Ex.typedVelocity Ex.tbcfg .int64 = some (1 / 12) ∧
    Ex.typedVelocity Ex.tbcfg (.uint 8) = some (1 / 12 + 256 / 6) := by
  decide +kernel

end PySwarms

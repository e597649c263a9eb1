import Verif.Model.Bench
import Verif.Props.Handlers
import Verif.Props.Bounds
import Verif.Examples

/-! # C100: programs written with the backend -/

set_option linter.unusedSectionVars false

namespace PySwarms

variable {n d : Nat} {K : Type} [Field K] [LinearOrder K] [IsStrictOrderedRing K] [FloorRing K]
  [Transc K]
variable {ι κ : Type} [DecidableEq ι] [DecidableEq κ]

/-! ## Specification -/

/-- The boundary strategies that look at the handler's memory are shrink and intermediate. -/
def MemoryFree (strategy : String) : Prop := strategy ∉ ["shrink", "intermediate"]

/-- The statements that create or move swarms use the bounds of their swarm: `create_swarm` gets them
(with the default `center`), `compute_position` gets them, and random numbers are in `[0, 1)`. -/
def Stmt.Inside (box : ι → Bounds d K) : Stmt n d K ι κ → Prop
  | .create a _ bounds center _ _ r => bounds = some (box a) ∧ center = (fun _ => 1) ∧
      ∀ i j, Unit01 (r.pos i j)
  | .position a _ bounds r => bounds = some (box a) ∧ r.Legal
  | _ => True

/-- All swarms are inside their bounds, and were whenever they were evaluated. -/
def Bench.Inside (box : ι → Bounds d K) (S : Bench n d K ι κ) : Prop :=
  ∀ a, InBox (box a) (S.swarm a).position ∧ ∀ x ∈ S.seen a, InBox (box a) x

/-- Before a boundary handler that looks at its memory is used, the program gives it one; `P` are
the handlers that have one at the start. -/
def Primed (bn : κ → String) : (κ → Prop) → List (Stmt n d K ι κ) → Prop
  | _, [] => True
  | P, .remember _ h :: prog => Primed bn (fun k => P k ∨ k = h) prog
  | P, .position _ h _ _ :: prog => (MemoryFree (bn h) ∨ P h) ∧ Primed bn P prog
  | P, _ :: prog => Primed bn P prog

/-- The boundary handlers, the velocity handlers and the dictionaries a statement names. -/
def Stmt.bhs : Stmt n d K ι κ → κ → Prop
  | .position _ h _ _, k => k = h
  | .remember _ h, k => k = h
  | _, _ => False

/-- See `Stmt.bhs`. -/
def Stmt.vhs : Stmt n d K ι κ → κ → Prop
  | .velocity _ h _ _ _ _, k => k = h
  | _, _ => False

/-- See `Stmt.bhs`; `create_swarm` without options names its default dictionary. -/
def Stmt.names : Stmt n d K ι κ → Nat → Prop
  | .create _ dict _ _ _ _ _, k => k = dict.getD 0
  | .useDict _ dict, k => k = dict
  | _, _ => False

/-- The dictionaries swarm `a` can hold during the program: the one it holds at the start and those
its statements name. -/
def MayHold (S : Bench n d K ι κ) (prog : List (Stmt n d K ι κ)) (a : ι) (k : Nat) : Prop :=
  k = S.dict a ∨ ∃ st ∈ prog, st.who = a ∧ st.names k

/-- Swarm `a` shares nothing that matters with the other swarms of the program: no boundary handler
with a memory, no velocity handler with a memory (adjust), and no dictionary into which the
statements of another swarm write. -/
structure Separate (bn vn : κ → String) (S : Bench n d K ι κ) (prog : List (Stmt n d K ι κ))
    (a : ι) : Prop where
  bh : ∀ st ∈ prog, st.who = a → ∀ st' ∈ prog, st'.who ≠ a → ∀ h, st.bhs h → st'.bhs h →
    MemoryFree (bn h)
  vh : ∀ st ∈ prog, st.who = a → ∀ st' ∈ prog, st'.who ≠ a → ∀ h, st.vhs h → st'.vhs h →
    vn h ≠ "adjust"
  dict : ∀ c key v, .setOption c key v ∈ prog → c ≠ a → ∀ k, MayHold S prog c k →
    ¬ MayHold S prog a k

/-! ## Lemmas -/

omit [IsStrictOrderedRing K] in
theorem bhCall_memoryFree {strategy : String} (hs : MemoryFree strategy) (m m' : Option (Mat n d K))
    (b : Bounds d K) (r : BHDraw d K) (x : Mat n d K) :
    (bhCall strategy m b r x).1 = m ∧
      (bhCall strategy m b r x).2 = (bhCall strategy m' b r x).2 := by
  unfold MemoryFree at hs
  simp only [List.mem_cons, List.not_mem_nil, or_false, not_or] at hs
  unfold bhCall
  rw [if_neg hs.1, if_neg hs.2, if_neg hs.1, if_neg hs.2]
  split_ifs <;> exact ⟨rfl, rfl⟩

theorem bhCall_memoryFree_inBox {strategy : String} (hs : MemoryFree strategy)
    {m m' : Option (Mat n d K)} {b : Bounds d K} (hb : ProperBounds b) {r : BHDraw d K}
    (hr : r.Legal) {x p : Mat n d K} (h : bhCall strategy m b r x = (m', .ok p)) : InBox b p := by
  by_cases hk : strategy ∈ bhStrategies
  · refine (C14_memoryless strategy ?_ m m' b hb r hr x p h).1
    unfold MemoryFree at hs
    simp only [bhStrategies, List.mem_cons, List.not_mem_nil, or_false] at hk hs ⊢
    tauto
  · rw [C14_unknown_strategy strategy hk m b r x] at h
    cases h

theorem createSwarm_inBox {b : Bounds d K} (hb : ProperBounds b) {o : Opts K}
    {ip : Option (Mat n d K)} {c : Option (Clamp d K)} {r : InitDraw n d K}
    (hr : ∀ i j, Unit01 (r.pos i j)) {s : Swarm n d K}
    (h : createSwarm false false o (some b) (fun _ => 1) ip c r = .ok s) : InBox b s.position := by
  unfold createSwarm at h
  simp only [Bool.false_eq_true, if_false] at h
  cases ip with
  | none =>
    obtain ⟨p, h1, h2⟩ := C37_generated_inside b hb r.pos hr
    rw [h1] at h
    cases h
    exact fun i j => ⟨(h2 i j).1, (h2 i j).2.le⟩
  | some p =>
    by_cases hp : InBox b p
    · rw [(C37_init_pos (some b) (fun _ => 1) p r.pos).1 (by rintro _ ⟨⟩; exact hp)] at h
      cases h
      exact hp
    · rw [(C37_init_pos (some b) (fun _ => 1) p r.pos).2 ⟨b, rfl, hp⟩] at h
      cases h

omit [IsStrictOrderedRing K] [Transc K] in
theorem bhCall_error_mem {strategy : String} {m m' : Option (Mat n d K)} {b : Bounds d K}
    {r : BHDraw d K} {x : Mat n d K} {e : Err} (h : bhCall strategy m b r x = (m', .error e)) :
    m' = m := by
  unfold bhCall at h
  split at h
  · cases h
  split at h
  · exact (congrArg Prod.fst h).symm
  split at h
  · unfold bhShrink at h
    cases m with
    | none => cases h
    | some m =>
      dsimp only at h
      split at h
      · exact (congrArg Prod.fst h).symm
      split at h
      · exact (congrArg Prod.fst h).symm
      · cases h
  split at h
  · cases h
  split at h
  · unfold bhIntermediate at h
    cases m with
    | none => cases h
    | some m => cases h
  split at h
  · exact (congrArg Prod.fst h).symm
  · exact (congrArg Prod.fst h).symm

theorem inside_update {box : ι → Bounds d K} {S S' : Bench n d K ι κ} (hS : S.Inside box) (a : ι)
    (s : Swarm n d K) (h1 : S'.swarm = Function.update S.swarm a s)
    (hs : InBox (box a) s.position) (h2 : S'.seen = S.seen) : S'.Inside box := by
  intro c
  rw [h1, h2]
  refine ⟨?_, (hS c).2⟩
  by_cases hc : c = a
  · subst hc; rw [Function.update_self]; exact hs
  · rw [Function.update_of_ne hc]; exact (hS c).1

theorem step_inside (bn vn : κ → String) (box : ι → Bounds d K) (hb : ∀ a, ProperBounds (box a))
    (S : Bench n d K ι κ) (hS : S.Inside box) (st : Stmt n d K ι κ) (hst : st.Inside box)
    (hpos : ∀ a h bounds r p, st = .position a h bounds r →
      (computePosition (S.swarm a) bounds (bn h) (S.bh h) r).2 = .ok p → InBox (box a) p) :
    (S.step bn vn st).1.Inside box := by
  cases st with
  | create a dict bounds center ip c r =>
    obtain ⟨rfl, rfl, hr⟩ := hst
    rw [Bench.step]
    cases h : createSwarm false false [] (some (box a)) (fun _ => 1) ip c r with
    | error e => exact hS
    | ok s => exact inside_update hS a s rfl (createSwarm_inBox (hb a) hr h) rfl
  | evaluate a =>
    intro c
    refine ⟨(hS c).1, ?_⟩
    show ∀ x ∈ Function.update S.seen a (S.seen a ++ [(S.swarm a).position]) c, InBox (box c) x
    by_cases hc : c = a
    · subst hc
      rw [Function.update_self]
      intro x hx
      rcases List.mem_append.1 hx with hx | hx
      · exact (hS c).2 x hx
      · rw [List.mem_singleton.1 hx]; exact (hS c).1
    · rw [Function.update_of_ne hc]; exact (hS c).2
  | assign a f => exact inside_update hS a _ rfl (hS a).1 rfl
  | velocity a h c b r1 r2 =>
    rw [Bench.step]
    dsimp only
    split
    · exact hS
    · exact inside_update hS a _ rfl (hS a).1 rfl
  | position a h b r =>
    have := hpos a h b r
    rw [Bench.step]
    generalize computePosition (S.swarm a) b (bn h) (S.bh h) r = out at this ⊢
    obtain ⟨m, e | p⟩ := out
    · exact hS
    · exact inside_update hS a _ rfl (this p rfl rfl) rfl
  | remember a h => exact hS
  | setOption a k v => exact hS
  | useDict a k => exact hS

theorem computePosition_memoryFree_inBox {s : Swarm n d K} {b : Bounds d K} (hb : ProperBounds b)
    {strategy : String} (hs : MemoryFree strategy) {m : Option (Mat n d K)} {r : BHDraw d K}
    (hr : r.Legal) {p : Mat n d K} (h : (computePosition s (some b) strategy m r).2 = .ok p) :
    InBox b p :=
  bhCall_memoryFree_inBox hs hb hr (Prod.ext rfl h)

/-! ## Theorems -/

/-- C100: with boundary handlers other than shrink and intermediate, every program keeps every swarm inside its bounds, and evaluates it only there: whatever the velocities,
the order of the statements, and however the handlers are shared. -/
theorem C100_inside (bn vn : κ → String) (box : ι → Bounds d K) (hb : ∀ a, ProperBounds (box a))
    (prog : List (Stmt n d K ι κ)) (hprog : ∀ st ∈ prog, st.Inside box)
    (hfree : ∀ a h bounds r, .position a h bounds r ∈ prog → MemoryFree (bn h))
    (S : Bench n d K ι κ) (hS : S.Inside box) : (S.run bn vn prog).Inside box := by
  induction prog generalizing S with
  | nil => exact hS
  | cons st prog ih =>
    refine ih (fun s hs => hprog s (List.mem_cons_of_mem _ hs))
      (fun a h b r hm => hfree a h b r (List.mem_cons_of_mem _ hm)) _ ?_
    refine step_inside bn vn box hb S hS st (hprog st List.mem_cons_self) ?_
    rintro a h bounds r p rfl hp
    obtain ⟨rfl, hr⟩ := hprog _ List.mem_cons_self
    exact computePosition_memoryFree_inBox (hb a) (hfree a h _ r List.mem_cons_self) hr hp

/-- C100: the strategies shrink and intermediate keep all swarms inside common bounds as well, also
if several swarms share a handler, provided that each handler is given a memory
(`handler.memory = swarm.position`) before its first use. -/
theorem C100_primed (bn vn : κ → String) (b : Bounds d K)
    (hb : ProperBounds b) (P : κ → Prop) (prog : List (Stmt n d K ι κ))
    (hprog : ∀ st ∈ prog, st.Inside fun _ => b) (hp : Primed bn P prog) (S : Bench n d K ι κ)
    (hS : S.Inside fun _ => b) (hP : ∀ h, P h → ∃ m, S.bh h = some m ∧ InBox b m) :
    (S.run bn vn prog).Inside fun _ => b := by
  induction prog generalizing S P with
  | nil => exact hS
  | cons st prog ih =>
    have hrest : ∀ s ∈ prog, s.Inside fun _ : ι => b := fun s hs => hprog s (List.mem_cons_of_mem _ hs)
    have hin := hprog st List.mem_cons_self
    have hstep := step_inside bn vn (fun _ : ι => b) (fun _ => hb) S hS st hin
    cases st with
    | remember a h =>
      refine ih (fun k => P k ∨ k = h) hrest hp _ (hstep (by rintro _ _ _ _ _ ⟨⟩)) ?_
      rintro k (hk | rfl)
      · by_cases hkh : k = h
        · subst hkh
          exact ⟨_, Function.update_self .., (hS a).1⟩
        · obtain ⟨m, h1, h2⟩ := hP k hk
          exact ⟨m, (Function.update_of_ne hkh ..).trans h1, h2⟩
      · exact ⟨_, Function.update_self .., (hS a).1⟩
    | position a h bounds r =>
      obtain ⟨hm, hp⟩ := hp
      obtain ⟨rfl, hr⟩ := hin
      have key : ∀ out, computePosition (S.swarm a) (some b) (bn h) (S.bh h) r = out →
          (∀ p, out.2 = .ok p → InBox b p) ∧ (P h → ∃ m, out.1 = some m ∧ InBox b m) := by
        rintro ⟨m', res⟩ hout
        have hout' : bhCall (bn h) (S.bh h) b r
            (fun i j => (S.swarm a).position i j + (S.swarm a).velocity i j) = (m', res) := hout
        by_cases hf : MemoryFree (bn h)
        · refine ⟨fun p hp => ?_, fun hPh => ?_⟩
          · obtain rfl : res = .ok p := hp
            exact bhCall_memoryFree_inBox hf hb hr hout'
          · obtain ⟨m, h1, h2⟩ := hP h hPh
            refine ⟨m, ?_, h2⟩
            have : m' = S.bh h :=
              (congrArg Prod.fst hout').symm.trans (bhCall_memoryFree hf _ none _ _ _).1
            rw [this, h1]
        · have hPh := hm.resolve_left hf
          obtain ⟨m, h1, h2⟩ := hP h hPh
          have hs : bn h ∈ ["shrink", "intermediate"] := not_not.1 hf
          rw [h1] at hout'
          cases res with
          | ok p =>
            obtain ⟨h3, h4⟩ := C14_memory _ hs m m' b hb h2 r _ p hout'
            refine ⟨?_, fun _ => ⟨p, h4, h3⟩⟩
            rintro p' ⟨⟩
            exact h3
          | error e =>
            exact ⟨by rintro p ⟨⟩, fun _ => ⟨m, bhCall_error_mem hout', h2⟩⟩
      refine ih P hrest hp _ (hstep ?_) ?_
      · rintro a' h' bounds r' p ⟨⟩ hp'
        exact (key _ rfl).1 p hp'
      · intro k hk
        have h1 := (key _ rfl).2
        show ∃ m, (S.step bn vn (.position a h (some b) r)).1.bh k = some m ∧ InBox b m
        rw [Bench.step]
        generalize computePosition (S.swarm a) (some b) (bn h) (S.bh h) r = out at h1
        have h2 : ∃ m, Function.update S.bh h out.1 k = some m ∧ InBox b m := by
          by_cases hkh : k = h
          · subst hkh
            rw [Function.update_self]
            exact h1 hk
          · rw [Function.update_of_ne hkh]
            exact hP k hk
        obtain ⟨m, e | p⟩ := out <;> exact h2
    | create a dict bounds center ip c r =>
      refine ih P hrest hp _ (hstep (by rintro _ _ _ _ _ ⟨⟩)) fun k hk => ?_
      obtain ⟨m, h1, h2⟩ := hP k hk
      refine ⟨m, ?_, h2⟩
      show (S.step bn vn (.create a dict bounds center ip c r)).1.bh k = some m
      rw [Bench.step]
      split <;> exact h1
    | evaluate a => exact ih P hrest hp _ (hstep (by rintro _ _ _ _ _ ⟨⟩)) hP
    | assign a f => exact ih P hrest hp _ (hstep (by rintro _ _ _ _ _ ⟨⟩)) hP
    | velocity a h c b' r1 r2 =>
      refine ih P hrest hp _ (hstep (by rintro _ _ _ _ _ ⟨⟩)) fun k hk => ?_
      obtain ⟨m, h1, h2⟩ := hP k hk
      refine ⟨m, ?_, h2⟩
      show (S.step bn vn (.velocity a h c b' r1 r2)).1.bh k = some m
      rw [Bench.step]
      split <;> exact h1
    | setOption a k v => exact ih P hrest hp _ (hstep (by rintro _ _ _ _ _ ⟨⟩)) hP
    | useDict a k => exact ih P hrest hp _ (hstep (by rintro _ _ _ _ _ ⟨⟩)) hP

omit [IsStrictOrderedRing K] [FloorRing K] [Transc K] in
theorem vhCall_mem {strategy : String} (hs : strategy ≠ "adjust") (m m' : Option (Mat n d K))
    (c : Option (Clamp d K)) (kw : VHKw n d K) (v : Mat n d K) :
    (vhCall strategy m c kw v).2 = (vhCall strategy m' c kw v).2 := by
  unfold vhCall
  rw [if_neg hs, if_neg hs]
  split_ifs <;> rfl

omit [IsStrictOrderedRing K] [FloorRing K] [Transc K] in
theorem computeVelocity_mem_free {strategy : String} (hs : strategy ≠ "adjust")
    (m m' : Option (Mat n d K)) (s : Swarm n d K) (c : Option (Clamp d K))
    (b : Option (Bounds d K)) (r1 r2 : Mat n d K) :
    (computeVelocity s c strategy m b r1 r2).2 = (computeVelocity s c strategy m' b r1 r2).2 := by
  unfold computeVelocity
  cases s.options.lookup "c1" with
  | none => rfl
  | some c1 =>
    cases s.options.lookup "c2" with
    | none => rfl
    | some c2 =>
      cases s.options.lookup "w" with
      | none => rfl
      | some w =>
        dsimp only
        have h := vhCall_mem hs m m' c { position := some s.position, bounds := some b }
          (tempVelocity c1 c2 w r1 r2 s)
        generalize vhCall strategy m c { position := some s.position, bounds := some b }
          (tempVelocity c1 c2 w r1 r2 s) = x at h ⊢
        generalize vhCall strategy m' c { position := some s.position, bounds := some b }
          (tempVelocity c1 c2 w r1 r2 s) = y at h ⊢
        cases s.bestPos with
        | empty =>
          dsimp only
          rw [if_neg hs, if_neg hs]
          split_ifs
          · exact h
          · obtain ⟨x1, x2⟩ := x
            obtain ⟨y1, y2⟩ := y
            cases h
            cases x2 <;> rfl
          · rfl
        | single g => exact h
        | perParticle g => exact h

theorem computePosition_mem {strategy : String} (hs : MemoryFree strategy)
    (m m' : Option (Mat n d K)) (s : Swarm n d K) (b : Option (Bounds d K)) (r : BHDraw d K) :
    (computePosition s b strategy m r).2 = (computePosition s b strategy m' r).2 := by
  unfold computePosition
  cases b with
  | none => rfl
  | some b => exact (bhCall_memoryFree hs m m' b r _).2

/-- Two runs look the same to swarm `a`. -/
structure LooksAlike (bn vn : κ → String) (S0 : Bench n d K ι κ) (all : List (Stmt n d K ι κ)) (a : ι)
    (T T' : Bench n d K ι κ) : Prop where
  swarm : T.swarm a = T'.swarm a
  dict : T.dict a = T'.dict a
  seen : T.seen a = T'.seen a
  dicts : ∀ k, MayHold S0 all a k → T.dicts k = T'.dicts k
  bh : ∀ st ∈ all, st.who = a → ∀ h, st.bhs h → ¬ MemoryFree (bn h) → T.bh h = T'.bh h
  vh : ∀ st ∈ all, st.who = a → ∀ h, st.vhs h → vn h = "adjust" → T.vh h = T'.vh h
  holds : ∀ c, MayHold S0 all c (T.dict c)

theorem step_other {bn vn : κ → String} {S0 : Bench n d K ι κ} {all : List (Stmt n d K ι κ)} {a : ι}
    (hsep : Separate bn vn S0 all a) {T T' : Bench n d K ι κ} (h : LooksAlike bn vn S0 all a T T')
    (st : Stmt n d K ι κ) (hst : st ∈ all) (hw : st.who ≠ a) :
    LooksAlike bn vn S0 all a (T.step bn vn st).1 T' := by
  have hbh : ∀ k m, st.bhs k → ∀ st' ∈ all, st'.who = a → ∀ h', st'.bhs h' →
      ¬ MemoryFree (bn h') → Function.update T.bh k m h' = T.bh h' := by
    intro k m hk st' hm' hw' h' hh' hf
    refine Function.update_of_ne ?_ ..
    rintro rfl
    exact hf (hsep.bh st' hm' hw' st hst hw h' hh' hk)
  have hvh : ∀ k m, st.vhs k → ∀ st' ∈ all, st'.who = a → ∀ h', st'.vhs h' →
      vn h' = "adjust" → Function.update T.vh k m h' = T.vh h' := by
    intro k m hk st' hm' hw' h' hh' hf
    refine Function.update_of_ne ?_ ..
    rintro rfl
    exact hsep.vh st' hm' hw' st hst hw h' hh' hk hf
  have hholds : ∀ k, st.names k → ∀ c, MayHold S0 all c (Function.update T.dict st.who k c) := by
    intro k hk c
    by_cases hc : c = st.who
    · subst hc
      rw [Function.update_self]
      exact .inr ⟨st, hst, rfl, hk⟩
    · rw [Function.update_of_ne hc]; exact h.holds c
  cases st with
  | create b dict bounds center ip c r =>
    rw [Bench.step]
    split
    · exact h
    · exact ⟨(Function.update_of_ne (Ne.symm hw) ..).trans h.swarm,
        (Function.update_of_ne (Ne.symm hw) ..).trans h.dict, h.seen, h.dicts, h.bh, h.vh,
        hholds _ rfl⟩
  | evaluate b =>
    exact ⟨h.swarm, h.dict, (Function.update_of_ne (Ne.symm hw) ..).trans h.seen, h.dicts, h.bh,
      h.vh, h.holds⟩
  | assign b f =>
    exact ⟨(Function.update_of_ne (Ne.symm hw) ..).trans h.swarm, h.dict, h.seen, h.dicts, h.bh,
      h.vh, h.holds⟩
  | velocity b k c b' r1 r2 =>
    rw [Bench.step]
    split
    · exact ⟨h.swarm, h.dict, h.seen, h.dicts, h.bh, fun st' h1 h2 h' h3 h4 =>
        (hvh k _ rfl st' h1 h2 h' h3 h4).trans (h.vh st' h1 h2 h' h3 h4), h.holds⟩
    · exact ⟨(Function.update_of_ne (Ne.symm hw) ..).trans h.swarm, h.dict, h.seen, h.dicts, h.bh,
        fun st' h1 h2 h' h3 h4 =>
        (hvh k _ rfl st' h1 h2 h' h3 h4).trans (h.vh st' h1 h2 h' h3 h4), h.holds⟩
  | position b k b' r =>
    rw [Bench.step]
    split
    · exact ⟨h.swarm, h.dict, h.seen, h.dicts, fun st' h1 h2 h' h3 h4 =>
        (hbh k _ rfl st' h1 h2 h' h3 h4).trans (h.bh st' h1 h2 h' h3 h4), h.vh, h.holds⟩
    · exact ⟨(Function.update_of_ne (Ne.symm hw) ..).trans h.swarm, h.dict, h.seen, h.dicts,
        fun st' h1 h2 h' h3 h4 =>
        (hbh k _ rfl st' h1 h2 h' h3 h4).trans (h.bh st' h1 h2 h' h3 h4), h.vh, h.holds⟩
  | remember b k =>
    exact ⟨h.swarm, h.dict, h.seen, h.dicts, fun st' h1 h2 h' h3 h4 =>
      (hbh k _ rfl st' h1 h2 h' h3 h4).trans (h.bh st' h1 h2 h' h3 h4), h.vh, h.holds⟩
  | setOption b key v =>
    refine ⟨h.swarm, h.dict, h.seen, fun k hk => ?_, h.bh, h.vh, h.holds⟩
    refine (Function.update_of_ne ?_ ..).trans (h.dicts k hk)
    rintro rfl
    exact hsep.dict b key v hst hw _ (h.holds b) hk
  | useDict b k =>
    exact ⟨h.swarm, (Function.update_of_ne (Ne.symm hw) ..).trans h.dict, h.seen, h.dicts, h.bh,
      h.vh, hholds _ rfl⟩

theorem step_own {bn vn : κ → String} {S0 : Bench n d K ι κ} {all : List (Stmt n d K ι κ)} {a : ι}
    {T T' : Bench n d K ι κ} (h : LooksAlike bn vn S0 all a T T') (st : Stmt n d K ι κ) (hst : st ∈ all)
    (hw : st.who = a) : LooksAlike bn vn S0 all a (T.step bn vn st).1 (T'.step bn vn st).1 := by
  have hopt : T.options a = T'.options a := by
    unfold Bench.options
    rw [← h.dict]
    exact h.dicts _ (h.holds a)
  have hholds : ∀ k, st.names k → ∀ c, MayHold S0 all c (Function.update T.dict st.who k c) := by
    intro k hk c
    by_cases hc : c = st.who
    · subst hc
      rw [Function.update_self]
      exact .inr ⟨st, hst, rfl, hk⟩
    · rw [Function.update_of_ne hc]; exact h.holds c
  have hself : ∀ {β : Type} (f g : ι → β) (x : β),
      Function.update f a x a = Function.update g a x a := by
    intro β f g x; rw [Function.update_self, Function.update_self]
  cases st with
  | create b dict bounds center ip c r =>
    obtain rfl : b = a := hw
    rw [Bench.step, Bench.step]
    split
    · exact h
    · exact ⟨hself .., hself .., h.seen, h.dicts, h.bh, h.vh, hholds _ rfl⟩
  | evaluate b =>
    obtain rfl : b = a := hw
    refine ⟨h.swarm, h.dict, ?_, h.dicts, h.bh, h.vh, h.holds⟩
    show Function.update T.seen b (T.seen b ++ [(T.swarm b).position]) b =
      Function.update T'.seen b (T'.seen b ++ [(T'.swarm b).position]) b
    rw [h.seen, h.swarm]
    exact hself ..
  | assign b f =>
    obtain rfl : b = a := hw
    refine ⟨?_, h.dict, h.seen, h.dicts, h.bh, h.vh, h.holds⟩
    rw [Bench.step, Bench.step, h.swarm]
    exact hself ..
  | velocity b k c b' r1 r2 =>
    obtain rfl : b = a := hw
    rw [Bench.step, Bench.step, h.swarm, hopt]
    have key : (computeVelocity { T'.swarm b with options := T'.options b } c (vn k) (T.vh k) b' r1
        r2).2 = (computeVelocity { T'.swarm b with options := T'.options b } c (vn k) (T'.vh k) b' r1
        r2).2 ∧ (vn k = "adjust" →
        (computeVelocity { T'.swarm b with options := T'.options b } c (vn k) (T.vh k) b' r1
        r2).1 = (computeVelocity { T'.swarm b with options := T'.options b } c (vn k) (T'.vh k) b' r1
        r2).1) := by
      by_cases ha : vn k = "adjust"
      · rw [h.vh _ hst rfl k rfl ha]
        exact ⟨rfl, fun _ => rfl⟩
      · exact ⟨computeVelocity_mem_free ha .., fun h => absurd h ha⟩
    dsimp only at key ⊢
    generalize computeVelocity _ c (vn k) (T.vh k) b' r1 r2 = x at key ⊢
    generalize computeVelocity _ c (vn k) (T'.vh k) b' r1 r2 = y at key ⊢
    obtain ⟨x1, x2⟩ := x
    obtain ⟨y1, y2⟩ := y
    obtain ⟨k1, k2⟩ := key
    obtain rfl : x2 = y2 := k1
    have hv : ∀ st' ∈ all, st'.who = b → ∀ h', st'.vhs h' → vn h' = "adjust" →
        Function.update T.vh k x1 h' = Function.update T'.vh k y1 h' := by
      intro st' h1 h2 h' h3 h4
      by_cases hk : h' = k
      · subst hk
        rw [Function.update_self, Function.update_self]
        exact k2 h4
      · rw [Function.update_of_ne hk, Function.update_of_ne hk]
        exact h.vh st' h1 h2 h' h3 h4
    cases x2 with
    | error e => exact ⟨h.swarm, h.dict, h.seen, h.dicts, h.bh, hv, h.holds⟩
    | ok v => exact ⟨hself .., h.dict, h.seen, h.dicts, h.bh, hv, h.holds⟩
  | position b k b' r =>
    obtain rfl : b = a := hw
    rw [Bench.step, Bench.step, h.swarm]
    have key : (computePosition (T'.swarm b) b' (bn k) (T.bh k) r).2 =
        (computePosition (T'.swarm b) b' (bn k) (T'.bh k) r).2 ∧ (¬ MemoryFree (bn k) →
        (computePosition (T'.swarm b) b' (bn k) (T.bh k) r).1 =
        (computePosition (T'.swarm b) b' (bn k) (T'.bh k) r).1) := by
      by_cases ha : MemoryFree (bn k)
      · exact ⟨computePosition_mem ha .., fun h => absurd ha h⟩
      · rw [h.bh _ hst rfl k rfl ha]
        exact ⟨rfl, fun _ => rfl⟩
    generalize computePosition (T'.swarm b) b' (bn k) (T.bh k) r = x at key ⊢
    generalize computePosition (T'.swarm b) b' (bn k) (T'.bh k) r = y at key ⊢
    obtain ⟨x1, x2⟩ := x
    obtain ⟨y1, y2⟩ := y
    obtain ⟨k1, k2⟩ := key
    obtain rfl : x2 = y2 := k1
    have hv : ∀ st' ∈ all, st'.who = b → ∀ h', st'.bhs h' → ¬ MemoryFree (bn h') →
        Function.update T.bh k x1 h' = Function.update T'.bh k y1 h' := by
      intro st' h1 h2 h' h3 h4
      by_cases hk : h' = k
      · subst hk
        rw [Function.update_self, Function.update_self]
        exact k2 h4
      · rw [Function.update_of_ne hk, Function.update_of_ne hk]
        exact h.bh st' h1 h2 h' h3 h4
    cases x2 with
    | error e => exact ⟨h.swarm, h.dict, h.seen, h.dicts, hv, h.vh, h.holds⟩
    | ok v => exact ⟨hself .., h.dict, h.seen, h.dicts, hv, h.vh, h.holds⟩
  | remember b k =>
    obtain rfl : b = a := hw
    refine ⟨h.swarm, h.dict, h.seen, h.dicts, fun st' h1 h2 h' h3 h4 => ?_, h.vh, h.holds⟩
    show Function.update T.bh k (some (T.swarm b).position) h' =
      Function.update T'.bh k (some (T'.swarm b).position) h'
    rw [h.swarm]
    by_cases hk : h' = k
    · subst hk
      rw [Function.update_self, Function.update_self]
    · rw [Function.update_of_ne hk, Function.update_of_ne hk]
      exact h.bh st' h1 h2 h' h3 h4
  | setOption b key v =>
    obtain rfl : b = a := hw
    refine ⟨h.swarm, h.dict, h.seen, fun k hk => ?_, h.bh, h.vh, h.holds⟩
    show Function.update T.dicts (T.dict b) ((T.options b).put key v) k =
      Function.update T'.dicts (T'.dict b) ((T'.options b).put key v) k
    rw [hopt, h.dict]
    by_cases hk' : k = T'.dict b
    · subst hk'
      rw [Function.update_self, Function.update_self]
    · rw [Function.update_of_ne hk', Function.update_of_ne hk']
      exact h.dicts k hk
  | useDict b k =>
    obtain rfl : b = a := hw
    exact ⟨h.swarm, hself .., h.seen, h.dicts, h.bh, h.vh, hholds _ rfl⟩

theorem run_alike {bn vn : κ → String} {S0 : Bench n d K ι κ} {all : List (Stmt n d K ι κ)} {a : ι}
    (hsep : Separate bn vn S0 all a) (prog : List (Stmt n d K ι κ)) (hsub : ∀ st ∈ prog, st ∈ all)
    (T T' : Bench n d K ι κ) (h : LooksAlike bn vn S0 all a T T') :
    LooksAlike bn vn S0 all a (T.run bn vn prog) (T'.run bn vn (prog.filter fun st => st.who = a)) := by
  induction prog generalizing T T' with
  | nil => exact h
  | cons st prog ih =>
    have hm := hsub st List.mem_cons_self
    have hs := fun s hs => hsub s (List.mem_cons_of_mem st hs)
    by_cases hw : st.who = a
    · rw [List.filter_cons_of_pos (by simpa using hw)]
      exact ih hs _ _ (step_own h st hm hw)
    · rw [List.filter_cons_of_neg (by simpa using hw)]
      exact ih hs _ _ (step_other hsep h st hm hw)

/-- C100 (separation): a swarm that shares no handler with a memory and no dictionary that others
write to is not affected by the other swarms of the program: leaving out all their statements gives
it the same attributes, options and evaluated positions. -/
theorem C100_separate (bn vn : κ → String) (S : Bench n d K ι κ) (prog : List (Stmt n d K ι κ))
    (a : ι) (hsep : Separate bn vn S prog a) :
    let T := S.run bn vn prog
    let T' := S.run bn vn (prog.filter fun st => st.who = a)
    T.swarm a = T'.swarm a ∧ T.options a = T'.options a ∧ T.seen a = T'.seen a := by
  have h := run_alike hsep prog (fun _ h => h) S S
    ⟨rfl, rfl, rfl, fun _ _ => rfl, fun _ _ _ _ _ _ => rfl, fun _ _ _ _ _ _ => rfl,
      fun _ => .inl rfl⟩
  refine ⟨h.swarm, ?_, h.seen⟩
  unfold Bench.options
  rw [← h.dict]
  exact h.dicts _ (h.holds a)

/-- All swarms of the program are created without `options` and keep the dictionary they got. -/
def Stmt.KeepsDefault : Stmt n d K ι κ → Prop
  | .create _ dict _ _ _ _ _ => dict = none
  | .useDict _ _ => False
  | _ => True

theorem run_dict (bn vn : κ → String) (prog : List (Stmt n d K ι κ))
    (hprog : ∀ st ∈ prog, st.KeepsDefault) (S : Bench n d K ι κ) (hS : ∀ a, S.dict a = 0) (a : ι) :
    (S.run bn vn prog).dict a = 0 := by
  induction prog generalizing S with
  | nil => exact hS a
  | cons st prog ih =>
    refine ih (fun s hs => hprog s (List.mem_cons_of_mem _ hs)) _ ?_
    have hst := hprog st List.mem_cons_self
    intro c
    show (S.step bn vn st).1.dict c = 0
    cases st with
    | create b dict bounds center ip cl r =>
      obtain rfl : dict = none := hst
      rw [Bench.step]
      split
      · exact hS c
      · show Function.update S.dict b 0 c = 0
        by_cases hc : c = b
        · subst hc; rw [Function.update_self]
        · rw [Function.update_of_ne hc]; exact hS c
    | velocity b k cl b' r1 r2 => rw [Bench.step]; split <;> exact hS c
    | position b k b' r => rw [Bench.step]; split <;> exact hS c
    | useDict b k => exact absurd hst id
    | evaluate b => exact hS c
    | assign b f => exact hS c
    | remember b k => exact hS c
    | setOption b k v => exact hS c

/-- C100 (default options): swarms created without `options` share one dictionary.  In every program
all of them see the same options, and what is written through one of them is seen by all, also by
swarms created later. -/
theorem C100_default_options (bn vn : κ → String) (prog later : List (Stmt n d K ι κ))
    (hprog : ∀ st ∈ prog ++ later, st.KeepsDefault)
    (hlater : ∀ st ∈ later, ∀ c k v, st ≠ .setOption c k v)
    (S : Bench n d K ι κ) (hS : ∀ a, S.dict a = 0) (c : ι) (key : String) (v : K) (a : ι) :
    ((S.run bn vn (prog ++ [.setOption c key v] ++ later)).options a).lookup key = some v := by
  have hrun : ∀ (p q : List (Stmt n d K ι κ)) (S : Bench n d K ι κ),
      S.run bn vn (p ++ q) = (S.run bn vn p).run bn vn q := fun p q S => List.foldl_append
  have hd : ∀ a, (S.run bn vn prog).dict a = 0 := run_dict bn vn prog
    (fun s hs => hprog s (List.mem_append_left _ hs)) S hS
  rw [hrun, hrun]
  generalize S.run bn vn prog = T at hd
  have h0 : ∀ T : Bench n d K ι κ, (∀ a, T.dict a = 0) → (T.dicts 0).lookup key = some v →
      ((T.run bn vn later).options a).lookup key = some v := by
    intro T hT h
    have h1 := run_dict bn vn later (fun s hs => hprog s (List.mem_append_right _ hs)) T hT
    unfold Bench.options
    rw [h1 a]
    clear hT h1 hprog
    induction later generalizing T with
    | nil => exact h
    | cons st later ih =>
      refine ih (fun s hs => hlater s (List.mem_cons_of_mem _ hs)) _ ?_
      have hne := hlater st List.mem_cons_self
      show ((T.step bn vn st).1.dicts 0).lookup key = some v
      cases st with
      | create b dict bounds center ip cl r => rw [Bench.step]; split <;> exact h
      | velocity b k cl b' r1 r2 => rw [Bench.step]; split <;> exact h
      | position b k b' r => rw [Bench.step]; split <;> exact h
      | setOption b k v => exact absurd rfl (hne b k v)
      | useDict b k => exact h
      | evaluate b => exact h
      | assign b f => exact h
      | remember b k => exact h
  refine h0 _ hd ?_
  show (Function.update T.dicts (T.dict c) ((T.options c).put key v) 0).lookup key = some v
  rw [hd c, Function.update_self]
  unfold Opts.put
  simp

/-- C100 (default options): as long as nothing was written into that dictionary, `compute_velocity`
raises `KeyError` for every such swarm. -/
theorem C100_no_options (bn vn : κ → String) (prog : List (Stmt n d K ι κ))
    (hprog : ∀ st ∈ prog, st.KeepsDefault) (hset : ∀ st ∈ prog, ∀ c k v, st ≠ .setOption c k v)
    (S : Bench n d K ι κ) (hS : ∀ a, S.dict a = 0) (h0 : S.dicts 0 = []) (a : ι) (h : κ)
    (clamp : Option (Clamp d K)) (bounds : Option (Bounds d K)) (r1 r2 : Mat n d K) :
    ((S.run bn vn prog).step bn vn (.velocity a h clamp bounds r1 r2)).2 = .error .keyError := by
  have hd := run_dict bn vn prog hprog S hS a
  have hz : (S.run bn vn prog).dicts 0 = [] := by
    clear hd hprog hS
    induction prog generalizing S with
    | nil => exact h0
    | cons st prog ih =>
      refine ih (fun s hs => hset s (List.mem_cons_of_mem _ hs)) _ ?_
      have hne := hset st List.mem_cons_self
      show (S.step bn vn st).1.dicts 0 = []
      cases st with
      | create b dict bounds center ip cl r => rw [Bench.step]; split <;> exact h0
      | velocity b k cl b' r1 r2 => rw [Bench.step]; split <;> exact h0
      | position b k b' r => rw [Bench.step]; split <;> exact h0
      | setOption b k v => exact absurd rfl (hne b k v)
      | useDict b k => exact h0
      | evaluate b => exact h0
      | assign b f => exact h0
      | remember b k => exact h0
  generalize S.run bn vn prog = T at hd hz
  have ho : T.options a = [] := by unfold Bench.options; rw [hd, hz]
  rw [Bench.step, ho]
  rfl

/-- C100 (no memory): the first use of a shrink or intermediate handler that was not given a memory
does not handle anything: the new position is position + velocity, inside or not. -/
theorem C100_first_use (bn vn : κ → String) (S : Bench n d K ι κ) (a : ι) (h : κ)
    (hs : bn h ∈ ["shrink", "intermediate"]) (hm : S.bh h = none) (b : Bounds d K) (r : BHDraw d K) :
    ((S.step bn vn (.position a h (some b) r)).1.swarm a).position =
      fun i j => (S.swarm a).position i j + (S.swarm a).velocity i j := by
  have key : computePosition (S.swarm a) (some b) (bn h) none r =
      (some fun i j => (S.swarm a).position i j + (S.swarm a).velocity i j,
        .ok fun i j => (S.swarm a).position i j + (S.swarm a).velocity i j) :=
    C19_first_call (bn h) hs b r _
  rw [Bench.step, hm, key]
  show (Function.update S.swarm a _ a).position = _
  rw [Function.update_self]

/-! ## Witnesses and examples -/

namespace Ex

/-- A program with one swarm in `[0, 1]`: `create_swarm` with the bounds and velocity -1, then
`m` times: `compute_position` with the bounds and an intermediate handler, and the objective. -/
def unprimed (m : Nat) : List (Stmt 1 1 ℚ Unit Unit) :=
  .create () none (some (fun _ => 0, fun _ => 1)) (fun _ => 1) none
    (some (fun _ => -1, fun _ => -1)) ⟨fun _ _ => 1 / 2, fun _ _ => false, fun _ j => j, fun _ _ => 0⟩
  :: (List.replicate m [.position () () (some (fun _ => 0, fun _ => 1)) ⟨fun _ => 0, fun _ => 0, 0⟩,
    .evaluate ()]).flatten

/-- Nothing has happened yet. -/
def bench (n d : Nat) (ι κ : Type) : Bench n d ℚ ι κ :=
  ⟨fun _ => mkSwarm (fun _ _ => 0) (fun _ _ => 0) [], fun _ => 0, fun _ => [], fun _ => none,
    fun _ => none, fun _ => []⟩

end Ex

/-- C100: hence bounds passed to `create_swarm` and to every `compute_position` do not keep a swarm
inside with a shrink or intermediate handler.  With an intermediate handler without memory, this
program evaluates its swarm `m` times, and all of these times outside the bounds. -/
theorem C100_unprimed (m : Nat) :
    (∀ st ∈ Ex.unprimed m, st.Inside fun _ => (fun _ => 0, fun _ => 1)) ∧
    (let T := (Ex.bench 1 1 Unit Unit).run (fun _ => "intermediate") (fun _ => "unmodified")
      (Ex.unprimed m)
     (T.seen ()).length = m ∧ ∀ x ∈ T.seen (), x 0 0 < 0) := by
  constructor
  · intro st hst
    rcases List.mem_cons.1 hst with rfl | hst
    · exact ⟨rfl, rfl, fun _ _ => ⟨by norm_num, by norm_num⟩⟩
    · obtain ⟨l, hl, hst⟩ := List.mem_flatten.1 hst
      rw [(List.mem_replicate.1 hl).2] at hst
      rcases List.mem_cons.1 hst with rfl | hst
      · exact ⟨rfl, fun _ => ⟨by norm_num, by norm_num⟩, fun _ => ⟨by norm_num, by norm_num⟩⟩
      · rw [List.mem_singleton.1 hst]; trivial
  · have key : ∀ (m : Nat) (T : Bench 1 1 ℚ Unit Unit), (T.swarm ()).velocity 0 0 = -1 →
        (T.swarm ()).position 0 0 < 1 → (∀ p, T.bh () = some p → p 0 0 < 0) →
        (∀ x ∈ T.seen (), x 0 0 < 0) →
        let T' := T.run (fun _ => "intermediate") (fun _ => "unmodified")
          (List.replicate m [Stmt.position () () (some (fun _ => 0, fun _ => 1))
            ⟨fun _ => 0, fun _ => 0, 0⟩, .evaluate ()]).flatten
        (T'.seen ()).length = (T.seen ()).length + m ∧ ∀ x ∈ T'.seen (), x 0 0 < 0 := by
      intro m
      induction m with
      | zero => intro T _ _ _ h; exact ⟨rfl, h⟩
      | succ m ih =>
        intro T hv hp hm hx
        rw [List.replicate_succ, List.flatten_cons]
        have hq : ∃ q : Mat 1 1 ℚ, computePosition (T.swarm ()) (some (fun _ => 0, fun _ => 1))
            "intermediate" (T.bh ()) ⟨fun _ => 0, fun _ => 0, 0⟩ = (some q, .ok q) ∧ q 0 0 < 0 := by
          cases hb : T.bh () with
          | none =>
            refine ⟨_, rfl, ?_⟩
            show (T.swarm ()).position 0 0 + (T.swarm ()).velocity 0 0 < 0
            rw [hv]; linarith
          | some p =>
            refine ⟨_, rfl, ?_⟩
            have h1 : (T.swarm ()).position 0 0 + (T.swarm ()).velocity 0 0 < 0 := by
              rw [hv]; linarith
            have h2 := hm p hb
            have h3 : ¬ (1 < (T.swarm ()).position 0 0 + (T.swarm ()).velocity 0 0) := by linarith
            have h4 : (1 / 2 : ℚ) * (p 0 0 + 0) < 0 := by linarith
            have h5 : isHigh (fun _ => (0 : ℚ), fun _ => 1)
                (fun i j => (T.swarm ()).position i j + (T.swarm ()).velocity i j) 0 0 = false :=
              decide_eq_false h3
            have h6 : isLow (fun _ => (0 : ℚ), fun _ => 1)
                (fun i j => (T.swarm ()).position i j + (T.swarm ()).velocity i j) 0 0 = true :=
              decide_eq_true h1
            dsimp only
            rw [h5, h6]
            exact h4
        obtain ⟨q, hq, hneg⟩ := hq
        have h1 : (T.step (fun _ => "intermediate") (fun _ => "unmodified") (Stmt.position () ()
            (some (fun _ => 0, fun _ => 1)) ⟨fun _ => 0, fun _ => 0, 0⟩)).1 =
            { T with bh := Function.update T.bh () (some q)
                     swarm := Function.update T.swarm () { T.swarm () with position := q } } := by
          rw [Bench.step, hq]
        have h2 := ih (((T.step (fun _ => "intermediate") (fun _ => "unmodified") (Stmt.position () ()
            (some (fun _ => 0, fun _ => 1)) ⟨fun _ => 0, fun _ => 0, 0⟩)).1.step
            (fun _ => "intermediate") (fun _ => "unmodified") (.evaluate ())).1)
        rw [h1] at h2
        obtain ⟨h3, h4⟩ := h2 hv (lt_trans hneg one_pos)
          (by intro p hp'; cases hp'; exact hneg) (by
            intro x hx'
            rcases List.mem_append.1 (show x ∈ T.seen () ++ [q] from hx') with hx' | hx'
            · exact hx x hx'
            · rw [List.mem_singleton.1 hx']; exact hneg)
        rw [← h1] at h3 h4
        refine ⟨h3.trans ?_, h4⟩
        rw [h1]
        show (T.seen () ++ [q]).length + m = _
        rw [List.length_append]
        simp only [List.length_singleton]
        omega
    have := key m (((Ex.bench 1 1 Unit Unit).step (fun _ => "intermediate") (fun _ => "unmodified")
      (.create () none (some (fun _ => 0, fun _ => 1)) (fun _ => 1) none
        (some (fun _ => -1, fun _ => -1))
        ⟨fun _ _ => 1 / 2, fun _ _ => false, fun _ j => j, fun _ _ => 0⟩)).1)
      (by decide +kernel) (by decide +kernel) (by rintro p ⟨⟩) (by rintro x ⟨⟩)
    refine ⟨this.1.trans ?_, this.2⟩
    exact Nat.zero_add m

namespace Ex

/-- Two swarms in `[0, 1]`, one at 1/2 with velocity 1 and one at rest at 0. -/
def pair : Bench 1 1 ℚ Bool Unit :=
  { bench 1 1 Bool Unit with
    swarm := fun a => if a then mkSwarm (fun _ _ => 1 / 2) (fun _ _ => 1) []
      else mkSwarm (fun _ _ => 0) (fun _ _ => 0) [] }

/-- Both are moved with one handler, which remembers the first swarm at the beginning. -/
def pairProg : List (Stmt 1 1 ℚ Bool Unit) :=
  [.remember true (), .position false () (some (fun _ => 0, fun _ => 1)) ⟨fun _ => 0, fun _ => 0, 9⟩,
    .position true () (some (fun _ => 0, fun _ => 1)) ⟨fun _ => 0, fun _ => 0, 9⟩, .evaluate true]

end Ex

/-- C100 (sharing is felt): two swarms that are moved with one intermediate handler.  The first one
arrives elsewhere than without the statements of the second one. -/
theorem C100_shared_handler :
    ((Ex.pair.run (fun _ => "intermediate") (fun _ => "unmodified") Ex.pairProg).swarm
      true).position 0 0 = 1 / 2 ∧
    ((Ex.pair.run (fun _ => "intermediate") (fun _ => "unmodified")
      (Ex.pairProg.filter fun st => st.who = true)).swarm true).position 0 0 = 3 / 4 := by
  constructor <;> decide +kernel

theorem Ex.pairProg_inside : ∀ st ∈ Ex.pairProg, st.Inside fun _ => (fun _ => 0, fun _ => 1) := by
  intro st hst
  simp only [Ex.pairProg, List.mem_cons, List.not_mem_nil, or_false] at hst
  rcases hst with rfl | rfl | rfl | rfl
  · trivial
  · exact ⟨rfl, fun _ => ⟨by norm_num, by norm_num⟩, fun _ => ⟨by norm_num, by norm_num⟩⟩
  · exact ⟨rfl, fun _ => ⟨by norm_num, by norm_num⟩, fun _ => ⟨by norm_num, by norm_num⟩⟩
  · trivial

theorem Ex.pair_inside : Ex.pair.Inside fun _ => (fun _ => 0, fun _ => 1) := by
  rintro (_ | _)
  · refine ⟨fun _ _ => ?_, by rintro _ ⟨⟩⟩
    show (0 : ℚ) ≤ 0 ∧ (0 : ℚ) ≤ 1
    norm_num
  · refine ⟨fun _ _ => ?_, by rintro _ ⟨⟩⟩
    show (0 : ℚ) ≤ 1 / 2 ∧ (1 / 2 : ℚ) ≤ 1
    norm_num

/-- Non-vacuity of `C100_inside`: the two swarms share a reflective handler; the first one would
leave the bounds. -/
example : ((Ex.pair.run (fun _ => "reflective") (fun _ => "unmodified") Ex.pairProg).seen
      true).map (fun x => x 0 0) = [1 / 2] ∧
    (Ex.pair.run (fun _ => "reflective") (fun _ => "unmodified") Ex.pairProg).Inside
      fun _ => (fun _ => 0, fun _ => 1) := by
  refine ⟨by decide +kernel, ?_⟩
  exact C100_inside _ _ _ (fun _ _ => by norm_num) _ Ex.pairProg_inside
    (fun _ _ _ _ _ => by simp [MemoryFree]) _ Ex.pair_inside

/-- Non-vacuity of `C100_primed`: the same program with an intermediate handler. -/
example : (Ex.pair.run (fun _ => "intermediate") (fun _ => "unmodified") Ex.pairProg).Inside
      fun _ => (fun _ => 0, fun _ => 1) :=
  C100_primed _ _ _ (fun _ => by norm_num) (fun _ => False) _ Ex.pairProg_inside
    ⟨.inr (.inr rfl), .inr (.inr rfl), trivial⟩ _ Ex.pair_inside (fun _ h => h.elim)

/-- Non-vacuity of `C100_separate`: with a reflective handler the two swarms are separate. -/
example : Separate (fun _ => "reflective") (fun _ => "unmodified") Ex.pair Ex.pairProg true := by
  refine ⟨fun _ _ _ _ _ _ _ _ _ => by simp [MemoryFree], fun _ _ _ _ _ _ _ _ _ => by simp, ?_⟩
  intro c key v h
  simp [Ex.pairProg] at h

/-- Non-vacuity of `C100_default_options` and `C100_no_options`: two swarms are created without
options; before something is written to them, the velocity cannot be computed; what is then written
through the first one is seen by the second one and by one created later. -/
example :
    let make (a : Bool) : Stmt 1 1 ℚ Bool Unit := .create a none none (fun _ => 1) none none
      ⟨fun _ _ => 0, fun _ _ => false, fun _ j => j, fun _ _ => 0⟩
    (∀ st ∈ [make true] ++ [make false], st.KeepsDefault) ∧
    (∀ st ∈ [make false], ∀ c k v, st ≠ .setOption c k v) ∧
    (∀ a, (Ex.bench 1 1 Bool Unit).dict a = 0) ∧ (Ex.bench 1 1 Bool Unit).dicts 0 = [] ∧
    (((Ex.bench 1 1 Bool Unit).run (fun _ => "periodic") (fun _ => "unmodified")
      ([make true] ++ [.setOption true "w" (1 / 2)] ++ [make false])).options false).lookup "w" =
      some (1 / 2) := by
  refine ⟨?_, ?_, fun _ => rfl, rfl, by decide +kernel⟩
  · intro st hst
    simp only [List.cons_append, List.nil_append, List.mem_cons, List.not_mem_nil, or_false] at hst
    rcases hst with rfl | rfl <;> rfl
  · intro st hst c k v
    rw [List.mem_singleton.1 hst]
    rintro ⟨⟩

end PySwarms

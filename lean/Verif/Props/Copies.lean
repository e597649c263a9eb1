import Verif.Model.Copies
import Verif.Props.Tuning
import Verif.Props.StaticRuns

/-! # C112: shallow copies of an optimizer -/

set_option linter.unusedSectionVars false

namespace PySwarms

variable {n d : Nat} {K : Type} [Field K] [LinearOrder K] [Transc K] [FloorRing K]

/-! ## Specification -/

/-- The statements of the program that are about the `i`-th object. -/
def actsOf (i : Nat) (prog : List (CopyAct n d K)) : List (Act n d K) :=
  prog.filterMap fun a =>
    match a with
    | .act j a => if j = i then some a else none
    | .copy _ => none

/-- The topology is a Star or recomputes the neighbours in every iteration. -/
def Kind.Fresh (k : Kind) : Prop := k.top.isStatic = false ∨ k.isStar

/-- Topologies assigned by the statements are such topologies. -/
def FreshTops (acts : List (Act n d K)) : Prop :=
  ∀ t, Act.set (.topology t) ∈ acts → (Kind.general t).Fresh

/-- The program contains no copying of the `i`-th object. -/
def NeverCopied (i : Nat) (prog : List (CopyAct n d K)) : Prop := CopyAct.copy i ∉ prog

/-! ## The store -/

/-- No object refers to a number that is not in use. -/
structure Handle.Below (h : Handle n d K) (m : Nat) : Prop where
  swarm : h.swarm < m
  hist : h.hist < m
  bh : h.bh < m
  vh : h.vh < m
  top : h.top < m

def Copies.Sound (F : Copies n d K) : Prop :=
  ∀ (i : Nat) (h : Handle n d K), F.handles[i]? = some h → h.Below F.next

/-- Another object has its own swarm and histories. -/
def Handle.Apart (h h' : Handle n d K) : Prop := h.swarm ≠ h'.swarm ∧ h.hist ≠ h'.hist

/-- The `i`-th object shares neither swarm nor histories. -/
def Copies.Alone (F : Copies n d K) (i : Nat) (h : Handle n d K) : Prop :=
  ∀ (j : Nat) (h' : Handle n d K), F.handles[j]? = some h' → j ≠ i → h.Apart h'

theorem Handle.Below.mono {h : Handle n d K} {m m' : Nat} (hb : h.Below m) (hm : m ≤ m') :
    h.Below m' :=
  ⟨hb.1.trans_le hm, hb.2.trans_le hm, hb.3.trans_le hm, hb.4.trans_le hm, hb.5.trans_le hm⟩

theorem Copies.view_put (F : Copies n d K) (i : Nat) (h : Handle n d K) (o : Opt n d K) :
    (F.put i h o).view h = o := by
  simp [Copies.view, Copies.put, Copies.store]

theorem Copies.view_put_cfg (F : Copies n d K) (i : Nat) (h : Handle n d K) (o : Opt n d K)
    (c : Config n d K) : (F.put i h o).view { h with cfg := c } = o := by
  simp [Copies.view, Copies.put, Copies.store]

theorem Copies.view_put_apart (F : Copies n d K) (i : Nat) {h h' : Handle n d K} (o : Opt n d K)
    (ha : h'.Apart h) : SameVisible ((F.put i h o).view h') (F.view h') := by
  refine ⟨?_, ?_, ?_, ?_, ?_, ?_, ?_⟩ <;>
    simp only [Copies.view, Copies.put, Copies.store, Function.update_of_ne ha.1,
      Function.update_of_ne ha.2]

theorem Tune.rebind_below (t : Tune n d K) {h : Handle n d K} {m : Nat} (hb : h.Below m) :
    (t.rebind h m).Below (m + 1) := by
  have h1 : h.Below (m + 1) := hb.mono (Nat.le_succ m)
  obtain ⟨b1, b2, b3, b4, b5⟩ := h1
  cases t with
  | boundaryHandler s => exact ⟨b1, b2, Nat.lt_succ_self m, b4, b5⟩
  | velocityHandler s => exact ⟨b1, b2, b3, Nat.lt_succ_self m, b5⟩
  | topology s =>
    unfold Tune.rebind
    dsimp only
    split
    · exact ⟨b1, b2, b3, b4, Nat.lt_succ_self m⟩
    · exact ⟨b1, b2, b3, b4, b5⟩
  | _ => exact ⟨b1, b2, b3, b4, b5⟩

theorem Tune.rebind_refs (t : Tune n d K) (h : Handle n d K) (m : Nat) :
    (t.rebind h m).swarm = h.swarm ∧ (t.rebind h m).hist = h.hist ∧ (t.rebind h m).cfg = h.cfg := by
  cases t with
  | topology s =>
    unfold Tune.rebind
    dsimp only
    split <;> exact ⟨rfl, rfl, rfl⟩
  | _ => exact ⟨rfl, rfl, rfl⟩

/-- A statement about the `i`-th object gives it a new handle, whose references are the old ones or
new, and new contents. -/
theorem Copies.step_act (F : Copies n d K) (i : Nat) (a : Act n d K) (h : Handle n d K)
    (hi : F.handles[i]? = some h) :
    ∃ h', F.step (.act i a) = F.put i h' (act (h.cfg, F.view h) a).2 ∧
      h'.cfg = (act (h.cfg, F.view h) a).1 ∧
      (h.Below F.next → h'.Below (F.next + 1)) ∧
      (h'.swarm = h.swarm ∨ h'.swarm = F.next) ∧ (h'.hist = h.hist ∨ h'.hist = F.next) := by
  unfold Copies.step
  dsimp only
  rw [hi]
  cases a with
  | set t =>
    obtain ⟨e1, e2, e3⟩ := t.rebind_refs h F.next
    refine ⟨_, rfl, rfl, fun hb => ?_, .inl e1, .inl e2⟩
    have := t.rebind_below hb
    exact ⟨this.1, this.2, this.3, this.4, this.5⟩
  | call op =>
    cases op with
    | optimize ev iters nproc env =>
      exact ⟨h, rfl, rfl, fun hb => hb.mono (Nat.le_succ _), .inl rfl, .inl rfl⟩
    | reset r =>
      dsimp only
      have hlt := Nat.lt_succ_self F.next
      cases hr : reset h.cfg r (F.view h) with
      | mk o y =>
        have ho : (act (h.cfg, F.view h) (.call (.reset r))).2 = o := by
          show (reset h.cfg r (F.view h)).1 = o
          rw [hr]
        cases y with
        | error e =>
          refine ⟨{ h with hist := F.next }, by rw [ho], rfl, fun hb => ?_, .inl rfl, .inr rfl⟩
          have := hb.mono (Nat.le_succ F.next)
          exact ⟨this.1, hlt, this.3, this.4, this.5⟩
        | ok u =>
          refine ⟨{ h with hist := F.next, swarm := F.next }, by rw [ho], rfl, fun hb => ?_,
            .inr rfl, .inr rfl⟩
          have := hb.mono (Nat.le_succ F.next)
          exact ⟨hlt, hlt, this.3, this.4, this.5⟩

theorem Copies.put_handles (F : Copies n d K) (i j : Nat) (h h' : Handle n d K) (o : Opt n d K)
    (hj : (F.put i h o).handles[j]? = some h') : (j = i ∧ h' = h) ∨ (j ≠ i ∧ F.handles[j]? = some h') := by
  change (F.handles.set i h)[j]? = some h' at hj
  rw [List.getElem?_set] at hj
  by_cases e : i = j
  · subst e
    rw [if_pos rfl] at hj
    split at hj
    · cases hj; exact .inl ⟨rfl, rfl⟩
    · cases hj
  · rw [if_neg e] at hj
    exact .inr ⟨fun e' => e e'.symm, hj⟩

theorem Copies.put_get (F : Copies n d K) (i : Nat) (h h0 : Handle n d K) (o : Opt n d K)
    (hi : F.handles[i]? = some h0) : (F.put i h o).handles[i]? = some h := by
  have hlt : i < F.handles.length := (List.getElem?_eq_some_iff.1 hi).1
  show (F.handles.set i h)[i]? = some h
  rw [List.getElem?_set]
  simp [hlt]

theorem Copies.put_get_other (F : Copies n d K) {i j : Nat} (h : Handle n d K) (o : Opt n d K)
    (hne : j ≠ i) : (F.put i h o).handles[j]? = F.handles[j]? := by
  show (F.handles.set i h)[j]? = _
  rw [List.getElem?_set, if_neg (fun e => hne e.symm)]

theorem Copies.Sound.step {F : Copies n d K} (hF : F.Sound) (a : CopyAct n d K) :
    (F.step a).Sound := by
  cases a with
  | copy i =>
    unfold Copies.step
    dsimp only
    cases hi : F.handles[i]? with
    | none => exact hF
    | some h =>
      intro j h' hj
      change (F.handles ++ [h])[j]? = some h' at hj
      by_cases hlt : j < F.handles.length
      · rw [List.getElem?_append_left hlt] at hj
        exact hF j h' hj
      · rw [List.getElem?_append_right (not_lt.1 hlt)] at hj
        have hm := List.mem_of_getElem? hj
        rw [List.mem_singleton] at hm
        subst hm
        exact hF i _ hi
  | act i a =>
    cases hi : F.handles[i]? with
    | none =>
      have he : F.step (.act i a) = F := by simp [Copies.step, hi]
      rw [he]
      exact hF
    | some h =>
      obtain ⟨h', he, -, hb, -, -⟩ := F.step_act i a h hi
      rw [he]
      intro j h'' hj
      rcases F.put_handles i j h' h'' _ hj with ⟨rfl, rfl⟩ | ⟨hne, hj'⟩
      · exact hb (hF _ h hi)
      · exact (hF j h'' hj').mono (Nat.le_succ _)

theorem Copies.Sound.run {F : Copies n d K} (hF : F.Sound) (prog : List (CopyAct n d K)) :
    (F.run prog).Sound := by
  induction prog generalizing F with
  | nil => exact hF
  | cons a prog ih => exact ih (hF.step a)

theorem Copies.sound_single (cfg : Config n d K) (s : Opt n d K) : (Copies.single cfg s).Sound := by
  intro i h hi
  change [_][i]? = some h at hi
  have hm := List.mem_of_getElem? hi
  rw [List.mem_singleton] at hm
  subst hm
  exact ⟨Nat.one_pos, Nat.one_pos, Nat.one_pos, Nat.one_pos, Nat.one_pos⟩

/-! ## Independence -/

theorem act_same {S S' : Config n d K × Opt n d K} (hc : S.1 = S'.1) (h : SameVisible S.2 S'.2)
    (hk : S.1.kind.Fresh) (a : Act n d K) (ha : ∀ t, a = .set (.topology t) → (Kind.general t).Fresh) :
    (act S a).1 = (act S' a).1 ∧ SameVisible (act S a).2 (act S' a).2 ∧ (act S a).1.kind.Fresh := by
  obtain ⟨c, s⟩ := S
  obtain ⟨c', s'⟩ := S'
  dsimp only at hc h hk
  subst hc
  cases a with
  | set t =>
    obtain ⟨h1, h2, h3, h4, h5, h6, h7⟩ := h
    cases t with
    | topology t =>
      simp only [act, tune]
      split
      · exact ⟨rfl, ⟨h1, h2, h3, h4, h5, h6, h7⟩, ha t rfl⟩
      · exact ⟨rfl, ⟨h1, h2, h3, h4, h5, h6, h7⟩, hk⟩
    | position x =>
      exact ⟨rfl, ⟨by simp only [act, tune, h1], h2, h3, h4, h5, h6, h7⟩, hk⟩
    | velocity x =>
      exact ⟨rfl, ⟨by simp only [act, tune, h1], h2, h3, h4, h5, h6, h7⟩, hk⟩
    | _ => exact ⟨rfl, ⟨h1, h2, h3, h4, h5, h6, h7⟩, hk⟩
  | call op =>
    exact ⟨rfl, runOps_same c hk [op] s s' h, hk⟩

/-- What the `i`-th object shows is what the stand-alone optimizer `S` shows. -/
structure Copies.Shows (F : Copies n d K) (i : Nat) (S : Config n d K × Opt n d K) : Prop where
  sound : F.Sound
  shown : ∃ h, F.handles[i]? = some h ∧ F.Alone i h ∧ h.cfg = S.1 ∧ SameVisible (F.view h) S.2
  fresh : S.1.kind.Fresh

theorem SameVisible.trans {s t u : Opt n d K} (h : SameVisible s t) (h' : SameVisible t u) :
    SameVisible s u :=
  ⟨h.1.trans h'.1, h.2.trans h'.2, h.3.trans h'.3, h.4.trans h'.4, h.5.trans h'.5, h.6.trans h'.6,
    h.7.trans h'.7⟩

theorem Copies.Shows.run {F : Copies n d K} {i : Nat} {S : Config n d K × Opt n d K}
    (hF : F.Shows i S) (prog : List (CopyAct n d K)) (hn : NeverCopied i prog)
    (ht : FreshTops (actsOf i prog)) : (F.run prog).Shows i (runActs S (actsOf i prog)) := by
  induction prog generalizing F S with
  | nil => exact hF
  | cons a prog ih =>
    have hn' : NeverCopied i prog := fun h => hn (List.mem_cons_of_mem _ h)
    obtain ⟨hs, ⟨h, hi, hal, hc, hv⟩, hk⟩ := hF
    cases a with
    | copy j =>
      have hji : j ≠ i := by
        rintro rfl
        exact hn List.mem_cons_self
      refine ih ⟨hs.step _, ?_, hk⟩ hn' ht
      have hlt : i < F.handles.length := (List.getElem?_eq_some_iff.1 hi).1
      unfold Copies.step
      dsimp only
      cases hj : F.handles[j]? with
      | none => exact ⟨h, hi, hal, hc, hv⟩
      | some hj' =>
        refine ⟨h, ?_, ?_, hc, hv⟩
        · show (F.handles ++ [hj'])[i]? = some h
          rw [List.getElem?_append_left hlt]
          exact hi
        · intro k h' hk' hne
          change (F.handles ++ [hj'])[k]? = some h' at hk'
          by_cases hkl : k < F.handles.length
          · rw [List.getElem?_append_left hkl] at hk'
            exact hal k h' hk' hne
          · rw [List.getElem?_append_right (not_lt.1 hkl)] at hk'
            have hm := List.mem_of_getElem? hk'
            rw [List.mem_singleton] at hm
            subst hm
            exact hal j _ hj hji
    | act j a =>
      by_cases hji : j = i
      · subst hji
        have hacts : actsOf j (CopyAct.act j a :: prog) = a :: actsOf j prog := by
          simp [actsOf]
        rw [hacts] at ht ⊢
        have hst := act_same (S := (h.cfg, F.view h)) (S' := S) hc hv (by
          show h.cfg.kind.Fresh
          rw [hc]; exact hk) a
          (fun t e => ht t (by rw [← e]; exact List.mem_cons_self))
        obtain ⟨h', he, hc', hb', r1, r2⟩ := F.step_act j a h hi
        refine ih (S := act S a) ⟨hs.step _, ⟨h', ?_, ?_, ?_, ?_⟩, ?_⟩ hn'
          (fun t m => ht t (List.mem_cons_of_mem _ m))
        · rw [he]; exact F.put_get j h' h _ hi
        · rw [he]
          intro k h'' hk' hne
          rcases F.put_handles j k h' h'' _ hk' with ⟨rfl, -⟩ | ⟨-, hk''⟩
          · exact absurd rfl hne
          · obtain ⟨p1, p2⟩ := hal k h'' hk'' hne
            have hb := hs k h'' hk''
            constructor
            · rcases r1 with e | e <;> rw [e]
              · exact p1
              · exact hb.swarm.ne'
            · rcases r2 with e | e <;> rw [e]
              · exact p2
              · exact hb.hist.ne'
        · rw [hc']; exact hst.1
        · rw [he, F.view_put]; exact hst.2.1
        · rw [← hst.1]; exact hst.2.2
      · have hacts : actsOf i (CopyAct.act j a :: prog) = actsOf i prog := by
          simp [actsOf, hji]
        rw [hacts] at ht ⊢
        refine ih ⟨hs.step _, ?_, hk⟩ hn' ht
        cases hj : F.handles[j]? with
        | none =>
          have he : F.step (.act j a) = F := by simp [Copies.step, hj]
          rw [he]
          exact ⟨h, hi, hal, hc, hv⟩
        | some hh =>
          obtain ⟨h', he, hc', hb', r1, r2⟩ := F.step_act j a hh hj
          have hap : h.Apart h' := by
            obtain ⟨p1, p2⟩ := hal j hh hj hji
            have hb := hs i h hi
            constructor
            · rcases r1 with e | e <;> rw [e]
              · exact p1
              · exact hb.swarm.ne
            · rcases r2 with e | e <;> rw [e]
              · exact p2
              · exact hb.hist.ne
          rw [he]
          refine ⟨h, ?_, ?_, hc, (F.view_put_apart j _ hap).trans hv⟩
          · rw [F.put_get_other h' _ (fun e => hji e.symm)]; exact hi
          · intro k h'' hk' hne
            rcases F.put_handles j k h' h'' _ hk' with ⟨-, rfl⟩ | ⟨-, hk''⟩
            · exact hap
            · exact hal k h'' hk'' hne

/-- Statements name objects that exist; `m` is the number of objects so far. -/
def Valid : Nat → List (CopyAct n d K) → Prop
  | _, [] => True
  | m, .copy i :: prog => i < m ∧ Valid (m + 1) prog
  | m, .act i _ :: prog => i < m ∧ Valid m prog

/-- The program consists of copying and calls of `optimize` on any of the objects. -/
def OnlyOptimize (prog : List (CopyAct n d K)) : Prop :=
  ∀ i a, CopyAct.act i a ∈ prog → ∃ ev iters nproc env, a = .call (.optimize ev iters nproc env)

/-- All calls of the program in order, whichever object they are made on. -/
def allCalls (prog : List (CopyAct n d K)) : List (Op n d K) :=
  prog.filterMap fun a =>
    match a with
    | .act _ (.call op) => some op
    | _ => none

theorem alias_run (cfg : Config n d K) (h0 : Handle n d K) (hc : h0.cfg = cfg)
    (prog : List (CopyAct n d K)) (ho : OnlyOptimize prog) (F : Copies n d K)
    (hv : Valid F.handles.length prog) (hF : ∀ h ∈ F.handles, h = h0) :
    (∀ h ∈ (F.run prog).handles, h = h0) ∧
      (F.run prog).view h0 = runOps cfg (F.view h0) (allCalls prog) := by
  induction prog generalizing F with
  | nil => exact ⟨hF, rfl⟩
  | cons a prog ih =>
    have ho' : OnlyOptimize prog := fun i a m => ho i a (List.mem_cons_of_mem _ m)
    cases a with
    | copy i =>
      obtain ⟨hi, hv'⟩ := hv
      have hg : F.handles[i]? = some F.handles[i] := List.getElem?_eq_getElem hi
      have he : F.step (.copy i) = { F with handles := F.handles ++ [F.handles[i]] } := by
        simp only [Copies.step, hg]
      have := ih ho' { F with handles := F.handles ++ [F.handles[i]] } (by
        show Valid (F.handles ++ [F.handles[i]]).length prog
        rw [List.length_append]
        exact hv') (by
        intro h hm
        rcases List.mem_append.1 hm with hm | hm
        · exact hF h hm
        · rw [List.mem_singleton] at hm
          rw [hm]
          exact hF _ (List.getElem_mem hi))
      show (∀ h ∈ ((F.step (.copy i)).run prog).handles, h = h0) ∧
        ((F.step (.copy i)).run prog).view h0 = _
      rw [he]
      exact this
    | act i a =>
      obtain ⟨hi, hv'⟩ := hv
      obtain ⟨ev, iters, nproc, env, rfl⟩ := ho i a List.mem_cons_self
      have hg : F.handles[i]? = some h0 := by
        rw [List.getElem?_eq_getElem hi, hF _ (List.getElem_mem hi)]
      have he : F.step (.act i (.call (.optimize ev iters nproc env))) =
          F.put i h0 (optimize cfg ev iters nproc env (F.view h0)).1 := by
        simp only [Copies.step, hg, hc]
      have := ih ho' (F.put i h0 (optimize cfg ev iters nproc env (F.view h0)).1) (by
        show Valid (F.handles.set i h0).length prog
        rw [List.length_set]
        exact hv') (by
        intro h hm
        rcases List.mem_or_eq_of_mem_set hm with hm | hm
        · exact hF h hm
        · exact hm)
      rw [F.view_put] at this
      show (∀ h ∈ ((F.step (.act i _)).run prog).handles, h = h0) ∧
        ((F.step (.act i _)).run prog).view h0 = _
      rw [he]
      exact this

/-- **C112** (a copy is not a snapshot).  As long as nothing is reset or assigned, a call of `optimize`
on any copy (or copy of a copy, …) is a call on the original: whichever objects the calls are made on,
all of them show the state of one optimizer on which all the calls were made. -/
theorem C112_same_object (cfg : Config n d K) (s : Opt n d K) (prog : List (CopyAct n d K))
    (hv : Valid 1 prog) (ho : OnlyOptimize prog) (h : Handle n d K)
    (hh : h ∈ ((Copies.single cfg s).run prog).handles) :
    h.cfg = cfg ∧ ((Copies.single cfg s).run prog).view h = runOps cfg s (allCalls prog) := by
  have := alias_run cfg ⟨cfg, 0, 0, 0, 0, 0⟩ rfl prog ho (Copies.single cfg s) hv (by
    intro h hm
    exact List.mem_singleton.1 hm)
  rw [this.1 h hh]
  exact ⟨rfl, this.2⟩

theorem alone_after_reset {F : Copies n d K} (hF : F.Sound) {i : Nat} {h : Handle n d K}
    (hi : F.handles[i]? = some h) (r : InitDraw n d K)
    (hok : (reset h.cfg r (F.view h)).2 = .ok ()) :
    F.step (.act i (.call (.reset r))) =
        F.put i { h with hist := F.next, swarm := F.next } (reset h.cfg r (F.view h)).1 ∧
      (F.step (.act i (.call (.reset r)))).Alone i { h with hist := F.next, swarm := F.next } := by
  have he : F.step (.act i (.call (.reset r))) =
      F.put i { h with hist := F.next, swarm := F.next } (reset h.cfg r (F.view h)).1 := by
    simp only [Copies.step, hi]
    revert hok
    generalize reset h.cfg r (F.view h) = z
    obtain ⟨o, y⟩ := z
    intro hok
    dsimp only at hok
    subst hok
    rfl
  refine ⟨he, ?_⟩
  rw [he]
  intro j h' hj hne
  rcases F.put_handles i j _ h' _ hj with ⟨rfl, -⟩ | ⟨-, hj'⟩
  · exact absurd rfl hne
  · have hb := hF j h' hj'
    exact ⟨hb.swarm.ne', hb.hist.ne'⟩

/-- **C112** (reset makes a copy independent).  Take any program `before` with copies, assignments and
calls, then reset one of the objects successfully.  From then on, whatever the program does with the
other objects (copying them, assigning, calling, exceptions), the object shows what an optimizer of
its own would show after the statements about this object alone, and answers calls like it.  The
topologies used are `Star` or dynamic. -/
theorem C112_reset_separates (cfg : Config n d K) (s : Opt n d K) (before : List (CopyAct n d K))
    (i : Nat) (h : Handle n d K) (hi : ((Copies.single cfg s).run before).handles[i]? = some h)
    (hk : h.cfg.kind.Fresh) (r : InitDraw n d K)
    (hok : (reset h.cfg r (((Copies.single cfg s).run before).view h)).2 = .ok ())
    (prog : List (CopyAct n d K)) (hn : NeverCopied i prog) (ht : FreshTops (actsOf i prog)) :
    ∃ h', ((Copies.single cfg s).run (before ++ .act i (.call (.reset r)) :: prog)).handles[i]? =
        some h' ∧
      (let alone := runActs (h.cfg, (reset h.cfg r (((Copies.single cfg s).run before).view h)).1)
        (actsOf i prog)
       let now := ((Copies.single cfg s).run (before ++ .act i (.call (.reset r)) :: prog)).view h'
       h'.cfg = alone.1 ∧ SameVisible now alone.2 ∧
       ∀ ev iters nproc env, (optimize h'.cfg ev iters nproc env now).2 =
         (optimize alone.1 ev iters nproc env alone.2).2) := by
  have hS := (Copies.sound_single cfg s).run before
  have he : (Copies.single cfg s).run (before ++ .act i (.call (.reset r)) :: prog) =
      (((Copies.single cfg s).run before).step (.act i (.call (.reset r)))).run prog := by
    simp [Copies.run, List.foldl_append]
  rw [he]
  generalize (Copies.single cfg s).run before = F at hi hok hS
  obtain ⟨e1, e2⟩ := alone_after_reset hS hi r hok
  have key : (F.step (.act i (.call (.reset r)))).Shows i
      (h.cfg, (reset h.cfg r (F.view h)).1) := by
    refine ⟨hS.step _, ⟨_, ?_, e2, rfl, ?_⟩, hk⟩
    · rw [e1]; exact F.put_get i _ h _ hi
    · rw [e1, F.view_put]
      exact SameVisible.refl _
  obtain ⟨-, ⟨h', g1, -, g2, g3⟩, g4⟩ := key.run prog hn ht
  refine ⟨h', g1, g2, g3, fun ev iters nproc env => ?_⟩
  rw [g2]
  exact (optimize_same _ g4 ev iters nproc env _ _ g3).2

/-- **C112** (copy, then reset the copy).  The two objects are then independent optimizers: the
original goes on as if it had never been copied, the copy is like a newly constructed optimizer,
whatever is done with either.  (Dynamic topologies and `Star`.) -/
theorem C112_two_optimizers (cfg : Config n d K) (hk : cfg.kind.Fresh) (s new : Opt n d K)
    (r0 r : InitDraw n d K) (hnew : construct cfg r0 r = .ok new) (prog : List (CopyAct n d K))
    (hn : NeverCopied 0 prog ∧ NeverCopied 1 prog)
    (ht : FreshTops (actsOf 0 prog) ∧ FreshTops (actsOf 1 prog)) :
    ∃ h0 h1, (let F := (Copies.single cfg s).run (.copy 0 :: .act 1 (.call (.reset r)) :: prog)
      F.handles[0]? = some h0 ∧ F.handles[1]? = some h1 ∧
      h0.cfg = (runActs (cfg, s) (actsOf 0 prog)).1 ∧
      SameVisible (F.view h0) (runActs (cfg, s) (actsOf 0 prog)).2 ∧
      h1.cfg = (runActs (cfg, new) (actsOf 1 prog)).1 ∧
      SameVisible (F.view h1) (runActs (cfg, new) (actsOf 1 prog)).2) := by
  have hr := (C29_reset cfg hk s new r0 r hnew)
  have hok := hr.1
  have hvis : SameVisible (reset cfg r s).1 new := (hr.2 []).1
  have hS0 := Copies.sound_single cfg s
  have hS1 := hS0.step (.copy 0)
  obtain ⟨F, hF⟩ : ∃ F, F = (Copies.single cfg s).step (.copy 0) := ⟨_, rfl⟩
  rw [← hF] at hS1
  have g0 : F.handles[0]? = some ⟨cfg, 0, 0, 0, 0, 0⟩ := by rw [hF]; rfl
  have g1 : F.handles[1]? = some ⟨cfg, 0, 0, 0, 0, 0⟩ := by rw [hF]; rfl
  have gl : F.handles.length = 2 := by rw [hF]; rfl
  have gv : F.view ⟨cfg, 0, 0, 0, 0, 0⟩ = s := by rw [hF]; rfl
  obtain ⟨e1, e2⟩ := alone_after_reset hS1 g1 r (by rw [gv]; exact hok)
  rw [gv] at e1
  dsimp only at e1 e2
  have key1 : (F.step (.act 1 (.call (.reset r)))).Shows 1 (cfg, new) := by
    refine ⟨hS1.step _, ⟨_, ?_, e2, rfl, ?_⟩, hk⟩
    · rw [e1]; exact F.put_get 1 _ _ _ g1
    · rw [e1, F.view_put]
      exact hvis
  have hap : (⟨cfg, 0, 0, 0, 0, 0⟩ : Handle n d K).Apart ⟨cfg, F.next, F.next, 0, 0, 0⟩ :=
    ⟨(hS1 1 _ g1).swarm.ne, (hS1 1 _ g1).hist.ne⟩
  have key0 : (F.step (.act 1 (.call (.reset r)))).Shows 0 (cfg, s) := by
    refine ⟨hS1.step _, ⟨⟨cfg, 0, 0, 0, 0, 0⟩, ?_, ?_, rfl, ?_⟩, hk⟩
    · rw [e1, F.put_get_other _ _ (by decide)]; exact g0
    · rw [e1]
      intro j h' hj hne
      rcases F.put_handles 1 j _ h' _ hj with ⟨-, rfl⟩ | ⟨hne', hj'⟩
      · exact hap
      · have := (List.getElem?_eq_some_iff.1 hj').1
        omega
    · rw [e1]
      have := F.view_put_apart 1 (reset cfg r s).1 hap
      rw [gv] at this
      exact this
  obtain ⟨-, ⟨h0, a1, -, a2, a3⟩, -⟩ := key0.run prog hn.1 ht.1
  obtain ⟨-, ⟨h1, b1, -, b2, b3⟩, -⟩ := key1.run prog hn.2 ht.2
  have he : (Copies.single cfg s).run (.copy 0 :: .act 1 (.call (.reset r)) :: prog) =
      (F.step (.act 1 (.call (.reset r)))).run prog := by
    rw [hF]; rfl
  rw [he]
  exact ⟨h0, h1, a1, b1, a2, a3, b2, b3⟩

/-- **C112** (a reset that raises).  If the reset of the copy raises, the copy has lost its histories
but still has the swarm of the original: after any calls of `optimize` on the original the copy shows
the swarm and the evaluations of the original, with empty histories. -/
theorem C112_failed_reset (cfg : Config n d K) (s : Opt n d K) (r : InitDraw n d K) (e : Err)
    (hr : (reset cfg r s).2 = .error e) (ops : List (Op n d K))
    (ho : ∀ op ∈ ops, ∃ ev iters nproc env, op = .optimize ev iters nproc env) (G : Copies n d K)
    (hG : G = (Copies.single cfg s).run
      (.copy 0 :: .act 1 (.call (.reset r)) :: ops.map fun op => .act 0 (.call op))) :
    ∃ h0 h1, G.handles = [h0, h1] ∧
      (G.view h0).swarm = (runOps cfg s ops).swarm ∧ (G.view h1).swarm = (runOps cfg s ops).swarm ∧
      (G.view h1).evals = (runOps cfg s ops).evals ∧
      (G.view h0).costHistory = (runOps cfg s ops).costHistory ∧
      (G.view h1).costHistory = [] ∧ (G.view h1).posHistory = [] := by
  have hrs : ∃ e, resetSwarm cfg r = .error e := by
    unfold reset at hr
    dsimp only at hr
    split at hr
    · next e' he => exact ⟨e', he⟩
    · cases hr
  obtain ⟨e', hrs⟩ := hrs
  refine ⟨⟨cfg, 0, 0, 0, 0, 0⟩, ⟨cfg, 0, 1, 0, 0, 0⟩, ?_⟩
  have key : ∀ (ops : List (Op n d K)),
      (∀ op ∈ ops, ∃ ev iters nproc env, op = Op.optimize ev iters nproc env) →
      ∀ (F : Copies n d K) (s' : Opt n d K),
      F.handles = [⟨cfg, 0, 0, 0, 0, 0⟩, ⟨cfg, 0, 1, 0, 0, 0⟩] →
      F.view ⟨cfg, 0, 0, 0, 0, 0⟩ = s' → (F.hists 1).cost = [] → (F.hists 1).pos = [] →
      (F.run (ops.map fun op => .act 0 (.call op))).handles =
        [⟨cfg, 0, 0, 0, 0, 0⟩, ⟨cfg, 0, 1, 0, 0, 0⟩] ∧
      (F.run (ops.map fun op => .act 0 (.call op))).view ⟨cfg, 0, 0, 0, 0, 0⟩ = runOps cfg s' ops ∧
      ((F.run (ops.map fun op => .act 0 (.call op))).hists 1).cost = [] ∧
      ((F.run (ops.map fun op => .act 0 (.call op))).hists 1).pos = [] := by
    intro ops
    induction ops with
    | nil => exact fun _ F s' h1 h2 h3 h4 => ⟨h1, h2, h3, h4⟩
    | cons op ops ih =>
      intro ho F s' h1 h2 h3 h4
      obtain ⟨ev, iters, nproc, env, rfl⟩ := ho _ List.mem_cons_self
      have he : F.step (.act 0 (.call (.optimize ev iters nproc env))) =
          F.put 0 ⟨cfg, 0, 0, 0, 0, 0⟩ (optimize cfg ev iters nproc env s').1 := by
        simp only [Copies.step, h1, List.getElem?_cons_zero, h2]
      have := ih (fun op m => ho op (List.mem_cons_of_mem _ m))
        (F.put 0 ⟨cfg, 0, 0, 0, 0, 0⟩ (optimize cfg ev iters nproc env s').1)
        (optimize cfg ev iters nproc env s').1
        (by show F.handles.set 0 _ = _; rw [h1]; rfl) (F.view_put _ _ _)
        (by simp [Copies.put, Copies.store, Function.update_of_ne, h3])
        (by simp [Copies.put, Copies.store, Function.update_of_ne, h4])
      rw [← he] at this
      exact this
  obtain ⟨F, hF⟩ : ∃ F, F = (Copies.single cfg s).run [.copy 0, .act 1 (.call (.reset r))] :=
    ⟨_, rfl⟩
  have hrun : (Copies.single cfg s).run
      (.copy 0 :: .act 1 (.call (.reset r)) :: ops.map fun op => .act 0 (.call op)) =
      F.run (ops.map fun op => .act 0 (.call op)) := by
    rw [hF]; rfl
  have hFe : F = ((Copies.single cfg s).step (.copy 0)).put 1 ⟨cfg, 0, 1, 0, 0, 0⟩
      { s with
        costHistory := [], meanPbestHistory := [], meanNeighborHistory := []
        posHistory := [], velocityHistory := [] } := by
    rw [hF]
    show ((Copies.single cfg s).step (.copy 0)).step (.act 1 (.call (.reset r))) = _
    have g1 : ((Copies.single cfg s).step (.copy 0)).handles[1]? = some ⟨cfg, 0, 0, 0, 0, 0⟩ := rfl
    unfold Copies.step
    dsimp only
    rw [show (Copies.single cfg s).handles[0]? = some ⟨cfg, 0, 0, 0, 0, 0⟩ from rfl]
    dsimp only
    rw [show ((Copies.single cfg s).handles ++ [⟨cfg, 0, 0, 0, 0, 0⟩])[1]? =
      some ⟨cfg, 0, 0, 0, 0, 0⟩ from rfl]
    dsimp only
    unfold reset
    rw [hrs]
    rfl
  have k := key ops ho F s (by rw [hFe]; rfl) (by rw [hFe]; rfl) (by rw [hFe]; rfl)
    (by rw [hFe]; rfl)
  rw [← hrun, ← hG] at k
  obtain ⟨k1, k2, k3, k4⟩ := k
  refine ⟨k1, ?_, ?_, ?_, ?_, k3, k4⟩
  · rw [k2]
  · have := congrArg Opt.swarm k2
    exact this
  · have := congrArg Opt.evals k2
    exact this
  · rw [k2]

/-- **C112** (static topologies).  Copies share the topology object: once the original or any copy has
computed the neighbours, they are the neighbours of all of them, through any program of copies, calls
and assignments (other than of a new topology object), in particular of copies that have been reset
and have particles elsewhere. -/
theorem C112_static (cfg : Config n d K)
    (hk : cfg.kind = .localBest true ∨ ∃ top, cfg.kind = .general top ∧ top.isStatic = true ∧
      (top = .pyramid true → d + 1 ≤ n))
    (s : Opt n d K) (nbr : Fin n → List (Fin n)) (before prog : List (CopyAct n d K))
    (hp : ∀ i t, CopyAct.act i (.set (.topology t)) ∉ before ++ prog) (i : Nat) (h : Handle n d K)
    (hi : ((Copies.single cfg s).run before).handles[i]? = some h)
    (hs : (((Copies.single cfg s).run before).view h).top.neighbor = some nbr)
    (h' : Handle n d K) (hh : h' ∈ ((Copies.single cfg s).run (before ++ prog)).handles) :
    (((Copies.single cfg s).run (before ++ prog)).view h').top.neighbor = some nbr := by
  let J : Copies n d K → Prop := fun F => ∀ h ∈ F.handles, h.top = 0 ∧ h.cfg.kind = cfg.kind
  have hstep : ∀ (F : Copies n d K) a, (∀ i t, a ≠ CopyAct.act i (.set (.topology t))) → J F →
      J (F.step a) ∧ ((F.tops 0).neighbor = some nbr → ((F.step a).tops 0).neighbor = some nbr) := by
    intro F a ha hJ
    cases a with
    | copy i =>
      unfold Copies.step
      dsimp only
      cases hi : F.handles[i]? with
      | none => exact ⟨hJ, fun h => h⟩
      | some h0 =>
        refine ⟨?_, fun h => h⟩
        intro h hm
        rcases List.mem_append.1 hm with hm | hm
        · exact hJ h hm
        · rw [List.mem_singleton] at hm
          rw [hm]
          exact hJ _ (List.mem_of_getElem? hi)
    | act i a =>
      cases hi : F.handles[i]? with
      | none =>
        have he : F.step (.act i a) = F := by simp [Copies.step, hi]
        rw [he]
        exact ⟨hJ, fun h => h⟩
      | some h0 =>
        obtain ⟨j1, j2⟩ := hJ h0 (List.mem_of_getElem? hi)
        -- the new handle
        have hnew : ∃ h1, F.step (.act i a) = F.put i h1 (act (h0.cfg, F.view h0) a).2 ∧
            h1.top = 0 ∧ h1.cfg.kind = cfg.kind := by
          unfold Copies.step
          dsimp only
          rw [hi]
          cases a with
          | set t =>
            cases t with
            | topology t => exact absurd rfl (ha i t)
            | _ => exact ⟨_, rfl, j1, j2⟩
          | call op =>
            cases op with
            | optimize ev iters nproc env => exact ⟨_, rfl, j1, j2⟩
            | reset r =>
              dsimp only
              cases hr : reset h0.cfg r (F.view h0) with
              | mk o y =>
                have ho : (act (h0.cfg, F.view h0) (.call (.reset r))).2 = o := by
                  show (reset h0.cfg r (F.view h0)).1 = o
                  rw [hr]
                rw [ho]
                cases y with
                | error e => exact ⟨_, rfl, j1, j2⟩
                | ok u => exact ⟨_, rfl, j1, j2⟩
        obtain ⟨h1, he, t1, t2⟩ := hnew
        rw [he]
        constructor
        · intro h hm
          rcases List.mem_or_eq_of_mem_set (show h ∈ F.handles.set i h1 from hm) with hm | rfl
          · exact hJ h hm
          · exact ⟨t1, t2⟩
        · intro hn
          show (Function.update F.tops h1.top (act (h0.cfg, F.view h0) a).2.top 0).neighbor = _
          rw [t1, Function.update_self]
          have hv : (F.view h0).top.neighbor = some nbr := by
            show (F.tops h0.top).neighbor = _
            rw [j1]; exact hn
          cases a with
          | set t =>
            cases t with
            | topology t => exact absurd rfl (ha i t)
            | _ => exact hv
          | call op =>
            exact C11_optimizer_static h0.cfg (by rw [j2]; exact hk) (F.view h0) nbr hv [op]
  have hrun : ∀ (prog : List (CopyAct n d K)) (F : Copies n d K),
      (∀ i t, CopyAct.act i (.set (.topology t)) ∉ prog) → J F →
      J (F.run prog) ∧ ((F.tops 0).neighbor = some nbr →
        ((F.run prog).tops 0).neighbor = some nbr) := by
    intro prog
    induction prog with
    | nil => exact fun F _ hJ => ⟨hJ, fun h => h⟩
    | cons a prog ih =>
      intro F hp hJ
      have h1 := hstep F a (fun i t e => hp i t (by rw [e]; exact List.mem_cons_self)) hJ
      have h2 := ih (F.step a) (fun i t m => hp i t (List.mem_cons_of_mem _ m)) h1.1
      exact ⟨h2.1, fun h => h2.2 (h1.2 h)⟩
  have h0 : J (Copies.single cfg s) := by
    intro h hm
    rw [List.mem_singleton.1 hm]
    exact ⟨rfl, rfl⟩
  have h1 := hrun before _ (fun i t m => hp i t (List.mem_append_left _ m)) h0
  have h2 := hrun prog _ (fun i t m => hp i t (List.mem_append_right _ m)) h1.1
  have he : (Copies.single cfg s).run (before ++ prog) =
      ((Copies.single cfg s).run before).run prog := by
    simp [Copies.run, List.foldl_append]
  rw [he] at hh ⊢
  show ((((Copies.single cfg s).run before).run prog).tops h'.top).neighbor = _
  rw [(h2.1 h' hh).1]
  refine h2.2 ?_
  have hs' : (((Copies.single cfg s).run before).tops h.top).neighbor = some nbr := hs
  rwa [(h1.1 h (List.mem_of_getElem? hi)).1] at hs'

/-! ## The hypotheses can be met -/

namespace Ex

/-- What is seen of the two objects after a program: evaluations, length of `cost_history` and
`best_cost` of each. -/
def seenCopies (prog : List (CopyAct 2 1 ℚ)) : List (Nat × Nat × Option ℚ) :=
  match construct (gcfg 2 1) (init 2 1) (init 2 1) with
  | .error _ => []
  | .ok s =>
    let F := (Copies.single (gcfg 2 1) s).run prog
    F.handles.map fun h => ((F.view h).evals.length, (F.view h).costHistory.length,
      match (F.view h).swarm.bestCost with | some (.fin x) => some x | _ => none)

/-- A call with two iterations. -/
def two : Act 2 1 ℚ := .call (.optimize (sphere 2 1) 2 none fun _ => draw 2 1)

end Ex

/-- A call on the copy is seen through the original. -/
example : Ex.seenCopies [.copy 0] = [(0, 0, none), (0, 0, none)] ∧
    Ex.seenCopies [.copy 0, .act 1 Ex.two] = [(2, 2, some 0), (2, 2, some 0)] := by
  decide +kernel

/-- After a reset of the copy it is not. -/
example : (Ex.seenCopies [.copy 0, .act 1 Ex.two, .act 1 (.call (.reset (Ex.init 2 1))),
    .act 0 Ex.two]).map (fun x => (x.1, x.2.1)) = [(4, 4), (0, 0)] := by
  decide +kernel

/-- Programs as in the theorems. -/
example : Valid (K := ℚ) 1 [.copy 0, .act 1 Ex.two, .copy 1, .act 2 Ex.two] ∧
    OnlyOptimize (K := ℚ) [.copy 0, .act 1 Ex.two, .copy 1, .act 2 Ex.two] ∧
    (Ex.gcfg 2 1).kind.Fresh ∧ NeverCopied 1 [CopyAct.copy 0, .act 1 Ex.two] ∧
    FreshTops (actsOf 1 [CopyAct.copy 0, .act 1 Ex.two]) := by
  refine ⟨by simp [Valid], ?_, .inr trivial, by simp [NeverCopied], ?_⟩
  · intro i a h
    simp only [List.mem_cons, List.not_mem_nil, reduceCtorEq, CopyAct.act.injEq, false_or, or_false] at h
    rcases h with ⟨-, rfl⟩ | ⟨-, rfl⟩ <;> exact ⟨_, _, _, _, rfl⟩
  · intro t h
    simp [actsOf, Ex.two] at h

/-- There are resets that raise. -/
example : (match construct (Ex.gcfg 2 1) (Ex.init 2 1) (Ex.init 2 1) with
    | .ok s => match (reset { Ex.gcfg 2 1 with bounds := some (fun _ => 0, fun _ => 1), initPos := some fun _ _ => 5 }
        (Ex.init 2 1) s).2 with
      | .error .valueError => true
      | _ => false
    | _ => false) = true := by decide +kernel

end PySwarms

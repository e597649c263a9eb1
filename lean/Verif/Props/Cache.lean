import Verif.Props.Memory
import Verif.Props.Binary
import Verif.Props.BlackBox

/-!
# A cache in front of the objective (C135)
-/

set_option linter.unusedSectionVars false

namespace PySwarms.Memo

variable {n d : Nat} {K : Type} [Field K] [LinearOrder K] [IsStrictOrderedRing K] [Transc K]
  [FloorRing K]

/-! ## Specification -/

/-- A cache a user may put in front of an expensive function of one position: a table of the values
known so far, and a counter of the calls of the expensive function. -/
structure Cache (d : Nat) (K : Type) where
  table : List (Vec d K × XR K)
  calls : Nat

/-- Ask for one value: from the table if it is there, otherwise by calling the function. -/
def Cache.ask (g : Vec d K → XR K) (m : Cache d K) (x : Vec d K) : Cache d K × XR K :=
  match m.table.find? fun e => decide (e.1 = x) with
  | some e => (m, e.2)
  | none => (⟨(x, g x) :: m.table, m.calls + 1⟩, g x)

/-- Ask for the values of all particles, one after the other. -/
def Cache.askAll (g : Vec d K → XR K) : Cache d K → List (Vec d K) → Cache d K × List (XR K)
  | m, [] => (m, [])
  | m, x :: xs =>
    (((m.ask g x).1.askAll g xs).1, (m.ask g x).2 :: ((m.ask g x).1.askAll g xs).2)

/-- The objective with the cache. -/
def cached (g : Vec d K → XR K) : MObj (Cache d K) d K := fun m x =>
  ((m.askAll g x).1, .ok (m.askAll g x).2)

/-- What is in the table is right. -/
def Cache.Good (g : Vec d K → XR K) (m : Cache d K) : Prop := ∀ e ∈ m.table, e.2 = g e.1

/-- The positions with a value in the table. -/
def Cache.keys (m : Cache d K) : Finset (Vec d K) := (m.table.map Prod.fst).toFinset

/-- The positions evaluated. -/
def points (E : List (Mat n d K × Costs n K)) : Finset (Vec d K) :=
  (E.flatMap fun e => rowsOf e.1).toFinset

/-- What may happen in the life of an optimizer used with a cache: a call of `optimize`, or `reset`. -/
inductive Job (n d : Nat) (K : Type)
  | optimize (iters : Nat) (env : Nat → Draw n d K)
  | reset (r : InitDraw n d K)

/-- One of them after the other; the cache is kept from call to call, exceptions are caught. -/
def life (cfg : Config n d K) (g : Vec d K → XR K) (home : Home) :
    Cache d K → Opt n d K → List (Job n d K) → Cache d K × Opt n d K
  | m, s, [] => (m, s)
  | m, s, .optimize iters env :: js =>
    life cfg g home (run cfg (cached g) home none iters none env ⟨m, fun _ => m⟩ s).1.parent
      (run cfg (cached g) home none iters none env ⟨m, fun _ => m⟩ s).2.1 js
  | m, s, .reset r :: js => life cfg g home m (reset cfg r s).1 js

/-! ## Proofs -/

theorem ask_spec (g : Vec d K → XR K) (m : Cache d K) (hm : m.Good g) (x : Vec d K) :
    (m.ask g x).1.Good g ∧ (m.ask g x).2 = g x ∧ (m.ask g x).1.keys = insert x m.keys ∧
      (m.ask g x).1.calls + m.keys.card = m.calls + (m.ask g x).1.keys.card := by
  unfold Cache.ask
  cases h : m.table.find? fun e => decide (e.1 = x) with
  | some e =>
    have he := List.find?_some h
    have hmem := List.mem_of_find?_eq_some h
    simp only [decide_eq_true_eq] at he
    refine ⟨hm, ?_, ?_, rfl⟩
    · rw [← he]; exact hm e hmem
    · refine (Finset.insert_eq_of_mem ?_).symm
      unfold Cache.keys
      rw [List.mem_toFinset, ← he]
      exact List.mem_map_of_mem hmem
  | none =>
    have hk : (⟨(x, g x) :: m.table, m.calls + 1⟩ : Cache d K).keys = insert x m.keys := by
      unfold Cache.keys
      simp
    have hn : x ∉ m.keys := by
      unfold Cache.keys
      rw [List.mem_toFinset, List.mem_map]
      rintro ⟨e, he, rfl⟩
      have := List.find?_eq_none.1 h e he
      simp at this
    refine ⟨?_, rfl, hk, ?_⟩
    · intro e he
      rcases List.mem_cons.1 he with rfl | he
      · rfl
      · exact hm e he
    · dsimp only
      rw [hk, Finset.card_insert_of_notMem hn]
      omega

theorem askAll_spec (g : Vec d K → XR K) (xs : List (Vec d K)) : ∀ (m : Cache d K), m.Good g →
    (m.askAll g xs).1.Good g ∧ (m.askAll g xs).2 = xs.map g ∧
      (m.askAll g xs).1.keys = m.keys ∪ xs.toFinset ∧
      (m.askAll g xs).1.calls + m.keys.card = m.calls + (m.askAll g xs).1.keys.card := by
  induction xs with
  | nil => intro m hm; exact ⟨hm, rfl, by simp [Cache.askAll], rfl⟩
  | cons x xs ih =>
    intro m hm
    obtain ⟨a1, a2, a3, a4⟩ := ask_spec g m hm x
    obtain ⟨b1, b2, b3, b4⟩ := ih _ a1
    refine ⟨b1, ?_, ?_, ?_⟩
    · show _ :: _ = _
      rw [a2, b2]
      rfl
    · show ((m.ask g x).1.askAll g xs).1.keys = _
      rw [b3, a3, List.toFinset_cons]
      ext y
      simp only [Finset.mem_union, Finset.mem_insert]
      tauto
    · show ((m.ask g x).1.askAll g xs).1.calls + _ =
        _ + ((m.ask g x).1.askAll g xs).1.keys.card
      omega

theorem calls_spec (g : Vec d K → XR K) (E : List (Mat n d K × Costs n K)) :
    ∀ (m m' : Cache d K), m.Good g → Calls (cached g) m E m' →
      m'.Good g ∧ m'.keys = m.keys ∪ points E ∧
        m'.calls + m.keys.card = m.calls + m'.keys.card := by
  induction E with
  | nil => intro m m' hm h; cases h; exact ⟨hm, by simp [points], rfl⟩
  | cons e E ih =>
    intro m m' hm h
    obtain ⟨-, h2⟩ := h
    obtain ⟨a1, -, a3, a4⟩ := askAll_spec g (rowsOf e.1) m hm
    obtain ⟨b1, b2, b3⟩ := ih _ m' a1 h2
    refine ⟨b1, ?_, ?_⟩
    · rw [b2]
      show (m.askAll g (rowsOf e.1)).1.keys ∪ _ = _
      rw [a3]
      unfold points
      rw [List.flatMap_cons, List.toFinset_append, Finset.union_assoc]
    · have b3' : m'.calls + (m.askAll g (rowsOf e.1)).1.keys.card =
        (m.askAll g (rowsOf e.1)).1.calls + m'.keys.card := b3
      omega

/-- **C135** (same run).  With the cache, also one that was filled in earlier runs, the run is the one
without: same result, same optimizer, with or without `n_processes`, wherever the cache lives and
whichever process gets which task. -/
theorem C135_same (cfg : Config n d K) (g : Vec d K → XR K) (home : Home)
    (fresh : Option (Cache d K)) (iters : Nat) (pool : Option (Nat × (Nat → List (Nat × Nat))))
    (env : Nat → Draw n d K) (ms : Mems (Cache d K)) (hm : ms.parent.Good g)
    (hfresh : ∀ m, fresh = some m → m.Good g) (s : Opt n d K) :
    (run cfg (cached g) home fresh iters pool env ms s).2 =
      optimize cfg (evaluator (fun _ x => .ok (x.map g))
        fun k => pool.map fun a => (a.1, (a.2 k).map Prod.fst)) iters (pool.map Prod.fst) env s :=
  C118_transparent cfg (cached g) home fresh (fun m => m.Good g) (fun x => .ok (x.map g))
    (fun m x h => ⟨(askAll_spec g x m h).1, congrArg Except.ok (askAll_spec g x m h).2.1⟩) iters pool
    env ms hm hfresh s

/-- **C135** (calls).  Without `n_processes` the expensive function is called exactly once for every
position that is evaluated and was not in the table before; afterwards the table contains all positions
evaluated. -/
theorem C135_calls (cfg : Config n d K) (g : Vec d K → XR K) (home : Home)
    (fresh : Option (Cache d K)) (iters : Nat) (env : Nat → Draw n d K) (ms : Mems (Cache d K))
    (hm : ms.parent.Good g) (s : Opt n d K)
    (o : Mems (Cache d K) × Opt n d K × Except Err (XR K × Vec d K))
    (ho : run cfg (cached g) home fresh iters none env ms s = o) :
    ∃ E, o.2.1.evals = s.evals ++ E ∧ o.1.parent.Good g ∧
      o.1.parent.keys = ms.parent.keys ∪ points E ∧
      o.1.parent.calls = ms.parent.calls + (points E \ ms.parent.keys).card := by
  obtain ⟨E, m1, h1, h2, h3⟩ := C118_serial cfg (cached g) home fresh iters env ms s o ho
  obtain ⟨a1, a2, a3⟩ := calls_spec g E _ _ hm h2
  have hp : o.1.parent = m1 := by
    rcases h3 with h3 | ⟨e, -, href, -⟩
    · exact h3
    · exfalso
      rcases href with h | ⟨l, h, hl⟩
      · cases h
      · cases h
        apply hl
        rw [(askAll_spec g _ m1 a1).2.1]
        simp [rowsOf]
  refine ⟨E, h1, hp ▸ a1, hp ▸ a2, ?_⟩
  rw [hp]
  have : m1.keys.card = ms.parent.keys.card + (points E \ ms.parent.keys).card := by
    rw [a2, ← Finset.union_sdiff_self_eq_union, Finset.card_union_of_disjoint Finset.disjoint_sdiff]
  omega

/-- **C135** (BinaryPSO).  Start with an empty cache, or one left by earlier runs of this kind: however
many iterations and particles, the expensive function is called at most `2 ^ dimensions` times in all. -/
theorem C135_bits (cfg : Config n d K) (hk : cfg.kind = .binary)
    (hinit : ∀ p, cfg.initPos = some p → Bits p) (g : Vec d K → XR K) (home : Home)
    (fresh : Option (Cache d K)) (hfresh : ∀ m, fresh = some m → m.Good g) (iters : Nat)
    (env : Nat → Draw n d K) (ms : Mems (Cache d K))
    (hm : ms.parent.Good g) (hb : ∀ x ∈ ms.parent.keys, ∀ j, x j = 0 ∨ x j = 1)
    (hc : ms.parent.calls = ms.parent.keys.card) (s : Opt n d K) (hs : Reachable cfg s)
    (o : Mems (Cache d K) × Opt n d K × Except Err (XR K × Vec d K))
    (ho : run cfg (cached g) home fresh iters none env ms s = o) :
    (o.1.parent.Good g ∧ (∀ x ∈ o.1.parent.keys, ∀ j, x j = 0 ∨ x j = 1) ∧
      o.1.parent.calls = o.1.parent.keys.card ∧ Reachable cfg o.2.1) ∧
    o.1.parent.calls ≤ 2 ^ d := by
  obtain ⟨E, h1, h2, h3, h4⟩ := C135_calls cfg g home fresh iters env ms hm s o ho
  have hrun := C135_same cfg g home fresh iters none env ms hm hfresh s
  rw [ho] at hrun
  have hreach : Reachable cfg o.2.1 := by
    rw [hrun]
    obtain ⟨r1, r2, s0, ops, hcs, rfl⟩ := hs
    exact ⟨r1, r2, s0, ops ++ [.optimize (evaluator (fun _ x => .ok (x.map g)) fun _ => none) iters none
        env], hcs,
      by simp [runOps, List.foldl_append, stepOp]⟩
  have hE : ∀ x ∈ points E, ∀ j, x j = 0 ∨ x j = 1 := by
    intro x hx j
    unfold points at hx
    rw [List.mem_toFinset, List.mem_flatMap] at hx
    obtain ⟨e, he, hx⟩ := hx
    unfold rowsOf at hx
    rw [List.mem_map] at hx
    obtain ⟨i, -, rfl⟩ := hx
    exact (C39_only_bits cfg hk hinit o.2.1 hreach).1 e
      (by rw [h1]; exact List.mem_append_right _ he) i j
  have hkeys : ∀ x ∈ o.1.parent.keys, ∀ j, x j = 0 ∨ x j = 1 := by
    intro x hx
    rw [h3, Finset.mem_union] at hx
    exact hx.elim (hb x) (hE x)
  have hcard : o.1.parent.calls = o.1.parent.keys.card := by
    rw [h4, h3, hc, ← Finset.union_sdiff_self_eq_union,
      Finset.card_union_of_disjoint Finset.disjoint_sdiff]
  refine ⟨⟨h2, hkeys, hcard, hreach⟩, ?_⟩
  rw [hcard]
  have hle := Set.encard_le_encard (show (↑o.1.parent.keys : Set (Vec d K)) ⊆
    {p : Vec d K | ∀ j, p j = 0 ∨ p j = 1} from fun x hx => hkeys x hx)
  rw [bits_encard, Set.encard_coe_eq_coe_finsetCard] at hle
  exact_mod_cast hle

theorem life_bits (cfg : Config n d K) (hk : cfg.kind = .binary)
    (hinit : ∀ p, cfg.initPos = some p → Bits p) (g : Vec d K → XR K) (home : Home)
    (js : List (Job n d K)) : ∀ (m : Cache d K) (s : Opt n d K), m.Good g →
      (∀ x ∈ m.keys, ∀ j, x j = 0 ∨ x j = 1) → m.calls = m.keys.card → Reachable cfg s →
      m.calls ≤ 2 ^ d → (life cfg g home m s js).1.calls ≤ 2 ^ d := by
  induction js with
  | nil => intro m s _ _ _ _ h; exact h
  | cons a js ih =>
    intro m s hm hb hc hs hle
    cases a with
    | optimize iters env =>
      obtain ⟨⟨h1, h2, h3, h4⟩, h5⟩ := C135_bits cfg hk hinit g home none (fun _ h => by cases h)
        iters env ⟨m, fun _ => m⟩ hm hb hc s hs _ rfl
      exact ih _ _ h1 h2 h3 h4 h5
    | reset r =>
      refine ih m _ hm hb hc ?_ hle
      obtain ⟨r1, r2, s0, ops, hcs, rfl⟩ := hs
      exact ⟨r1, r2, s0, ops ++ [.reset r], hcs, by simp [runOps, List.foldl_append, stepOp]⟩

/-- **C135** (BinaryPSO, whole life).  Construct a `BinaryPSO`, start with an empty cache, and call
`optimize` and `reset` as often as you like: the expensive function is called at most
`2 ^ dimensions` times in all. -/
theorem C135_bits_life (cfg : Config n d K) (hk : cfg.kind = .binary)
    (hinit : ∀ p, cfg.initPos = some p → Bits p) (g : Vec d K → XR K) (home : Home)
    (r1 r2 : InitDraw n d K) (s : Opt n d K) (hc : construct cfg r1 r2 = .ok s)
    (js : List (Job n d K)) : (life cfg g home ⟨[], 0⟩ s js).1.calls ≤ 2 ^ d :=
  life_bits cfg hk hinit g home js ⟨[], 0⟩ s (fun e he => by cases he)
    (fun x hx => by simp [Cache.keys] at hx) (by simp [Cache.keys]) ⟨r1, r2, s, [], hc, rfl⟩
    (Nat.zero_le _)

/-- **C135** (processes).  With `n_processes` the cache of the caller learns nothing. -/
theorem C135_lost (cfg : Config n d K) (g : Vec d K → XR K) (home : Home)
    (fresh : Option (Cache d K)) (iters p : Nat) (sched : Nat → List (Nat × Nat))
    (env : Nat → Draw n d K) (ms : Mems (Cache d K)) (s : Opt n d K) :
    (run cfg (cached g) home fresh iters (some (p, sched)) env ms s).1.parent = ms.parent :=
  C118_lost cfg (cached g) home fresh iters p sched env ms s

/-- Non-vacuity: five iterations of `BinaryPSO` with three particles in two dimensions evaluate fifteen
positions; the expensive function is called at most four times, and more than once. -/
example : (match construct (Ex.bcfg 3 2 3) (Ex.init 3 2) (Ex.init 3 2) with
    | .ok s =>
      let o := run (Ex.bcfg 3 2 3) (cached fun x => .fin (x 0 + 2 * x 1)) .inObject none 5 none
        (fun _ => Ex.draw 3 2) ⟨⟨[], 0⟩, fun _ => ⟨[], 0⟩⟩ s
      o.2.1.evals.length == 5 && decide (1 < o.1.parent.calls ∧ o.1.parent.calls ≤ 4)
    | .error _ => false) = true := by decide +kernel

/-- Non-vacuity: two calls with a reset between them; the second needs fewer new values than it
evaluates positions. -/
example : (match construct (Ex.bcfg 3 2 3) (Ex.init 3 2) (Ex.init 3 2) with
    | .ok s =>
      let o := life (Ex.bcfg 3 2 3) (fun x => .fin (x 0 + 2 * x 1)) .inObject ⟨[], 0⟩ s
        [.optimize 2 fun _ => Ex.draw 3 2, .reset (Ex.init 3 2), .optimize 3 fun _ => Ex.draw 3 2]
      o.2.evals.length == 3 && decide (1 < o.1.calls ∧ o.1.calls ≤ 4)
    | .error _ => false) = true := by decide +kernel

end PySwarms.Memo

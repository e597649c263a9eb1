import Verif.SpecHeap
import Verif.Lemmas.Topology
import Mathlib.Tactic.Linarith

/-!
# Lemmas about the model with array identity
-/

set_option linter.unusedSectionVars false

namespace PySwarms.Mem

variable {n d : Nat} {K : Type}

/-- `h'` extends `h` and has the same contents in all arrays below `base`. -/
def Ext (base : Nat) (h h' : Heap n d K) : Prop :=
  h.next ≤ h'.next ∧ ∀ c < base, h'.get c = h.get c

theorem Ext.refl (base : Nat) (h : Heap n d K) : Ext base h h := ⟨le_refl _, fun _ _ => rfl⟩

theorem Ext.trans {base : Nat} {h h' h'' : Heap n d K} (a : Ext base h h') (b : Ext base h' h'') :
    Ext base h h'' := ⟨a.1.trans b.1, fun c hc => (b.2 c hc).trans (a.2 c hc)⟩

theorem Ext.mono {base base' : Nat} {h h' : Heap n d K} (a : Ext base h h') (hb : base' ≤ base) :
    Ext base' h h' := ⟨a.1, fun c hc => a.2 c (hc.trans_le hb)⟩

theorem ext_alloc {base : Nat} {h : Heap n d K} (m : Mat n d K) (hb : base ≤ h.next) :
    Ext base h (h.alloc m).1 :=
  ⟨Nat.le_succ _, fun c hc => by simp [Heap.alloc, (hc.trans_le hb).ne]⟩

theorem ext_write {base a : Nat} {h : Heap n d K} (m : Mat n d K) (hb : base ≤ a) :
    Ext base h (h.write a m) :=
  ⟨le_refl _, fun c hc => by simp [Heap.write, (hc.trans_le hb).ne]⟩

@[simp] theorem alloc_next (h : Heap n d K) (m : Mat n d K) : (h.alloc m).1.next = h.next + 1 := rfl
@[simp] theorem alloc_addr (h : Heap n d K) (m : Mat n d K) : (h.alloc m).2 = h.next := rfl
@[simp] theorem alloc_get (h : Heap n d K) (m : Mat n d K) : (h.alloc m).1.get h.next = m := by
  simp [Heap.alloc]
theorem alloc_get_lt (h : Heap n d K) (m : Mat n d K) {c : Nat} (hc : c < h.next) :
    (h.alloc m).1.get c = h.get c := by simp [Heap.alloc, hc.ne]
@[simp] theorem write_next (h : Heap n d K) (a : Nat) (m : Mat n d K) :
    (h.write a m).next = h.next := rfl
@[simp] theorem write_get (h : Heap n d K) (a : Nat) (m : Mat n d K) : (h.write a m).get a = m := by
  simp [Heap.write]
theorem write_get_ne (h : Heap n d K) (a : Nat) (m : Mat n d K) {c : Nat} (hc : c ≠ a) :
    (h.write a m).get c = h.get c := by simp [Heap.write, hc]
theorem write_self (h : Heap n d K) (a : Nat) : h.write a (h.get a) = h := by
  cases h with
  | mk nx g =>
    simp only [Heap.write, Heap.mk.injEq, true_and]
    funext b; split
    · next e => rw [e]
    · rfl

/-- What a call with a memory reference must satisfy: it touches nothing below `base`, the
references it returns are allocated, and it computes `pure`. -/
structure CallOk (base : Nat) (h : Heap n d K) (out : Heap n d K × Option Nat × Except Err Nat)
    (pure : Option (Mat n d K) × Except Err (Mat n d K)) : Prop where
  ext : Ext base h out.1
  mem : ∀ m ∈ out.2.1, m < out.1.next
  res : ∀ p, out.2.2 = .ok p → p < out.1.next
  val : pure = (out.2.1.map out.1.get, out.2.2.map out.1.get)

section
variable [Field K] [LinearOrder K]

theorem mem_map_ext {base : Nat} {h h' : Heap n d K} (e : Ext base h h') {mem : Option Nat}
    (hm : ∀ m ∈ mem, m < base) : mem.map h'.get = mem.map h.get := by
  cases mem with
  | none => rfl
  | some m => simp [e.2 m (hm m rfl)]

theorem mem_lt_ext {base : Nat} {h h' : Heap n d K} (e : Ext base h h') {mem : Option Nat}
    (hm : ∀ m ∈ mem, m < base) (hb : base ≤ h.next) : ∀ m ∈ mem, m < h'.next :=
  fun m h1 => (hm m h1).trans_le (hb.trans e.1)

theorem reflective_spec (b : Bounds d K) {base a : Nat} (hb : base ≤ a) :
    ∀ (k : Nat) (h : Heap n d K), Ext base h (reflective b k h a).1 ∧
      (reflective b k h a).1.next = h.next ∧
      (∀ p, (reflective b k h a).2 = .ok p → p = a) ∧
      bhReflective b k (h.get a) = (reflective b k h a).2.map (reflective b k h a).1.get := by
  intro k
  induction k with
  | zero =>
    intro h
    by_cases ho : anyOut b (h.get a) = true
    · simp [reflective, bhReflective, ho, Except.map, Ext.refl]
    · simp only [Bool.not_eq_true] at ho
      simp [reflective, bhReflective, ho, Except.map, Ext.refl]
  | succ k ih =>
    intro h
    by_cases ho : anyOut b (h.get a) = true
    · simp only [reflective, bhReflective, ho, if_true]
      set h1 := h.write a fun i j =>
        if isLow b (h.get a) i j then 2 * b.1 j - h.get a i j else h.get a i j with e1
      set h2 := h1.write a fun i j =>
        if isHigh b (h.get a) i j then 2 * b.2 j - h1.get a i j else h1.get a i j with e2
      obtain ⟨x1, x2, x3, x4⟩ := ih h2
      have hr : reflectPass b (h.get a) = h2.get a := by
        rw [e2, write_get]; funext i j
        simp only [reflectPass, e1, write_get]
      have he : Ext base h h2 := (ext_write _ hb).trans (ext_write _ hb)
      exact ⟨he.trans x1, x2, x3, by rw [hr]; exact x4⟩
    · simp only [Bool.not_eq_true] at ho
      simp [reflective, bhReflective, ho, Except.map, Ext.refl]

theorem bhCall_spec [FloorRing K] (strategy : String) {mem : Option Nat} (b : Bounds d K)
    (r : BHDraw d K) {h : Heap n d K} {base a : Nat} (hb : base ≤ a) (ha : a < h.next)
    (hm : ∀ m ∈ mem, m < base) :
    CallOk base h (bhCall strategy mem b r h a)
      (PySwarms.bhCall strategy (mem.map h.get) b r (h.get a)) := by
  have hbn : base ≤ h.next := hb.trans ha.le
  unfold bhCall PySwarms.bhCall
  by_cases e1 : strategy = "nearest"
  · simp only [e1, if_true]
    have hx : Ext base h (nearest b h a).1 := by
      unfold nearest
      exact (ext_alloc _ hbn).trans (ext_alloc _ (hbn.trans (Nat.le_succ _)))
    refine ⟨hx, mem_lt_ext hx hm hbn, ?_, ?_⟩
    · intro p hp
      simp only [nearest, alloc_addr, alloc_next, Except.ok.injEq] at hp ⊢
      subst hp; exact Nat.lt_succ_self _
    · simp only [Except.map, mem_map_ext hx hm, Prod.mk.injEq, true_and, Except.ok.injEq]
      unfold nearest
      simp only [alloc_addr, alloc_get]
      funext i j
      simp only [bhNearest]
  simp only [e1, if_false]
  by_cases e2 : strategy = "reflective"
  · simp only [e2, if_true]
    obtain ⟨x1, x2, x3, x4⟩ := reflective_spec b hb r.passes h
    refine ⟨x1, mem_lt_ext x1 hm hbn, ?_, ?_⟩
    · intro p hp
      have := x3 p hp
      subst this
      show p < (reflective b r.passes h p).1.next
      rw [x2]; exact ha
    · simp only [mem_map_ext x1 hm, x4]
  simp only [e2, if_false]
  by_cases e3 : strategy = "shrink"
  · simp only [e3, if_true]
    cases mem with
    | none =>
      simp only [shrink, bhShrink, Option.map]
      exact ⟨Ext.refl _ _, by intro m hm'; cases hm'; exact ha,
        by intro p hp; cases hp; exact ha, rfl⟩
    | some m =>
      have hmb := hm m rfl
      have hma : m ≠ a := (hmb.trans_le hb).ne
      simp only [shrink, bhShrink, Option.map]
      split
      · exact ⟨Ext.refl _ _, mem_lt_ext (Ext.refl _ _) hm hbn, by intro p hp; simp at hp, rfl⟩
      · split
        · exact ⟨Ext.refl _ _, mem_lt_ext (Ext.refl _ _) hm hbn, by intro p hp; simp at hp, rfl⟩
        · next hd =>
          refine ⟨(ext_write _ hb).trans (ext_write _ hb), by intro m hm'; cases hm'; exact ha,
            by intro p hp; cases hp; exact ha, ?_⟩
          simp only [Except.map, Option.map, write_get, Prod.mk.injEq, Option.some.injEq,
            Except.ok.injEq, write_get_ne _ _ _ hma, and_self]
          funext i j
          have hs : ∃ s, rowMin (shrinkSigma b (h.get m) (h.get a) i) = some s := by
            unfold rowMin
            cases d with
            | zero => exact absurd rfl hd
            | succ d =>
              rw [List.finRange_succ]
              simp only [List.map_cons, List.foldl_cons]
              generalize List.map _ (List.map _ _) = l
              generalize shrinkSigma b (h.get m) (h.get a) i 0 = x
              induction l generalizing x with
              | nil => exact ⟨x, rfl⟩
              | cons y l ih => exact ih (min x y)
          obtain ⟨s, hs⟩ := hs
          simp only [hs]
          by_cases hl : rowLow b (h.get a) i = true <;> by_cases hh : rowHigh b (h.get a) i = true <;>
            simp [hl, hh]
  simp only [e3, if_false]
  by_cases e4 : strategy = "random"
  · simp only [e4, if_true]
    have hx : Ext base h (random b r.u r.l h a).1 := (ext_write _ hb).trans (ext_write _ hb)
    refine ⟨hx, mem_lt_ext hx hm hbn, ?_, ?_⟩
    · intro p hp
      simp only [random, Except.ok.injEq] at hp
      subst hp; exact ha
    · simp only [Except.map, mem_map_ext hx hm, Prod.mk.injEq, true_and, Except.ok.injEq]
      funext i j
      simp only [random, write_get, bhRandom]
  simp only [e4, if_false]
  by_cases e5 : strategy = "intermediate"
  · simp only [e5, if_true]
    cases mem with
    | none =>
      simp only [intermediate, bhIntermediate, Option.map]
      exact ⟨Ext.refl _ _, by intro m hm'; cases hm'; exact ha,
        by intro p hp; cases hp; exact ha, rfl⟩
    | some m =>
      have hmb := hm m rfl
      have hma : m ≠ a := (hmb.trans_le hb).ne
      simp only [intermediate, bhIntermediate, Option.map]
      refine ⟨(ext_write _ hb).trans (ext_write _ hb), by intro m hm'; cases hm'; exact ha,
        by intro p hp; cases hp; exact ha, ?_⟩
      simp only [Except.map, Option.map, write_get, write_get_ne _ _ _ hma]
  simp only [e5, if_false]
  by_cases e6 : strategy = "periodic"
  · simp only [e6, if_true]
    simp only [periodic, bhPeriodic]
    split
    · exact ⟨Ext.refl _ _, mem_lt_ext (Ext.refl _ _) hm hbn, by intro p hp; simp at hp, rfl⟩
    · have hx : ∀ m1 m2, Ext base h ((h.write a m1).write a m2) :=
        fun _ _ => (ext_write _ hb).trans (ext_write _ hb)
      refine ⟨hx _ _, mem_lt_ext (hx _ _) hm hbn, by intro p hp; cases hp; exact ha, ?_⟩
      simp only [Except.map, mem_map_ext (hx _ _) hm, write_get]
  simp only [e6, if_false]
  exact ⟨Ext.refl _ _, mem_lt_ext (Ext.refl _ _) hm hbn, by intro p hp; simp at hp, rfl⟩

theorem clampOpt_spec (c : Option (Clamp d K)) {h : Heap n d K} {base v : Nat} (hv : v < h.next)
    (hbn : base ≤ h.next) :
    Ext base h (clampOpt c h v).1 ∧ (clampOpt c h v).2 < (clampOpt c h v).1.next ∧
      (clampOpt c h v).1.get (clampOpt c h v).2 = PySwarms.clampOpt c (h.get v) := by
  cases c with
  | none => exact ⟨Ext.refl _ _, hv, rfl⟩
  | some c =>
    refine ⟨(ext_alloc _ hbn).trans (ext_alloc _ (hbn.trans (Nat.le_succ _))), ?_, ?_⟩
    · simp [clampOpt]
    · unfold clampOpt
      simp only [alloc_addr, alloc_get, alloc_next, PySwarms.clampOpt]
      have := alloc_get
        (h.alloc fun i j => if decide (h.get v i j ≤ c.1 j) then c.1 j else h.get v i j).1
        (applyClamp c (h.get v))
      rw [alloc_next] at this
      exact this

theorem vhCall_spec (strategy : String) {mem : Option Nat} (c : Option (Clamp d K)) {pos : Nat}
    (bounds : Option (Bounds d K)) {h : Heap n d K} {base v : Nat} (hb : base ≤ v)
    (hv : v < h.next) (hp : pos < base) (hm : ∀ m ∈ mem, m < base) :
    CallOk base h (vhCall strategy mem c pos bounds h v)
      (PySwarms.vhCall strategy (mem.map h.get) c
        { position := some (h.get pos), bounds := some bounds } (h.get v)) := by
  have hbn : base ≤ h.next := hb.trans hv.le
  have hpn : pos < h.next := hp.trans_le hbn
  unfold vhCall PySwarms.vhCall
  by_cases e1 : strategy = "unmodified"
  · simp only [e1, if_true]
    obtain ⟨x1, x2, x3⟩ := clampOpt_spec (base := base) c hv hbn
    refine ⟨x1, mem_lt_ext x1 hm hbn, by intro p hp; cases hp; exact x2, ?_⟩
    simp only [Except.map, mem_map_ext x1 hm, x3, vhUnmodified]
  simp only [e1, if_false]
  by_cases e2 : strategy = "adjust"
  · simp only [e2, if_true, vhAdjust]
    cases mem with
    | none =>
      exact ⟨Ext.refl _ _, by intro m hm'; cases hm'; exact hpn,
        by intro p hp; cases hp; exact hv, rfl⟩
    | some m =>
      have hx := ext_alloc (base := base) (h := h) (fun i j => h.get pos i j - h.get m i j) hbn
      obtain ⟨x1, x2, x3⟩ := clampOpt_spec (base := base) c
        (h := (h.alloc fun i j => h.get pos i j - h.get m i j).1) (v := h.next)
        (by simp) (hbn.trans (Nat.le_succ _))
      have hxx := hx.trans x1
      refine ⟨hxx, ?_, by intro p hp; cases hp; exact x2, ?_⟩
      · intro m' hm'; cases hm'; exact hpn.trans_le hxx.1
      · simp only [Option.map, Except.map, alloc_addr, x3, alloc_get, hxx.2 pos hp]
  simp only [e2, if_false]
  by_cases e3 : strategy = "invert"
  · simp only [e3, if_true, vhInvert]
    cases bounds with
    | none => exact ⟨Ext.refl _ _, mem_lt_ext (Ext.refl _ _) hm hbn, by intro p hp; simp at hp, rfl⟩
    | some b =>
      simp only [Option.getD]
      set h1 := h.write v fun i j =>
        if rowLow b (h.get pos) i then (-(1 / 2)) * h.get v i j else h.get v i j with e1
      set h2 := h1.write v fun i j =>
        if rowHigh b (h.get pos) i then (-(1 / 2)) * h1.get v i j else h1.get v i j with e2
      have hx : Ext base h h2 := (ext_write _ hb).trans (ext_write _ hb)
      obtain ⟨x1, x2, x3⟩ := clampOpt_spec (base := base) c (h := h2) (v := v) hv hbn
      have hxx := hx.trans x1
      refine ⟨hxx, mem_lt_ext hxx hm hbn, by intro p hp; cases hp; exact x2, ?_⟩
      have hv2 : h2.get v = fun i j =>
          if rowHigh b (h.get pos) i then
            (-(1 / 2)) * (if rowLow b (h.get pos) i then (-(1 / 2)) * h.get v i j else h.get v i j)
          else (if rowLow b (h.get pos) i then (-(1 / 2)) * h.get v i j else h.get v i j) := by
        rw [e2, write_get]; funext i j; simp only [e1, write_get]
      simp only [Except.map, mem_map_ext hxx hm, x3, hv2]
  simp only [e3, if_false]
  by_cases e4 : strategy = "zero"
  · simp only [e4, if_true, vhZero]
    cases bounds with
    | none => exact ⟨Ext.refl _ _, mem_lt_ext (Ext.refl _ _) hm hbn, by intro p hp; simp at hp, rfl⟩
    | some b =>
      have hx : ∀ m1 m2, Ext base h ((h.write v m1).write v m2) :=
        fun _ _ => (ext_write _ hb).trans (ext_write _ hb)
      refine ⟨hx _ _, mem_lt_ext (hx _ _) hm hbn, by intro p hp; cases hp; exact hv, ?_⟩
      simp only [Except.map, mem_map_ext (hx _ _) hm, write_get]
  simp only [e4, if_false]
  exact ⟨Ext.refl _ _, mem_lt_ext (Ext.refl _ _) hm hbn, by intro p hp; simp at hp, rfl⟩

/-! ## States -/

/-- Every reference in a reference to a best position is allocated. -/
def BestRef.Ok (next : Nat) : BestRef n → Prop
  | .empty => True
  | .row a _ => a < next
  | .array a => a < next

/-- Every array reference in the object is allocated. -/
structure Good (s : Obj n d K) : Prop where
  position : s.position < s.heap.next
  velocity : s.velocity < s.heap.next
  pbestPos : s.pbestPos < s.heap.next
  bestPos : s.bestPos.Ok s.heap.next
  bhMem : ∀ m ∈ s.bhMem, m < s.heap.next
  vhMem : ∀ m ∈ s.vhMem, m < s.heap.next
  posHistory : ∀ a ∈ s.posHistory, a < s.heap.next
  velocityHistory : ∀ a ∈ s.velocityHistory, a < s.heap.next

theorem BestRef.Ok.mono {next next' : Nat} (h : next ≤ next') : {b : BestRef n} → b.Ok next → b.Ok next'
  | .empty, _ => trivial
  | .row _ _, hb => Nat.lt_of_lt_of_le hb h
  | .array _, hb => Nat.lt_of_lt_of_le hb h

theorem best_read_ext {h h' : Heap n d K} (e : Ext h.next h h') :
    {b : BestRef n} → b.Ok h.next → b.read h' = b.read h
  | .empty, _ => rfl
  | .row a i, hb => by simp [BestRef.read, e.2 a hb]
  | .array a, hb => by simp [BestRef.read, e.2 a hb]

theorem list_map_ext {h h' : Heap n d K} (e : Ext h.next h h') {l : List Nat}
    (hl : ∀ a ∈ l, a < h.next) : l.map h'.get = l.map h.get :=
  List.map_congr_left fun a ha => e.2 a (hl a ha)

/-- Moving to an extended heap. -/
theorem Good.ext {s : Obj n d K} (g : Good s) {h' : Heap n d K} (e : Ext s.heap.next s.heap h') :
    Good { s with heap := h' } where
  position := g.position.trans_le e.1
  velocity := g.velocity.trans_le e.1
  pbestPos := g.pbestPos.trans_le e.1
  bestPos := g.bestPos.mono e.1
  bhMem m hm := (g.bhMem m hm).trans_le e.1
  vhMem m hm := (g.vhMem m hm).trans_le e.1
  posHistory a ha := (g.posHistory a ha).trans_le e.1
  velocityHistory a ha := (g.velocityHistory a ha).trans_le e.1

theorem read_ext {s : Obj n d K} (g : Good s) {h' : Heap n d K} (e : Ext s.heap.next s.heap h') :
    ({ s with heap := h' } : Obj n d K).read = s.read := by
  simp only [Obj.read, Obj.swarm, e.2 _ g.position, e.2 _ g.velocity, e.2 _ g.pbestPos,
    best_read_ext e g.bestPos, mem_map_ext e g.bhMem, mem_map_ext e g.vhMem,
    list_map_ext e g.posHistory, list_map_ext e g.velocityHistory]

/-- `s'` is a good state that extends `s` and shows the value `v`. -/
structure Step (s s' : Obj n d K) (v : Opt n d K) : Prop where
  ext : Ext s.heap.next s.heap s'.heap
  good : Good s'
  read : s'.read = v

theorem Step.trans {s s' s'' : Obj n d K} {v v' : Opt n d K} (a : Step s s' v) (b : Step s' s'' v') :
    Step s s'' v' :=
  ⟨a.ext.trans (b.ext.mono a.ext.1), b.good, b.read⟩

theorem read_of {s : Obj n d K} {v : Opt n d K}
    (h1 : s.heap.get s.position = v.swarm.position) (h2 : s.heap.get s.velocity = v.swarm.velocity)
    (h3 : s.options = v.swarm.options) (h4 : s.heap.get s.pbestPos = v.swarm.pbestPos)
    (h5 : s.pbestCost = v.swarm.pbestCost) (h6 : s.bestPos.read s.heap = v.swarm.bestPos)
    (h7 : s.bestCost = v.swarm.bestCost) (h8 : s.currentCost = v.swarm.currentCost)
    (h9 : s.top = v.top) (h10 : s.bhMem.map s.heap.get = v.bhMem)
    (h11 : s.vhMem.map s.heap.get = v.vhMem) (h12 : s.costHistory = v.costHistory)
    (h13 : s.meanPbestHistory = v.meanPbestHistory)
    (h14 : s.meanNeighborHistory = v.meanNeighborHistory)
    (h15 : s.posHistory.map s.heap.get = v.posHistory)
    (h16 : s.velocityHistory.map s.heap.get = v.velocityHistory) (h17 : s.evals = v.evals)
    (h18 : s.openPools = v.openPools) : s.read = v := by
  cases v with
  | mk sw => cases sw; simp_all [Obj.read, Obj.swarm]

variable [Transc K] [FloorRing K]

theorem recordEval_spec (c : Costs n K) {s : Obj n d K} (g : Good s) :
    Step s (recordEval c s) (PySwarms.recordEval c s.read) := by
  have e := ext_alloc (base := s.heap.next) (h := s.heap)
    (computePbest { s.swarm with currentCost := c }).1 (le_refl _)
  refine ⟨e, ?_, ?_⟩
  · have g' := g.ext e
    exact ⟨g'.position, g'.velocity, Nat.lt_succ_self _, g'.bestPos, g'.bhMem, g'.vhMem,
      g'.posHistory, g'.velocityHistory⟩
  · exact read_of (e.2 _ g.position) (e.2 _ g.velocity) rfl (alloc_get _ _) rfl
      (best_read_ext e g.bestPos) rfl rfl rfl (mem_map_ext e g.bhMem) (mem_map_ext e g.vhMem)
      rfl rfl rfl (list_map_ext e g.posHistory) (list_map_ext e g.velocityHistory) rfl rfl

/-- What `compute_gbest` can return, relative to the personal bests. -/
theorem gbest_shape (cfg : Config n d K) (o : Oracle n d K) (t : TopState n) (sw : Swarm n d K)
    (t' : TopState n) (gb : GBest n d K) (h : callGbest cfg o t sw = (t', .ok gb)) :
    (∃ m, gb.1 = .perParticle m) ∨
      ∃ i, npArgmin sw.pbestCost = some i ∧
        gb.1 = if usesStar cfg && !(XR.lt (sw.pbestCost i) sw.bestCostVal) then sw.bestPos
          else .single (sw.pbestPos i) := by
  have gather : ∀ {bn : Fin n → Fin n}, gatherBest bn sw = .ok gb → ∃ m, gb.1 = .perParticle m := by
    intro bn hb
    unfold gatherBest at hb
    split at hb
    · cases hb
    · cases hb; exact ⟨_, rfl⟩
  have nbr : ∀ {nb}, nbrBest nb sw = .ok gb → ∃ m, gb.1 = .perParticle m := by
    intro nb hb
    unfold nbrBest at hb
    split at hb
    · cases hb
    · exact gather hb
  have ring : ∀ {st k p}, ringGbest st k p o t sw = (t', .ok gb) → ∃ m, gb.1 = .perParticle m := by
    intro st k p hb
    obtain ⟨t1, -, hb⟩ := ringGbest_cases hb
    rcases hb with ⟨_, _, _, hb⟩ | ⟨_, _, nb, _, hb⟩
    · exact gather hb
    · exact nbr hb
  have star : usesStar cfg = true → starGbest t sw = (t', .ok gb) →
      ∃ i, npArgmin sw.pbestCost = some i ∧
        gb.1 = if usesStar cfg && !(XR.lt (sw.pbestCost i) sw.bestCostVal) then sw.bestPos
          else .single (sw.pbestPos i) := by
    intro hs hb
    unfold starGbest at hb
    dsimp only at hb
    split at hb
    · cases hb
    · next i hi =>
      refine ⟨i, hi, ?_⟩
      split at hb
      · next hl => cases hb; simp [hl]
      · next hl => cases hb; simp [hs, hl]
  cases hk : cfg.kind with
  | globalBest =>
    simp only [callGbest, hk] at h
    exact .inr (star (by simp [usesStar, hk]) h)
  | localBest st =>
    simp only [callGbest, hk, computeGbest] at h
    split at h
    · exact .inl (ring h)
    · cases h
  | binary =>
    simp only [callGbest, hk, computeGbest] at h
    split at h
    · exact .inl (ring h)
    · cases h
  | general top =>
    simp only [callGbest, hk] at h
    cases top with
    | star => exact .inr (star (by simp [usesStar, hk]) h)
    | ring st =>
      simp only [computeGbest] at h
      split at h
      · exact .inl (ring h)
      · cases h
    | vonNeumann =>
      simp only [computeGbest] at h
      split at h
      · exact .inl (ring h)
      · cases h
    | pyramid st =>
      rcases pyramidGbest_cases h with ⟨-, -, i, hi, rfl⟩ | ⟨-, -, nb, -, hb⟩
      · exact .inr ⟨i, hi, by simp [usesStar, hk]⟩
      · exact .inl (nbr hb)
    | random st =>
      simp only [computeGbest] at h
      split at h
      · obtain ⟨-, nb, -, hb⟩ := randomGbest_cases h
        exact .inl (nbr hb)
      · cases h

theorem bestRef_spec (cfg : Config n d K) {s : Obj n d K} (g : Good s) (b : BestPos n d K)
    (hb : (∃ m, b = .perParticle m) ∨
      ∃ i, npArgmin s.pbestCost = some i ∧
        b = if usesStar cfg && !(XR.lt (s.pbestCost i) s.swarm.bestCostVal) then s.swarm.bestPos
          else .single (s.heap.get s.pbestPos i)) :
    Ext s.heap.next s.heap (bestRef cfg s b).1 ∧
      (bestRef cfg s b).2.Ok (bestRef cfg s b).1.next ∧
      (bestRef cfg s b).2.read (bestRef cfg s b).1 = b := by
  have key : ∀ m, b = .perParticle m → Ext s.heap.next s.heap (bestRef cfg s b).1 ∧
      (bestRef cfg s b).2.Ok (bestRef cfg s b).1.next ∧
      (bestRef cfg s b).2.read (bestRef cfg s b).1 = b := by
    intro m hm
    subst hm
    exact ⟨ext_alloc _ (le_refl _), Nat.lt_succ_self _,
      congrArg BestPos.perParticle (alloc_get s.heap m)⟩
  rcases hb with ⟨m, hm⟩ | ⟨i, hi, hb⟩
  · exact key m hm
  · by_cases hs : (usesStar cfg && !(XR.lt (s.pbestCost i) s.swarm.bestCostVal)) = true
    · rw [if_pos hs] at hb
      cases hbb : b with
      | perParticle m => rw [← hbb]; exact key m hbb
      | empty =>
        rw [hbb] at hb
        exact ⟨Ext.refl _ _, g.bestPos, hb.symm⟩
      | single v =>
        rw [hbb] at hb
        simp only [bestRef, hi, hs, if_true]
        exact ⟨Ext.refl _ _, g.bestPos, hb.symm⟩
    · rw [if_neg hs] at hb
      subst hb
      simp only [bestRef, hi, hs]
      exact ⟨Ext.refl _ _, g.pbestPos, rfl⟩

theorem recordBest_spec (cfg : Config n d K) {s : Obj n d K} (g : Good s) (o : Oracle n d K)
    (t' : TopState n) (gb : GBest n d K) (h : callGbest cfg o s.top s.swarm = (t', .ok gb)) :
    Step s (recordBest cfg t' gb s) (PySwarms.recordBest t' gb s.read) := by
  obtain ⟨e, ok, rd⟩ := bestRef_spec cfg g gb.1 (gbest_shape cfg o _ _ _ _ h)
  have g' := g.ext e
  refine ⟨e, ?_, ?_⟩
  · refine ⟨g'.position, g'.velocity, g'.pbestPos, ok, g'.bhMem, g'.vhMem, ?_, ?_⟩
    · intro a ha
      rcases List.mem_append.1 ha with ha | ha
      · exact g'.posHistory a ha
      · rw [List.mem_singleton.1 ha]; exact g'.position
    · intro a ha
      rcases List.mem_append.1 ha with ha | ha
      · exact g'.velocityHistory a ha
      · rw [List.mem_singleton.1 ha]; exact g'.velocity
  · refine read_of (e.2 _ g.position) (e.2 _ g.velocity) rfl (e.2 _ g.pbestPos) rfl rd rfl rfl rfl
      (mem_map_ext e g.bhMem) (mem_map_ext e g.vhMem) rfl rfl rfl ?_ ?_ rfl rfl
    · show (s.posHistory ++ [s.position]).map _ = s.posHistory.map _ ++ [_]
      rw [List.map_append]
      exact congrArg₂ _ (list_map_ext e g.posHistory) (congrArg (fun x => [x]) (e.2 _ g.position))
    · show (s.velocityHistory ++ [s.velocity]).map _ = s.velocityHistory.map _ ++ [_]
      rw [List.map_append]
      exact congrArg₂ _ (list_map_ext e g.velocityHistory)
        (congrArg (fun x => [x]) (e.2 _ g.velocity))

theorem computeVelocity_spec {s : Obj n d K} (g : Good s) (clamp : Option (Clamp d K))
    (strategy : String) (bounds : Option (Bounds d K)) (r1 r2 : Mat n d K) :
    CallOk s.heap.next s.heap (computeVelocity s clamp strategy bounds r1 r2)
      (PySwarms.computeVelocity s.swarm clamp strategy (s.vhMem.map s.heap.get) bounds r1 r2) := by
  have herr : ∀ e, CallOk s.heap.next s.heap (s.heap, s.vhMem, .error e)
      (s.vhMem.map s.heap.get, .error e) := fun e =>
    ⟨Ext.refl _ _, g.vhMem, by intro p hp; simp at hp, rfl⟩
  unfold computeVelocity PySwarms.computeVelocity
  have ho : s.swarm.options = s.options := rfl
  rw [ho]
  cases h1 : s.options.lookup "c1" with
  | none => exact herr _
  | some c1 =>
  cases h2 : s.options.lookup "c2" with
  | none => exact herr _
  | some c2 =>
  cases h3 : s.options.lookup "w" with
  | none => exact herr _
  | some w =>
  dsimp only
  have e := ext_alloc (base := s.heap.next) (h := s.heap)
    (tempVelocity c1 c2 w r1 r2 s.swarm) (le_refl _)
  have hc := vhCall_spec strategy (mem := s.vhMem) clamp (pos := s.position) bounds
    (h := (s.heap.alloc (tempVelocity c1 c2 w r1 r2 s.swarm)).1) (base := s.heap.next)
    (v := s.heap.next) (le_refl _) (Nat.lt_succ_self _) g.position g.vhMem
  rw [mem_map_ext e g.vhMem, e.2 _ g.position, alloc_get] at hc
  have hc' : CallOk s.heap.next s.heap _ _ := ⟨e.trans hc.ext, hc.mem, hc.res, hc.val⟩
  have hb : s.swarm.bestPos = s.bestPos.read s.heap := rfl
  have hpos : s.swarm.position = s.heap.get s.position := rfl
  rw [hb, hpos]
  simp only [alloc_addr]
  revert hc'
  generalize vhCall strategy s.vhMem clamp s.position bounds
    (s.heap.alloc (tempVelocity c1 c2 w r1 r2 s.swarm)).1 s.heap.next = out
  generalize PySwarms.vhCall strategy (s.vhMem.map s.heap.get) clamp
    { position := some (s.heap.get s.position), bounds := some bounds, z := none }
    (tempVelocity c1 c2 w r1 r2 s.swarm) = pout
  intro hc'
  cases s.bestPos with
  | empty =>
    simp only [BestRef.read]
    split
    · exact hc'
    · split
      · split
        · exact hc'
        · obtain ⟨h, m, r⟩ := out
          have hv := hc'.val
          subst hv
          cases r with
          | error e => exact hc'
          | ok p => exact ⟨hc'.ext, hc'.mem, by intro p hp; simp at hp, rfl⟩
      · exact herr _
  | row a i => exact hc'
  | array a => exact hc'

theorem computePosition_spec {s : Obj n d K} (g : Good s) (bounds : Option (Bounds d K))
    (strategy : String) (r : BHDraw d K) :
    CallOk s.heap.next s.heap (computePosition s bounds strategy r)
      (PySwarms.computePosition s.swarm bounds strategy (s.bhMem.map s.heap.get) r) := by
  unfold computePosition PySwarms.computePosition
  dsimp only
  have e1 := ext_alloc (base := s.heap.next) (h := s.heap) (s.heap.get s.position) (le_refl _)
  set h1 := (s.heap.alloc (s.heap.get s.position)).1 with hh1
  rw [alloc_addr]
  set h2 := h1.write s.heap.next fun i j => h1.get s.heap.next i j + h1.get s.velocity i j with hh2
  have e2 : Ext s.heap.next s.heap h2 := e1.trans (ext_write _ (le_refl _))
  have ht : h2.get s.heap.next = fun i j => s.swarm.position i j + s.swarm.velocity i j := by
    rw [hh2, write_get]
    funext i j
    rw [e1.2 _ g.velocity, hh1, alloc_get]
    rfl
  cases bounds with
  | none =>
    refine ⟨e2, mem_lt_ext e2 g.bhMem (le_refl _), ?_, ?_⟩
    · intro p hp
      cases hp
      exact Nat.lt_succ_self _
    · simp only [Except.map, mem_map_ext e2 g.bhMem, ht]
  | some b =>
    have hc := bhCall_spec strategy (mem := s.bhMem) b r (h := h2) (base := s.heap.next)
      (a := s.heap.next) (le_refl _) (Nat.lt_succ_self _) g.bhMem
    rw [mem_map_ext e2 g.bhMem, ht] at hc
    exact ⟨e2.trans hc.ext, hc.mem, hc.res, hc.val⟩

theorem callPosition_spec (cfg : Config n d K) (r : Draw n d K) {s : Obj n d K} (g : Good s) :
    CallOk s.heap.next s.heap (callPosition cfg r s)
      (PySwarms.callPosition cfg r (s.bhMem.map s.heap.get) s.swarm) := by
  unfold callPosition PySwarms.callPosition
  cases hk : cfg.kind with
  | binary =>
    have e1 := ext_alloc (base := s.heap.next) (h := s.heap)
      (binaryPosition r.thr (s.heap.get s.velocity)) (le_refl _)
    refine ⟨e1, mem_lt_ext e1 g.bhMem (le_refl _), ?_, ?_⟩
    · intro p hp
      cases hp
      exact Nat.lt_succ_self _
    · simp only [Except.map, alloc_addr, alloc_get, mem_map_ext e1 g.bhMem]
      rfl
  | globalBest => exact computePosition_spec g _ _ _
  | localBest st => exact computePosition_spec g _ _ _
  | general t => exact computePosition_spec g _ _ _

/-- Same outcome, good extended state, same visible state. -/
structure RunOk {α : Type} (s : Obj n d K) (out : Obj n d K × Except Err α)
    (pure : Opt n d K × Except Err α) : Prop where
  step : Step s out.1 pure.1
  res : out.2 = pure.2

theorem step_refl {s : Obj n d K} (g : Good s) : Step s s s.read := ⟨Ext.refl _ _, g, rfl⟩

theorem moveSwarm_spec (cfg : Config n d K) (r : Draw n d K) (iters i : Nat) {s : Obj n d K}
    (g : Good s) : RunOk s (moveSwarm cfg r iters i s) (PySwarms.moveSwarm cfg r iters i s.read) := by
  unfold moveSwarm PySwarms.moveSwarm
  have hsw : s.read.swarm = s.swarm := rfl
  rw [hsw]
  cases callOptions cfg iters i r s.swarm with
  | error e => exact ⟨step_refl g, rfl⟩
  | ok o =>
    dsimp only
    have g1 : Good { s with options := o } := ⟨g.position, g.velocity, g.pbestPos, g.bestPos,
      g.bhMem, g.vhMem, g.posHistory, g.velocityHistory⟩
    have hv := computeVelocity_spec g1 cfg.clamp cfg.vhStrategy (velBounds cfg) r.r1 r.r2
    have hsw1 : ({ s with options := o } : Obj n d K).swarm = { s.swarm with options := o } := rfl
    rw [hsw1] at hv
    have hm1 : ({ s with options := o } : Obj n d K).vhMem.map
      ({ s with options := o } : Obj n d K).heap.get = s.read.vhMem := rfl
    rw [hm1] at hv
    revert hv
    generalize computeVelocity { s with options := o } cfg.clamp cfg.vhStrategy (velBounds cfg)
      r.r1 r.r2 = out
    generalize PySwarms.computeVelocity { s.swarm with options := o } cfg.clamp cfg.vhStrategy
      s.read.vhMem (velBounds cfg) r.r1 r.r2 = pout
    intro hv
    obtain ⟨h, vm, rr⟩ := out
    have hval := hv.val
    subst hval
    have e1 : Ext s.heap.next s.heap h := hv.ext
    have g1' := g1.ext e1
    cases rr with
    | error er =>
      refine ⟨⟨e1, ?_, ?_⟩, rfl⟩
      · exact ⟨g1'.position, g1'.velocity, g1'.pbestPos, g1'.bestPos, g1'.bhMem, hv.mem,
          g1'.posHistory, g1'.velocityHistory⟩
      · exact read_of (e1.2 _ g.position) (e1.2 _ g.velocity) rfl (e1.2 _ g.pbestPos) rfl
          (best_read_ext e1 g.bestPos) rfl rfl rfl (mem_map_ext e1 g.bhMem) rfl rfl rfl rfl
          (list_map_ext e1 g.posHistory) (list_map_ext e1 g.velocityHistory) rfl rfl
    | ok v =>
      set s2 : Obj n d K := { s with options := o, heap := h, vhMem := vm, velocity := v } with hs2
      have g2 : Good s2 := ⟨g1'.position, hv.res v rfl, g1'.pbestPos, g1'.bestPos, g1'.bhMem,
        hv.mem, g1'.posHistory, g1'.velocityHistory⟩
      have hread2 : s2.read = { s.read with
          vhMem := vm.map h.get
          swarm := { s.swarm with options := o, velocity := h.get v } } :=
        read_of (e1.2 _ g.position) rfl rfl (e1.2 _ g.pbestPos) rfl
          (best_read_ext e1 g.bestPos) rfl rfl rfl (mem_map_ext e1 g.bhMem) rfl rfl rfl rfl
          (list_map_ext e1 g.posHistory) (list_map_ext e1 g.velocityHistory) rfl rfl
      have hp := callPosition_spec cfg r g2
      have hb2 : s2.bhMem.map s2.heap.get = s.read.bhMem := congrArg Opt.bhMem hread2
      have hsw2 : s2.swarm = { s.swarm with options := o, velocity := h.get v } :=
        congrArg Opt.swarm hread2
      rw [hb2, hsw2] at hp
      show RunOk s (match callPosition cfg r s2 with
        | (h, bm, .error e) => ({ s2 with heap := h, bhMem := bm }, .error e)
        | (h, bm, .ok p) => ({ s2 with heap := h, bhMem := bm, position := p }, .ok ()))
        (match PySwarms.callPosition cfg r s.read.bhMem
            { s.swarm with options := o, velocity := h.get v } with
        | (bm, .error e) => ({ s.read with
            vhMem := vm.map h.get, bhMem := bm
            swarm := { s.swarm with options := o, velocity := h.get v } }, .error e)
        | (bm, .ok p) => ({ s.read with
            vhMem := vm.map h.get, bhMem := bm
            swarm := { s.swarm with options := o, velocity := h.get v, position := p } }, .ok ()))
      revert hp
      generalize callPosition cfg r s2 = out2
      generalize PySwarms.callPosition cfg r s.read.bhMem
            { s.swarm with options := o, velocity := h.get v } = pout2
      intro hp
      obtain ⟨h', bm, rr⟩ := out2
      have hval := hp.val
      subst hval
      have e2 : Ext h.next h h' := hp.ext
      have e : Ext s.heap.next s.heap h' := e1.trans (e2.mono e1.1)
      have g2' := g2.ext (h' := h') e2
      have hvel : h'.get v = h.get v := e2.2 v (hv.res v rfl)
      have hvm : vm.map h'.get = vm.map h.get := mem_map_ext e2 hv.mem
      cases rr with
      | error er =>
        refine ⟨⟨e, ?_, ?_⟩, rfl⟩
        · exact ⟨g2'.position, g2'.velocity, g2'.pbestPos, g2'.bestPos, hp.mem, g2'.vhMem,
            g2'.posHistory, g2'.velocityHistory⟩
        · exact read_of (e.2 _ g.position) hvel rfl (e.2 _ g.pbestPos) rfl
            (best_read_ext e g.bestPos) rfl rfl rfl rfl hvm rfl rfl rfl
            (list_map_ext e g.posHistory) (list_map_ext e g.velocityHistory) rfl rfl
      | ok p =>
        refine ⟨⟨e, ?_, ?_⟩, rfl⟩
        · exact ⟨hp.res p rfl, g2'.velocity, g2'.pbestPos, g2'.bestPos, hp.mem, g2'.vhMem,
            g2'.posHistory, g2'.velocityHistory⟩
        · exact read_of rfl hvel rfl (e.2 _ g.pbestPos) rfl
            (best_read_ext e g.bestPos) rfl rfl rfl rfl hvm rfl rfl rfl
            (list_map_ext e g.posHistory) (list_map_ext e g.velocityHistory) rfl rfl

theorem evaluate_pure {ev : Mat n d K → Except Err (Costs n K) × Mat n d K} {pool : Bool}
    (he : pool = true ∨ ∀ x, (ev x).2 = x) (s : Obj n d K) :
    evaluate ev pool s = (s, (ev (s.heap.get s.position)).1) := by
  unfold evaluate
  rcases he with he | he
  · simp only [he, if_true]
  · simp only [he, write_self, ite_self]

theorem iterate_spec (cfg : Config n d K) {ev : Mat n d K → Except Err (Costs n K) × Mat n d K}
    {pool : Bool} (he : pool = true ∨ ∀ x, (ev x).2 = x) (r : Draw n d K) (iters i : Nat) (q : List Bool)
    {s : Obj n d K} (g : Good s) :
    RunOk s (iterate cfg ev pool r iters i q s)
      (PySwarms.iterate cfg (fun x => (ev x).1) r iters i q s.read) := by
  unfold iterate PySwarms.iterate
  rw [evaluate_pure he]
  have hpos : s.read.swarm.position = s.heap.get s.position := rfl
  rw [hpos]
  dsimp only
  cases (ev (s.heap.get s.position)).1 with
  | error e => exact ⟨step_refl g, rfl⟩
  | ok c =>
    dsimp only
    have h1 := recordEval_spec c g
    revert h1
    generalize recordEval c s = s1
    generalize PySwarms.recordEval c s.read = v1
    intro h1
    obtain ⟨e1, g1, r1⟩ := h1
    subst r1
    have hsw1 : s1.read.swarm = s1.swarm := rfl
    have ht1 : s1.read.top = s1.top := rfl
    rw [hsw1, ht1]
    cases hg : callGbest cfg r.oracle s1.top s1.swarm with
    | mk t rr =>
      cases rr with
      | error e =>
        exact ⟨⟨e1, ⟨g1.position, g1.velocity, g1.pbestPos, g1.bestPos, g1.bhMem, g1.vhMem,
          g1.posHistory, g1.velocityHistory⟩, rfl⟩, rfl⟩
      | ok gb =>
        dsimp only
        have h2 := recordBest_spec cfg g1 r.oracle t gb hg
        revert h2
        generalize recordBest cfg t gb s1 = s2
        generalize PySwarms.recordBest t gb s1.read = v2
        intro h2
        obtain ⟨e2, g2, r2⟩ := h2
        subst r2
        have e12 : Ext s.heap.next s.heap s2.heap := e1.trans (e2.mono e1.1)
        have hsw2 : s2.read.swarm = s2.swarm := rfl
        rw [hsw2]
        split
        · exact ⟨⟨e12, g2, rfl⟩, rfl⟩
        · have h3 := moveSwarm_spec cfg r iters i g2
          revert h3
          generalize moveSwarm cfg r iters i s2 = out
          generalize PySwarms.moveSwarm cfg r iters i s2.read = pout
          intro h3
          obtain ⟨s3, rr⟩ := out
          obtain ⟨v3, pr⟩ := pout
          obtain ⟨⟨e3, g3, r3⟩, hr⟩ := h3
          dsimp only at e3 g3 r3 hr
          subst r3 hr
          have e := e12.trans (e3.mono e12.1)
          cases rr with
          | error e' => exact ⟨⟨e, g3, rfl⟩, rfl⟩
          | ok u => exact ⟨⟨e, g3, rfl⟩, rfl⟩

theorem loop_spec (cfg : Config n d K) {ev : WritingObjective n d K} {pool : Bool}
    (he : pool = true ∨ Pure ev) (env : Nat → Draw n d K) (iters : Nat) :
    ∀ (m i : Nat) (q : List Bool) {s : Obj n d K}, Good s →
      RunOk s (loop cfg ev pool env iters m i q s)
        (PySwarms.loop cfg (results ev) env iters m i q s.read) := by
  intro m
  induction m with
  | zero => intro i q s g; exact ⟨step_refl g, rfl⟩
  | succ m ih =>
    intro i q s g
    unfold loop PySwarms.loop
    have h := iterate_spec cfg (pool := pool) (he.imp_right fun h => h i) (env i) iters i q g
    have hres : results ev i = fun x => (ev i x).1 := rfl
    rw [hres]
    revert h
    generalize iterate cfg (ev i) pool (env i) iters i q s = out
    generalize PySwarms.iterate cfg (fun x => (ev i x).1) (env i) iters i q s.read = pout
    intro h
    obtain ⟨s1, rr⟩ := out
    obtain ⟨v1, pr⟩ := pout
    obtain ⟨⟨e1, g1, r1⟩, hr⟩ := h
    dsimp only at e1 g1 r1 hr
    subst r1 hr
    cases rr with
    | error e => exact ⟨⟨e1, g1, rfl⟩, rfl⟩
    | ok f =>
      cases f with
      | stop => exact ⟨⟨e1, g1, rfl⟩, rfl⟩
      | «continue» q' =>
        have h2 := ih (i + 1) q' g1
        exact ⟨⟨e1.trans (h2.step.ext.mono e1.1), h2.step.good, h2.step.read⟩, h2.res⟩

theorem optimize_spec (cfg : Config n d K) {ev : WritingObjective n d K} {nproc : Option Nat}
    (he : nproc ≠ none ∨ Pure ev) (iters : Nat) (env : Nat → Draw n d K) {s : Obj n d K}
    (g : Good s) :
    RunOk s (optimize cfg ev iters nproc env s)
      (PySwarms.optimize cfg (results ev) iters nproc env s.read) := by
  have gm : ∀ (pc : Costs n K) (op : Nat),
      Good { setMemories cfg s with pbestCost := pc, openPools := op } := by
    intro pc op
    refine ⟨g.position, g.velocity, g.pbestPos, g.bestPos, ?_, ?_, g.posHistory, g.velocityHistory⟩
    · intro m hm
      unfold setMemories at hm
      cases hk : cfg.kind <;> simp only [hk] at hm <;>
        first
          | exact g.bhMem m hm
          | (cases hm; exact g.position)
    · intro m hm; cases hm; exact g.position
  have hbm : (setMemories cfg s).bhMem.map s.heap.get = (prepare cfg s.read).bhMem := by
    unfold setMemories prepare
    cases hk : cfg.kind <;> rfl
  unfold optimize PySwarms.optimize
  by_cases h0 : nproc = some 0
  · rw [if_pos h0, if_pos h0]
    refine ⟨⟨Ext.refl _ _, ?_, ?_⟩, rfl⟩
    · exact gm s.pbestCost s.openPools
    · exact read_of rfl rfl rfl rfl rfl rfl rfl rfl rfl hbm rfl rfl rfl rfl rfl rfl rfl rfl
  · rw [if_neg h0, if_neg h0]
    dsimp only
    set s0 : Obj n d K := { setMemories cfg s with
      pbestCost := fun _ => XR.pinf
      openPools := s.openPools + (if nproc.isSome then 1 else 0) } with hs0
    have hr0 : s0.read = { prepare cfg s.read with
        openPools := s.read.openPools + (if nproc.isSome then 1 else 0) } :=
      read_of rfl rfl rfl rfl rfl rfl rfl rfl rfl hbm rfl rfl rfl rfl rfl rfl rfl rfl
    have h := loop_spec cfg (pool := nproc.isSome)
      (he.imp_left fun h => Option.isSome_iff_ne_none.2 h) env iters iters 0 [] (gm (fun _ => XR.pinf)
      (s.openPools + (if nproc.isSome then 1 else 0)))
    rw [← hs0, hr0] at h
    revert h
    generalize loop cfg ev nproc.isSome env iters iters 0 [] s0 = out
    generalize PySwarms.loop cfg (results ev) env iters iters 0 [] _ = pout
    intro h
    obtain ⟨s1, rr⟩ := out
    obtain ⟨v1, pr⟩ := pout
    obtain ⟨⟨e1, g1, r1⟩, hr⟩ := h
    dsimp only at e1 g1 r1 hr
    subst r1 hr
    cases rr with
    | error e => exact ⟨⟨e1, g1, rfl⟩, rfl⟩
    | ok u =>
      dsimp only
      cases finish s1.read with
      | error e => exact ⟨⟨e1, g1, rfl⟩, rfl⟩
      | ok x =>
        exact ⟨⟨e1, ⟨g1.position, g1.velocity, g1.pbestPos, g1.bestPos, g1.bhMem, g1.vhMem,
          g1.posHistory, g1.velocityHistory⟩, rfl⟩, rfl⟩

theorem createSwarm_position {discrete binary : Bool} {options : Opts K}
    {bounds : Option (Bounds d K)} {center : Vec d K} {p : Mat n d K} {clamp : Option (Clamp d K)}
    {r : InitDraw n d K} {sw : Swarm n d K}
    (h : createSwarm discrete binary options bounds center (some p) clamp r = .ok sw) :
    sw.position = p := by
  unfold createSwarm at h
  dsimp only at h
  split at h
  · cases h
  · next q hq =>
    cases h
    show q = p
    split at hq
    · cases binary <;> simp only [generateDiscreteSwarm] at hq
      · cases hq; rfl
      · split at hq
        · cases hq
        · cases hq; rfl
    · cases bounds <;> simp only [generateSwarm] at hq
      · cases hq; rfl
      · split at hq
        · cases hq; rfl
        · cases hq

theorem createSwarm_defaults {discrete binary : Bool} {options : Opts K}
    {bounds : Option (Bounds d K)} {center : Vec d K} {p : Option (Mat n d K)}
    {clamp : Option (Clamp d K)} {r : InitDraw n d K} {sw : Swarm n d K}
    (h : createSwarm discrete binary options bounds center p clamp r = .ok sw) :
    sw.pbestPos = sw.position ∧ sw.bestPos = .empty := by
  unfold createSwarm at h
  dsimp only at h
  split at h
  · cases h
  · cases h; exact ⟨rfl, rfl⟩

theorem installSwarm_spec {sw : Swarm n d K} {initPos : Option Nat} {h : Heap n d K}
    (hi : ∀ a ∈ initPos, a < h.next) (hp : ∀ a ∈ initPos, sw.position = h.get a) :
    Ext h.next h (installSwarm sw initPos h).1 ∧
      (installSwarm sw initPos h).2.1 < (installSwarm sw initPos h).1.next ∧
      (installSwarm sw initPos h).2.2 < (installSwarm sw initPos h).1.next ∧
      (installSwarm sw initPos h).1.get (installSwarm sw initPos h).2.1 = sw.position ∧
      (installSwarm sw initPos h).1.get (installSwarm sw initPos h).2.2 = sw.velocity := by
  cases initPos with
  | none =>
    have e1 := ext_alloc (base := h.next) (h := h) sw.position (le_refl _)
    have e2 := ext_alloc (base := h.next + 1) (h := (h.alloc sw.position).1) sw.velocity (le_refl _)
    refine ⟨e1.trans (e2.mono (Nat.le_succ _)), ?_, ?_, ?_, ?_⟩
    · show h.next < h.next + 1 + 1; omega
    · show h.next + 1 < h.next + 1 + 1; omega
    · exact (e2.2 _ (Nat.lt_succ_self _)).trans (alloc_get _ _)
    · exact alloc_get (h.alloc sw.position).1 _
  | some a =>
    have e1 := ext_alloc (base := h.next) (h := h) sw.velocity (le_refl _)
    have ha := hi a rfl
    refine ⟨e1, ?_, ?_, ?_, ?_⟩
    · show a < h.next + 1; omega
    · show h.next < h.next + 1; omega
    · exact (e1.2 _ ha).trans (hp a rfl).symm
    · exact alloc_get h _

theorem reset_spec (cfg : Config n d K) {initPos : Option Nat} (r : InitDraw n d K) {s : Obj n d K}
    (g : Good s) (hi : ∀ a ∈ initPos, a < s.heap.next) :
    RunOk s (reset cfg initPos r s)
      (PySwarms.reset (configOf cfg initPos s.heap) r s.read) := by
  unfold reset PySwarms.reset
  dsimp only
  cases hs : resetSwarm (configOf cfg initPos s.heap) r with
  | error e =>
    refine ⟨⟨Ext.refl _ _, ?_, rfl⟩, rfl⟩
    exact ⟨g.position, g.velocity, g.pbestPos, g.bestPos, g.bhMem, g.vhMem, by simp, by simp⟩
  | ok sw =>
    unfold resetSwarm at hs
    have hp : ∀ a ∈ initPos, sw.position = s.heap.get a := by
      intro a ha
      cases ha
      exact createSwarm_position hs
    obtain ⟨d1, d2⟩ := createSwarm_defaults hs
    obtain ⟨e, h1, h2, h3, h4⟩ := installSwarm_spec hi hp
    have g' := g.ext e
    refine ⟨⟨e, ⟨h1, h2, h1, trivial, g'.bhMem, g'.vhMem, by simp, by simp⟩, ?_⟩, rfl⟩
    exact read_of h3 h4 rfl (h3.trans d1.symm) rfl d2.symm rfl rfl rfl (mem_map_ext e g.bhMem)
      (mem_map_ext e g.vhMem) rfl rfl rfl rfl rfl rfl rfl

theorem construct_spec (cfg : Config n d K) {initPos : Option Nat} {h : Heap n d K}
    (r1 r2 : InitDraw n d K) (hi : ∀ a ∈ initPos, a < h.next) :
    (∀ s, construct cfg initPos h r1 r2 = .ok s → Ext h.next h s.heap ∧ Good s) ∧
      (construct cfg initPos h r1 r2).map Obj.read =
        PySwarms.construct (configOf cfg initPos h) r1 r2 := by
  unfold construct
  cases hc : PySwarms.construct (configOf cfg initPos h) r1 r2 with
  | error e => exact ⟨fun s hs => (by cases hs), rfl⟩
  | ok o =>
    have hf : ∃ sw, resetSwarm (configOf cfg initPos h) r2 = .ok sw ∧ o = { swarm := sw } := by
      unfold PySwarms.construct at hc
      split at hc
      · cases hc
      · split at hc
        · cases hc
        · split at hc
          · cases hc
          · split at hc
            · cases hc
            · next sw hsw => cases hc; exact ⟨sw, hsw, rfl⟩
    obtain ⟨sw, hs, rfl⟩ := hf
    unfold resetSwarm at hs
    have hp : ∀ a ∈ initPos, sw.position = h.get a := by
      intro a ha
      cases ha
      exact createSwarm_position hs
    obtain ⟨d1, d2⟩ := createSwarm_defaults hs
    obtain ⟨e, h1, h2, h3, h4⟩ := installSwarm_spec hi hp
    refine ⟨?_, ?_⟩
    · intro s hs'
      cases hs'
      exact ⟨e, ⟨h1, h2, h1, trivial, by simp, by simp, by simp, by simp⟩⟩
    · simp only [Except.map, Except.ok.injEq]
      exact read_of h3 h4 rfl (h3.trans d1.symm) rfl d2.symm rfl rfl rfl rfl rfl rfl rfl rfl rfl
        rfl rfl rfl

theorem configOf_eq (cfg : Config n d K) {initPos : Option Nat} {h h' : Heap n d K}
    (hi : ∀ a ∈ initPos, a < h.next) (e : Ext h.next h h') :
    configOf cfg initPos h' = configOf cfg initPos h := by
  unfold configOf
  rw [mem_map_ext e hi]

theorem optimize_config (cfg : Config n d K) (p : Option (Mat n d K))
    (ev : Nat → Mat n d K → Except Err (Costs n K)) (iters : Nat) (nproc : Option Nat)
    (env : Nat → Draw n d K) (s : Opt n d K) :
    PySwarms.optimize { cfg with initPos := p } ev iters nproc env s =
      PySwarms.optimize cfg ev iters nproc env s := by
  have hl : ∀ (m i : Nat) (q : List Bool) (s : Opt n d K),
      PySwarms.loop { cfg with initPos := p } ev env iters m i q s =
        PySwarms.loop cfg ev env iters m i q s := by
    intro m
    induction m with
    | zero => intros; rfl
    | succ m ih =>
      intro i q s
      unfold PySwarms.loop
      have : PySwarms.iterate { cfg with initPos := p } (ev i) (env i) iters i q s =
        PySwarms.iterate cfg (ev i) (env i) iters i q s := rfl
      rw [this]
      simp only [ih]
  unfold PySwarms.optimize
  simp only [hl]
  rfl

theorem step_spec (cfg : Config n d K) {initPos : Option Nat} {s : Obj n d K} (g : Good s)
    (hi : ∀ a ∈ initPos, a < s.heap.next) {c : Call n d K} (hc : c.Harmless) :
    Step s (step cfg initPos s c) (stepOp (configOf cfg initPos s.heap) s.read c.op) := by
  cases c with
  | optimize ev iters nproc env =>
    have h := (optimize_spec cfg hc iters env g).step
    simp only [step, stepOp, Call.op, configOf, optimize_config]
    exact h
  | reset r => exact (reset_spec cfg r g hi).step

theorem run_spec (cfg : Config n d K) {initPos : Option Nat} (calls : List (Call n d K)) :
    ∀ {s : Obj n d K}, Good s → (∀ a ∈ initPos, a < s.heap.next) → (∀ c ∈ calls, c.Harmless) →
      Step s (run cfg initPos s calls)
        (runOps (configOf cfg initPos s.heap) s.read (calls.map Call.op)) := by
  induction calls with
  | nil => intro s g _ _; exact step_refl g
  | cons c cs ih =>
    intro s g hi hc
    have h1 := step_spec cfg g hi (hc c (by simp))
    have hi' : ∀ a ∈ initPos, a < (step cfg initPos s c).heap.next :=
      fun a ha => (hi a ha).trans_le h1.ext.1
    have h2 := ih h1.good hi' (fun c hc' => hc c (by simp [hc']))
    have h3 := h1.trans h2
    rw [configOf_eq cfg hi h1.ext, h1.read] at h3
    exact h3

end

end PySwarms.Mem

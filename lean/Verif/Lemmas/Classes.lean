import Verif.Props.ClassesSpec
import Mathlib.Tactic.Cases

/-! # Lemmas for C115 -/

namespace PySwarms.Cls

theorem validate_ok (o : Obj) (cs : List Class) :
    validate o cs = .ok () ↔ cs.any (isInstance o) = true := by
  unfold validate; split <;> simp_all

theorem validate_cases (o : Obj) (cs : List Class) :
    validate o cs = .ok () ∨ validate o cs = .error .typeError := by
  unfold validate; split <;> simp

theorem any_array (o : Obj) : [Class.ndarray].any (isInstance o) = true ↔ o.IsArray := by
  cases o <;> simp [isInstance, Obj.IsArray]

theorem any_int (o : Obj) : [Class.int].any (isInstance o) = true ↔ o.IsInt := by
  cases o <;> simp [isInstance, Obj.IsInt]

theorem any_dict (o : Obj) : [Class.dict].any (isInstance o) = true ↔ o = .dict := by
  cases o <;> simp [isInstance]

theorem any_number (o : Obj) :
    [Class.int, Class.float].any (isInstance o) = true ↔ (o.IsInt ∨ o.IsFloat) := by
  cases o <;> simp [isInstance, Obj.IsInt, Obj.IsFloat]

theorem getD_given (o : Option Obj) (dflt : Obj) (P : Obj → Prop) (hd : P dflt) :
    P (o.getD dflt) ↔ Given o P := by
  cases o <;> simp [Given, hd]

/-- The validators alone. -/
def checks (a : SwarmArgs) (np dm : Obj) : Except Err Unit := do
  validate a.position [.ndarray]
  validate a.velocity [.ndarray]
  validate np [.int]
  validate dm [.int]
  validate (a.options.getD .dict) [.dict]
  validate (a.pbestPos.getD a.position) [.ndarray]
  validate (a.bestPos.getD (.ndarray [0])) [.ndarray]
  validate (a.pbestCost.getD (.ndarray [0])) [.ndarray]
  validate (a.bestCost.getD .float) [.int, .float]
  validate (a.currentCost.getD (.ndarray [0])) [.ndarray]

theorem bind_ok {α β : Type} (x : Except Err α) (g : α → Except Err β) (b : β) :
    (x >>= g) = .ok b ↔ ∃ a, x = .ok a ∧ g a = .ok b := by
  cases x with
  | error e => exact ⟨fun h => (by cases h), fun ⟨_, h, _⟩ => (by cases h)⟩
  | ok a => exact ⟨fun h => ⟨a, rfl, h⟩, fun ⟨_, h1, h2⟩ => (by cases h1; exact h2)⟩

theorem bind_okU {β : Type} (x : Except Err Unit) (g : Unit → Except Err β) (b : β) :
    (x >>= g) = .ok b ↔ x = .ok () ∧ g () = .ok b := by
  rw [bind_ok]
  exact ⟨fun ⟨_, h1, h2⟩ => ⟨h1, h2⟩, fun ⟨h1, h2⟩ => ⟨(), h1, h2⟩⟩

theorem bind_error {α β : Type} (x : Except Err α) (g : α → Except Err β) (e : Err) :
    (x >>= g) = .error e ↔ x = .error e ∨ ∃ a, x = .ok a ∧ g a = .error e := by
  cases x with
  | error e' => exact ⟨fun h => .inl (by cases h; rfl), fun h => h.elim (fun h => by cases h; rfl) fun ⟨_, h, _⟩ => (by cases h)⟩
  | ok a =>
    exact ⟨fun h => .inr ⟨a, rfl, h⟩, fun h => h.elim (fun h => (by cases h)) fun ⟨_, h1, h2⟩ => (by cases h1; exact h2)⟩

/-- The value of `n_particles` or `dimensions`. -/
def sizeArg (o : Option Obj) (pos : Obj) (k : Nat) : Except Err Obj :=
  match o with
  | some o => .ok o
  | none => shapeAt pos k

theorem swarmInit_eq (a : SwarmArgs) : swarmInit a = (do
    let np ← sizeArg a.nParticles a.position 0
    let dm ← sizeArg a.dimensions a.position 1
    let _ ← checks a np dm
    return { position := a.position, velocity := a.velocity, nParticles := np, dimensions := dm,
             options := a.options.getD .dict, pbestPos := a.pbestPos.getD a.position,
             bestPos := a.bestPos.getD (.ndarray [0]), pbestCost := a.pbestCost.getD (.ndarray [0]),
             bestCost := a.bestCost.getD .float,
             currentCost := a.currentCost.getD (.ndarray [0]) }) := by
  unfold swarmInit sizeArg checks
  simp only [bind_assoc]
  cases a.nParticles <;> cases a.dimensions <;> rfl

theorem checks_ok (a : SwarmArgs) (np dm : Obj) :
    checks a np dm = .ok () ↔ a.position.IsArray ∧ a.velocity.IsArray ∧ np.IsInt ∧ dm.IsInt ∧
      Given a.options (· = .dict) ∧ Given a.pbestPos Obj.IsArray ∧ Given a.bestPos Obj.IsArray ∧
      Given a.pbestCost Obj.IsArray ∧ Given a.bestCost (fun o => o.IsInt ∨ o.IsFloat) ∧
      Given a.currentCost Obj.IsArray := by
  have hz : Obj.IsArray (.ndarray [0]) := ⟨_, rfl⟩
  unfold checks
  simp only [bind_okU, validate_ok, any_array, any_int, any_dict, any_number]
  rw [getD_given _ _ (· = Obj.dict) rfl, getD_given _ _ _ hz, getD_given _ _ _ hz,
    getD_given _ _ _ hz, getD_given _ _ (fun o => o.IsInt ∨ o.IsFloat) (.inr (.inl rfl))]
  constructor
  · rintro ⟨h1, h2, h3, h4, h5, h6, h7⟩
    rw [getD_given _ _ _ h1] at h6
    exact ⟨h1, h2, h3, h4, h5, h6, h7⟩
  · rintro ⟨h1, h2, h3, h4, h5, h6, h7⟩
    rw [getD_given _ _ _ h1]
    exact ⟨h1, h2, h3, h4, h5, h6, h7⟩

theorem checks_error (a : SwarmArgs) (np dm : Obj) (e : Err) (h : checks a np dm = .error e) :
    e = .typeError := by
  unfold checks at h
  have hv : ∀ o cs, validate o cs = .error e → e = .typeError := by
    intro o cs h
    rcases validate_cases o cs with h' | h' <;> rw [h'] at h
    · cases h
    · cases h; rfl
  simp only [bind_error] at h
  rcases h with h | ⟨_, -, h⟩ <;> first | exact hv _ _ h | skip
  rcases h with h | ⟨_, -, h⟩ <;> first | exact hv _ _ h | skip
  rcases h with h | ⟨_, -, h⟩ <;> first | exact hv _ _ h | skip
  rcases h with h | ⟨_, -, h⟩ <;> first | exact hv _ _ h | skip
  rcases h with h | ⟨_, -, h⟩ <;> first | exact hv _ _ h | skip
  rcases h with h | ⟨_, -, h⟩ <;> first | exact hv _ _ h | skip
  rcases h with h | ⟨_, -, h⟩ <;> first | exact hv _ _ h | skip
  rcases h with h | ⟨_, -, h⟩ <;> first | exact hv _ _ h | skip
  rcases h with h | ⟨_, -, h⟩ <;> exact hv _ _ h

theorem shapeAt_cases (o : Obj) (k : Nat) :
    (∃ m : Nat, shapeAt o k = .ok (.int m) ∧ (∃ nd, o.ndim = some nd ∧ k < nd) ∧
      ∃ sh, o = .ndarray sh ∧ sh[k]? = some m) ∨
    (shapeAt o k = .error .indexError ∧ ∃ nd, o.ndim = some nd ∧ nd ≤ k) ∨
    (shapeAt o k = .error .attributeError ∧ o.ndim = none) := by
  cases o with
  | ndarray sh =>
    cases h : sh[k]? with
    | some m =>
      have := List.getElem?_eq_some_iff.1 h
      exact .inl ⟨m, by simp [shapeAt, h], ⟨_, rfl, this.1⟩, sh, rfl, h⟩
    | none =>
      exact .inr (.inl ⟨by simp [shapeAt, h], _, rfl, by simpa using h⟩)
  | npScalar => exact .inr (.inl ⟨rfl, 0, rfl, by omega⟩)
  | npFloat64 => exact .inr (.inl ⟨rfl, 0, rfl, by omega⟩)
  | _ => exact .inr (.inr ⟨rfl, rfl⟩)

end PySwarms.Cls

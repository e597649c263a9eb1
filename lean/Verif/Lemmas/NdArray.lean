import Verif.Model.NdArray
import Verif.Lemmas.Loop
import Verif.Lemmas.Runs

/-!
# Broadcasting: which shapes fit into which
-/

set_option linter.unusedSectionVars false

namespace PySwarms
namespace Arr

variable {α β γ : Type}

/-- On reversed shapes: `s` can be stretched to `t`. -/
def Fits : List Nat → List Nat → Prop
  | [], _ => True
  | _ :: _, [] => False
  | x :: s, y :: t => (x = y ∨ x = 1) ∧ Fits s t

theorem fits_refl : ∀ s, Fits s s
  | [] => trivial
  | _ :: s => ⟨Or.inl rfl, fits_refl s⟩

theorem fits_trans : ∀ {s t u : List Nat}, Fits s t → Fits t u → Fits s u
  | [], _, _, _, _ => trivial
  | _ :: _, [], _, h, _ => absurd h (by simp [Fits])
  | _ :: _, _ :: _, [], _, h => absurd h (by simp [Fits])
  | x :: s, y :: t, z :: u, h1, h2 => by
    refine ⟨?_, fits_trans h1.2 h2.2⟩
    rcases h1.1 with rfl | rfl
    · exact h2.1
    · exact Or.inr rfl

theorem fits_length : ∀ {s t : List Nat}, Fits s t → s.length ≤ t.length
  | [], _, _ => by simp
  | _ :: _, [], h => absurd h (by simp [Fits])
  | _ :: s, _ :: t, h => by simpa using fits_length h.2

theorem bcRev_nil (s : List Nat) : bcRev s [] = some s := by cases s <;> rfl

theorem fits_bcRev : ∀ {s t r : List Nat}, bcRev s t = some r → Fits s r ∧ Fits t r
  | [], t, r, h => by
    simp only [bcRev, Option.some.injEq] at h
    subst h; exact ⟨trivial, fits_refl _⟩
  | x :: s, [], r, h => by
    simp only [bcRev, Option.some.injEq] at h
    subst h; exact ⟨fits_refl _, trivial⟩
  | x :: s, y :: t, r, h => by
    simp only [bcRev] at h
    split at h
    · next hxy =>
      cases hb : bcRev s t with
      | none => rw [hb] at h; cases h
      | some r' =>
        rw [hb] at h; cases h
        obtain ⟨h1, h2⟩ := fits_bcRev hb
        refine ⟨⟨Or.inl rfl, h1⟩, ⟨?_, h2⟩⟩
        rcases hxy with rfl | rfl
        · exact Or.inl rfl
        · exact Or.inr rfl
    · split at h
      · next hx =>
        cases hb : bcRev s t with
        | none => rw [hb] at h; cases h
        | some r' =>
          rw [hb] at h; cases h
          obtain ⟨h1, h2⟩ := fits_bcRev hb
          exact ⟨⟨Or.inr hx, h1⟩, ⟨Or.inl rfl, h2⟩⟩
      · cases h

theorem bcRev_of_fits : ∀ {s t : List Nat}, Fits s t → bcRev s t = some t ∧ bcRev t s = some t
  | [], t, _ => ⟨rfl, bcRev_nil t⟩
  | _ :: _, [], h => absurd h (by simp [Fits])
  | x :: s, y :: t, h => by
    obtain ⟨h1, h2⟩ := bcRev_of_fits h.2
    constructor
    · rcases h.1 with rfl | rfl
      · simp [bcRev, h1]
      · by_cases hy : 1 = y ∨ y = 1
        · have : y = 1 := by omega
          subst this; simp [bcRev, h1]
        · simp [bcRev, hy, h1]
    · have : y = x ∨ x = 1 := by rcases h.1 with rfl | rfl <;> simp
      simp [bcRev, this, h2]

/-- `s` can be stretched to `t` by broadcasting. -/
def To (s t : List Nat) : Prop := Fits s.reverse t.reverse

theorem to_refl (s : List Nat) : To s s := fits_refl _

theorem To.trans {s t u : List Nat} (h : To s t) (h' : To t u) : To s u := fits_trans h h'

theorem fits_antisymm : ∀ {s t : List Nat}, Fits s t → Fits t s → s = t
  | [], [], _, _ => rfl
  | [], _ :: _, _, h => absurd h (by simp [Fits])
  | _ :: _, [], h, _ => absurd h (by simp [Fits])
  | x :: s, y :: t, h1, h2 => by
    have := fits_antisymm h1.2 h2.2
    have : x = y := by
      rcases h1.1 with h | h <;> rcases h2.1 with h' | h' <;> omega
    simp_all

theorem To.antisymm {s t : List Nat} (h : To s t) (h' : To t s) : s = t :=
  List.reverse_injective (fits_antisymm h h')

theorem To.length_le {s t : List Nat} (h : To s t) : s.length ≤ t.length := by
  simpa using fits_length h

theorem to_bcast {s t r : List Nat} (h : bcast s t = some r) : To s r ∧ To t r := by
  unfold bcast at h
  cases hb : bcRev s.reverse t.reverse with
  | none => rw [hb] at h; cases h
  | some r' =>
    rw [hb] at h; cases h
    unfold To
    rw [List.reverse_reverse]
    exact fits_bcRev hb

theorem bcast_of_to {s t : List Nat} (h : To s t) : bcast s t = some t ∧ bcast t s = some t := by
  unfold bcast
  obtain ⟨h1, h2⟩ := bcRev_of_fits h
  rw [h1, h2]
  simp

theorem to_one (m n : Nat) : To [m] [n] ↔ m = n ∨ m = 1 := by
  simp [To, Fits]

theorem to_nil (s : List Nat) : To [] s := trivial

theorem to_two (m e n d : Nat) : To [m, e] [n, d] ↔ (m = n ∨ m = 1) ∧ (e = d ∨ e = 1) := by
  simp [To, Fits, and_comm]

theorem to_row (e n d : Nat) : To [e] [n, d] ↔ (e = d ∨ e = 1) := by
  simp [To, Fits]

/-- The shapes that can be stretched to `(n,)`. -/
theorem to_vector (s : List Nat) (n : Nat) : To s [n] ↔ s = [] ∨ s = [1] ∨ s = [n] := by
  constructor
  · intro h
    match s, h with
    | [], _ => exact Or.inl rfl
    | [m], h =>
      rcases (to_one m n).1 h with rfl | rfl
      · exact Or.inr (Or.inr rfl)
      · exact Or.inr (Or.inl rfl)
    | _ :: _ :: _, h => exact absurd h.length_le (by simp)
  · rintro (rfl | rfl | rfl)
    · trivial
    · exact (to_one _ _).2 (Or.inr rfl)
    · exact to_refl _

theorem bind_ok {ε δ η : Type} (x : Except ε δ) (f : δ → Except ε η) (b : η) :
    (x >>= f) = .ok b ↔ ∃ a, x = .ok a ∧ f a = .ok b := by
  cases x with
  | error e => simp [bind, Except.bind]
  | ok a => simp [bind, Except.bind]

theorem ok_bind {ε δ η : Type} (a : δ) (f : δ → Except ε η) :
    ((Except.ok a : Except ε δ) >>= f) = f a := rfl

theorem error_bind {ε δ η : Type} (e : ε) (f : δ → Except ε η) :
    ((Except.error e : Except ε δ) >>= f) = .error e := rfl

theorem pure_ok {ε δ : Type} (a b : δ) : (pure a : Except ε δ) = .ok b ↔ a = b := by
  simp [pure, Except.pure]

theorem map2_ok {f : α → β → γ} {a : Arr α} {b : Arr β} {c : Arr γ} (h : map2 f a b = .ok c) :
    bcast a.shape b.shape = some c.shape := by
  unfold map2 at h
  split at h
  · cases h
  · next s hs => cases h; exact hs

theorem map2_to {f : α → β → γ} {a : Arr α} {b : Arr β} {c : Arr γ} (h : map2 f a b = .ok c) :
    To a.shape c.shape ∧ To b.shape c.shape := to_bcast (map2_ok h)

theorem whr_to {c : Arr Bool} {x y z : Arr α} (h : whr c x y = .ok z) :
    To c.shape z.shape ∧ To x.shape z.shape ∧ To y.shape z.shape := by
  unfold whr at h
  split at h
  · cases h
  · next s hs =>
    split at h
    · cases h
    · next s' hs' =>
      cases h
      obtain ⟨h1, h2⟩ := to_bcast hs
      obtain ⟨h3, h4⟩ := to_bcast hs'
      exact ⟨h1.trans h3, h2.trans h3, h4⟩

theorem map2_error {f : α → β → γ} {a : Arr α} {b : Arr β} {e : Err} (h : map2 f a b = .error e) :
    e = .valueError := by
  unfold map2 at h
  split at h <;> cases h
  rfl

theorem whr_error {c : Arr Bool} {x y : Arr α} {e : Err} (h : whr c x y = .error e) :
    e = .valueError := by
  unfold whr at h
  split at h
  · cases h; rfl
  · split at h <;> cases h
    rfl

/-- A binary operation one of whose operands has the shape the other can be stretched to. -/
theorem map2_full (f : α → β → γ) {a : Arr α} {b : Arr β} {s : List Nat}
    (h : (a.shape = s ∧ To b.shape s) ∨ (To a.shape s ∧ b.shape = s)) :
    map2 f a b = .ok ⟨s, fun idx => f (a.bget idx) (b.bget idx)⟩ := by
  have : bcast a.shape b.shape = some s := by
    rcases h with ⟨h1, h2⟩ | ⟨h1, h2⟩
    · rw [h1]; exact (bcast_of_to h2).2
    · rw [h2]; exact (bcast_of_to h1).1
  unfold map2
  rw [this]

theorem whr_full {c : Arr Bool} {x y : Arr α} {s : List Nat} (hc : c.shape = s) (hx : To x.shape s)
    (hy : To y.shape s) :
    whr c x y = .ok ⟨s, fun idx => if c.bget idx then x.bget idx else y.bget idx⟩ := by
  unfold whr
  rw [hc, (bcast_of_to hx).2]
  simp only
  rw [(bcast_of_to hy).2]

theorem bget_two (a : Arr α) {n d : Nat} (h : a.shape = [n, d]) {i j : Nat} (hi : i < n)
    (hj : j < d) : a.bget [i, j] = a.get [i, j] := by
  have h1 : (if n = 1 then 0 else i) = i := by split <;> omega
  have h2 : (if d = 1 then 0 else j) = j := by split <;> omega
  simp [bget, proj, h, h1, h2]

theorem bget_row (a : Arr α) {n d : Nat} (h : a.shape = [d]) {i j : Nat}
    (hj : j < d) : a.bget [i, j] = a.get [j] := by
  have h2 : (if d = 1 then 0 else j) = j := by split <;> omega
  simp [bget, proj, h, h2]

theorem bget_one (a : Arr α) {n : Nat} (h : a.shape = [n]) {i : Nat} (hi : i < n) :
    a.bget [i] = a.get [i] := by
  have h1 : (if n = 1 then 0 else i) = i := by split <;> omega
  simp [bget, proj, h, h1]

theorem flat_vector (a : Arr α) {n : Nat} (h : a.shape = [n]) :
    a.flat = (List.range n).map fun i => a.get [i] := by
  simp only [flat, h, allIdx, List.map_cons, List.map_nil]
  induction List.range n with
  | nil => rfl
  | cons x l ih => simp [ih]

end Arr

theorem argminList_eq {K : Type} [LT K] [DecidableLT K] {n : Nat} (l : List (XR K)) (c : Costs n K)
    (hl : l.length = n) (hc : ∀ (i : Nat) (h : i < n), l[i]'(hl ▸ h) = c ⟨i, h⟩) :
    argminList l = (npArgmin c).map Fin.val := by
  subst hl
  have : (fun i : Fin l.length => l[i]) = c := by
    funext i
    exact hc i i.2
  unfold argminList
  rw [this]

section
variable {K : Type} [Field K] [LinearOrder K]

open Arr

/-- A successful velocity update: the shapes of the operands can be stretched to the result. -/
theorem computeVelocityA_to {c1 c2 w : K} {clamp : Option (Arr K × Arr K)} {r1 r2 : List Nat → K}
    {s : ASwarm K} {v : Arr K} (hv : computeVelocityA c1 c2 w clamp r1 r2 s = .ok v) :
    To s.pbestPos.shape v.shape ∧ To s.bestPos.shape v.shape ∧ To s.velocity.shape v.shape := by
  unfold computeVelocityA at hv
  simp only [bind_ok] at hv
  obtain ⟨tb, h1, cog, h2, ts, h3, soc, h4, inert, h5, temp, h6, h7⟩ := hv
  have hpt : To s.pbestPos.shape temp.shape :=
    (((map2_to h1).1.trans (map2_to h2).2).trans (map2_to h5).2).trans (map2_to h6).1
  have hbt : To s.bestPos.shape temp.shape :=
    ((map2_to h3).1.trans (map2_to h4).2).trans (map2_to h6).2
  have hvt : To s.velocity.shape temp.shape := (map2_to h5).1.trans (map2_to h6).1
  have htv : To temp.shape v.shape := by
    split at h7
    · rw [pure_ok] at h7; rw [h7]; exact to_refl _
    · unfold applyClampA at h7
      simp only [bind_ok] at h7
      obtain ⟨lo, g1, hi, g2, v1, g3, g4⟩ := h7
      exact (whr_to g3).2.2.trans (whr_to g4).2.2
  exact ⟨hpt.trans htv, hbt.trans htv, hvt.trans htv⟩

theorem bind_error {ε δ η : Type} (x : Except ε δ) (f : δ → Except ε η) (e : ε) :
    (x >>= f) = .error e ↔ x = .error e ∨ ∃ a, x = .ok a ∧ f a = .error e := by
  cases x with
  | error e' => simp [bind, Except.bind]
  | ok a => simp [bind, Except.bind]

theorem computeVelocityA_error {c1 c2 w : K} {clamp : Option (Arr K × Arr K)}
    {r1 r2 : List Nat → K} {s : ASwarm K} {e : Err}
    (hv : computeVelocityA c1 c2 w clamp r1 r2 s = .error e) : e = .valueError := by
  unfold computeVelocityA at hv
  simp only [bind_error] at hv
  rcases hv with h | ⟨_, -, h⟩
  · exact map2_error h
  rcases h with h | ⟨_, -, h⟩
  · exact map2_error h
  rcases h with h | ⟨_, -, h⟩
  · exact map2_error h
  rcases h with h | ⟨_, -, h⟩
  · exact map2_error h
  rcases h with h | ⟨_, -, h⟩
  · exact map2_error h
  rcases h with h | ⟨_, -, h⟩
  · exact map2_error h
  split at h
  · cases h
  · unfold applyClampA at h
    simp only [bind_error] at h
    rcases h with h | ⟨_, -, h⟩
    · exact map2_error h
    rcases h with h | ⟨_, -, h⟩
    · exact map2_error h
    rcases h with h | ⟨_, -, h⟩
    · exact whr_error h
    exact whr_error h

theorem computePositionA_error {s : ASwarm K} {e : Err} (h : computePositionA s = .error e) :
    e = .valueError := by
  simp only [computePositionA, addInPlace] at h
  split at h
  · cases h; rfl
  · split at h <;> cases h
    rfl

theorem computePositionA_to {s : ASwarm K} {p : Arr K} (hp : computePositionA s = .ok p) :
    To s.velocity.shape s.position.shape ∧ p.shape = s.position.shape := by
  simp only [computePositionA, addInPlace] at hp
  split at hp
  · cases hp
  · next q hq =>
    split at hp
    · next hqs => cases hp; rw [hqs] at hq; exact ⟨(to_bcast hq).2, hqs⟩
    · cases hp

theorem computePbestA_error {s : ASwarm K} {e : Err} (h : computePbestA s = .error e) :
    e = .valueError ∨ e = .indexError := by
  unfold computePbestA at h
  simp only [bind_error] at h
  rcases h with h | ⟨_, -, h⟩
  · exact Or.inl (map2_error h)
  rcases h with h | ⟨_, -, h⟩
  · unfold newaxis1 at h
    split at h <;> cases h
    exact Or.inr rfl
  rcases h with h | ⟨_, -, h⟩
  · unfold repeat1 at h
    split at h <;> cases h
    exact Or.inr rfl
  rcases h with h | ⟨_, -, h⟩
  · exact Or.inl (whr_error h)
  rcases h with h | ⟨_, -, h⟩
  · exact Or.inl (whr_error h)
  cases h

theorem starGbestA_error {s : ASwarm K} {e : Err} (h : starGbestA s = .error e) :
    e = .valueError ∨ e = .indexError := by
  unfold starGbestA at h
  split at h
  · cases h; exact Or.inl rfl
  · simp only at h
    split at h
    · simp only [bind_error] at h
      rcases h with h | ⟨_, -, h⟩
      · unfold index0 at h
        split at h
        · cases h; exact Or.inr rfl
        · split at h <;> cases h
          exact Or.inr rfl
      · cases h
    · cases h

/-- What a successful iteration says about the shapes. -/
theorem iterationA_shapes {gbest : ASwarm K → Except Err (Arr K × XR K)}
    {obj : Arr K → Except Err (Arr (XR K))} {c1 c2 w : K} {clamp : Option (Arr K × Arr K)}
    {r : (List Nat → K) × (List Nat → K)} {s s' : ASwarm K}
    (h : iterationA gbest obj c1 c2 w clamp r s = .ok s') :
    ∃ cost m rest, obj s.position = .ok cost ∧
      bcast cost.shape s.pbestCost.shape = some (m :: rest) ∧
      To (m :: s.dimensions :: rest) s.position.shape ∧
      To s.velocity.shape s'.velocity.shape ∧ To s'.velocity.shape s.position.shape ∧
      To s.position.shape s'.pbestPos.shape ∧ To s'.pbestPos.shape s'.velocity.shape ∧
      (∃ u, bcast (m :: rest) s.pbestCost.shape = some u ∧
        bcast u cost.shape = some s'.pbestCost.shape) := by
  unfold iterationA at h
  simp only [bind_ok, pure_ok] at h
  obtain ⟨cost, hcost, ⟨pp, pc⟩, hpb, ⟨bp, bc⟩, -, v, hv, p, hp, rfl⟩ := h
  have hvp : To v.shape s.position.shape := (computePositionA_to hp).1
  obtain ⟨hv1, -, hv2⟩ := computeVelocityA_to hv
  unfold computePbestA at hpb
  simp only [bind_ok, pure_ok, Prod.mk.injEq] at hpb
  obtain ⟨mask, h1, col, h2, mpos, h3, npos, h4, ncost, h5, rfl, rfl⟩ := hpb
  unfold newaxis1 at h2
  split at h2
  · cases h2
  · next m rest hm =>
    cases h2
    simp only [repeat1, Except.ok.injEq] at h3
    subst h3
    refine ⟨cost, m, rest, hcost, ?_, ?_, hv2, hvp, (whr_to h4).2.2, hv1, ?_⟩
    · rw [map2_ok h1, hm]
    · have := (whr_to h4).1
      simp only [Arr.map, Nat.one_mul] at this
      exact (this.trans hv1).trans hvp
    · unfold whr at h5
      simp only [Arr.map, hm] at h5
      split at h5
      · cases h5
      · next u hu =>
        split at h5
        · cases h5
        · next u' hu' => cases h5; exact ⟨u, hu, hu'⟩

/-- After a successful iteration the positions have the shape they had. -/
theorem iterationA_position {gbest : ASwarm K → Except Err (Arr K × XR K)}
    {obj : Arr K → Except Err (Arr (XR K))} {c1 c2 w : K} {clamp : Option (Arr K × Arr K)}
    {r : (List Nat → K) × (List Nat → K)} {s s' : ASwarm K}
    (h : iterationA gbest obj c1 c2 w clamp r s = .ok s') :
    s'.position.shape = s.position.shape ∧ s'.dimensions = s.dimensions := by
  unfold iterationA at h
  simp only [bind_ok, pure_ok] at h
  obtain ⟨cost, hcost, ⟨pp, pc⟩, hpb, ⟨bp, bc⟩, -, v, hv, p, hp, rfl⟩ := h
  refine ⟨?_, rfl⟩
  simp only [computePositionA, addInPlace] at hp
  split at hp
  · cases hp
  · split at hp
    · next hqs => cases hp; exact hqs
    · cases hp

end

end PySwarms

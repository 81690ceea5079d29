/-
Property C55: the beam analysis does not depend on the mesh.
-/
import Verif.Props.Beam
import Verif.Spec.March
import Mathlib.Analysis.Calculus.Deriv.Pow
import Mathlib.Analysis.Calculus.Deriv.Add
import Mathlib.Analysis.Calculus.Deriv.Mul

namespace OpenPile.Props.Refine
open OpenPile.Kernel OpenPile.Spec.Kernel OpenPile.Spec.March Matrix OpenPile.Props.Element
  OpenPile.Props.Solve OpenPile.Props.Beam

variable {K : Type} [Field K] [LinearOrder K] [IsStrictOrderedRing K] {n m : ℕ}

/-- Shear compliance of the code, `kappa / (A G)`. -/
def compliance (ty : ElementType) (e : Elem K) : K := kappa ty e / (e.A * shearMod e)

/-- The exact solution along an element. -/
def along (ty : ElementType) (e : Elem K) (x : K) (s : Station K) : Station K :=
  march (e.E * e.A) (e.E * e.I) (compliance ty e) x s

omit [LinearOrder K] [IsStrictOrderedRing K] in
theorem along_zero (ty : ElementType) (e : Elem K) (s : Station K) : along ty e 0 s = s := by
  unfold along march
  ext <;> simp

omit [LinearOrder K] [IsStrictOrderedRing K] in
theorem along_length (ty : ElementType) (e : Elem K) (l x : K) (s : Station K) :
    along ty { e with L := l } x s = along ty e x s := by
  cases ty <;> rfl

theorem along_add (ty : ElementType) (e : Elem K) (hE : e.E ≠ 0) (hA : e.A ≠ 0) (hI : e.I ≠ 0) (x y : K)
    (s : Station K) : along ty e y (along ty e x s) = along ty e (x + y) s := by
  unfold along march
  ext <;> simp only
  · field_simp; ring
  · field_simp; ring
  · field_simp; ring
  · ring

/-- Data for which the element matrix has no division by zero. -/
structure Regular (ty : ElementType) (e : Elem K) : Prop where
  L : e.L ≠ 0
  E : e.E ≠ 0
  A : e.A ≠ 0
  I : e.I ≠ 0
  p : 1 + phi ty e ≠ 0

theorem compliance_phi (ty : ElementType) (e : Elem K) (h : Regular ty e) :
    compliance ty e = phi ty e * e.L ^ 2 / (12 * (e.E * e.I)) := by
  obtain ⟨hL, hE, hA, hI, hp⟩ := h
  unfold phi compliance
  by_cases hG : shearMod e = 0
  · simp [hG]
  · field_simp

/-- The station at the top of an element. -/
def topStation (ty : ElementType) (e : Elem K) (u : Fin 6 → K) : Station K :=
  ⟨u 0, u 1, u 2, (mechMatrix ty e *ᵥ u) 0, (mechMatrix ty e *ᵥ u) 1, (mechMatrix ty e *ᵥ u) 2⟩

/-- The station at the bottom of an element. -/
def botStation (ty : ElementType) (e : Elem K) (u : Fin 6 → K) : Station K :=
  ⟨u 3, u 4, u 5, -(mechMatrix ty e *ᵥ u) 3, -(mechMatrix ty e *ᵥ u) 4, -(mechMatrix ty e *ᵥ u) 5⟩

/-- The stiffness matrix of an element is the exact solution. -/
theorem elem_along (ty : ElementType) (e : Elem K) (h : Regular ty e) (u : Fin 6 → K) :
    along ty e e.L (topStation ty e u) = botStation ty e u := by
  have hc := compliance_phi ty e h
  obtain ⟨hL, hE, hA, hI, hp⟩ := h
  unfold along march topStation botStation
  simp only [mechMatrix, beam_mulVec]
  rw [hc]
  generalize phi ty e = ph at *
  ext <;> simp
  · field_simp; ring
  · field_simp; ring
  · field_simp; ring
  · field_simp; ring

/-- Stations that are connected by the exact solution belong to the stiffness matrix. -/
theorem elem_of_along (ty : ElementType) (e : Elem K) (h : Regular ty e) (u : Fin 6 → K) (N V M N' V' M' : K)
    (ha : along ty e e.L ⟨u 0, u 1, u 2, N, V, M⟩ = ⟨u 3, u 4, u 5, N', V', M'⟩) :
    topStation ty e u = ⟨u 0, u 1, u 2, N, V, M⟩ ∧ botStation ty e u = ⟨u 3, u 4, u 5, N', V', M'⟩ := by
  have key : topStation ty e u = ⟨u 0, u 1, u 2, N, V, M⟩ := by
    have hc := compliance_phi ty e h
    obtain ⟨hL, hE, hA, hI, hp⟩ := h
    unfold along march at ha
    simp only [Station.mk.injEq] at ha
    obtain ⟨h3, h4, h5, -, -, -⟩ := ha
    unfold topStation
    simp only [mechMatrix, beam_mulVec]
    rw [hc] at h4
    generalize phi ty e = ph at *
    ext <;> simp
    · rw [← h3]; field_simp; ring
    · rw [← h4, ← h5]; field_simp; ring
    · rw [← h4, ← h5]; field_simp; ring
  refine ⟨key, ?_⟩
  rw [← elem_along ty e h u, key, ha]

/-! ### from node to node -/

/-- Force `d` of a station. -/
def force (s : Station K) (d : Fin 3) : K := ![s.N, s.V, s.M] d

omit [LinearOrder K] [IsStrictOrderedRing K] in
/-- Nodal force: section force below minus section force above. -/
theorem nodal (ty : ElementType) (el : Fin m → Elem K) (u : Fin (3 * m + 3) → K) (j : Fin (m + 1)) (d : Fin 3) :
    (beamStiffness ty m el *ᵥ u) (dof j d) =
      (if h : j.1 < m then force (topStation ty (el ⟨j.1, h⟩) (stacked u ⟨j.1, h⟩)) d else 0)
      - (if h : 0 < j.1 then
          force (botStation ty (el ⟨j.1 - 1, by omega⟩) (stacked u ⟨j.1 - 1, by omega⟩)) d else 0) := by
  unfold beamStiffness
  rw [assemble_mulVec_dof]
  fin_cases d <;> by_cases h1 : j.1 < m <;> by_cases h2 : 0 < j.1 <;>
    simp [h1, h2, force, topStation, botStation, topDof, botDof]

omit [LinearOrder K] [IsStrictOrderedRing K] in
/-- At a node without nodal force the stations above and below agree. -/
theorem station_step (ty : ElementType) (el : Fin m → Elem K) (u : Fin (3 * m + 3) → K) (k : ℕ) (hk : k + 1 < m)
    (hz : ∀ d, (beamStiffness ty m el *ᵥ u) (dof ⟨k + 1, by omega⟩ d) = 0) :
    topStation ty (el ⟨k + 1, hk⟩) (stacked u ⟨k + 1, hk⟩)
      = botStation ty (el ⟨k, by omega⟩) (stacked u ⟨k, by omega⟩) := by
  have h : ∀ d, force (topStation ty (el ⟨k + 1, hk⟩) (stacked u ⟨k + 1, hk⟩)) d
      = force (botStation ty (el ⟨k, by omega⟩) (stacked u ⟨k, by omega⟩)) d := by
    intro d
    have := hz d
    rw [nodal, dif_pos hk, dif_pos (by simp)] at this
    simpa [sub_eq_zero] using this
  obtain ⟨a0, a1, a2, -, -, -⟩ := stacked_top u ⟨k + 1, hk⟩
  obtain ⟨-, -, -, b0, b1, b2⟩ := stacked_top u ⟨k, by omega⟩
  have c : (⟨k + 1, hk⟩ : Fin m).castSucc = (⟨k, by omega⟩ : Fin m).succ := rfl
  have f0 := h 0
  have f1 := h 1
  have f2 := h 2
  simp only [force, Matrix.cons_val_zero, Matrix.cons_val_one, Matrix.cons_val_two,
    Matrix.cons_val] at f0 f1 f2
  ext
  · show stacked u ⟨k + 1, hk⟩ 0 = stacked u ⟨k, by omega⟩ 3
    rw [a0, b0, c]
  · show stacked u ⟨k + 1, hk⟩ 1 = stacked u ⟨k, by omega⟩ 4
    rw [a1, b1, c]
  · show stacked u ⟨k + 1, hk⟩ 2 = stacked u ⟨k, by omega⟩ 5
    rw [a2, b2, c]
  · exact f0
  · exact f1
  · exact f2

/-- A fine mesh of the same beam. -/
structure SameBeam (el : Fin n → Elem K) (el' : Fin m → Elem K) (σ : Fin (n + 1) → Fin (m + 1)) : Prop where
  refines : Refines (fun i => (el i).L) (fun k => (el' k).L) σ
  same : ∀ i k, Inside σ i k → el' k = { el i with L := (el' k).L }

omit [LinearOrder K] [IsStrictOrderedRing K] in
theorem sigma_lt {el : Fin n → Elem K} {el' : Fin m → Elem K} {σ : Fin (n + 1) → Fin (m + 1)}
    (h : SameBeam el el' σ) (i : Fin n) : (σ i.castSucc).1 < (σ i.succ).1 :=
  h.refines.mono Fin.castSucc_lt_succ

/-- The station below a node of the fine mesh inside coarse element `i`. -/
theorem run (ty : ElementType) (el : Fin n → Elem K) (el' : Fin m → Elem K) (σ : Fin (n + 1) → Fin (m + 1))
    (hs : SameBeam el el' σ) (hr : ∀ i, Regular ty (el i)) (hr' : ∀ k, Regular ty (el' k))
    (u : Fin (3 * m + 3) → K)
    (hz : ∀ k, k ∉ Set.range σ → ∀ d, (beamStiffness ty m el' *ᵥ u) (dof k d) = 0) (i : Fin n) (k0 : ℕ)
    (hk0 : k0 = (σ i.castSucc).1) (h0 : k0 < m) :
    ∀ t : ℕ, ∀ ht : k0 + t < (σ i.succ).1,
      topStation ty (el' ⟨k0 + t, by omega⟩) (stacked u ⟨k0 + t, by omega⟩)
      = along ty (el i) (nodeDepth (fun k => (el' k).L) ⟨k0 + t, by omega⟩ - nodeDepth (fun i => (el i).L) i.castSucc)
        (topStation ty (el' ⟨k0, h0⟩) (stacked u ⟨k0, h0⟩)) := by
  intro t
  induction t with
  | zero =>
    intro ht
    have : (⟨k0 + 0, by omega⟩ : Fin (m + 1)) = σ i.castSucc := Fin.ext hk0
    rw [this, hs.refines.depth, sub_self, along_zero]
    rfl
  | succ t ih =>
    intro ht
    have hnot : (⟨k0 + t + 1, by omega⟩ : Fin (m + 1)) ∉ Set.range σ := by
      rintro ⟨j, hj⟩
      have hj' : (σ j).1 = k0 + t + 1 := by rw [hj]
      have h1 : σ i.castSucc < σ j := by rw [Fin.lt_def, ← hk0, hj']; omega
      have h2 : σ j < σ i.succ := by rw [Fin.lt_def, hj']; exact ht
      have h1' := hs.refines.mono.lt_iff_lt.1 h1
      have h2' := hs.refines.mono.lt_iff_lt.1 h2
      rw [Fin.lt_def] at h1' h2'
      simp at h1' h2'
      omega
    have step := station_step ty el' u (k0 + t) (by omega) (hz _ hnot)
    have hin : Inside σ i ⟨k0 + t, by omega⟩ := ⟨by rw [← hk0]; exact Nat.le_add_right _ _, by
      show k0 + t < _; omega⟩
    rw [show (⟨k0 + (t + 1), by omega⟩ : Fin m) = ⟨k0 + t + 1, by omega⟩ from rfl, step,
      ← elem_along ty _ (hr' _), ih (by omega)]
    have e := hs.same i _ hin
    generalize hx : (el' ⟨k0 + t, by omega⟩).L = x at e ⊢
    rw [e, along_length, along_add ty _ (hr i).E (hr i).A (hr i).I]
    congr 1
    have d := nodeDepth_succ (fun k => (el' k).L) ⟨k0 + t, by omega⟩
    have d' : nodeDepth (fun k => (el' k).L) (⟨k0 + (t + 1), by omega⟩ : Fin (m + 1))
        = nodeDepth (fun k => (el' k).L) (⟨k0 + t, by omega⟩ : Fin (m + 1)) + x := by
      rw [← hx]
      exact d
    rw [d']
    ring

/-- The displacements at the nodes of the coarse mesh. -/
def restrict (σ : Fin (n + 1) → Fin (m + 1)) (u : Fin (3 * m + 3) → K) : Fin (3 * n + 3) → K := fun r =>
  u (dof (σ ⟨r.1 / 3, by omega⟩) ⟨r.1 % 3, by omega⟩)

omit [Field K] [LinearOrder K] [IsStrictOrderedRing K] in
theorem restrict_dof (σ : Fin (n + 1) → Fin (m + 1)) (u : Fin (3 * m + 3) → K) (j : Fin (n + 1)) (d : Fin 3) :
    restrict σ u (dof j d) = u (dof (σ j) d) := by
  unfold restrict
  have h1 : (⟨(dof j d).1 / 3, by omega⟩ : Fin (n + 1)) = j := by
    ext
    simp only [dof]
    omega
  have h2 : (⟨(dof j d).1 % 3, by omega⟩ : Fin 3) = d := by
    ext
    simp only [dof]
    omega
  rw [h1, h2]

/-- Both ends of a coarse element have the stations of the fine mesh. -/
theorem coarse_stations (ty : ElementType) (el : Fin n → Elem K) (el' : Fin m → Elem K)
    (σ : Fin (n + 1) → Fin (m + 1)) (hs : SameBeam el el' σ) (hr : ∀ i, Regular ty (el i))
    (hr' : ∀ k, Regular ty (el' k)) (u : Fin (3 * m + 3) → K)
    (hz : ∀ k, k ∉ Set.range σ → ∀ d, (beamStiffness ty m el' *ᵥ u) (dof k d) = 0) (i : Fin n) (k1 k2 : ℕ)
    (h1 : k1 = (σ i.castSucc).1) (h2 : k2 + 1 = (σ i.succ).1) (l1 : k1 < m) (l2 : k2 < m) :
    topStation ty (el i) (stacked (restrict σ u) i)
      = topStation ty (el' ⟨k1, l1⟩) (stacked u ⟨k1, l1⟩) ∧
    botStation ty (el i) (stacked (restrict σ u) i)
      = botStation ty (el' ⟨k2, l2⟩) (stacked u ⟨k2, l2⟩) := by
  have hlt := sigma_lt hs i
  have last := run ty el el' σ hs hr hr' u hz i k1 h1 l1 (k2 - k1) (by omega)
  have hk2 : k1 + (k2 - k1) = k2 := by omega
  have hin : Inside σ i ⟨k2, l2⟩ := ⟨by show _ ≤ k2; omega, by show k2 < _; omega⟩
  have e := hs.same i _ hin
  have f1 : (⟨k1 + (k2 - k1), by omega⟩ : Fin m) = ⟨k2, l2⟩ := Fin.ext hk2
  have f2 : (⟨k1 + (k2 - k1), by omega⟩ : Fin (m + 1)) = (⟨k2, l2⟩ : Fin m).castSucc := Fin.ext hk2
  have f3 : (⟨k2, l2⟩ : Fin m).succ = σ i.succ := Fin.ext h2
  have f4 : (⟨k1, l1⟩ : Fin m).castSucc = σ i.castSucc := Fin.ext h1
  rw [f1, f2] at last
  have bot : botStation ty (el' ⟨k2, l2⟩) (stacked u ⟨k2, l2⟩)
      = along ty (el i) (el i).L (topStation ty (el' ⟨k1, l1⟩) (stacked u ⟨k1, l1⟩)) := by
    rw [← elem_along ty _ (hr' _), last]
    have d := nodeDepth_succ (fun k => (el' k).L) ⟨k2, l2⟩
    rw [f3, hs.refines.depth, nodeDepth_succ] at d
    generalize hx : (el' ⟨k2, l2⟩).L = x at e d ⊢
    rw [e, along_length, along_add ty _ (hr i).E (hr i).A (hr i).I]
    congr 1
    linear_combination -d
  obtain ⟨a0, a1, a2, b0, b1, b2⟩ := stacked_top (restrict σ u) i
  obtain ⟨c0, c1, c2, -, -, -⟩ := stacked_top u ⟨k1, l1⟩
  obtain ⟨-, -, -, g0, g1, g2⟩ := stacked_top u ⟨k2, l2⟩
  rw [restrict_dof] at a0 a1 a2 b0 b1 b2
  rw [f4] at c0 c1 c2
  rw [f3] at g0 g1 g2
  have := elem_of_along ty (el i) (hr i) (stacked (restrict σ u) i)
    (topStation ty (el' ⟨k1, l1⟩) (stacked u ⟨k1, l1⟩)).N (topStation ty (el' ⟨k1, l1⟩) (stacked u ⟨k1, l1⟩)).V
    (topStation ty (el' ⟨k1, l1⟩) (stacked u ⟨k1, l1⟩)).M (botStation ty (el' ⟨k2, l2⟩) (stacked u ⟨k2, l2⟩)).N
    (botStation ty (el' ⟨k2, l2⟩) (stacked u ⟨k2, l2⟩)).V (botStation ty (el' ⟨k2, l2⟩) (stacked u ⟨k2, l2⟩)).M
    (by
      rw [a0, a1, a2, b0, b1, b2, ← c0, ← c1, ← c2, ← g0, ← g1, ← g2]
      exact bot.symm)
  rw [a0, a1, a2, b0, b1, b2, ← c0, ← c1, ← c2, ← g0, ← g1, ← g2] at this
  exact this

/-- The nodal forces of the two meshes agree. -/
theorem coarse_forces (ty : ElementType) (el : Fin n → Elem K) (el' : Fin m → Elem K)
    (σ : Fin (n + 1) → Fin (m + 1)) (hs : SameBeam el el' σ) (hr : ∀ i, Regular ty (el i))
    (hr' : ∀ k, Regular ty (el' k)) (u : Fin (3 * m + 3) → K)
    (hz : ∀ k, k ∉ Set.range σ → ∀ d, (beamStiffness ty m el' *ᵥ u) (dof k d) = 0) (j : Fin (n + 1))
    (d : Fin 3) :
    (beamStiffness ty n el *ᵥ restrict σ u) (dof j d) = (beamStiffness ty m el' *ᵥ u) (dof (σ j) d) := by
  rw [nodal, nodal]
  congr 1
  · by_cases hj : j.1 < n
    · have hlt := sigma_lt hs ⟨j.1, hj⟩
      have hc : (⟨j.1, hj⟩ : Fin n).castSucc = j := Fin.ext rfl
      rw [hc] at hlt
      have hb := (σ (⟨j.1, hj⟩ : Fin n).succ).2
      have hm : (σ j).1 < m := by omega
      rw [dif_pos hj, dif_pos hm, (coarse_stations ty el el' σ hs hr hr' u hz ⟨j.1, hj⟩ (σ j).1
        ((σ (⟨j.1, hj⟩ : Fin n).succ).1 - 1) (by rw [hc]) (by omega) hm (by omega)).1]
    · have : j = Fin.last n := Fin.ext (by have := j.2; simp; omega)
      rw [dif_neg hj, dif_neg (by rw [this, hs.refines.last]; simp)]
  · by_cases hj : 0 < j.1
    · have hi : j.1 - 1 < n := by omega
      have hlt := sigma_lt hs ⟨j.1 - 1, hi⟩
      have hc : (⟨j.1 - 1, hi⟩ : Fin n).succ = j := Fin.ext (by simp; omega)
      rw [hc] at hlt
      have hb := (σ j).2
      rw [dif_pos hj, dif_pos (by omega), (coarse_stations ty el el' σ hs hr hr' u hz ⟨j.1 - 1, hi⟩
        (σ (⟨j.1 - 1, hi⟩ : Fin n).castSucc).1 ((σ j).1 - 1) rfl (by rw [hc]; omega) (by omega)
        (by omega)).2]
    · have : j = 0 := Fin.ext (Nat.eq_zero_of_not_pos hj)
      rw [dif_neg hj, dif_neg (by rw [this, hs.refines.first]; simp)]

/-! ### results -/

/-- The station at the top of element `i` according to the tables of displacements and section forces. -/
def reported (u : Fin (3 * n + 3) → K) (f : Fin n → (K × K × K) × (K × K × K)) (i : Fin n) : Station K :=
  ⟨u (dof i.castSucc 0), u (dof i.castSucc 1), u (dof i.castSucc 2), (f i).1.1, (f i).1.2.1, (f i).1.2.2⟩

omit [LinearOrder K] [IsStrictOrderedRing K] in
theorem reported_eq (ty : ElementType) (el : Fin n → Elem K) (u : Fin (3 * n + 3) → K) (i : Fin n) :
    reported u (fun i => sectionForces (el i).L (internalForces ty el u i)) i
      = topStation ty (el i) (stacked u i) := by
  obtain ⟨a0, a1, a2, -, -, -⟩ := stacked_top u i
  unfold reported topStation
  rw [← a0, ← a1, ← a2]
  simp only [sectionForces, internalForces, neg_neg]

theorem reported_bot (ty : ElementType) (el : Fin n → Elem K) (hr : ∀ i, Regular ty (el i))
    (u : Fin (3 * n + 3) → K) (i : Fin n) :
    (sectionForces (el i).L (internalForces ty el u i)).2 =
      ((botStation ty (el i) (stacked u i)).N, (botStation ty (el i) (stacked u i)).V,
        (botStation ty (el i) (stacked u i)).M) := by
  have := (C22_element ty el u i (hr i).L (hr i).p).2.2.2
  refine Prod.ext rfl (Prod.ext rfl ?_)
  exact this

/-- The same supports, prescribed displacements and loads on the fine mesh, none at its additional nodes. -/
structure SameLoads (σ : Fin (n + 1) → Fin (m + 1)) (F U : Fin (3 * n + 3) → K) (fix : Fin (3 * n + 3) → Bool)
    (F' U' : Fin (3 * m + 3) → K) (fix' : Fin (3 * m + 3) → Bool) : Prop where
  on : ∀ j d, F' (dof (σ j) d) = F (dof j d) ∧ U' (dof (σ j) d) = U (dof j d) ∧
    fix' (dof (σ j) d) = fix (dof j d)
  off : ∀ k, k ∉ Set.range σ → ∀ d, F' (dof k d) = 0 ∧ U' (dof k d) = 0 ∧ fix' (dof k d) = false

/-- **C55.** Additional nodes change nothing: if the beam analysis succeeds, then it succeeds on every finer mesh
of the same beam with the same loads and supports, with the same displacements and reactions at the common nodes,
no reactions at additional nodes, and inside an element of the coarse mesh the displacements and section forces
follow the exact solution of the beam equations. -/
theorem C55_refined (ty : ElementType) (el : Fin n → Elem K) (el' : Fin m → Elem K)
    (σ : Fin (n + 1) → Fin (m + 1)) (hs : SameBeam el el' σ) (hr : ∀ i, Regular ty (el i))
    (hr' : ∀ k, Regular ty (el' k)) (F U : Fin (3 * n + 3) → K) (fix : Fin (3 * n + 3) → Bool)
    (F' U' : Fin (3 * m + 3) → K) (fix' : Fin (3 * m + 3) → Bool) (hl : SameLoads σ F U fix F' U' fix')
    (u Q : Fin (3 * n + 3) → K) (f : Fin n → (K × K × K) × (K × K × K))
    (h : beam ty el F U fix = some (u, Q, f)) :
    ∃ u' Q' f', beam ty el' F' U' fix' = some (u', Q', f') ∧
      (∀ j d, u' (dof (σ j) d) = u (dof j d) ∧ Q' (dof (σ j) d) = Q (dof j d)) ∧
      (∀ k, k ∉ Set.range σ → ∀ d, Q' (dof k d) = 0) ∧
      (∀ i k, Inside σ i k → reported u' f' k =
        march ((el i).E * (el i).A) ((el i).E * (el i).I)
          (kappa ty (el i) / ((el i).A * ((el i).E / (2 + 2 * (el i).nu))))
          (nodeDepth (fun k => (el' k).L) k.castSucc - nodeDepth (fun i => (el i).L) i.castSucc)
          (reported u f i)) ∧
      ∀ (i : Fin n) (k : Fin m), k.succ = σ i.succ → (f' k).2 = (f i).2 := by
  unfold beam at h
  simp only [Option.map_eq_some_iff, Prod.mk.injEq] at h
  obtain ⟨⟨v, R⟩, hsol, rfl, rfl, rfl⟩ := h
  obtain ⟨s1, s2, s3, s4⟩ := C15_solution _ _ _ _ _ _ hsol
  have free' : ∀ k, k ∉ Set.range σ → ∀ d, (fix' (dof k d) || decide (U' (dof k d) ≠ 0)) = false := by
    intro k hk d
    obtain ⟨-, a, b⟩ := hl.off k hk d
    simp [a, b]
  have sup : ∀ j d, (fix' (dof (σ j) d) || decide (U' (dof (σ j) d) ≠ 0))
      = (fix (dof j d) || decide (U (dof j d) ≠ 0)) := by
    intro j d
    obtain ⟨-, a, b⟩ := hl.on j d
    rw [a, b]
  rcases hfine : solveEquations (beamStiffness ty m el') F' U' (fun r => fix' r || decide (U' r ≠ 0)) with
    _ | ⟨v', R'⟩
  · exfalso
    obtain ⟨w, w0, w1, w2⟩ := (C15_fails_iff _ _ _ _).1 hfine
    have wz : ∀ k, k ∉ Set.range σ → ∀ d, (beamStiffness ty m el' *ᵥ w) (dof k d) = 0 := by
      intro k hk d
      exact w2 _ (free' k hk d)
    have hcf := coarse_forces ty el el' σ hs hr hr' w wz
    have hrest : restrict σ w = 0 := by
      by_contra hne
      have : solveEquations (beamStiffness ty n el) F U (fun r => fix r || decide (U r ≠ 0)) = none := by
        rw [C15_fails_iff]
        refine ⟨restrict σ w, hne, ?_, ?_⟩
        · intro r hr0
          obtain ⟨j, d, rfl⟩ := dof_surjective r
          rw [restrict_dof]
          exact w1 _ (by rw [sup]; exact hr0)
        · intro r hr0
          obtain ⟨j, d, rfl⟩ := dof_surjective r
          rw [hcf]
          exact w2 _ (by rw [sup]; exact hr0)
      rw [this] at hsol
      simp at hsol
    have zero_along : ∀ i x, along ty (el i) x (⟨0, 0, 0, 0, 0, 0⟩ : Station K) = ⟨0, 0, 0, 0, 0, 0⟩ := by
      intro i x
      unfold along march
      ext <;> simp
    apply w0
    funext r
    obtain ⟨k, d, rfl⟩ := dof_surjective r
    by_cases hk : k ∈ Set.range σ
    · obtain ⟨j, rfl⟩ := hk
      rw [← restrict_dof σ w, hrest]
      rfl
    · obtain ⟨i, hi1, hi2⟩ : ∃ i : Fin n, (σ i.castSucc).1 < k.1 ∧ k.1 < (σ i.succ).1 := by
        by_contra hcon
        push Not at hcon
        have : ∀ j : Fin (n + 1), (σ j).1 < k.1 := by
          intro j
          induction j using Fin.induction with
          | zero =>
            rw [hs.refines.first]
            have : k ≠ 0 := fun h0 => hk ⟨0, by rw [hs.refines.first, h0]⟩
            exact Nat.pos_of_ne_zero (fun h0 => this (Fin.ext h0))
          | succ i ih =>
            have h1 := hcon i ih
            rcases h1.lt_or_eq with h2 | h2
            · exact h2
            · exact absurd ⟨i.succ, Fin.ext h2⟩ hk
        have hlast := this (Fin.last n)
        rw [hs.refines.last] at hlast
        have := k.2
        simp at hlast
        omega
      have hkm : k.1 < m := by have := (σ i.succ).2; omega
      have hk0m : (σ i.castSucc).1 < m := by omega
      have hrun := run ty el el' σ hs hr hr' w wz i (σ i.castSucc).1 rfl hk0m (k.1 - (σ i.castSucc).1)
        (by omega)
      have e : (σ i.castSucc).1 + (k.1 - (σ i.castSucc).1) = k.1 := by omega
      have hst := (coarse_stations ty el el' σ hs hr hr' w wz i (σ i.castSucc).1 ((σ i.succ).1 - 1) rfl
        (by omega) hk0m (by omega)).1
      have hzero : topStation ty (el i) (stacked (restrict σ w) i) = ⟨0, 0, 0, 0, 0, 0⟩ := by
        rw [hrest]
        have : stacked (0 : Fin (3 * n + 3) → K) i = 0 := rfl
        rw [this]
        unfold topStation
        simp
      rw [← hst, hzero, zero_along] at hrun
      have e1 : (⟨(σ i.castSucc).1 + (k.1 - (σ i.castSucc).1), by omega⟩ : Fin m) = ⟨k.1, hkm⟩ := Fin.ext e
      rw [e1] at hrun
      obtain ⟨a0, a1, a2, -, -, -⟩ := stacked_top w ⟨k.1, hkm⟩
      have hc : (⟨k.1, hkm⟩ : Fin m).castSucc = k := Fin.ext rfl
      rw [hc] at a0 a1 a2
      unfold topStation at hrun
      simp only [Station.mk.injEq] at hrun
      obtain ⟨z0, z1, z2, -, -, -⟩ := hrun
      fin_cases d
      · exact a0.symm.trans z0
      · exact a1.symm.trans z1
      · exact a2.symm.trans z2
  · obtain ⟨t1, t2, t3, -⟩ := C15_solution _ _ _ _ _ _ hfine
    have vz : ∀ k, k ∉ Set.range σ → ∀ d, (beamStiffness ty m el' *ᵥ v') (dof k d) = 0 := by
      intro k hk d
      rw [(t1 _ (free' k hk d)).1, (hl.off k hk d).1]
    have hcf := coarse_forces ty el el' σ hs hr hr' v' vz
    have heq : restrict σ v' = v := by
      apply s4
      · intro r hr0
        obtain ⟨j, d, rfl⟩ := dof_surjective r
        rw [hcf, (t1 _ (by rw [sup]; exact hr0)).1, (hl.on j d).1]
      · intro r hr0
        obtain ⟨j, d, rfl⟩ := dof_surjective r
        rw [restrict_dof, t2 _ (by rw [sup]; exact hr0), (hl.on j d).2.1]
    refine ⟨v', R', fun i => sectionForces (el' i).L (internalForces ty el' v' i), ?_, ?_, ?_, ?_, ?_⟩
    · unfold beam
      rw [hfine]
      rfl
    · intro j d
      refine ⟨by show _ = v (dof j d); rw [← heq, restrict_dof], ?_⟩
      have h1 := t3 (dof (σ j) d)
      have h2 := s3 (dof j d)
      rw [← hcf, heq, (hl.on j d).1] at h1
      exact add_left_cancel (h1.trans h2.symm)
    · intro k hk d
      exact (t1 _ (free' k hk d)).2
    · intro i k hik
      rw [reported_eq, reported_eq]
      have hlt := sigma_lt hs i
      have hk0m : (σ i.castSucc).1 < m := by have := hik.1; have := k.2; omega
      have hrun := run ty el el' σ hs hr hr' v' vz i (σ i.castSucc).1 rfl hk0m (k.1 - (σ i.castSucc).1)
        (by have := hik.1; have := hik.2; omega)
      have e : (σ i.castSucc).1 + (k.1 - (σ i.castSucc).1) = k.1 := by have := hik.1; omega
      have hst := (coarse_stations ty el el' σ hs hr hr' v' vz i (σ i.castSucc).1 ((σ i.succ).1 - 1) rfl
        (by omega) hk0m (by have := (σ i.succ).2; omega)).1
      have e1 : (⟨(σ i.castSucc).1 + (k.1 - (σ i.castSucc).1), by omega⟩ : Fin m) = k := Fin.ext e
      have e2 : (⟨(σ i.castSucc).1 + (k.1 - (σ i.castSucc).1), by omega⟩ : Fin (m + 1)) = k.castSucc :=
        Fin.ext e
      rw [← hst, heq, e1, e2] at hrun
      exact hrun
    · intro i k hk
      have hlt := sigma_lt hs i
      have hk' : k.1 + 1 = (σ i.succ).1 := by rw [← hk]; rfl
      have hst := (coarse_stations ty el el' σ hs hr hr' v' vz i (σ i.castSucc).1 k.1 rfl hk'
        (by have := k.2; omega) k.2).2
      rw [heq] at hst
      show (sectionForces (el' k).L (internalForces ty el' v' k)).2 =
        (sectionForces (el i).L (internalForces ty el v i)).2
      rw [reported_bot ty el' hr', reported_bot ty el hr, hst]

/-- A cantilever of 3 m as one element and as elements of 1 m and 2 m. -/
example :
    let e : ℚ → Elem ℚ := fun L => ⟨L, 210000000, 1 / 10, 1 / 100, 1, 1 / 20, 3 / 10⟩
    let σ : Fin 2 → Fin 3 := ![0, 2]
    SameBeam ![e 3] ![e 1, e 2] σ ∧ (∀ L : ℚ, L = 1 ∨ L = 2 ∨ L = 3 → Regular .timoshenko (e L)) ∧
    SameLoads σ ![0, 100, 0, 0, 0, 0] (0 : Fin 6 → ℚ) ![false, false, false, true, true, true]
      ![0, 100, 0, 0, 0, 0, 0, 0, 0] (0 : Fin 9 → ℚ)
      ![false, false, false, false, false, false, true, true, true] := by
  refine ⟨⟨⟨rfl, rfl, by decide, by decide +kernel⟩, ?_⟩, ?_, ⟨by decide +kernel, ?_⟩⟩
  · intro i k _
    fin_cases i
    fin_cases k <;> rfl
  · rintro L (rfl | rfl | rfl) <;> constructor <;> first | (norm_num; done) | decide +kernel
  · intro k hk d
    have : k = 1 := by
      fin_cases k
      · exact absurd ⟨0, rfl⟩ hk
      · rfl
      · exact absurd ⟨1, rfl⟩ hk
    subst this
    revert d
    decide +kernel

/-- `march` solves the equations of a beam without distributed load. -/
theorem C55_exact (EA EI c : ℝ) (s : Station ℝ) (x : ℝ) :
    march EA EI c 0 s = s ∧
    HasDerivAt (fun x => (march EA EI c x s).w) (-(march EA EI c x s).N / EA) x ∧
    HasDerivAt (fun x => (march EA EI c x s).v)
      ((march EA EI c x s).θ - c * (march EA EI c x s).V) x ∧
    HasDerivAt (fun x => (march EA EI c x s).θ) (-(march EA EI c x s).M / EI) x ∧
    HasDerivAt (fun x => (march EA EI c x s).N) 0 x ∧ HasDerivAt (fun x => (march EA EI c x s).V) 0 x ∧
    HasDerivAt (fun x => (march EA EI c x s).M) (-(march EA EI c x s).V) x := by
  unfold march
  have h1 := hasDerivAt_id' x
  have h2 := hasDerivAt_pow 2 x
  have h3 := hasDerivAt_pow 3 x
  refine ⟨by ext <;> simp, ?_, ?_, ?_, hasDerivAt_const _ _, hasDerivAt_const _ _, ?_⟩
  · refine (((h1.const_mul s.N).div_const EA).const_sub s.w).congr_deriv ?_
    ring
  · refine ((((h1.const_mul s.θ).const_add s.v).add
      ((((h3.const_mul s.V).div_const 6).sub ((h2.const_mul s.M).div_const 2)).div_const EI)).sub
      (h1.const_mul (c * s.V))).congr_deriv ?_
    push_cast
    ring
  · refine ((((h2.const_mul s.V).div_const 2).sub (h1.const_mul s.M)).div_const EI).const_add s.θ
      |>.congr_deriv ?_
    push_cast
    ring
  · refine ((h1.const_mul s.V).const_sub s.M).congr_deriv ?_
    ring

end OpenPile.Props.Refine

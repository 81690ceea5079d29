/-
Properties C19-C22: assembled stiffness, uniqueness, equilibrium, section forces.
-/
import Verif.Props.Solve

namespace OpenPile.Props.Beam
open OpenPile.Kernel OpenPile.Spec.Kernel Matrix OpenPile.Props.Element OpenPile.Props.Solve

section field
variable {K : Type} [Field K] {n : ℕ}

/-- Energy of the three soil matrices of one element. -/
def soilEnergy (ty : ElementType) (e : Elem K) (s : SoilK K) (u : Fin 6 → K) : K :=
  energy (pyMatrix e.L s.py.1 s.py.2) u + energy (tzMatrix e.L s.tz.1 s.tz.2) u
    + energy (mtMatrix ty e s.mt.1 s.mt.2) u

theorem elemMatrix_energy (ty : ElementType) (e : Elem K) (s : SoilK K) (u : Fin 6 → K) :
    energy (elemMatrix ty e s) u = energy (mechMatrix ty e) u + soilEnergy ty e s u := by
  simp only [elemMatrix, energy, soilEnergy, work_add]
  ring

/-- **C19, energy.** The quadratic form of the global stiffness matrix is the sum of the element
energies plus the energies of the base springs at the pile tip. -/
theorem C19_energy (ty : ElementType) (el : Fin n → Elem K) (s : Fin n → SoilK K) (h m q : K)
    (u : Fin (3 * n + 3) → K) :
    energy (soilStiffness ty n el s h m q) u =
      ∑ i, (energy (mechMatrix ty (el i)) (stacked u i)
        + energy (pyMatrix (el i).L (s i).py.1 (s i).py.2) (stacked u i)
        + energy (tzMatrix (el i).L (s i).tz.1 (s i).tz.2) (stacked u i)
        + energy (mtMatrix ty (el i) (s i).mt.1 (s i).mt.2) (stacked u i))
      + (q * u (dof (Fin.last n) 0) ^ 2 + h * u (dof (Fin.last n) 1) ^ 2
        + m * u (dof (Fin.last n) 2) ^ 2) ∧
    energy (beamStiffness ty n el) u = ∑ i, energy (mechMatrix ty (el i)) (stacked u i) := by
  constructor
  · unfold energy soilStiffness
    rw [work_add, assemble_work, base_work]
    congr 1
    · apply Finset.sum_congr rfl
      intro i _
      simp only [elemMatrix, work_add]
    · ring
  · unfold energy beamStiffness
    rw [assemble_work]

/-- **C19, banded.** A degree of freedom is coupled only to its own and the neighbouring nodes. -/
theorem C19_banded (ty : ElementType) (el : Fin n → Elem K) (s : Fin n → SoilK K) (h m q : K)
    (j j' : Fin (n + 1)) (d d' : Fin 3) (hj : j.1 + 1 < j'.1 ∨ j'.1 + 1 < j.1) :
    soilStiffness ty n el s h m q (dof j d) (dof j' d') = 0 ∧
    beamStiffness ty n el (dof j d) (dof j' d') = 0 := by
  have key : ∀ k : Fin n → Matrix (Fin 6) (Fin 6) K, assemble n k (dof j d) (dof j' d') = 0 := by
    intro k
    unfold assemble
    rw [Matrix.sum_apply]
    apply Finset.sum_eq_zero
    intro i _
    unfold place
    rw [dif_neg]
    simp only [dof]
    omega
  refine ⟨?_, key _⟩
  unfold soilStiffness
  rw [Matrix.add_apply, key, zero_add]
  have hd : (dof j d).1 = 3 * j.1 + d.1 := rfl
  have hd' : (dof j' d').1 = 3 * j'.1 + d'.1 := rfl
  unfold baseMatrix
  rw [if_neg (by omega), if_neg (by omega), if_neg (by omega)]

/-! ## rigid-body motions -/

theorem nodeDepth_zero (L : Fin n → K) : nodeDepth L 0 = 0 := by
  simp [nodeDepth]

theorem nodeDepth_succ (L : Fin n → K) (i : Fin n) :
    nodeDepth L i.succ = nodeDepth L i.castSucc + L i := by
  unfold nodeDepth
  have : ∀ k : Fin n, (if k.1 < i.succ.1 then L k else 0)
      = (if k.1 < i.castSucc.1 then L k else 0) + (if k = i then L k else 0) := by
    intro k
    simp only [Fin.val_succ, Fin.val_castSucc]
    by_cases h : k = i
    · subst h; simp
    · have : k.1 ≠ i.1 := fun h' => h (Fin.ext h')
      by_cases h1 : k.1 < i.1
      · rw [if_pos (by omega), if_pos h1, if_neg h, add_zero]
      · rw [if_neg (by omega), if_neg h1, if_neg h, add_zero]
  rw [Finset.sum_congr rfl (fun k _ => this k), Finset.sum_add_distrib]
  simp

/-- A field that is rigid in every element is rigid. -/
theorem rigid_iff (L : Fin n → K) (u : Fin (3 * n + 3) → K) :
    Rigid L u ↔ ∀ i, RigidElem (L i) (stacked u i) := by
  constructor
  · rintro ⟨a, b, θ, h⟩ i
    obtain ⟨s0, s1, s2, s3, s4, s5⟩ := stacked_top u i
    rw [RigidElem, s0, s1, s2, s3, s4, s5, (h _).1, (h _).1, (h _).2.1, (h _).2.1, (h _).2.2,
      (h _).2.2, nodeDepth_succ]
    exact ⟨rfl, rfl, by ring⟩
  · intro h
    refine ⟨u (dof 0 0), u (dof 0 1), u (dof 0 2), ?_⟩
    intro j
    induction j using Fin.induction with
    | zero => simp [nodeDepth_zero]
    | succ i ih =>
      obtain ⟨s0, s1, s2, s3, s4, s5⟩ := stacked_top u i
      obtain ⟨r1, r2, r3⟩ := h i
      rw [s0, s3] at r1
      rw [s2, s5] at r2
      rw [s4, s1, s2] at r3
      rw [r1, r2, r3, nodeDepth_succ, ih.1, ih.2.1, ih.2.2]
      exact ⟨rfl, by ring, rfl⟩

/-- The end forces of a beam element do no work on a rigid motion. -/
theorem mech_work_rigid (ty : ElementType) (e : Elem K) (hL : e.L ≠ 0) (hp : 1 + phi ty e ≠ 0)
    (r u : Fin 6 → K) (hr : RigidElem e.L r) : work (mechMatrix ty e) r u = 0 := by
  obtain ⟨f1, f2, f3⟩ := C16_end_forces ty e hL hp u
  obtain ⟨h3, h5, h4⟩ := hr
  unfold work
  simp only [dotProduct, Fin.sum_univ_six]
  rw [h3, h5, h4]
  linear_combination r 0 * f1 + r 1 * f2 + r 2 * f3

/-- The rigid motion with axial translation `a`, lateral translation `b` and rotation `θ` about the
depth `x0`. -/
def rigidVec (L : Fin n → K) (a b θ x0 : K) : Fin (3 * n + 3) → K := fun r =>
  if r.1 % 3 = 0 then a
  else if r.1 % 3 = 1 then b + (nodeDepth L ⟨r.1 / 3, by omega⟩ - x0) * θ
  else θ

theorem rigidVec_dof (L : Fin n → K) (a b θ x0 : K) (j : Fin (n + 1)) :
    rigidVec L a b θ x0 (dof j 0) = a ∧
    rigidVec L a b θ x0 (dof j 1) = b + (nodeDepth L j - x0) * θ ∧
    rigidVec L a b θ x0 (dof j 2) = θ := by
  have hm : ∀ d : Fin 3, (dof j d).1 % 3 = d.1 := by
    intro d; simp only [dof]; omega
  have hq : ∀ d : Fin 3, (dof j d).1 / 3 = j.1 := by
    intro d; simp only [dof]; omega
  refine ⟨?_, ?_, ?_⟩
  · unfold rigidVec
    rw [if_pos (by rw [hm]; rfl)]
  · unfold rigidVec
    rw [if_neg (by rw [hm]; simp), if_pos (by rw [hm]; rfl)]
    congr 3
    congr 1
    exact Fin.ext (hq 1)
  · unfold rigidVec
    rw [if_neg (by rw [hm]; simp), if_neg (by rw [hm]; simp)]

theorem rigidVec_rigid (L : Fin n → K) (a b θ x0 : K) : Rigid L (rigidVec L a b θ x0) := by
  refine ⟨a, b - x0 * θ, θ, fun j => ?_⟩
  obtain ⟨h0, h1, h2⟩ := rigidVec_dof L a b θ x0 j
  refine ⟨h0, ?_, h2⟩
  rw [h1]; ring

/-- Nodal forces of the beam do no work on rigid motions. -/
theorem beam_work_rigid (ty : ElementType) (el : Fin n → Elem K) (hL : ∀ i, (el i).L ≠ 0)
    (hp : ∀ i, 1 + phi ty (el i) ≠ 0) (r u : Fin (3 * n + 3) → K)
    (hr : Rigid (fun i => (el i).L) r) : work (beamStiffness ty n el) r u = 0 := by
  unfold beamStiffness
  rw [assemble_work]
  apply Finset.sum_eq_zero
  intro i _
  exact mech_work_rigid ty (el i) (hL i) (hp i) _ _ ((rigid_iff _ r).1 hr i)

/-! ## C21 -/

/-- **C21, global equilibrium.** In every beam analysis loads and reactions balance: axially,
laterally, and in moment about any depth `x0`. -/
theorem C21_equilibrium [DecidableEq K] (ty : ElementType) (el : Fin n → Elem K)
    (hL : ∀ i, (el i).L ≠ 0) (hp : ∀ i, 1 + phi ty (el i) ≠ 0) (F U : Fin (3 * n + 3) → K)
    (fix : Fin (3 * n + 3) → Bool) (u Q : Fin (3 * n + 3) → K)
    (f : Fin n → (K × K × K) × (K × K × K)) (h : beam ty el F U fix = some (u, Q, f)) :
    ∑ j : Fin (n + 1), (F (dof j 0) + Q (dof j 0)) = 0 ∧
    ∑ j : Fin (n + 1), (F (dof j 1) + Q (dof j 1)) = 0 ∧
    ∀ x0 : K, ∑ j : Fin (n + 1), ((F (dof j 2) + Q (dof j 2))
      + (nodeDepth (fun i => (el i).L) j - x0) * (F (dof j 1) + Q (dof j 1))) = 0 := by
  unfold beam at h
  simp only [Option.map_eq_some_iff, Prod.mk.injEq] at h
  obtain ⟨⟨u', Q'⟩, hs, rfl, rfl, -⟩ := h
  have hQ := (C15_solution _ _ _ _ _ _ hs).2.2.1
  have key : ∀ a b θ x0 : K, ∑ j : Fin (n + 1), (a * (F (dof j 0) + Q' (dof j 0))
      + (b + (nodeDepth (fun i => (el i).L) j - x0) * θ) * (F (dof j 1) + Q' (dof j 1))
      + θ * (F (dof j 2) + Q' (dof j 2))) = 0 := by
    intro a b θ x0
    have := beam_work_rigid ty el hL hp _ u' (rigidVec_rigid (fun i => (el i).L) a b θ x0)
    unfold work dotProduct at this
    rw [sum_dof] at this
    rw [← this]
    apply Finset.sum_congr rfl
    intro j _
    obtain ⟨h0, h1, h2⟩ := rigidVec_dof (fun i => (el i).L) a b θ x0 j
    rw [Fin.sum_univ_three, h0, h1, h2, hQ, hQ, hQ]
  refine ⟨?_, ?_, fun x0 => ?_⟩
  · have := key 1 0 0 0
    simpa using this
  · have := key 0 1 0 0
    simpa using this
  · have := key 0 0 1 x0
    rw [← this]
    apply Finset.sum_congr rfl
    intro j _
    ring

/-! ## C22 -/

/-- The pile's own nodal forces at node `j`, written with the section forces of the element below
(`f j`) and above (`f (j - 1)`), as reported in the table. -/
def jump (f : Fin n → (K × K × K) × (K × K × K)) (g : K × K × K → K) (j : Fin (n + 1)) : K :=
  (if h : j.1 < n then g (f ⟨j.1, h⟩).1 else 0)
  - (if h : 0 < j.1 then g (f ⟨j.1 - 1, by omega⟩).2 else 0)

/-- **C22, each element is in equilibrium**: N and V are constant over the element and V is the
(negative) slope of M, for every displacement field. -/
theorem C22_element (ty : ElementType) (el : Fin n → Elem K) (u : Fin (3 * n + 3) → K) (i : Fin n)
    (hL : (el i).L ≠ 0) (hp : 1 + phi ty (el i) ≠ 0) :
    let f := sectionForces (el i).L (internalForces ty el u i)
    f.1.1 = f.2.1 ∧ f.1.2.1 = f.2.2.1 ∧ (f.1.2.2 - f.2.2.2) / (el i).L = f.1.2.1 ∧
    f.2.2.2 = internalForces ty el u i 5 := by
  obtain ⟨f1, f2, f3⟩ := C16_end_forces ty (el i) hL hp (stacked u i)
  simp only [sectionForces, internalForces]
  refine ⟨?_, ?_, ?_, ?_⟩
  · linear_combination f1
  · linear_combination f2
  · field_simp
    ring
  · linear_combination f3 - (el i).L * f2

/-- The jump of the section force tables at a node is the nodal force of the assembled beam. -/
theorem jump_eq (ty : ElementType) (el : Fin n → Elem K) (hL : ∀ i, (el i).L ≠ 0)
    (hp : ∀ i, 1 + phi ty (el i) ≠ 0) (u : Fin (3 * n + 3) → K) (j : Fin (n + 1)) :
    let f := fun i => sectionForces (el i).L (internalForces ty el u i)
    jump f (·.1) j = (beamStiffness ty n el *ᵥ u) (dof j 0) ∧
    jump f (·.2.1) j = (beamStiffness ty n el *ᵥ u) (dof j 1) ∧
    jump f (·.2.2) j = (beamStiffness ty n el *ᵥ u) (dof j 2) := by
  have bot : ∀ i, (sectionForces (el i).L (internalForces ty el u i)).2.2.2
      = internalForces ty el u i 5 := fun i => (C22_element ty el u i (hL i) (hp i)).2.2.2
  simp only [beamStiffness, assemble_mulVec_dof]
  refine ⟨?_, ?_, ?_⟩
  · unfold jump
    by_cases h1 : j.1 < n <;> by_cases h2 : 0 < j.1 <;>
      simp [h1, h2, sectionForces, internalForces, topDof, botDof]
  · unfold jump
    by_cases h1 : j.1 < n <;> by_cases h2 : 0 < j.1 <;>
      simp [h1, h2, sectionForces, internalForces, topDof, botDof]
  · unfold jump
    simp only [bot]
    by_cases h1 : j.1 < n <;> by_cases h2 : 0 < j.1 <;>
      simp [h1, h2, sectionForces, internalForces, topDof, botDof]

/-- **C22, beam analysis.** At each node the diagrams N, V and M jump exactly by the applied load
plus the reaction at that node; they are continuous where nothing is applied; the first and the last
value balance the load and reaction at the pile head and tip. -/
theorem C22_jumps [DecidableEq K] (ty : ElementType) (el : Fin n → Elem K)
    (hL : ∀ i, (el i).L ≠ 0) (hp : ∀ i, 1 + phi ty (el i) ≠ 0) (F U : Fin (3 * n + 3) → K)
    (fix : Fin (3 * n + 3) → Bool) (u Q : Fin (3 * n + 3) → K)
    (f : Fin n → (K × K × K) × (K × K × K)) (h : beam ty el F U fix = some (u, Q, f))
    (j : Fin (n + 1)) :
    jump f (·.1) j = F (dof j 0) + Q (dof j 0) ∧ jump f (·.2.1) j = F (dof j 1) + Q (dof j 1) ∧
    jump f (·.2.2) j = F (dof j 2) + Q (dof j 2) ∧
    (∀ d, fix (dof j d) = false → U (dof j d) = 0 → Q (dof j d) = 0) := by
  unfold beam at h
  simp only [Option.map_eq_some_iff, Prod.mk.injEq] at h
  obtain ⟨⟨u', Q'⟩, hs, rfl, rfl, rfl⟩ := h
  have hsol := C15_solution _ _ _ _ _ _ hs
  obtain ⟨j1, j2, j3⟩ := jump_eq ty el hL hp u' j
  refine ⟨?_, ?_, ?_, ?_⟩
  · rw [hsol.2.2.1]; exact j1
  · rw [hsol.2.2.1]; exact j2
  · rw [hsol.2.2.1]; exact j3
  · intro d hf hU
    exact (hsol.1 _ (by simp [hf, hU])).2

/-- **C22, with soil.** For every displacement field that balances loads and reactions with the
soil-supported stiffness, the jump plus the nodal force taken by the springs (distributed and base)
is the load plus reaction. -/
theorem C22_jumps_soil (ty : ElementType) (el : Fin n → Elem K) (s : Fin n → SoilK K) (h m q : K)
    (hL : ∀ i, (el i).L ≠ 0) (hp : ∀ i, 1 + phi ty (el i) ≠ 0) (F Q u : Fin (3 * n + 3) → K)
    (heq : ∀ r, (soilStiffness ty n el s h m q *ᵥ u) r = F r + Q r) (j : Fin (n + 1)) :
    let f := fun i => sectionForces (el i).L (internalForces ty el u i)
    let spring := fun r => ((assemble n (fun i => pyMatrix (el i).L (s i).py.1 (s i).py.2
      + tzMatrix (el i).L (s i).tz.1 (s i).tz.2 + mtMatrix ty (el i) (s i).mt.1 (s i).mt.2)
      + baseMatrix n h m q) *ᵥ u) r
    jump f (·.1) j + spring (dof j 0) = F (dof j 0) + Q (dof j 0) ∧
    jump f (·.2.1) j + spring (dof j 1) = F (dof j 1) + Q (dof j 1) ∧
    jump f (·.2.2) j + spring (dof j 2) = F (dof j 2) + Q (dof j 2) := by
  have split : soilStiffness ty n el s h m q = beamStiffness ty n el
      + (assemble n (fun i => pyMatrix (el i).L (s i).py.1 (s i).py.2
      + tzMatrix (el i).L (s i).tz.1 (s i).tz.2 + mtMatrix ty (el i) (s i).mt.1 (s i).mt.2)
      + baseMatrix n h m q) := by
    have padd : ∀ (i : Fin n) (A B : Matrix (Fin 6) (Fin 6) K),
        place n i (A + B) = place n i A + place n i B := by
      intro i A B
      ext r c
      simp only [place, Matrix.add_apply]
      split_ifs <;> simp
    unfold soilStiffness beamStiffness assemble
    rw [← add_assoc, ← Finset.sum_add_distrib]
    congr 1
    apply Finset.sum_congr rfl
    intro i _
    rw [← padd]
    simp only [elemMatrix, add_assoc]
  obtain ⟨j1, j2, j3⟩ := jump_eq ty el hL hp u j
  simp only at j1 j2 j3 ⊢
  rw [← heq, ← heq, ← heq, j1, j2, j3, split]
  generalize (assemble n (fun i => pyMatrix (el i).L (s i).py.1 (s i).py.2
      + tzMatrix (el i).L (s i).tz.1 (s i).tz.2 + mtMatrix ty (el i) (s i).mt.1 (s i).mt.2)
      + baseMatrix n h m q) = M
  rw [Matrix.add_mulVec]
  exact ⟨rfl, rfl, rfl⟩

end field

section ordered
variable {K : Type} [Field K] [LinearOrder K] [IsStrictOrderedRing K] {n : ℕ}

/-- **C19, symmetry** of the assembled matrices. -/
theorem C19_symmetric (ty : ElementType) (el : Fin n → Elem K) (s : Fin n → SoilK K) (h m q : K) :
    (soilStiffness ty n el s h m q)ᵀ = soilStiffness ty n el s h m q ∧
    (beamStiffness ty n el)ᵀ = beamStiffness ty n el := by
  constructor
  · unfold soilStiffness
    rw [transpose_add, assemble_transpose, base_transpose]
    congr 1
    congr 1
    funext i
    unfold elemMatrix
    obtain ⟨h1, h2, h3⟩ := C18_symmetric ty (el i) (s i).py.1 (s i).py.2
    obtain ⟨-, h2, -⟩ := C18_symmetric ty (el i) (s i).tz.1 (s i).tz.2
    obtain ⟨-, -, h3⟩ := C18_symmetric ty (el i) (s i).mt.1 (s i).mt.2
    rw [transpose_add, transpose_add, transpose_add, h1, h2, h3, C16_symmetric]
  · unfold beamStiffness
    rw [assemble_transpose]
    congr 1
    funext i
    exact C16_symmetric ty (el i)

/-- Elements for which the structural matrix is well behaved (see C16). -/
def GoodElems (ty : ElementType) (el : Fin n → Elem K) : Prop :=
  ∀ i, GoodElem (el i) ∧ (ty = .timoshenko → -(3 / 4) ≤ (el i).nu)

/-- Non-negative spring stiffnesses; rotational springs only where their matrix has non-negative
energy (Euler-Bernoulli elements, or a small enough second moment of area, see C18). -/
def GoodSprings (ty : ElementType) (el : Fin n → Elem K) (s : Fin n → SoilK K) (h m q : K) : Prop :=
  (∀ i, (0 ≤ (s i).py.1 ∧ 0 ≤ (s i).py.2) ∧ (0 ≤ (s i).tz.1 ∧ 0 ≤ (s i).tz.2) ∧
    (0 ≤ (s i).mt.1 ∧ 0 ≤ (s i).mt.2) ∧
    (ty = .timoshenko → ((s i).mt.1 = 0 ∧ (s i).mt.2 = 0) ∨
      12 * (el i).I * (12 * mtOmega (el i) + 1) ^ 2 ≤ (el i).L * mtX (el i) * (mtX (el i) - 1 / 5))) ∧
  0 ≤ h ∧ 0 ≤ m ∧ 0 ≤ q

theorem mt_nonneg_of_good (ty : ElementType) (e : Elem K) (he : GoodElem e)
    (hnu : ty = .timoshenko → -(3 / 4) ≤ e.nu) (kt kb : K) (ht : 0 ≤ kt) (hb : 0 ≤ kb)
    (hc : ty = .timoshenko → (kt = 0 ∧ kb = 0) ∨
      12 * e.I * (12 * mtOmega e + 1) ^ 2 ≤ e.L * mtX e * (mtX e - 1 / 5)) (u : Fin 6 → K) :
    0 ≤ energy (mtMatrix ty e kt kb) u := by
  cases ty with
  | eulerBernoulli => exact C18_mt_nonneg_euler e he.L kt kb ht hb u
  | timoshenko =>
    rcases hc rfl with ⟨rfl, rfl⟩ | h
    · rw [mtMatrix_energy]; simp
    · have := (C18_mt_nonneg_timoshenko_partial e he (hnu rfl) 1 1 one_pos one_pos).2 h u
      rw [mtMatrix_energy] at this ⊢
      have h2 := nonneg_of_mul_nonneg_right this (by norm_num)
      exact mul_nonneg (by positivity) h2

/-- **C19, non-negative energy** (restricted as C16 and C18 are). -/
theorem C19_nonneg_partial (ty : ElementType) (el : Fin n → Elem K) (s : Fin n → SoilK K) (h m q : K)
    (hel : GoodElems ty el) (hs : GoodSprings ty el s h m q) (u : Fin (3 * n + 3) → K) :
    0 ≤ energy (soilStiffness ty n el s h m q) u ∧ 0 ≤ energy (beamStiffness ty n el) u := by
  rw [(C19_energy ty el s h m q u).1, (C19_energy ty el s h m q u).2]
  obtain ⟨hs, hh, hm, hq⟩ := hs
  constructor
  · apply add_nonneg
    · apply Finset.sum_nonneg
      intro i _
      obtain ⟨p, t, r, c⟩ := hs i
      obtain ⟨g, gn⟩ := hel i
      have h1 := C16_nonneg_partial ty (el i) g gn (stacked u i)
      have h2 := (C18_nonneg (el i).L _ _ g.L p.1 p.2 (stacked u i)).1
      have h3 := (C18_nonneg (el i).L _ _ g.L t.1 t.2 (stacked u i)).2.1
      have h4 := mt_nonneg_of_good ty (el i) g gn _ _ r.1 r.2 c (stacked u i)
      linarith
    · positivity
  · apply Finset.sum_nonneg
    intro i _
    obtain ⟨g, gn⟩ := hel i
    exact C16_nonneg_partial ty (el i) g gn (stacked u i)

/-- The supports `restr` and the springs hold the pile: a rigid-body motion that is zero at every
restrained degree of freedom and stretches no spring is zero. -/
def Held (ty : ElementType) (el : Fin n → Elem K) (s : Fin n → SoilK K) (h m q : K)
    (restr : Fin (3 * n + 3) → Bool) : Prop :=
  ∀ u : Fin (3 * n + 3) → K, Rigid (fun i => (el i).L) u → (∀ r, restr r = true → u r = 0) →
    (∀ i : Fin n, 0 < (s i).py.1 ∨ 0 < (s i).py.2 →
      u (dof i.castSucc 1) = 0 ∧ u (dof i.succ 1) = 0 ∧ u (dof i.castSucc 2) = 0) →
    (∀ i : Fin n, 0 < (s i).tz.1 ∨ 0 < (s i).tz.2 → u (dof i.castSucc 0) = 0) →
    (∀ i : Fin n, ty = .eulerBernoulli → 0 < (s i).mt.1 ∨ 0 < (s i).mt.2 →
      u (dof i.castSucc 2) = 0) →
    (0 < h → u (dof (Fin.last n) 1) = 0) → (0 < m → u (dof (Fin.last n) 2) = 0) →
    (0 < q → u (dof (Fin.last n) 0) = 0) → u = 0

theorem mul_sq_zero_of_pos {a x : K} (ha : 0 < a) (h : a * x ^ 2 = 0) : x = 0 := sq_zero x a ha h

/-- **C20, positive definiteness.** If supports and springs hold the pile, every non-zero
displacement field that is zero at the supports has positive energy; hence `solve_equations` cannot
fail, whatever the loads, and its result is the only solution. -/
theorem C20_unique_partial (ty : ElementType) (el : Fin n → Elem K) (s : Fin n → SoilK K) (h m q : K)
    (hel : GoodElems ty el) (hs : GoodSprings ty el s h m q) (restr : Fin (3 * n + 3) → Bool)
    (hheld : Held ty el s h m q restr) :
    (∀ u : Fin (3 * n + 3) → K, u ≠ 0 → (∀ r, restr r = true → u r = 0) →
      0 < energy (soilStiffness ty n el s h m q) u) ∧
    ∀ F U, ∃ u Q, solveEquations (soilStiffness ty n el s h m q) F U restr = some (u, Q) ∧
      ∀ u' : Fin (3 * n + 3) → K,
        (∀ r, restr r = false → (soilStiffness ty n el s h m q *ᵥ u') r = F r) →
        (∀ r, restr r = true → u' r = U r) → u' = u := by
  have pd : ∀ u : Fin (3 * n + 3) → K, u ≠ 0 → (∀ r, restr r = true → u r = 0) →
      0 < energy (soilStiffness ty n el s h m q) u := by
    intro u hu h0
    refine lt_of_le_of_ne (C19_nonneg_partial ty el s h m q hel hs u).1 (fun he => hu ?_)
    rw [(C19_energy ty el s h m q u).1] at he
    obtain ⟨hs, hh, hm, hq⟩ := hs
    have t1 : ∀ i ∈ Finset.univ, 0 ≤ energy (mechMatrix ty (el i)) (stacked u i)
        + energy (pyMatrix (el i).L (s i).py.1 (s i).py.2) (stacked u i)
        + energy (tzMatrix (el i).L (s i).tz.1 (s i).tz.2) (stacked u i)
        + energy (mtMatrix ty (el i) (s i).mt.1 (s i).mt.2) (stacked u i) := by
      intro i _
      obtain ⟨p, t, r, c⟩ := hs i
      obtain ⟨g, gn⟩ := hel i
      have h1 := C16_nonneg_partial ty (el i) g gn (stacked u i)
      have h2 := (C18_nonneg (el i).L _ _ g.L p.1 p.2 (stacked u i)).1
      have h3 := (C18_nonneg (el i).L _ _ g.L t.1 t.2 (stacked u i)).2.1
      have h4 := mt_nonneg_of_good ty (el i) g gn _ _ r.1 r.2 c (stacked u i)
      linarith
    have b0 : 0 ≤ q * u (dof (Fin.last n) 0) ^ 2 := by positivity
    have b1 : 0 ≤ h * u (dof (Fin.last n) 1) ^ 2 := by positivity
    have b2 : 0 ≤ m * u (dof (Fin.last n) 2) ^ 2 := by positivity
    have tsum := Finset.sum_nonneg t1
    have hz := (Finset.sum_eq_zero_iff_of_nonneg t1).1 (by linarith)
    have hz' : ∀ i, energy (mechMatrix ty (el i)) (stacked u i) = 0 ∧
        energy (pyMatrix (el i).L (s i).py.1 (s i).py.2) (stacked u i) = 0 ∧
        energy (tzMatrix (el i).L (s i).tz.1 (s i).tz.2) (stacked u i) = 0 ∧
        energy (mtMatrix ty (el i) (s i).mt.1 (s i).mt.2) (stacked u i) = 0 := by
      intro i
      have := hz i (Finset.mem_univ i)
      obtain ⟨p, t, r, c⟩ := hs i
      obtain ⟨g, gn⟩ := hel i
      have h1 := C16_nonneg_partial ty (el i) g gn (stacked u i)
      have h2 := (C18_nonneg (el i).L _ _ g.L p.1 p.2 (stacked u i)).1
      have h3 := (C18_nonneg (el i).L _ _ g.L t.1 t.2 (stacked u i)).2.1
      have h4 := mt_nonneg_of_good ty (el i) g gn _ _ r.1 r.2 c (stacked u i)
      exact ⟨by linarith, by linarith, by linarith, by linarith⟩
    have hre : ∀ i, RigidElem (el i).L (stacked u i) := by
      intro i
      obtain ⟨g, gn⟩ := hel i
      exact (C16_zero_iff_rigid_partial ty (el i) g gn _).1 (hz' i).1
    apply hheld u ((rigid_iff _ u).2 hre) h0
    · intro i hi
      obtain ⟨g, -⟩ := hel i
      obtain ⟨p, -⟩ := hs i
      obtain ⟨a, b, c, -⟩ := (C18_nonneg (el i).L _ _ g.L p.1 p.2 (stacked u i)).2.2.1 hi (hz' i).2.1
      obtain ⟨-, s1, s2, -, s4, -⟩ := stacked_top u i
      exact ⟨by rw [← s1, a], by rw [← s4, c], by rw [← s2, b]⟩
    · intro i hi
      obtain ⟨g, -⟩ := hel i
      obtain ⟨-, t, -⟩ := hs i
      obtain ⟨a, -⟩ := (C18_nonneg (el i).L _ _ g.L t.1 t.2 (stacked u i)).2.2.2 hi (hz' i).2.2.1
      rw [← (stacked_top u i).1, a]
    · intro i hty hi
      obtain ⟨g, -⟩ := hel i
      obtain ⟨-, -, r, -⟩ := hs i
      have hmt := (hz' i).2.2.2
      subst hty
      have hk : mtMatrix .eulerBernoulli (el i) (s i).mt.1 (s i).mt.2
          = mtMatrix .eulerBernoulli (el i) (1 / 2 * (s i).mt.1 + 1 / 2 * (s i).mt.2)
            (1 / 2 * (s i).mt.1 + 1 / 2 * (s i).mt.2) := by
        unfold mtMatrix
        congr 1
        ring
      rw [hk, C18_mt_rigid_euler (el i) g.L _ _ (hre i)] at hmt
      rw [← (stacked_top u i).2.2.1]
      refine mul_sq_zero_of_pos ?_ hmt
      have := g.L
      rcases hi with hi | hi
      · have := r.2; positivity
      · have := r.1; positivity
    · intro hh
      exact mul_sq_zero_of_pos hh (by linarith)
    · intro hh
      exact mul_sq_zero_of_pos hh (by linarith)
    · intro hh
      exact mul_sq_zero_of_pos hh (by linarith)
  refine ⟨pd, fun F U => ?_⟩
  have hn : solveEquations (soilStiffness ty n el s h m q) F U restr ≠ none := by
    intro hn
    obtain ⟨w, hw, hfix, hfree⟩ := (C15_fails_iff _ _ _ _).1 hn
    have := pd w hw hfix
    unfold energy work dotProduct at this
    have h0 : ∑ r, w r * (soilStiffness ty n el s h m q *ᵥ w) r = 0 := by
      apply Finset.sum_eq_zero
      intro r _
      by_cases hr : restr r = true
      · rw [hfix r hr, zero_mul]
      · rw [hfree r (by simpa using hr), mul_zero]
    linarith
  rcases hsol : solveEquations (soilStiffness ty n el s h m q) F U restr with _ | ⟨u, Q⟩
  · exact absurd hsol hn
  · exact ⟨u, Q, rfl, (C15_solution _ _ _ _ _ _ hsol).2.2.2⟩

/-- **C20, beam.** Without soil, the analysis fails exactly if the supports allow a rigid-body
motion; in particular it always fails without supports. -/
theorem C20_beam_fails_iff (ty : ElementType) (el : Fin n → Elem K) (hel : GoodElems ty el)
    (F U : Fin (3 * n + 3) → K) (restr : Fin (3 * n + 3) → Bool) :
    solveEquations (beamStiffness ty n el) F U restr = none ↔
      ∃ w : Fin (3 * n + 3) → K, w ≠ 0 ∧ Rigid (fun i => (el i).L) w ∧ ∀ r, restr r = true → w r = 0 := by
  rw [C15_fails_iff]
  have hp : ∀ i, 1 + phi ty (el i) ≠ 0 := by
    intro i
    have := phi_nonneg ty (el i) (hel i).1 (hel i).2
    positivity
  constructor
  · rintro ⟨w, hw, hfix, hfree⟩
    refine ⟨w, hw, ?_, hfix⟩
    have h0 : energy (beamStiffness ty n el) w = 0 := by
      unfold energy work dotProduct
      apply Finset.sum_eq_zero
      intro r _
      by_cases hr : restr r = true
      · rw [hfix r hr, zero_mul]
      · rw [hfree r (by simpa using hr), mul_zero]
    rw [(C19_energy ty el (fun _ => ⟨(0, 0), (0, 0), (0, 0)⟩) 0 0 0 w).2] at h0
    have hz := (Finset.sum_eq_zero_iff_of_nonneg (fun i _ =>
      C16_nonneg_partial ty (el i) (hel i).1 (hel i).2 (stacked w i))).1 h0
    rw [rigid_iff]
    intro i
    exact (C16_zero_iff_rigid_partial ty (el i) (hel i).1 (hel i).2 _).1 (hz i (Finset.mem_univ i))
  · rintro ⟨w, hw, hr, hfix⟩
    refine ⟨w, hw, hfix, fun r _ => ?_⟩
    have := beam_work_rigid ty el (fun i => (hel i).1.L.ne') hp w (Pi.single r 1) hr
    rw [work_comm _ (C19_symmetric ty el (fun _ => ⟨(0, 0), (0, 0), (0, 0)⟩) 0 0 0).2] at this
    unfold work at this
    rw [single_dotProduct, one_mul] at this
    exact this

theorem nodeDepth_strictMono (L : Fin n → K) (hL : ∀ i, 0 < L i) : StrictMono (nodeDepth L) := by
  rw [Fin.strictMono_iff_lt_succ]
  intro i
  rw [nodeDepth_succ]
  linarith [hL i]

/-- **C20, beam, in terms of supports.** A beam analysis yields a (unique) result exactly if at least
one node is held axially, at least one laterally, and either a second node is held laterally or some
node is held in rotation. -/
theorem C20_beam_supports (ty : ElementType) (el : Fin n → Elem K) (hel : GoodElems ty el)
    (F U : Fin (3 * n + 3) → K) (restr : Fin (3 * n + 3) → Bool) :
    solveEquations (beamStiffness ty n el) F U restr ≠ none ↔
      (∃ j : Fin (n + 1), restr (dof j 0) = true) ∧ (∃ j : Fin (n + 1), restr (dof j 1) = true ∧
        ((∃ j' : Fin (n + 1), restr (dof j' 2) = true) ∨
          ∃ j' : Fin (n + 1), j' ≠ j ∧ restr (dof j' 1) = true)) := by
  rw [Ne, C20_beam_fails_iff ty el hel]
  set L : Fin n → K := fun i => (el i).L with hLdef
  have hmono := nodeDepth_strictMono L (fun i => (hel i).1.L)
  have h1ne : ∀ a b θ x0 : K, (a ≠ 0 ∨ θ ≠ 0 ∨ b + (nodeDepth L 0 - x0) * θ ≠ 0) →
      rigidVec L a b θ x0 ≠ 0 := by
    intro a b θ x0 h h0
    obtain ⟨r0, r1, r2⟩ := rigidVec_dof L a b θ x0 (0 : Fin (n + 1))
    rw [h0] at r0 r1 r2
    rcases h with h | h | h
    · exact h r0.symm
    · exact h r2.symm
    · exact h r1.symm
  constructor
  · intro hno
    refine ⟨?_, ?_⟩
    · by_contra hcon
      push Not at hcon
      apply hno
      refine ⟨rigidVec L 1 0 0 0, h1ne 1 0 0 0 (Or.inl one_ne_zero), rigidVec_rigid _ _ _ _ _, ?_⟩
      intro r hr
      obtain ⟨j, d, rfl⟩ := dof_surjective r
      obtain ⟨r0, r1, r2⟩ := rigidVec_dof L 1 0 0 0 j
      fin_cases d
      · exact absurd hr (hcon j)
      · exact r1.trans (by simp)
      · exact r2
    · by_contra hcon
      push Not at hcon
      apply hno
      by_cases hlat : ∃ j : Fin (n + 1), restr (dof j 1) = true
      · obtain ⟨j, hj⟩ := hlat
        obtain ⟨hrot, hlat⟩ := hcon j hj
        refine ⟨rigidVec L 0 0 1 (nodeDepth L j), h1ne _ _ _ _ (Or.inr (Or.inl one_ne_zero)),
          rigidVec_rigid _ _ _ _ _, ?_⟩
        intro r hr
        obtain ⟨j', d, rfl⟩ := dof_surjective r
        obtain ⟨r0, r1, r2⟩ := rigidVec_dof L 0 0 1 (nodeDepth L j) j'
        fin_cases d
        · exact r0
        · by_cases hjj : j' = j
          · subst hjj
            exact r1.trans (by simp)
          · exact absurd hr (hlat j' hjj)
        · exact absurd hr (hrot j')
      · push Not at hlat
        refine ⟨rigidVec L 0 1 0 0, h1ne _ _ _ _ (Or.inr (Or.inr (by simp))),
          rigidVec_rigid _ _ _ _ _, ?_⟩
        intro r hr
        obtain ⟨j', d, rfl⟩ := dof_surjective r
        obtain ⟨r0, r1, r2⟩ := rigidVec_dof L 0 1 0 0 j'
        fin_cases d
        · exact r0
        · exact absurd hr (hlat j')
        · exact r2
  · rintro ⟨⟨ja, ha⟩, j, hj, hrot⟩ ⟨w, hw, ⟨a, b, θ, hr⟩, hfix⟩
    apply hw
    have ea : a = 0 := by rw [← (hr ja).1]; exact hfix _ ha
    have eb : b + nodeDepth L j * θ = 0 := by rw [← (hr j).2.1]; exact hfix _ hj
    have eθ : θ = 0 := by
      rcases hrot with ⟨j', h'⟩ | ⟨j', hne, h'⟩
      · rw [← (hr j').2.2]; exact hfix _ h'
      · have eb' : b + nodeDepth L j' * θ = 0 := by rw [← (hr j').2.1]; exact hfix _ h'
        have : (nodeDepth L j' - nodeDepth L j) * θ = 0 := by linear_combination eb' - eb
        rcases mul_eq_zero.1 this with h | h
        · exact absurd (hmono.injective (sub_eq_zero.1 h)) hne
        · exact h
    subst eθ
    have eb2 : b = 0 := by simpa using eb
    funext r
    obtain ⟨j', d, rfl⟩ := dof_surjective r
    obtain ⟨r0, r1, r2⟩ := hr j'
    fin_cases d
    · exact r0.trans ea
    · exact r1.trans (by simp [eb2])
    · exact r2

/-- A cantilever of three hollow steel elements clamped at the tip with a load at its head: a beam
analysis that succeeds, so the hypotheses of C21 and C22 are met. -/
example : ∃ u Q f, beam .timoshenko (n := 3)
      (fun _ => elemOf (3 : ℚ) Pile.steel ⟨0, -10, 1, 1 / 20⟩ 1)
      (fun r => if r.1 = 1 then 100 else 0) (fun _ => 0) (fun r => decide (9 ≤ r.1)) = some (u, Q, f) := by
  have hel : GoodElems (n := 3) .timoshenko
      (fun _ => elemOf (3 : ℚ) Pile.steel ⟨0, -10, 1, 1 / 20⟩ 1) :=
    fun _ => ⟨goodElem_example.1, fun _ => goodElem_example.2⟩
  have h := (C20_beam_supports .timoshenko _ hel (fun r => if r.1 = 1 then 100 else 0) (fun _ => 0)
    (fun r => decide (9 ≤ r.1) || decide ((0 : ℚ) ≠ 0))).2 (by decide)
  unfold beam
  rcases hs : solveEquations (beamStiffness .timoshenko 3
      (fun _ => elemOf (3 : ℚ) Pile.steel ⟨0, -10, 1, 1 / 20⟩ 1)) (fun r => if r.1 = 1 then 100 else 0)
      (fun _ => 0) (fun r => decide (9 ≤ r.1) || decide ((0 : ℚ) ≠ 0)) with _ | ⟨u, Q⟩
  · exact absurd hs h
  · exact ⟨u, Q, _, rfl⟩

/-- A pile in soil with lateral springs on the first element and an axial base spring only: the
hypotheses of C19 and C20 are met without any support. -/
example : GoodElems (n := 2) .timoshenko
      (fun _ => elemOf (3 : ℚ) Pile.steel ⟨0, -10, 1, 1 / 20⟩ 1) ∧
    GoodSprings (n := 2) .timoshenko (fun _ => elemOf (3 : ℚ) Pile.steel ⟨0, -10, 1, 1 / 20⟩ 1)
      (fun i => if i = 0 then ⟨(10, 20), (0, 0), (0, 0)⟩ else ⟨(0, 0), (0, 0), (0, 0)⟩) 0 0 5 ∧
    Held (n := 2) .timoshenko (fun _ => elemOf (3 : ℚ) Pile.steel ⟨0, -10, 1, 1 / 20⟩ 1)
      (fun i => if i = 0 then ⟨(10, 20), (0, 0), (0, 0)⟩ else ⟨(0, 0), (0, 0), (0, 0)⟩) 0 0 5
      (fun _ => false) := by
  refine ⟨fun _ => ⟨goodElem_example.1, fun _ => goodElem_example.2⟩, ⟨?_, by norm_num⟩, ?_⟩
  · intro i
    fin_cases i <;> simp
  · rintro u ⟨a, b, θ, hr⟩ - hpy - - - - hq
    obtain ⟨p1, p2, p3⟩ := hpy 0 (by simp)
    have hq := hq (by norm_num)
    have e1 := (hr (Fin.last 2)).1
    have e2 := (hr (Fin.castSucc 0)).2.1
    have e3 := (hr (Fin.castSucc 0)).2.2
    rw [hq] at e1
    rw [p1] at e2
    rw [p3] at e3
    subst e3
    funext r
    obtain ⟨j, d, rfl⟩ := dof_surjective r
    obtain ⟨r0, r1, r2⟩ := hr j
    fin_cases d
    · exact r0.trans e1.symm
    · refine r1.trans ?_
      simp at e2 ⊢
      exact e2.symm
    · exact r2

end ordered
end OpenPile.Props.Beam

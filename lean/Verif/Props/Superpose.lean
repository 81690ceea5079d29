/-
C114: small load cases on a pile in soil superpose.

`winkler.py` 502-637 (`winkler`), `kernel.py` 717-787 (stiffness), from the tables of results.  While every spring stays on its first
branch, the listed displacements and section forces of a combination of load cases are the combination of those of the single cases, and
two load cases do the same work on each other's displacements (Betti, Maxwell).
-/
import Verif.Props.SoilTables
import Verif.Props.Stressed
import Verif.Props.LinearMoment
import Verif.Props.SoilSupport

namespace OpenPile.Props.Superpose
open OpenPile.SoilAnalysis OpenPile.Analysis OpenPile.BC OpenPile.Mesh OpenPile.Kernel OpenPile.Winkler OpenPile.Spring
  OpenPile.Result OpenPile.Assemble OpenPile.Props.SoilAnalysis OpenPile.Props.Analysis OpenPile.Props.Reported
  OpenPile.Spec.Kernel OpenPile.Props.Beam
open OpenPile.Props.Solve (C15_solution C23_superposition C23_reciprocity)
open OpenPile.Props.LinearRange
open Matrix

/-- Displacements, given as rows `(Tz, Ty, Rx)` per node, at which every spring of the Model is on its first branch. -/
def OnFirstBranch (w : Switches) (A : Arrays) (n : ℕ) (rows : List (ℝ × ℝ × ℝ)) : Prop :=
  ∃ d : Fin (3 * n + 3) → ℝ, rows = List.ofFn (fun j : Fin (n + 1) => (d (dof j 0), d (dof j 1), d (dof j 2))) ∧
    SmallMotions (springsOf w A n) d

/-- `a` times the rows of one table plus `b` times those of another. -/
def combine (a b : ℝ) (l l' : List (ℝ × ℝ × ℝ)) : List (ℝ × ℝ × ℝ) := List.zipWith (fun r s => a • r + b • s) l l'

theorem rows_injective {n : ℕ} {d d' : Fin (3 * n + 3) → ℝ}
    (h : List.ofFn (fun j : Fin (n + 1) => (d (dof j 0), d (dof j 1), d (dof j 2)))
      = List.ofFn (fun j : Fin (n + 1) => (d' (dof j 0), d' (dof j 1), d' (dof j 2)))) : d = d' := by
  have h1 := List.ofFn_injective h
  funext r
  obtain ⟨j, c, rfl⟩ : ∃ j c, r = dof j c := ⟨⟨r.1 / 3, by omega⟩, ⟨r.1 % 3, by omega⟩, Fin.ext (by
    show r.1 = 3 * (r.1 / 3) + r.1 % 3
    omega)⟩
  have h2 := congrFun h1 j
  simp only [Prod.mk.injEq] at h2
  fin_cases c
  · exact h2.1
  · exact h2.2.1
  · exact h2.2.2

/-- The reading of an analysis with soil, with the number of elements of the mesh. -/
theorem soil_read' {ty : ElementType} {p : Pile.Pile ℝ} {top tip : ℝ} (hp : Stack p top tip) {C : Coordinates ℝ}
    (h : MeshOn p top tip C) {w : Switches} {A : Arrays} {bcs : List (Cond ℝ)} {t : SoilTables}
    (ht : solveSoilOn ty p C w A bcs 100 = some (.numbers t)) :
    ∃ (z : Fin (C.elements.length + 1) → ℝ) (el : Fin C.elements.length → Elem ℝ) (F U : Fin (3 * C.elements.length + 3) → ℝ)
      (R : Fin (3 * C.elements.length + 3) → Bool)
      (g : Nodal ℤ) (gU : Nodal ℝ) (gR : Nodal Bool) (d Q : Fin (3 * C.elements.length + 3) → ℝ) (tolSq resSq : ℝ),
      1 ≤ C.elements.length ∧ C.nodes = List.ofFn z ∧ StrictAnti z ∧ ElementsOn Real.pi p z el ∧
      globalForces C.nodes bcs = .ok g ∧ globalDisp C.nodes bcs = .ok gU ∧ globalRestrained C.nodes bcs = .ok gR ∧
      (∀ c, (g.get (axisOf c)).map (fun i : ℤ => (i : ℝ)) = List.ofFn (fun j => F (dof j c))) ∧
      (∀ c, gU.get (axisOf c) = List.ofFn (fun j => U (dof j c))) ∧
      (∀ c, gR.get (axisOf c) = List.ofFn (fun j => R (dof j c))) ∧
      winkler (buildStiffness ty el (springsOf w A C.elements.length)) F U R 100 = .converged d Q t.iterations tolSq resSq ∧
      tables ty C.nodes el d Q = some t.toTables ∧ t.error = Real.sqrt resSq ∧ 0 ≤ resSq := by
  obtain ⟨n, z, el, F, U, R, g, gU, gR, d, Q, tolSq, resSq, n1, hz, hanti, hel, hg, hgU, hgR, cF, cU, cR, hw, htab, -, e1, -⟩ :=
    SoilTables.soil_read hp h ht
  obtain rfl : n = C.elements.length := by
    rw [h.elements, hz]
    simp
  refine ⟨z, el, F, U, R, g, gU, gR, d, Q, tolSq, resSq, n1, hz, hanti, hel, hg, hgU, hgR, cF, cU, cR, hw, htab, e1, ?_⟩
  obtain ⟨-, -, -, -, Ks, -, h2, -⟩ := Winkler.C26_converged _ _ _ _ _ _ _ _ _ _ hw
  rw [← h2]
  exact Finset.sum_nonneg (fun i _ => by split <;> positivity)

/-- A result without error whose springs are on their first branches is the linear response. -/
theorem linear_of {ty : ElementType} {n : ℕ} {el : Fin n → Elem ℝ} {sp : Springs ℝ n} {F U : Fin (3 * n + 3) → ℝ}
    {fix : Fin (3 * n + 3) → Bool} {m : ℕ} {d Q : Fin (3 * n + 3) → ℝ} {it : ℕ} {tolSq : ℝ}
    (hw : winkler (buildStiffness ty el sp) F U fix m = .converged d Q it tolSq 0) (hs : SmallMotions sp d) :
    ∃ B, buildStiffness ty el sp .initial 0 = some B ∧ solveEquations B F U (fun i => fix i || decide (U i ≠ 0)) = some (d, Q) := by
  unfold winkler at hw
  rcases hb : buildStiffness ty el sp .initial 0 with _ | B
  · simp [hb] at hw
  · simp only [hb] at hw
    obtain ⟨-, -, -, hpre, Ks, k1, k2, -, u', hsol⟩ :=
      Winkler.loop_converged _ F U _ _ 0 0 B U F 0 0 0 d Q _ tolSq 0 (fun i _ => by simp) (by omega) hw
    rw [build_first_mt ty el sp d hs, hb, Option.some.injEq] at k1
    subst k1
    refine ⟨B, rfl, ?_⟩
    obtain ⟨-, -, -, huniq⟩ := C15_solution _ _ _ _ _ _ hsol
    have hd : d = u' := by
      refine huniq d (fun i hi => ?_) hpre
      have h0 := (Finset.sum_eq_zero_iff_of_nonneg (fun i _ => by split <;> positivity)).1 k2.symm i (Finset.mem_univ i)
      rw [hi] at h0
      simp only [Bool.false_eq_true, if_false] at h0
      have := pow_eq_zero_iff (two_ne_zero) |>.1 h0
      linarith
    rw [hd]
    exact hsol


theorem build_symmetric {ty : ElementType} {n : ℕ} {el : Fin n → Elem ℝ} {sp : Springs ℝ n} {kind : Kind} {u : Fin (3 * n + 3) → ℝ}
    {B : Matrix (Fin (3 * n + 3)) (Fin (3 * n + 3)) ℝ} (h : buildStiffness ty el sp kind u = some B) : Bᵀ = B := by
  unfold buildStiffness at h
  simp only [Option.bind_eq_bind, Option.bind_eq_some_iff] at h
  obtain ⟨s, -, h⟩ := h
  by_cases h1 : sp.baseShear = true <;> by_cases h2 : sp.baseMoment = true <;> by_cases h3 : sp.baseAxial = true <;>
    simp only [h1, h2, h3, if_true, Bool.false_eq_true, if_false, Option.bind_eq_some_iff, Option.pure_def, Option.some.injEq,
      exists_eq_left'] at h
  · obtain ⟨a, -, b, -, c, -, rfl⟩ := h
    exact (C19_symmetric ty el s a b c).1
  · obtain ⟨a, -, b, -, rfl⟩ := h
    exact (C19_symmetric ty el s a b _).1
  · obtain ⟨a, -, b, -, rfl⟩ := h
    exact (C19_symmetric ty el s a _ b).1
  · obtain ⟨a, -, rfl⟩ := h
    exact (C19_symmetric ty el s a _ _).1
  · obtain ⟨a, -, b, -, rfl⟩ := h
    exact (C19_symmetric ty el s _ a b).1
  · obtain ⟨a, -, rfl⟩ := h
    exact (C19_symmetric ty el s _ a _).1
  · obtain ⟨a, -, rfl⟩ := h
    exact (C19_symmetric ty el s _ _ a).1
  · subst h
    exact (C19_symmetric ty el s _ _ _).1

theorem dofs {n : ℕ} (r : Fin (3 * n + 3)) : ∃ j c, r = dof (n := n) j c := ⟨⟨r.1 / 3, by omega⟩, ⟨r.1 % 3, by omega⟩, Fin.ext (by
    show r.1 = 3 * (r.1 / 3) + r.1 % 3
    omega)⟩

/-- `Free` in terms of the vectors of an analysis. -/
theorem free_iff {n : ℕ} {nodes : List ℝ} {bcs : List (Cond ℝ)} {w : Nodal ℝ} {r : Nodal Bool} {U : Fin (3 * n + 3) → ℝ}
    {R : Fin (3 * n + 3) → Bool} (hw : globalDisp nodes bcs = .ok w) (hr : globalRestrained nodes bcs = .ok r)
    (cw : ∀ d, w.get (axisOf d) = List.ofFn (fun j => U (dof j d))) (cr : ∀ d, r.get (axisOf d) = List.ofFn (fun j => R (dof j d)))
    (j : Fin (n + 1)) (d : Fin 3) : Free nodes bcs (axisOf d) j.1 ↔ (R (dof j d) || decide (U (dof j d) ≠ 0)) = false := by
  unfold Free
  rw [hw, hr]
  have e1 : (r.get (axisOf d))[j.1]? = some (R (dof j d)) := by rw [cr, List.getElem?_ofFn, dif_pos j.2]
  have e2 : (w.get (axisOf d))[j.1]? = some (U (dof j d)) := by rw [cw, List.getElem?_ofFn, dif_pos j.2]
  rw [Bool.or_eq_false_iff, decide_eq_false_iff_not, not_not]
  constructor
  · rintro ⟨⟨g, hg, h1⟩, g', hg', h2⟩
    cases hg
    cases hg'
    rw [e1] at h1
    rw [e2] at h2
    exact ⟨Option.some.inj h1, Option.some.inj h2⟩
  · rintro ⟨h1, h2⟩
    exact ⟨⟨r, rfl, by rw [e1, h1]⟩, w, rfl, by rw [e2, h2]⟩

/-- The same degrees of freedom are held. -/
theorem held_eq {n : ℕ} {nodes : List ℝ} {bcs bcs' : List (Cond ℝ)} {w w' : Nodal ℝ} {r r' : Nodal Bool} {U U' : Fin (3 * n + 3) → ℝ}
    {R R' : Fin (3 * n + 3) → Bool} (hw : globalDisp nodes bcs = .ok w) (hr : globalRestrained nodes bcs = .ok r)
    (cw : ∀ d, w.get (axisOf d) = List.ofFn (fun j => U (dof j d))) (cr : ∀ d, r.get (axisOf d) = List.ofFn (fun j => R (dof j d)))
    (hw' : globalDisp nodes bcs' = .ok w') (hr' : globalRestrained nodes bcs' = .ok r')
    (cw' : ∀ d, w'.get (axisOf d) = List.ofFn (fun j => U' (dof j d))) (cr' : ∀ d, r'.get (axisOf d) = List.ofFn (fun j => R' (dof j d)))
    (h : ∀ ax i, Free nodes bcs ax i ↔ Free nodes bcs' ax i) :
    (fun r => R r || decide (U r ≠ 0)) = fun r => R' r || decide (U' r ≠ 0) := by
  funext r
  obtain ⟨j, d, rfl⟩ := dofs r
  have := (free_iff hw hr cw cr j d).symm.trans ((h (axisOf d) j.1).trans (free_iff hw' hr' cw' cr' j d))
  exact Bool.eq_iff_iff.2 (by rw [← not_iff_not, Bool.not_eq_true, Bool.not_eq_true]; exact this)

/-- **C114, superposition in soil.** Three analyses with soil on the same mesh and springs, with conditions that hold the same degrees
of freedom.  The nodal loads and prescribed displacements of the third are `a` times those of the first plus `b` times those of the
second.  The first two end without out-of-balance force at displacements where every spring is on its first branch, and so would
the same combination of their displacements.  Then the third ends without out-of-balance force too, after two or three passes, its
listed displacements and section forces are that combination, row by row, and so are the listed reactions up to rounding in the table. -/
theorem C114_superposition (ty : ElementType) {p : Pile.Pile ℝ} {top tip : ℝ} (hp : Stack p top tip) {C : Coordinates ℝ}
    (h : MeshOn p top tip C) (w : Switches) (A : Arrays) (bcs₁ bcs₂ bcs₃ : List (Cond ℝ)) (a b : ℝ) (t₁ t₂ t₃ : SoilTables)
    (h₁ : solveSoilOn ty p C w A bcs₁ 100 = some (.numbers t₁)) (h₂ : solveSoilOn ty p C w A bcs₂ 100 = some (.numbers t₂))
    (h₃ : solveSoilOn ty p C w A bcs₃ 100 = some (.numbers t₃))
    (hload : ∀ g₁ g₂ g₃, globalForces C.nodes bcs₁ = .ok g₁ → globalForces C.nodes bcs₂ = .ok g₂ → globalForces C.nodes bcs₃ = .ok g₃ →
      ∀ ax i (v₁ v₂ v₃ : ℤ), At g₁ ax i v₁ → At g₂ ax i v₂ → At g₃ ax i v₃ → (v₃ : ℝ) = a * v₁ + b * v₂)
    (hdisp : ∀ w₁ w₂ w₃, globalDisp C.nodes bcs₁ = .ok w₁ → globalDisp C.nodes bcs₂ = .ok w₂ → globalDisp C.nodes bcs₃ = .ok w₃ →
      ∀ ax i (v₁ v₂ v₃ : ℝ), At w₁ ax i v₁ → At w₂ ax i v₂ → At w₃ ax i v₃ → v₃ = a * v₁ + b * v₂)
    (hheld : ∀ ax i, (Free C.nodes bcs₁ ax i ↔ Free C.nodes bcs₃ ax i) ∧ (Free C.nodes bcs₂ ax i ↔ Free C.nodes bcs₃ ax i))
    (e₁ : t₁.error = 0) (e₂ : t₂.error = 0) (f₁ : OnFirstBranch w A C.elements.length (t₁.disp.map (·.2)))
    (f₂ : OnFirstBranch w A C.elements.length (t₂.disp.map (·.2)))
    (f₃ : OnFirstBranch w A C.elements.length (combine a b (t₁.disp.map (·.2)) (t₂.disp.map (·.2)))) :
    t₃.error = 0 ∧ (t₃.iterations = 2 ∨ t₃.iterations = 3) ∧
    t₃.disp.map (·.1) = C.nodes ∧ t₃.disp.map (·.2) = combine a b (t₁.disp.map (·.2)) (t₂.disp.map (·.2)) ∧
    t₃.forces.map (·.1) = t₁.forces.map (·.1) ∧ t₃.forces.map (·.2) = combine a b (t₁.forces.map (·.2)) (t₂.forces.map (·.2)) ∧
    ∀ e ∈ C.nodes, ∀ x < 3, |listed t₃.toTables e x - (a * listed t₁.toTables e x + b * listed t₂.toTables e x)| ≤ (1 + |a| + |b|) / 1000 := by
  obtain ⟨z, el, F₁, U₁, R₁, g₁, w₁, r₁, u₁, Q₁, tol₁, res₁, n1, hz, anti, hel, gF₁, gU₁, gR₁, cF₁, cU₁, cR₁, s₁, q₁, er₁, p₁⟩ :=
    soil_read' hp h h₁
  obtain ⟨z', el', F₂, U₂, R₂, g₂, w₂, r₂, u₂, Q₂, tol₂, res₂, -, hz', -, hel', gF₂, gU₂, gR₂, cF₂, cU₂, cR₂, s₂, q₂, er₂, p₂⟩ :=
    soil_read' hp h h₂
  obtain ⟨z'', el'', F₃, U₃, R₃, g₃, w₃, r₃, u₃, Q₃, tol₃, res₃, -, hz'', -, hel'', gF₃, gU₃, gR₃, cF₃, cU₃, cR₃, s₃, q₃, er₃, p₃⟩ :=
    soil_read' hp h h₃
  obtain rfl : z = z' := List.ofFn_injective (hz ▸ hz')
  obtain rfl : z = z'' := List.ofFn_injective (hz ▸ hz'')
  obtain rfl := elementsOn_unique hel hel'
  obtain rfl := elementsOn_unique hel hel''
  obtain rfl : res₁ = 0 := (Real.sqrt_eq_zero p₁).1 (er₁ ▸ e₁)
  obtain rfl : res₂ = 0 := (Real.sqrt_eq_zero p₂).1 (er₂ ▸ e₂)
  obtain ⟨T₁, y₁, d₁, l₁, k₁, m₁⟩ := tables_exact ty n1 z el u₁ Q₁
  obtain ⟨T₂, y₂, d₂, l₂, k₂, m₂⟩ := tables_exact ty n1 z el u₂ Q₂
  obtain ⟨T₃, y₃, d₃, l₃, k₃, m₃⟩ := tables_exact ty n1 z el u₃ Q₃
  rw [hz] at q₁ q₂ q₃
  obtain rfl : T₁ = t₁.toTables := Option.some.inj (y₁.symm.trans q₁)
  obtain rfl : T₂ = t₂.toTables := Option.some.inj (y₂.symm.trans q₂)
  obtain rfl : T₃ = t₃.toTables := Option.some.inj (y₃.symm.trans q₃)
  have sm₁ : SmallMotions (springsOf w A C.elements.length) u₁ := by
    obtain ⟨d, hd, hs⟩ := f₁
    rw [d₁, List.map_ofFn] at hd
    exact rows_injective hd ▸ hs
  have sm₂ : SmallMotions (springsOf w A C.elements.length) u₂ := by
    obtain ⟨d, hd, hs⟩ := f₂
    rw [d₂, List.map_ofFn] at hd
    exact rows_injective hd ▸ hs
  have hcomb : combine a b (t₁.disp.map (·.2)) (t₂.disp.map (·.2)) = List.ofFn (fun j : Fin (C.elements.length + 1) =>
      ((a • u₁ + b • u₂) (dof j 0), (a • u₁ + b • u₂) (dof j 1), (a • u₁ + b • u₂) (dof j 2))) := by
    rw [d₁, d₂, List.map_ofFn, List.map_ofFn]
    apply List.ext_getElem
    · simp [combine]
    · intro k _ _
      simp only [combine, List.getElem_zipWith, List.getElem_ofFn]
      rfl
  have sm₃ : SmallMotions (springsOf w A C.elements.length) (a • u₁ + b • u₂) := by
    obtain ⟨d, hd, hs⟩ := f₃
    rw [hcomb] at hd
    exact rows_injective hd ▸ hs
  have eF : F₃ = a • F₁ + b • F₂ := by
    funext r
    obtain ⟨j, d, rfl⟩ := dofs r
    have en : ∀ (g : Nodal ℤ) (F : Fin (3 * C.elements.length + 3) → ℝ),
        (∀ d, (g.get (axisOf d)).map (fun i : ℤ => (i : ℝ)) = List.ofFn (fun j => F (dof j d))) →
        ∃ v : ℤ, At g (axisOf d) j.1 v ∧ (v : ℝ) = F (dof j d) := by
      intro g F hg
      have := congrArg (·[j.1]?) (hg d)
      simp only [List.getElem?_map, List.getElem?_ofFn, dif_pos j.2, Option.map_eq_some_iff] at this
      exact this
    obtain ⟨v₁, a₁, i₁⟩ := en g₁ F₁ cF₁
    obtain ⟨v₂, a₂, i₂⟩ := en g₂ F₂ cF₂
    obtain ⟨v₃, a₃, i₃⟩ := en g₃ F₃ cF₃
    rw [Pi.add_apply, Pi.smul_apply, Pi.smul_apply, smul_eq_mul, smul_eq_mul, ← i₁, ← i₂, ← i₃]
    exact hload g₁ g₂ g₃ gF₁ gF₂ gF₃ _ _ _ _ _ a₁ a₂ a₃
  have eU : U₃ = a • U₁ + b • U₂ := by
    funext r
    obtain ⟨j, d, rfl⟩ := dofs r
    have en : ∀ (g : Nodal ℝ) (U : Fin (3 * C.elements.length + 3) → ℝ), (∀ d, g.get (axisOf d) = List.ofFn (fun j => U (dof j d))) →
        At g (axisOf d) j.1 (U (dof j d)) := by
      intro g U hg
      unfold At
      rw [hg, List.getElem?_ofFn, dif_pos j.2]
    exact hdisp w₁ w₂ w₃ gU₁ gU₂ gU₃ _ _ _ _ _ (en w₁ U₁ cU₁) (en w₂ U₂ cU₂) (en w₃ U₃ cU₃)
  have eR₁ := held_eq gU₁ gR₁ cU₁ cR₁ gU₃ gR₃ cU₃ cR₃ (fun ax i => (hheld ax i).1)
  have eR₂ := held_eq gU₂ gR₂ cU₂ cR₂ gU₃ gR₃ cU₃ cR₃ (fun ax i => (hheld ax i).2)
  obtain ⟨B, hB, x₁⟩ := linear_of s₁ sm₁
  obtain ⟨B', hB', x₂⟩ := linear_of s₂ sm₂
  rw [hB] at hB'
  cases hB'
  rw [eR₁] at x₁
  rw [eR₂] at x₂
  have hsol := C23_superposition _ _ _ _ _ _ _ _ _ _ a b x₁ x₂
  rw [← eF, ← eU] at hsol
  have hfin : (t₃.iterations = 2 ∨ t₃.iterations = 3) ∧ u₃ = a • u₁ + b • u₂ ∧ Q₃ = a • Q₁ + b • Q₂ ∧ res₃ = 0 := by
    obtain ⟨c1, c2⟩ := NoModels.C60_linear_exactly ty el (springsOf w A C.elements.length) F₃ U₃ R₃ B _ _ hB hsol sm₃
    by_cases h0 : F₃ = 0 ∧ a • Q₁ + b • Q₂ = 0
    · rw [c1 h0] at s₃
      cases s₃
    · obtain ⟨it, t, hit, hc⟩ := c2 h0
      rw [hc, Outcome.converged.injEq] at s₃
      obtain ⟨v1, v2, v3, -, v5⟩ := s₃
      exact ⟨v3 ▸ hit, v1.symm, v2.symm, v5.symm⟩
  obtain ⟨hit, rfl, rfl, rfl⟩ := hfin
  have hint : ∀ i c, internalForces ty el (a • u₁ + b • u₂) i c
      = a * internalForces ty el u₁ i c + b * internalForces ty el u₂ i c := by
    intro i c
    have hst : stacked (a • u₁ + b • u₂) i = a • stacked u₁ i + b • stacked u₂ i := by
      funext c
      fin_cases c <;> rfl
    unfold internalForces
    rw [hst, Matrix.mulVec_add, Matrix.mulVec_smul, Matrix.mulVec_smul]
    simp only [Pi.add_apply, Pi.smul_apply, smul_eq_mul]
    ring
  have hends : ∀ i, ends ty el (a • u₁ + b • u₂) i = a • ends ty el u₁ i + b • ends ty el u₂ i := by
    intro i
    unfold ends sectionForces
    simp only [hint, Prod.smul_mk, Prod.mk_add_mk, smul_eq_mul, Prod.mk.injEq]
    refine ⟨⟨?_, ?_, ?_⟩, ?_, ?_, ?_⟩ <;> first | trivial | ring
  have hrows : ∀ k, k < 2 * C.elements.length → ∃ e s₁ s₂, t₁.forces[k]? = some (e, s₁) ∧ t₂.forces[k]? = some (e, s₂) ∧
      t₃.forces[k]? = some (e, a • s₁ + b • s₂) := by
    intro k hkn
    rcases Nat.even_or_odd' k with ⟨i, rfl | rfl⟩
    · have hi : i < C.elements.length := by omega
      refine ⟨_, _, _, (k₁ ⟨i, hi⟩).1, (k₂ ⟨i, hi⟩).1, ?_⟩
      rw [(k₃ ⟨i, hi⟩).1, hends]
      rfl
    · have hi : i < C.elements.length := by omega
      refine ⟨_, _, _, (k₁ ⟨i, hi⟩).2, (k₂ ⟨i, hi⟩).2, ?_⟩
      rw [(k₃ ⟨i, hi⟩).2, hends]
      rfl
  refine ⟨by rw [er₃, Real.sqrt_zero], hit, ?_, ?_, ?_, ?_, ?_⟩
  · rw [d₃, hz, List.map_ofFn]
    rfl
  · rw [hcomb, d₃, List.map_ofFn]
    rfl
  · apply List.ext_getElem?
    intro k
    rw [List.getElem?_map, List.getElem?_map]
    by_cases hk : k < 2 * C.elements.length
    · obtain ⟨e, s₁, s₂, v1, v2, v3⟩ := hrows k hk
      rw [v1, v3]
      rfl
    · rw [List.getElem?_eq_none (by omega), List.getElem?_eq_none (by omega)]
  · apply List.ext_getElem?
    intro k
    unfold combine
    rw [List.getElem?_map, List.getElem?_zipWith, List.getElem?_map, List.getElem?_map]
    by_cases hk : k < 2 * C.elements.length
    · obtain ⟨e, s₁, s₂, v1, v2, v3⟩ := hrows k hk
      rw [v1, v2, v3]
      rfl
    · rw [List.getElem?_eq_none (by omega), List.getElem?_eq_none (by omega)]
      rfl
  · intro e he x hx
    rw [hz, List.mem_ofFn'] at he
    obtain ⟨j, rfl⟩ := he
    have c₁ := listed_close z anti Q₁ _ m₁ j ⟨x, hx⟩
    have c₂ := listed_close z anti Q₂ _ m₂ j ⟨x, hx⟩
    have c₃ := listed_close z anti _ _ m₃ j ⟨x, hx⟩
    simp only [Pi.add_apply, Pi.smul_apply, smul_eq_mul] at c₃
    set s₁ := listed t₁.toTables (z j) x
    set s₂ := listed t₂.toTables (z j) x
    set s₃ := listed t₃.toTables (z j) x
    set p₁ := Q₁ (dof j ⟨x, hx⟩)
    set p₂ := Q₂ (dof j ⟨x, hx⟩)
    have e : s₃ - (a * s₁ + b * s₂) = (s₃ - (a * p₁ + b * p₂)) - a * (s₁ - p₁) - b * (s₂ - p₂) := by ring
    rw [e]
    have m₁ : |a * (s₁ - p₁)| ≤ |a| * (1 / 1000) := by
      rw [abs_mul]
      exact mul_le_mul_of_nonneg_left c₁ (abs_nonneg a)
    have m₂ : |b * (s₂ - p₂)| ≤ |b| * (1 / 1000) := by
      rw [abs_mul]
      exact mul_le_mul_of_nonneg_left c₂ (abs_nonneg b)
    have := abs_sub (s₃ - (a * p₁ + b * p₂)) (a * (s₁ - p₁))
    have := abs_sub (s₃ - (a * p₁ + b * p₂) - a * (s₁ - p₁)) (b * (s₂ - p₂))
    linarith

/-- **C114, reciprocity in soil.** Two load cases on the same pile, mesh, springs and supports, without displacement conditions, that end
without out-of-balance force at displacements where every spring is on its first branch: each does the same work on the listed
displacements of the other. -/
theorem C114_reciprocity (ty : ElementType) {p : Pile.Pile ℝ} {top tip : ℝ} (hp : Stack p top tip) {C : Coordinates ℝ}
    (h : MeshOn p top tip C) (w : Switches) (A : Arrays) (bcs₁ bcs₂ : List (Cond ℝ)) (t₁ t₂ : SoilTables)
    (h₁ : solveSoilOn ty p C w A bcs₁ 100 = some (.numbers t₁)) (h₂ : solveSoilOn ty p C w A bcs₂ 100 = some (.numbers t₂))
    (hfix : globalRestrained C.nodes bcs₁ = globalRestrained C.nodes bcs₂) (hno : ∀ c ∈ bcs₁ ++ bcs₂, c.cls ≠ .displacement)
    (e₁ : t₁.error = 0) (e₂ : t₂.error = 0) (f₁ : OnFirstBranch w A C.elements.length (t₁.disp.map (·.2)))
    (f₂ : OnFirstBranch w A C.elements.length (t₂.disp.map (·.2))) :
    ∃ g₁ g₂, globalForces C.nodes bcs₁ = .ok g₁ ∧ globalForces C.nodes bcs₂ = .ok g₂ ∧
      virtualWork g₁ t₂.disp = virtualWork g₂ t₁.disp := by
  obtain ⟨z, el, F₁, U₁, R₁, g₁, w₁, r₁, u₁, Q₁, tol₁, res₁, n1, hz, anti, hel, gF₁, gU₁, gR₁, cF₁, cU₁, cR₁, s₁, q₁, er₁, p₁⟩ :=
    soil_read' hp h h₁
  obtain ⟨z', el', F₂, U₂, R₂, g₂, w₂, r₂, u₂, Q₂, tol₂, res₂, -, hz', -, hel', gF₂, gU₂, gR₂, cF₂, cU₂, cR₂, s₂, q₂, er₂, p₂⟩ :=
    soil_read' hp h h₂
  obtain rfl : z = z' := List.ofFn_injective (hz ▸ hz')
  obtain rfl := elementsOn_unique hel hel'
  obtain rfl : res₁ = 0 := (Real.sqrt_eq_zero p₁).1 (er₁ ▸ e₁)
  obtain rfl : res₂ = 0 := (Real.sqrt_eq_zero p₂).1 (er₂ ▸ e₂)
  obtain ⟨T₁, y₁, d₁, -⟩ := tables_exact ty n1 z el u₁ Q₁
  obtain ⟨T₂, y₂, d₂, -⟩ := tables_exact ty n1 z el u₂ Q₂
  rw [hz] at q₁ q₂
  obtain rfl : T₁ = t₁.toTables := Option.some.inj (y₁.symm.trans q₁)
  obtain rfl : T₂ = t₂.toTables := Option.some.inj (y₂.symm.trans q₂)
  have sm₁ : SmallMotions (springsOf w A C.elements.length) u₁ := by
    obtain ⟨d, hd, hs⟩ := f₁
    rw [d₁, List.map_ofFn] at hd
    exact rows_injective hd ▸ hs
  have sm₂ : SmallMotions (springsOf w A C.elements.length) u₂ := by
    obtain ⟨d, hd, hs⟩ := f₂
    rw [d₂, List.map_ofFn] at hd
    exact rows_injective hd ▸ hs
  have zero : ∀ (bcs : List (Cond ℝ)) (w : Nodal ℝ) (U : Fin (3 * C.elements.length + 3) → ℝ),
      (∀ c ∈ bcs, c.cls ≠ .displacement) → globalDisp C.nodes bcs = .ok w →
      (∀ d, w.get (axisOf d) = List.ofFn (fun j => U (dof j d))) → U = 0 := by
    intro bcs w U hno hw cw
    have gen : ∀ (l : List (Cond ℝ)) (g : Nodal ℝ), (∀ c ∈ l, c.cls ≠ .displacement) →
        l.foldl (applyOne storeFloat C.nodes .displacement) g = g := by
      intro l
      induction l with
      | nil => intro g _; rfl
      | cons c l ih =>
        intro g hl
        have : applyOne storeFloat C.nodes .displacement g c = g := by
          unfold applyOne
          rw [if_neg (hl c (by simp))]
        rw [List.foldl_cons, this]
        exact ih g (fun c hc => hl c (List.mem_cons_of_mem _ hc))
    have hsame : ∀ (g : Nodal ℝ), applyBc storeFloat C.nodes g bcs .displacement = g := fun g => gen bcs g hno
    have hz0 : ∀ d j, U (dof j d) = 0 := by
      intro d j
      have hw' : w = ⟨C.nodes.map (fun _ => (0 : ℝ)), C.nodes.map (fun _ => (0 : ℝ)), C.nodes.map (fun _ => (0 : ℝ))⟩ := by
        unfold globalDisp at hw
        cases hv : validateBc bcs .displacement with
        | error f => rw [hv] at hw; cases hw
        | ok q =>
          rw [hv] at hw
          have : w = applyBc storeFloat C.nodes ⟨C.nodes.map (fun _ => (0 : ℝ)), C.nodes.map (fun _ => (0 : ℝ)),
              C.nodes.map (fun _ => (0 : ℝ))⟩ bcs .displacement := by
            cases hw
            rfl
          rw [this, hsame]
      have := congrArg (·[j.1]?) (cw d)
      rw [hw'] at this
      simp only [List.getElem?_ofFn, dif_pos j.2] at this
      have hm : ∀ a : Axis, ((⟨C.nodes.map (fun _ => (0 : ℝ)), C.nodes.map (fun _ => (0 : ℝ)),
          C.nodes.map (fun _ => (0 : ℝ))⟩ : Nodal ℝ).get a) = C.nodes.map (fun _ => (0 : ℝ)) := by
        intro a
        cases a <;> rfl
      rw [hm, List.getElem?_map, Option.map_eq_some_iff] at this
      obtain ⟨_, _, h0⟩ := this
      exact h0.symm
    funext r
    obtain ⟨j, d, rfl⟩ := dofs r
    exact hz0 d j
  have zU₁ := zero bcs₁ w₁ U₁ (fun c hc => hno c (List.mem_append_left _ hc)) gU₁ cU₁
  have zU₂ := zero bcs₂ w₂ U₂ (fun c hc => hno c (List.mem_append_right _ hc)) gU₂ cU₂
  have eR : R₁ = R₂ := by
    rw [gR₁, gR₂] at hfix
    cases hfix
    funext r
    obtain ⟨j, d, rfl⟩ := dofs r
    have := (cR₁ d).symm.trans (cR₂ d)
    exact congrFun (List.ofFn_injective this) j
  subst zU₁ zU₂ eR
  obtain ⟨B, hB, x₁⟩ := linear_of s₁ sm₁
  obtain ⟨B', hB', x₂⟩ := linear_of s₂ sm₂
  rw [hB] at hB'
  cases hB'
  refine ⟨g₁, g₂, gF₁, gF₂, ?_⟩
  rw [d₁, d₂, virtualWork_eq z g₁ F₁ u₂ cF₁, virtualWork_eq z g₂ F₂ u₁ cF₂]
  exact (C23_reciprocity _ (build_symmetric hB) _ _ _ _ _ _ _ _ _ x₁ x₂).2 (fun i _ => ⟨rfl, rfl⟩)

/-! ### load cases that meet the hypotheses -/

open OpenPile.Props.SoilTables (pileS meshS switchesS arraysS stackS meshOnS elS matS initS solveSoilOn_of two_nodes)
open OpenPile.Props.SoilSupport (idx1 idx0 fixT loadT headT uT headT_range solveT readT)

/-- Head guided, tip fixed, a lateral load of `P` kN at the head. -/
noncomputable def caseP (P : ℤ) : List (Cond ℝ) := [⟨.force, 1, none, some (.num P), none⟩,
  ⟨.fixation, 1, some (.flag true), none, none⟩, ⟨.fixation, 0, some (.flag true), some (.flag true), some (.flag true)⟩]

theorem readP (P : ℤ) (hP : P ≠ 0) : globalForces meshS.nodes (caseP P) = .ok ⟨[0, 0], [P, 0], [0, 0]⟩ ∧
    globalDisp meshS.nodes (caseP P) = .ok ⟨[0, 0], [0, 0], [0, 0]⟩ ∧
    globalRestrained meshS.nodes (caseP P) = .ok ⟨[true, true], [false, true], [false, true]⟩ := by
  refine ⟨?_, ?_, ?_⟩
  · have h3 : validateBc (caseP P) .force = .ok () := by simp [caseP, validateBc, axisConflict]
    unfold globalForces
    rw [h3]
    simp [caseP, meshS, applyBc, applyOne, idx1, writeAxis, Val.truthy, storeInt, hP]
  · simp [caseP, globalDisp, meshS, validateBc, axisConflict, applyBc, applyOne]
  · have h3 : validateBc (caseP P) .fixation = .ok () := by simp [caseP, validateBc, axisConflict]
    unfold globalRestrained
    rw [h3]
    simp [caseP, meshS, applyBc, applyOne, idx1, idx0, writeAxis, Val.truthy, storeBool]

theorem smallP (s : ℝ) (h0 : 0 ≤ s) (h1 : s ≤ 1) : SmallMotions (springsOf switchesS arraysS 1) (s • uT) := by
  obtain ⟨z1, z2, z3, z4⟩ := NoModels.zeros_sums
  obtain ⟨r0, r1⟩ := headT_range
  have hu : ∀ i, |(s • uT) i| ≤ 1 := by
    intro i
    fin_cases i
    · simp [uT]
    · show |s * headT| ≤ 1
      rw [abs_of_nonneg (mul_nonneg h0 r0.le)]
      exact mul_le_one₀ h1 r0.le r1
    all_goals simp [uT]
  refine ⟨⟨fun _ e b => .inr ⟨1, 1200, [], rfl, ?_, hu _⟩, fun _ _ _ => .inl z3, rfl, fun _ => .inl z2, fun _ => .inl z2, ?_⟩,
    fun h => by cases h⟩
  · simp [springsOf, arraysS, Asc]
  · refine fun _ => .inr ⟨[], 1, 10, 1, 10, [], rfl, rfl, rfl, ?_, rfl, ?_, ?_⟩
    · simp [springsOf, arraysS]
    · exact (abs_le.1 (hu _)).1
    · exact (abs_le.1 (hu _)).2

/-- The analysis moves the head in proportion to the load. -/
theorem solvedP (P : ℤ) (h0 : 0 < P) (h1 : P ≤ 60) :
    ∃ t, solveSoilOn .eulerBernoulli pileS meshS switchesS arraysS (caseP P) 100 = some (.numbers t) ∧
      t.disp = [(1, 0, P / 60 * headT, 0), (0, 0, 0, 0)] ∧ t.error = 0 := by
  obtain ⟨-, hU, hR, hel⟩ := readT
  obtain ⟨g1, g2, g3⟩ := readP P h0.ne'
  obtain ⟨r0, r1⟩ := headT_range
  have hP0 : (0 : ℝ) < P := by exact_mod_cast h0
  have hP1 : (P : ℝ) ≤ 60 := by exact_mod_cast h1
  have s0 : (0 : ℝ) < P / 60 := by positivity
  have s1 : (P : ℝ) / 60 ≤ 1 := by rw [div_le_one (by norm_num)]; exact hP1
  have hF : asVec 1 ((dofList (⟨[0, 0], [P, 0], [0, 0]⟩ : Nodal ℤ)).map (fun i : ℤ => (i : ℝ))) = some (((P : ℝ) / 60) • loadT) := by
    unfold asVec dofList
    rw [dif_pos (by simp)]
    congr 1
    funext i
    fin_cases i <;> simp [loadT]
  have hsol := C23_superposition _ _ _ _ _ _ _ _ _ _ ((P : ℝ) / 60) 0 solveT solveT
  simp only [zero_smul, smul_zero, add_zero] at hsol
  obtain ⟨it, tol, -, hw⟩ := (NoModels.C60_linear_exactly .eulerBernoulli elS (springsOf switchesS arraysS 1) (((P : ℝ) / 60) • loadT) 0
    fixT matS _ _ initS hsol (smallP _ s0.le s1)).2 (by
      rintro ⟨h, -⟩
      have := congrFun h 1
      simp [loadT, hP0.ne'] at this)
  generalize ((P : ℝ) / 60) • (fun i => (matS *ᵥ uT) i - loadT i) = Q at hw
  obtain ⟨T, t1, t2, -⟩ := tables_exact .eulerBernoulli (le_refl 1) (![1, 0] : Fin 2 → ℝ) elS (((P : ℝ) / 60) • uT) Q
  have hn : meshS.nodes = List.ofFn (![1, 0] : Fin 2 → ℝ) := by simp [meshS]
  set y : ℝ := P / 60 * headT with hy
  have y0 : 0 < y := mul_pos s0 r0
  have y1 : y ≤ 1 := mul_le_one₀ s1 r0.le r1
  have hres : ∃ t, results .eulerBernoulli meshS.nodes elS (springsOf switchesS arraysS 1) (((P : ℝ) / 60) • uT) Q it tol 0 = some t ∧
      t.toTables = T ∧ t.error = 0 := by
    have hpy : pyStiffness [((0 : ℝ), (0 : ℝ)), (1, 1200)] .secant y = some 1200 := by
      rw [LinearRange.py_first _ _ (.inr ⟨1, 1200, [], rfl, by simp [Asc], by rwa [abs_of_pos y0]⟩) .secant]
      simp [pyStiffness, curveStiffness, absQuot]
    have hrow : ∀ e : ℝ, ∃ r, mobRow e y 0 [((0 : ℝ), (0 : ℝ)), (1, 1200)]
        (([((0 : ℝ), (0 : ℝ)), (1, 1200)].map (·.2)).zip [[(0, 0)], [(0, 0)]]) 15 = some r := by
      intro e
      have hm : mtStiffness (([((0 : ℝ), (0 : ℝ)), (1, 1200)].map (·.2)).zip [[(0, 0)], [(0, 0)]]) 15
          (y * 1200) .secant 0 = some 0 := by
        unfold mtStiffness
        simp
      unfold mobRow
      rw [hpy]
      simp only [Option.bind_eq_bind, Option.bind_some, hm]
      simp [maxOf]
    obtain ⟨r1, hr1⟩ := hrow 1
    have hmob : ∃ rows, springsMob (List.ofFn (![1, 0] : Fin 2 → ℝ)) (component (((P : ℝ) / 60) • uT) 1) (component (((P : ℝ) / 60) • uT) 2)
        (flat 1 (springsOf switchesS arraysS 1).py) (flat 1 (springsOf switchesS arraysS 1).mt) 15 = some rows := by
      have c1 : component (((P : ℝ) / 60) • uT) 1 = [y, 0] := by simp [component, uT, hy]
      have c2 : component (((P : ℝ) / 60) • uT) 2 = [0, 0] := by simp [component, uT]
      have c3 : List.ofFn (![1, 0] : Fin 2 → ℝ) = [1, 0] := by simp
      have f1 : flat 1 (springsOf switchesS arraysS 1).py = [[(0, 0), (1, 1200)], [(0, 0), (1, 1200)]] := by
        simp [flat, springsOf, arraysS]
      have f2 : flat 1 (springsOf switchesS arraysS 1).mt
          = [(([((0 : ℝ), (0 : ℝ)), (1, 1200)].map (·.2)).zip [[(0, 0)], [(0, 0)]]),
            (([((0 : ℝ), (0 : ℝ)), (1, 1200)].map (·.2)).zip [[(0, 0)], [(0, 0)]])] := by
        simp [flat, springsOf, arraysS]
      unfold springsMob
      rw [c1, c2, c3, f1, f2, two_nodes, two_nodes, two_nodes]
      simp only [Option.bind_eq_bind, Option.bind_some]
      refine ⟨[r1, r1], ?_⟩
      have hrange : List.range ([(1 : ℝ), 1].length) = [0, 1] := by decide
      rw [hrange]
      simp only [List.mapM_cons, List.mapM_nil, List.getElem?_cons_zero, List.getElem?_cons_succ, Option.bind_some, hr1,
        Option.bind_eq_bind, Option.pure_def]
    obtain ⟨rows, hmob⟩ := hmob
    have e1 : (springsOf switchesS arraysS 1).hb = zeros := rfl
    have e2 : (springsOf switchesS arraysS 1).mb = zeros := rfl
    have e3 : (springsOf switchesS arraysS 1).ncol = 15 := rfl
    unfold results
    rw [hn, t1]
    refine ⟨⟨T, rows, (0, 0), (0, 0), it, Real.sqrt 0, Real.sqrt tol⟩, ?_, rfl, Real.sqrt_zero⟩
    simp only [e3, hmob, e1, e2, NoModels.baseMob_zero, Option.bind_eq_bind, Option.bind_some]
    rfl
  obtain ⟨t, ht, e, e0⟩ := hres
  refine ⟨t, ?_, ?_, e0⟩
  · exact solveSoilOn_of (C := meshS) g1 g2 g3 hF hU hR hel hw ht
  · rw [show t.disp = T.disp by rw [← e], t2]
    simp [uT, dof, hy]

theorem branchP (s : ℝ) (h0 : 0 ≤ s) (h1 : s ≤ 1) : OnFirstBranch switchesS arraysS 1 [(0, s * headT, 0), (0, 0, 0)] :=
  ⟨s • uT, by simp [uT, dof], smallP s h0 h1⟩

/-- The hypotheses of C114 are met: 10 kN and 15 kN give 2 · 10 + 15 = 35 kN. -/
example : ∃ t₁ t₂ t₃, solveSoilOn .eulerBernoulli pileS meshS switchesS arraysS (caseP 10) 100 = some (.numbers t₁) ∧
    solveSoilOn .eulerBernoulli pileS meshS switchesS arraysS (caseP 15) 100 = some (.numbers t₂) ∧
    solveSoilOn .eulerBernoulli pileS meshS switchesS arraysS (caseP 35) 100 = some (.numbers t₃) ∧
    t₃.disp.map (·.2) = combine 2 1 (t₁.disp.map (·.2)) (t₂.disp.map (·.2)) := by
  obtain ⟨t₁, h₁, d₁, e₁⟩ := solvedP 10 (by norm_num) (by norm_num)
  obtain ⟨t₂, h₂, d₂, e₂⟩ := solvedP 15 (by norm_num) (by norm_num)
  obtain ⟨t₃, h₃, d₃, e₃⟩ := solvedP 35 (by norm_num) (by norm_num)
  obtain ⟨a1, a2, a3⟩ := readP 10 (by norm_num)
  obtain ⟨b1, b2, b3⟩ := readP 15 (by norm_num)
  obtain ⟨c1, c2, c3⟩ := readP 35 (by norm_num)
  refine ⟨t₁, t₂, t₃, h₁, h₂, h₃, ?_⟩
  refine (C114_superposition .eulerBernoulli stackS meshOnS switchesS arraysS _ _ _ 2 1 t₁ t₂ t₃ h₁ h₂ h₃ ?_ ?_ ?_ e₁ e₂ ?_ ?_ ?_).2.2.2.1
  · intro g₁ g₂ g₃ k₁ k₂ k₃ ax i v₁ v₂ v₃ x₁ x₂ x₃
    rw [a1] at k₁
    rw [b1] at k₂
    rw [c1] at k₃
    cases k₁
    cases k₂
    cases k₃
    unfold At at x₁ x₂ x₃
    rcases i with _ | _ | i <;> cases ax <;> simp [Nodal.get] at x₁ x₂ x₃ <;> subst x₁ x₂ x₃ <;> norm_num
  · intro g₁ g₂ g₃ k₁ k₂ k₃ ax i v₁ v₂ v₃ x₁ x₂ x₃
    rw [a2] at k₁
    rw [b2] at k₂
    rw [c2] at k₃
    cases k₁
    cases k₂
    cases k₃
    unfold At at x₁ x₂ x₃
    rcases i with _ | _ | i <;> cases ax <;> simp [Nodal.get] at x₁ x₂ x₃ <;> subst x₁ x₂ x₃ <;> norm_num
  · intro ax i
    unfold Free
    rw [a2, a3, b2, b3, c2, c3]
    exact ⟨Iff.rfl, Iff.rfl⟩
  · rw [d₁]
    exact branchP (((10 : ℤ) : ℝ) / 60) (by norm_num) (by norm_num)
  · rw [d₂]
    exact branchP (((15 : ℤ) : ℝ) / 60) (by norm_num) (by norm_num)
  · have e : combine 2 1 (t₁.disp.map (·.2)) (t₂.disp.map (·.2)) = [(0, 35 / 60 * headT, 0), (0, 0, 0)] := by
      rw [d₁, d₂]
      simp [combine]
      ring
    rw [e]
    exact branchP (35 / 60) (by norm_num) (by norm_num)

/-- The hypotheses of reciprocity are met. -/
example : ∃ t₁ t₂, solveSoilOn .eulerBernoulli pileS meshS switchesS arraysS (caseP 10) 100 = some (.numbers t₁) ∧
    solveSoilOn .eulerBernoulli pileS meshS switchesS arraysS (caseP 15) 100 = some (.numbers t₂) ∧
    virtualWork ⟨[0, 0], [10, 0], [0, 0]⟩ t₂.disp = virtualWork ⟨[0, 0], [15, 0], [0, 0]⟩ t₁.disp := by
  obtain ⟨t₁, h₁, d₁, e₁⟩ := solvedP 10 (by norm_num) (by norm_num)
  obtain ⟨t₂, h₂, d₂, e₂⟩ := solvedP 15 (by norm_num) (by norm_num)
  obtain ⟨a1, a2, a3⟩ := readP 10 (by norm_num)
  obtain ⟨b1, b2, b3⟩ := readP 15 (by norm_num)
  obtain ⟨g₁, g₂, k₁, k₂, hw⟩ := C114_reciprocity .eulerBernoulli stackS meshOnS switchesS arraysS _ _ t₁ t₂ h₁ h₂ (a3.trans b3.symm) (by
    intro c hc
    simp only [caseP, List.mem_append, List.mem_cons, List.not_mem_nil, or_false] at hc
    rcases hc with (rfl | rfl | rfl) | rfl | rfl | rfl <;> simp) e₁ e₂ (by
    rw [d₁]
    exact branchP (((10 : ℤ) : ℝ) / 60) (by norm_num) (by norm_num)) (by
    rw [d₂]
    exact branchP (((15 : ℤ) : ℝ) / 60) (by norm_num) (by norm_num))
  rw [a1] at k₁
  rw [b1] at k₂
  cases k₁
  cases k₂
  exact ⟨t₁, t₂, h₁, h₂, hw⟩

end OpenPile.Props.Superpose

/-
Properties of the analysis with soil from the public calls to the result tables: C61 (what `details()` reports).
-/
import Verif.Model.SoilAnalysis
import Verif.Props.Winkler
import Verif.Props.Analysis
import Verif.Props.Weight

namespace OpenPile.Props.SoilAnalysis
open OpenPile.SoilAnalysis OpenPile.Analysis OpenPile.BC OpenPile.Mesh OpenPile.Kernel OpenPile.Winkler
  OpenPile.Result OpenPile.Assemble OpenPile.Props.Winkler

/-! ### the call in terms of the iteration -/

/-- An analysis with numbers in its tables went through the iteration and left it by the convergence test. -/
theorem solveSoilOn_numbers {ty : ElementType} {p : Pile.Pile ℝ} {C : Coordinates ℝ} {w : Switches} {A : Arrays}
    {bcs : List (Cond ℝ)} {maxIter : ℕ} (hm : 99 ≤ maxIter) {t : SoilTables}
    (h : solveSoilOn ty p C w A bcs maxIter = some (.numbers t)) :
    ∃ (F U : Fin (3 * C.elements.length + 3) → ℝ) (R : Fin (3 * C.elements.length + 3) → Bool)
      (el : Fin C.elements.length → Elem ℝ) (d Q : Fin (3 * C.elements.length + 3) → ℝ) (tolSq resSq : ℝ),
      (∃ g, globalForces C.nodes bcs = .ok g ∧
        asVec C.elements.length ((dofList g).map (fun i : ℤ => (i : ℝ))) = some F) ∧
      (∃ g, globalDisp C.nodes bcs = .ok g ∧ asVec C.elements.length (dofList g) = some U) ∧
      (∃ g, globalRestrained C.nodes bcs = .ok g ∧ asVec C.elements.length (dofList g) = some R) ∧
      (∀ i : Fin C.elements.length, elemAt Real.pi p C.elements[i.1] = some (el i)) ∧
      winkler (buildStiffness ty el (springsOf w A C.elements.length)) F U R maxIter
        = .converged d Q t.iterations tolSq resSq ∧
      tables ty C.nodes el d Q = some t.toTables ∧
      springsMob C.nodes (component d 1) (component d 2)
        (flat C.elements.length (springsOf w A C.elements.length).py)
        (flat C.elements.length (springsOf w A C.elements.length).mt) 15 = some t.mob ∧
      baseMob A.hb (d ⟨3 * C.elements.length + 1, by omega⟩) = some t.hbMob ∧
      baseMob A.mb (d ⟨3 * C.elements.length + 2, by omega⟩) = some t.mbMob ∧
      t.error = Real.sqrt resSq ∧ t.tolerance = Real.sqrt tolSq := by
  unfold solveSoilOn at h
  simp only [Option.bind_eq_bind, Option.bind_eq_some_iff] at h
  obtain ⟨gF, hF, gU, hU, gR, hR, F, hF', U, hU', R, hR', el, hel, h⟩ := h
  have toOk : ∀ {ε α : Type} {x : Except ε α} {g : α}, x.toOption = some g → x = .ok g := by
    intro ε α x g hx
    cases x with
    | error e => cases hx
    | ok a => cases hx; rfl
  have hel' : ∀ i : Fin C.elements.length, elemAt Real.pi p C.elements[i.1] = some (el i) := by
    unfold allSome at hel
    split_ifs at hel with hs
    cases hel
    intro i
    simp
  have res : ∀ {d Q : Fin (3 * C.elements.length + 3) → ℝ} {it : ℕ} {tolSq resSq : ℝ},
      (results ty C.nodes el (springsOf w A C.elements.length) d Q it tolSq resSq).map SoilResult.numbers
        = some (.numbers t) →
      t.iterations = it ∧ tables ty C.nodes el d Q = some t.toTables ∧
      springsMob C.nodes (component d 1) (component d 2)
        (flat C.elements.length (springsOf w A C.elements.length).py)
        (flat C.elements.length (springsOf w A C.elements.length).mt) 15 = some t.mob ∧
      baseMob A.hb (d ⟨3 * C.elements.length + 1, by omega⟩) = some t.hbMob ∧
      baseMob A.mb (d ⟨3 * C.elements.length + 2, by omega⟩) = some t.mbMob ∧
      t.error = Real.sqrt resSq ∧ t.tolerance = Real.sqrt tolSq := by
    intro d Q it tolSq resSq hr
    rw [Option.map_eq_some_iff] at hr
    obtain ⟨t', hr, e⟩ := hr
    cases e
    unfold results at hr
    simp only [Option.bind_eq_bind, Option.bind_eq_some_iff, Option.pure_def, Option.some.injEq] at hr
    obtain ⟨T, h1, mob, h2, hb, h3, mb, h4, rfl⟩ := hr
    exact ⟨rfl, h1, h2, h3, h4, rfl, rfl⟩
  cases ho : winkler (buildStiffness ty el (springsOf w A C.elements.length)) F U R maxIter with
  | raised => rw [ho] at h; cases h
  | nan _ => rw [ho] at h; cases h
  | exhausted d Q it tolSq resSq => exact absurd ho (C26_flagged_partial _ _ _ _ _ hm _ _ _ _ _)
  | converged d Q it tolSq resSq =>
    rw [ho] at h
    obtain ⟨e, r⟩ := res h
    refine ⟨F, U, R, el, d, Q, tolSq, resSq, ⟨gF, toOk hF, hF'⟩, ⟨gU, toOk hU, hU'⟩, ⟨gR, toOk hR, hR'⟩, hel', ?_, r⟩
    rw [e]
    exact ho

/-! ### rounding -/

theorem rint_close (x : ℝ) : |(rint x : ℝ) - x| ≤ 1 / 2 := by
  unfold rint
  have h0 := Int.floor_le x
  have h1 := Int.lt_floor_add_one x
  split_ifs with a b c
  · rw [abs_le]; constructor <;> linarith
  · push_cast; rw [abs_le]; constructor <;> linarith
  · rw [abs_le]; constructor <;> linarith
  · push_cast; rw [abs_le]; constructor <;> linarith

theorem rint_mono {x y : ℝ} (h : x ≤ y) : rint x ≤ rint y := by
  by_contra hlt
  push Not at hlt
  have hx := abs_le.1 (rint_close x)
  have hy := abs_le.1 (rint_close y)
  have h1 : (rint y : ℝ) + 1 ≤ rint x := by exact_mod_cast hlt
  have e : x = y := by linarith [hx.2, hy.1]
  rw [e] at hlt
  exact lt_irrefl _ hlt

theorem roundTo_close (k : ℕ) (x : ℝ) : |roundTo k x - x| ≤ 1 / 2 / 10 ^ k := by
  unfold roundTo
  have hp : (0 : ℝ) < 10 ^ k := by positivity
  have : (rint (x * 10 ^ k) : ℝ) / 10 ^ k - x = ((rint (x * 10 ^ k) : ℝ) - x * 10 ^ k) / 10 ^ k := by
    field_simp
  rw [this, abs_div, abs_of_pos hp]
  exact div_le_div_of_nonneg_right (rint_close _) hp.le

theorem roundTo_mono (k : ℕ) {x y : ℝ} (h : x ≤ y) : roundTo k x ≤ roundTo k y := by
  unfold roundTo
  have hp : (0 : ℝ) < 10 ^ k := by positivity
  apply div_le_div_of_nonneg_right _ hp.le
  exact_mod_cast rint_mono (mul_le_mul_of_nonneg_right h hp.le)

/-! ### C61 -/

/-- The pair reported for a column with `k` decimals: the largest and the smallest entry, each off by at most half
a unit of the last decimal. -/
def Reported (k : ℕ) (col : List ℝ) (r : ℝ × ℝ) : Prop :=
  (∃ hi ∈ col, (∀ x ∈ col, x ≤ hi) ∧ |r.1 - hi| ≤ 1 / 2 / 10 ^ k) ∧
  (∃ lo ∈ col, (∀ x ∈ col, lo ≤ x) ∧ |r.2 - lo| ≤ 1 / 2 / 10 ^ k)

theorem extremes_reported {k : ℕ} {l : List ℝ} {r : ℝ × ℝ} (h : extremes k l = some r) :
    Reported k l r ∧ r.2 ≤ r.1 := by
  unfold extremes at h
  simp only [Option.bind_eq_bind, Option.bind_eq_some_iff, Option.pure_def, Option.some.injEq] at h
  obtain ⟨hi, h1, lo, h2, rfl⟩ := h
  rw [List.max?_eq_some_iff] at h1
  rw [List.min?_eq_some_iff] at h2
  refine ⟨⟨⟨hi, h1.1, h1.2, roundTo_close k hi⟩, ⟨lo, h2.1, h2.2, roundTo_close k lo⟩⟩, ?_⟩
  exact roundTo_mono k (h2.2 hi h1.1)

theorem extremes_some (k : ℕ) {l : List ℝ} (h : l ≠ []) : ∃ r, extremes k l = some r := by
  unfold extremes
  cases h1 : l.max? with
  | none => exact absurd (List.max?_eq_none_iff.1 h1) h
  | some hi =>
    cases h2 : l.min? with
    | none => exact absurd (List.min?_eq_none_iff.1 h2) h
    | some lo => exact ⟨_, rfl⟩

/-- Tables with numbers always come from a converged iteration: between 2 and 100 passes, and a residual below the
tolerance. -/
theorem C61_converged (ty : ElementType) (p : Pile.Pile ℝ) (sp : SoilProfile) (x2mesh : List ℝ) (c : ℝ)
    (w : Switches) (table : List (ℝ × Pile.Section ℝ)) (env : Draws) (bcs : List (Cond ℝ)) (t : SoilTables)
    (h : solveSoil ty p sp x2mesh c w table env bcs = some (.numbers t)) :
    2 ≤ t.iterations ∧ t.iterations ≤ 100 ∧ 0 ≤ t.error ∧ t.error < t.tolerance := by
  unfold solveSoil at h
  simp only [Option.bind_eq_bind, Option.bind_eq_some_iff] at h
  obtain ⟨C, -, A, -, h⟩ := h
  obtain ⟨F, U, R, el, d, Q, tolSq, resSq, -, -, -, -, hw, -, -, -, -, e1, e2⟩ :=
    solveSoilOn_numbers (by norm_num) h
  obtain ⟨a, -, b, -, Ks, -, e3, hlt⟩ := C26_converged _ _ _ _ _ _ _ _ _ _ hw
  have h0 : 0 ≤ resSq := by
    rw [← e3]
    apply Finset.sum_nonneg
    intro i _
    split_ifs
    · exact le_rfl
    · positivity
  refine ⟨a, b, ?_, ?_⟩
  · rw [e1]; exact Real.sqrt_nonneg _
  · rw [e1, e2]; exact Real.sqrt_lt_sqrt h0 hlt

/-- **C61.** What `details()` reports after an analysis with soil: the number of iterations, an error not above the
tolerance, and for each of the six columns the true largest and smallest value up to rounding. -/
theorem C61_details (ty : ElementType) (p : Pile.Pile ℝ) (sp : SoilProfile) (x2mesh : List ℝ) (c : ℝ)
    (w : Switches) (table : List (ℝ × Pile.Section ℝ)) (env : Draws) (bcs : List (Cond ℝ)) (t : SoilTables)
    (h : solveSoil ty p sp x2mesh c w table env bcs = some (.numbers t)) (D : Details)
    (hD : details t = some D) :
    2 ≤ D.iterations ∧ D.iterations ≤ 100 ∧ D.error ≤ D.tolerance ∧ |D.error - t.error| ≤ 1 / 2 / 10 ^ 3 ∧
    |D.tolerance - t.tolerance| ≤ 1 / 2 / 10 ^ 3 ∧
    Reported 2 (t.forces.map (fun r => r.2.1)) D.normal ∧ Reported 2 (t.forces.map (fun r => r.2.2.1)) D.shear ∧
    Reported 2 (t.forces.map (fun r => r.2.2.2)) D.moment ∧
    Reported 3 (t.disp.map (fun r => r.2.1)) D.settlement ∧
    Reported 3 (t.disp.map (fun r => r.2.2.1)) D.deflection ∧
    Reported 3 (t.disp.map (fun r => r.2.2.2)) D.rotation ∧
    D.normal.2 ≤ D.normal.1 ∧ D.shear.2 ≤ D.shear.1 ∧ D.moment.2 ≤ D.moment.1 ∧
    D.settlement.2 ≤ D.settlement.1 ∧ D.deflection.2 ≤ D.deflection.1 ∧ D.rotation.2 ≤ D.rotation.1 := by
  obtain ⟨h1, h2, -, h3⟩ := C61_converged ty p sp x2mesh c w table env bcs t h
  unfold details at hD
  simp only [Option.bind_eq_bind, Option.bind_eq_some_iff, Option.pure_def, Option.some.injEq] at hD
  obtain ⟨n, hn, v, hv, m, hm, s, hs, f, hf, r, hr, rfl⟩ := hD
  obtain ⟨n1, n2⟩ := extremes_reported hn
  obtain ⟨v1, v2⟩ := extremes_reported hv
  obtain ⟨m1, m2⟩ := extremes_reported hm
  obtain ⟨s1, s2⟩ := extremes_reported hs
  obtain ⟨f1, f2⟩ := extremes_reported hf
  obtain ⟨r1, r2⟩ := extremes_reported hr
  exact ⟨h1, h2, roundTo_mono 3 h3.le, roundTo_close 3 _, roundTo_close 3 _, n1, v1, m1, s1, f1, r1,
    n2, v2, m2, s2, f2, r2⟩

end OpenPile.Props.SoilAnalysis

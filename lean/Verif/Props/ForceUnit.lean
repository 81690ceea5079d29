/-
Property C79: Young's modulus only scales the displacements of a pile without soil, and the unit of force does not
matter for a pile in soil.
-/
import Verif.Props.LinearRange
import Verif.Model.Analysis
import Verif.Props.Analysis

namespace OpenPile.Props.ForceUnit
open OpenPile.Kernel OpenPile.Winkler OpenPile.Spring OpenPile.Props.Solve OpenPile.Props.SoilStiffness Matrix

variable {K : Type} [Field K] [LinearOrder K] [IsStrictOrderedRing K]

/-! ### linear systems -/

section linear
variable {ι : Type} [Fintype ι] [DecidableEq ι]

omit [LinearOrder K] [IsStrictOrderedRing K] in
theorem fails_smul (c : K) (hc : c ≠ 0) (A : Matrix ι ι K) (F F' U U' : ι → K) (sup : ι → Bool) :
    solveEquations (c • A) F U sup = none ↔ solveEquations A F' U' sup = none := by
  rw [C15_fails_iff, C15_fails_iff]
  refine exists_congr (fun w => and_congr_right (fun _ => and_congr_right (fun _ => forall_congr' (fun i =>
    imp_congr_right (fun _ => ?_)))))
  rw [smul_mulVec, Pi.smul_apply, smul_eq_mul, mul_eq_zero]
  exact or_iff_right hc

omit [LinearOrder K] [IsStrictOrderedRing K] in
/-- Stiffness times `c`, loads times `c * a` and prescribed displacements times `a`: displacements times `a`, reactions
times `c * a`. -/
theorem solve_smul (c a : K) (hc : c ≠ 0) (A : Matrix ι ι K) (F U : ι → K) (sup : ι → Bool) :
    solveEquations (c • A) ((c * a) • F) (a • U) sup
      = (solveEquations A F U sup).map (fun r => (a • r.1, (c * a) • r.2)) := by
  rcases h : solveEquations A F U sup with _ | ⟨u, Q⟩
  · rw [(fails_smul c hc A _ F _ U sup).2 h]
    rfl
  · have hn : solveEquations (c • A) ((c * a) • F) (a • U) sup ≠ none := by
      rw [Ne, fails_smul c hc A _ F _ U sup, h]
      simp
    obtain ⟨h1, h2, h3, -⟩ := C15_solution A F U sup u Q h
    rw [solve_eq_some _ _ _ _ hn (a • u) ?_ ?_]
    · simp only [Option.map_some, Option.some.injEq, Prod.mk.injEq, true_and]
      funext i
      have := h3 i
      simp only [mulVec_smul, smul_mulVec, Pi.smul_apply, smul_eq_mul]
      rw [← this]
      ring
    · intro i hi
      simp only [mulVec_smul, smul_mulVec, Pi.smul_apply, smul_eq_mul]
      rw [(h1 i hi).1]
      ring
    · intro i hi
      simp only [Pi.smul_apply, h2 i hi]

/-- What a change of the unit of force by the factor `c` makes of the outcome of an analysis. -/
def scaleOutcome (c : K) : Outcome ι K → Outcome ι K
  | .converged d Q it t r => .converged d (c • Q) it (c ^ 2 * t) (c ^ 2 * r)
  | .exhausted d Q it t r => .exhausted d (c • Q) it (c ^ 2 * t) (c ^ 2 * r)
  | .nan it => .nan it
  | .raised => .raised

omit [LinearOrder K] [IsStrictOrderedRing K] [DecidableEq ι] in
theorem normSq_smul (c : K) (v : ι → K) : normSq (c • v) = c ^ 2 * normSq v := by
  unfold normSq
  rw [Finset.mul_sum]
  exact Finset.sum_congr rfl (fun i _ => by simp only [Pi.smul_apply, smul_eq_mul]; ring)

omit [LinearOrder K] [IsStrictOrderedRing K] [DecidableEq ι] in
theorem normSqFree_smul (c : K) (s : ι → Bool) (v : ι → K) : normSqFree s (c • v) = c ^ 2 * normSqFree s v := by
  unfold normSqFree
  rw [Finset.mul_sum]
  refine Finset.sum_congr rfl (fun i _ => ?_)
  split
  · simp
  · simp only [Pi.smul_apply, smul_eq_mul]; ring

theorem loop_smul (c : K) (hc : 0 < c) (b b' : Kind → (ι → K) → Option (Matrix ι ι K))
    (hb : ∀ k u, b' k u = (b k u).map (c • ·)) (F U0 : ι → K) (sup : ι → Bool) (fuel : ℕ) :
    ∀ (it : ℕ) (d : ι → K) (A : Matrix ι ι K) (U Rg Q : ι → K) (t r : K),
      loop b' (c • F) U0 sup fuel it d (c • A) U (c • Rg) (c • Q) (c ^ 2 * t) (c ^ 2 * r)
        = scaleOutcome c (loop b F U0 sup fuel it d A U Rg Q t r) := by
  induction fuel with
  | zero => intro it d A U Rg Q t r; rfl
  | succ fuel ih =>
    intro it d A U Rg Q t r
    have hs : ∀ (M : Matrix ι ι K) (f v : ι → K), solveEquations (c • M) (c • f) v sup
        = (solveEquations M f v sup).map (fun r => (r.1, c • r.2)) := by
      intro M f v
      have := solve_smul c 1 hc.ne' M f v sup
      simpa using this
    rw [loop, loop, hs]
    rcases h : solveEquations A Rg U sup with _ | ⟨u, Q'⟩
    · rfl
    · simp only [Option.map_some, hb]
      rcases hk : b .secant (fun i => d i + u i) with _ | Ks
      · simp [scaleOutcome]
      · simp only [Option.map_some]
        have e1 : (fun i => (c • F) i - (c • Q') i) = c • fun i => F i - Q' i := by
          funext i; simp [mul_sub]
        have e2 : (fun i => (c • F) i - (c • Q') i - ((c • Ks) *ᵥ fun i => d i + u i) i)
            = c • fun i => F i - Q' i - (Ks *ᵥ fun i => d i + u i) i := by
          funext i; simp [mul_sub, smul_mulVec]
        rw [e1, e2, normSq_smul, normSqFree_smul]
        have e3 : (1 / 10000 : K) ^ 2 * (c ^ 2 * normSq fun i => F i - Q' i)
            = c ^ 2 * ((1 / 10000) ^ 2 * normSq fun i => F i - Q' i) := by ring
        rw [e3]
        have hiff : (c ^ 2 * normSqFree sup (fun i => F i - Q' i - (Ks *ᵥ fun i => d i + u i) i)
            < c ^ 2 * ((1 / 10000) ^ 2 * normSq fun i => F i - Q' i) ∧ 1 < it + 1) ↔
            (normSqFree sup (fun i => F i - Q' i - (Ks *ᵥ fun i => d i + u i) i)
            < (1 / 10000) ^ 2 * normSq (fun i => F i - Q' i) ∧ 1 < it + 1) :=
          and_congr_left' (mul_lt_mul_iff_right₀ (by positivity))
        by_cases hc1 : normSqFree sup (fun i => F i - Q' i - (Ks *ᵥ fun i => d i + u i) i)
            < (1 / 10000) ^ 2 * normSq (fun i => F i - Q' i) ∧ 1 < it + 1
        · rw [if_pos hc1, if_pos (hiff.2 hc1), hs]
          rcases solveEquations Ks F U0 sup with _ | ⟨a, Qf⟩ <;> rfl
        · rw [if_neg hc1, if_neg (fun h => hc1 (hiff.1 h))]
          by_cases h100 : it + 1 = 100
          · rw [if_pos h100, if_pos h100]
            rfl
          · rw [if_neg h100, if_neg h100]
            rcases b .tangent (fun i => d i + u i) with _ | Kt
            · simp [scaleOutcome]
            · simp only [Option.map_some]
              exact ih _ _ _ _ _ _ _ _

theorem winkler_smul (c : K) (hc : 0 < c) (b b' : Kind → (ι → K) → Option (Matrix ι ι K))
    (hb : ∀ k u, b' k u = (b k u).map (c • ·)) (F U0 : ι → K) (fix : ι → Bool) (maxIter : ℕ) :
    winkler b' (c • F) U0 fix maxIter = scaleOutcome c (winkler b F U0 fix maxIter) := by
  unfold winkler
  rw [hb]
  rcases b .initial 0 with _ | A
  · rfl
  · simp only [Option.map_some]
    have := loop_smul c hc b b' hb F U0 (fun i => fix i || decide (U0 i ≠ 0)) (maxIter + 1) 0 0 A U0 F 0 0 0
    simpa using this

end linear

/-! ### spring tables -/

/-- The spring table with resistances in another unit. -/
def scaleTab (c : K) (tab : List (K × K)) : List (K × K) := tab.map (fun q => (q.1, c * q.2))

omit [IsStrictOrderedRing K] in
theorem interp_scale (c x : K) : ∀ tab : List (K × K), interp x (scaleTab c tab) = (interp x tab).map (c * ·)
  | [] => rfl
  | [(_, f)] => rfl
  | (a, f) :: (b, g) :: rest => by
    have ih := interp_scale c x ((b, g) :: rest)
    simp only [scaleTab, List.map_cons] at ih ⊢
    rw [interp, interp, ih]
    split
    · rfl
    · split
      · simp only [Option.map_some, Option.some.injEq]
        ring
      · rfl

omit [LinearOrder K] [IsStrictOrderedRing K] in
theorem scaleTab_fst {β : Type} (c : K) (g : K → β) (tab : List (K × K)) :
    (scaleTab c tab).map (fun q => g q.1) = tab.map (fun q => g q.1) := by
  simp [scaleTab]

theorem resistance_scale (c d : K) (tab : List (K × K)) :
    resistance (scaleTab c tab) d = (resistance tab d).map (c * ·) := by
  unfold resistance maxDisp
  rw [show (scaleTab c tab).map (·.1) = tab.map (·.1) from scaleTab_fst c id tab, interp_scale]
  generalize (tab.map (·.1)).max? = o
  rcases o with _ | m
  · rfl
  · simp only [Option.bind_eq_bind, Option.bind_some]
    split
    · unfold scaleTab
      rw [List.getLast?_map]
      generalize tab.getLast? = o
      rcases o with _ | q <;> rfl
    · rfl

theorem absQuot_scale (c : K) (hc : 0 < c) (a b : K) : absQuot (c * a) b = (absQuot a b).map (c * ·) := by
  unfold absQuot
  split
  · rfl
  · rw [mul_div_assoc, abs_mul, abs_of_pos hc]
    rfl

theorem curve_scale (c : K) (hc : 0 < c) (tab : List (K × K)) (kind : Kind) (u : K) :
    curveStiffness (scaleTab c tab) kind u = (curveStiffness tab kind u).map (c * ·) := by
  match tab with
  | [] => rfl
  | [_] => rfl
  | (x0, p0) :: (x1, p1) :: rest =>
    have hr := resistance_scale c |u| ((x0, p0) :: (x1, p1) :: rest)
    have hr' := resistance_scale c (|u| - min (5 / 10000) |u|) ((x0, p0) :: (x1, p1) :: rest)
    simp only [scaleTab, List.map_cons] at hr hr' ⊢
    unfold curveStiffness
    simp only
    by_cases hk : kind = .initial ∨ |u| = 0
    · rw [if_pos hk, if_pos hk, ← mul_sub, absQuot_scale c hc]
    · rw [if_neg hk, if_neg hk]
      cases kind with
      | initial => rfl
      | secant =>
        simp only [hr]
        rcases resistance ((x0, p0) :: (x1, p1) :: rest) |u| with _ | r
        · rfl
        · simp only [Option.map_some, Option.bind_eq_bind, Option.bind_some]
          rw [← mul_sub, absQuot_scale c hc]
      | tangent =>
        simp only [hr, hr']
        rcases resistance ((x0, p0) :: (x1, p1) :: rest) (|u| - min (5 / 10000) |u|) with _ | r0
        · rfl
        · rcases resistance ((x0, p0) :: (x1, p1) :: rest) |u| with _ | r
          · rfl
          · simp only [Option.map_some, Option.bind_eq_bind, Option.bind_some]
            rw [← mul_sub, absQuot_scale c hc]

theorem py_scale (c : K) (hc : 0 < c) (tab : List (K × K)) (kind : Kind) (u : K) :
    pyStiffness (scaleTab c tab) kind u = (pyStiffness tab kind u).map (c * ·) := by
  unfold pyStiffness
  rw [show (scaleTab c tab).map (·.1) = tab.map (·.1) from scaleTab_fst c id tab, curve_scale c hc]
  split <;> simp

omit [LinearOrder K] [IsStrictOrderedRing K] in
theorem sum_scale (c : K) (l : List K) : (l.map (c * ·)).sum = c * l.sum := by
  induction l with
  | nil => simp
  | cons a l ih => simp [ih, mul_add]

theorem base_scale (c : K) (hc : 0 < c) (tab : List (K × K)) (kind : Kind) (u : K) :
    baseStiffness (scaleTab c tab) kind u = (baseStiffness tab kind u).map (c * ·) := by
  unfold baseStiffness
  have h : (scaleTab c tab).map (·.2) = (tab.map (·.2)).map (c * ·) := by simp [scaleTab]
  rw [h, sum_scale, curve_scale c hc]
  by_cases h0 : (tab.map (·.2)).sum = 0
  · simp [h0]
  · rw [if_neg h0, if_neg (mul_ne_zero hc.ne' h0)]

theorem axial_scale (c : K) (hc : 0 < c) (tab : List (K × K)) (kind : Kind) (u : K) :
    axialCurveStiffness (scaleTab c tab) kind u = (axialCurveStiffness tab kind u).map (c * ·) := by
  have hl : (scaleTab c tab).length = tab.length := by simp [scaleTab]
  have hg : ∀ i : ℕ, (scaleTab c tab)[i]? = (tab[i]?).map (fun q => (q.1, c * q.2)) := fun i => by
    simp [scaleTab]
  have hrev : (scaleTab c tab).reverse = scaleTab c tab.reverse := by simp [scaleTab]
  unfold axialCurveStiffness
  rw [hl, hg, hg, hrev]
  rcases tab[zeroIndex tab.length]? with _ | ⟨x0, p0⟩
  · rfl
  · rcases tab[zeroIndex tab.length + 1]? with _ | ⟨x1, p1⟩
    · rfl
    · simp only [Option.map_some, Option.bind_eq_bind, Option.bind_some]
      by_cases hk : kind = .initial ∨ u = 0
      · rw [if_pos hk, if_pos hk, ← mul_sub, absQuot_scale c hc]
      · rw [if_neg hk, if_neg hk]
        cases kind with
        | initial => rfl
        | secant =>
          simp only [interp_scale]
          rcases interp u tab.reverse with _ | r
          · rfl
          · simp only [Option.map_some, Option.bind_some]
            rw [← mul_sub, absQuot_scale c hc]
        | tangent =>
          simp only [interp_scale]
          rcases interp (if u > 0 then u - min (5 / 10000) |u| else u + min (5 / 10000) |u|) tab.reverse with _ | r0
          · rfl
          · rcases interp u tab.reverse with _ | r
            · rfl
            · simp only [Option.map_some, Option.bind_some]
              rw [← mul_sub, absQuot_scale c hc]

theorem tz_scale (c : K) (hc : 0 < c) (tab : List (K × K)) (kind : Kind) (u : K) :
    tzStiffness (scaleTab c tab) kind u = (tzStiffness tab kind u).map (c * ·) := by
  unfold tzStiffness
  rw [scaleTab_fst c (fun x => |x|) tab, axial_scale c hc]
  split <;> simp

theorem qz_scale (c : K) (hc : 0 < c) (tab : List (K × K)) (kind : Kind) (u : K) :
    baseAxialStiffness (scaleTab c tab) kind u = (baseAxialStiffness tab kind u).map (c * ·) := by
  unfold baseAxialStiffness
  have h : (scaleTab c tab).map (fun q => |q.2|) = (tab.map (fun q => |q.2|)).map (c * ·) := by
    simp [scaleTab, abs_mul, abs_of_pos hc]
  rw [h, sum_scale, axial_scale c hc]
  by_cases h0 : (tab.map (fun q => |q.2|)).sum = 0
  · simp [h0]
  · rw [if_neg h0, if_neg (mul_ne_zero hc.ne' h0)]

/-- The rotational table with lateral resistances and moments in another unit. -/
def scaleMt (c : K) (rows : MtTable K) : MtTable K := rows.map (fun r => (c * r.1, scaleTab c r.2))

/-- Interpolation over rescaled abscissae. -/
theorem interp_scale_abscissa (c : K) (hc : 0 < c) (x : K) :
    ∀ tab : List (K × K), interp (c * x) (tab.map (fun q => (c * q.1, q.2))) = interp x tab
  | [] => rfl
  | [(_, f)] => rfl
  | (a, f) :: (b, g) :: rest => by
    have ih := interp_scale_abscissa c hc x ((b, g) :: rest)
    simp only [List.map_cons] at ih ⊢
    rw [interp, interp, ih, ← mul_sub, ← mul_sub]
    simp only [mul_lt_mul_iff_right₀ hc]
    split
    · rfl
    · split
      · congr 2
        rcases eq_or_ne (b - a) 0 with h0 | h0
        · simp [h0]
        · field_simp
      · rfl

omit [LinearOrder K] [IsStrictOrderedRing K] in
theorem mapM_scale (c : K) (f g : List (K × K) → Option K) (l : MtTable K)
    (h : ∀ r ∈ l, f (scaleTab c r.2) = g r.2) :
    (scaleMt c l).mapM (fun r => (f r.2).map (fun q => (r.1, q)))
      = (l.mapM (fun r => (g r.2).map (fun q => (r.1, q)))).map (List.map (fun q => (c * q.1, q.2))) := by
  induction l with
  | nil => rfl
  | cons a l ih =>
    simp only [scaleMt, List.map_cons, List.mapM_cons] at ih ⊢
    rw [ih (fun r hr => h r (by simp [hr])), h a (by simp)]
    rcases g a.2 with _ | q
    · rfl
    · generalize l.mapM (m := Option) _ = o
      rcases o with _ | m <;> rfl

theorem mtCurve_scale (c : K) (hc : 0 < c) (rows : MtTable K) (ncol : ℕ) (p : K) :
    mtCurve (scaleMt c rows) ncol (c * p) = (mtCurve rows ncol p).map (scaleTab c) := by
  have hcol : ∀ i : ℕ,
      (do
        let ms ← (scaleMt c rows).mapM (fun r => (r.2[i + 1]?).map (fun q => (r.1, q.2)))
        let ts ← (scaleMt c rows).mapM (fun r => (r.2[i + 1]?).map (fun q => (r.1, q.1)))
        let m ← interp (c * p) ms
        let t ← interp (c * p) ts
        return (t, m) : Option (K × K))
      = (do
        let ms ← rows.mapM (fun r => (r.2[i + 1]?).map (fun q => (r.1, q.2)))
        let ts ← rows.mapM (fun r => (r.2[i + 1]?).map (fun q => (r.1, q.1)))
        let m ← interp p ms
        let t ← interp p ts
        return (t, m) : Option (K × K)).map (fun q => (q.1, c * q.2)) := by
    intro i
    have h1 := mapM_scale c (fun l => (l[i + 1]?).map (·.2)) (fun l => (l[i + 1]?).map (fun q => c * q.2)) rows
      (fun r _ => by simp [scaleTab, Function.comp_def])
    have h2 := mapM_scale c (fun l => (l[i + 1]?).map (·.1)) (fun l => (l[i + 1]?).map (·.1)) rows
      (fun r _ => by simp [scaleTab, Function.comp_def])
    have h3 : rows.mapM (fun r => (r.2[i + 1]?).map (fun q => (r.1, c * q.2)))
        = (rows.mapM (fun r => (r.2[i + 1]?).map (fun q => (r.1, q.2)))).map (scaleTab c) := by
      clear h1 h2
      induction rows with
      | nil => rfl
      | cons a l ih =>
        simp only [List.mapM_cons]
        rw [ih]
        rcases a.2[i + 1]? with _ | q
        · rfl
        · generalize l.mapM (m := Option) _ = o
          rcases o with _ | m <;> rfl
    simp only [Option.map_map, Function.comp_def] at h1 h2
    rw [h3] at h1
    rw [h1, h2]
    generalize rows.mapM (fun r => (r.2[i + 1]?).map (fun q => (r.1, q.2))) = o1
    generalize rows.mapM (fun r => (r.2[i + 1]?).map (fun q => (r.1, q.1))) = o2
    rcases o1 with _ | ms
    · rfl
    · rcases o2 with _ | ts
      · rfl
      · simp only [Option.map_some, Option.bind_eq_bind, Option.bind_some, interp_scale_abscissa c hc, interp_scale]
        generalize interp p ms = o1
        generalize interp p ts = o2
        rcases o1 with _ | m
        · rfl
        · rcases o2 with _ | t <;> rfl
  unfold mtCurve
  simp only [hcol]
  have hmap : ∀ l : List ℕ, ∀ f : ℕ → Option (K × K),
      l.mapM (fun i => (f i).map (fun q => (q.1, c * q.2))) = (l.mapM f).map (scaleTab c) := by
    intro l f
    induction l with
    | nil => rfl
    | cons a l ih =>
      simp only [List.mapM_cons]
      rw [ih]
      rcases f a with _ | q
      · rfl
      · rcases l.mapM f with _ | m <;> rfl
  rw [hmap]
  generalize (List.range (ncol - 1)).mapM (m := Option) _ = o
  rcases o with _ | l
  · rfl
  · simp [scaleTab]

theorem quot_scale (c : K) (hc : 0 < c) (a b : K) : quot (c * a) b = (quot a b).map (c * ·) := by
  unfold quot
  split
  · rfl
  · rw [abs_mul, abs_of_pos hc, mul_div_assoc]
    rfl

theorem mt_scale (c : K) (hc : 0 < c) (rows : MtTable K) (ncol : ℕ) (p : K) (kind : Kind) (u : K) :
    mtStiffness (scaleMt c rows) ncol (c * p) kind u = (mtStiffness rows ncol p kind u).map (c * ·) := by
  unfold mtStiffness
  rw [mtCurve_scale c hc]
  have hh : (scaleMt c rows).head? = rows.head?.map (fun r => (c * r.1, scaleTab c r.2)) := by simp [scaleMt]
  rw [hh]
  rcases rows.head? with _ | first
  · rfl
  · simp only [Option.map_some, Option.bind_eq_bind, Option.bind_some]
    rw [show (scaleTab c first.2).map (·.1) = first.2.map (·.1) from scaleTab_fst c id first.2]
    split
    · simp
    · rcases mtCurve rows ncol p with _ | cur
      · rfl
      · simp only [Option.map_some, Option.bind_some]
        have hg : ∀ i : ℕ, (scaleTab c cur)[i]? = (cur[i]?).map (fun q => (q.1, c * q.2)) := fun i => by
          simp [scaleTab]
        have hlast : (scaleTab c cur).getLast? = cur.getLast?.map (fun q => (q.1, c * q.2)) := by
          simp [scaleTab, List.getLast?_map]
        rw [hg, hg, hlast]
        rcases cur[0]? with _ | ⟨t0, m0⟩
        · rfl
        · rcases cur[1]? with _ | ⟨t1, m1⟩
          · rfl
          · rcases cur.getLast? with _ | ⟨tl, ml⟩
            · rfl
            · simp only [Option.map_some, Option.bind_some]
              have hval : ∀ d, (if d > tl then some (c * ml) else interp d (scaleTab c cur))
                  = (if d > tl then some ml else interp d cur).map (c * ·) := by
                intro d
                rw [interp_scale]
                split <;> rfl
              simp only [hval]
              by_cases hk : kind = .initial ∨ |u| = 0
              · rw [if_pos hk, if_pos hk, ← mul_sub, quot_scale c hc]
              · rw [if_neg hk, if_neg hk]
                cases kind with
                | initial => rfl
                | secant =>
                  simp only
                  rcases (if |u| > tl then some ml else interp |u| cur) with _ | r
                  · rfl
                  · simp only [Option.map_some, Option.bind_some]
                    rw [← mul_sub, quot_scale c hc]
                | tangent =>
                  simp only
                  rcases (if |u| - min (1 / 100 * t1) |u| > tl then some ml
                    else interp (|u| - min (1 / 100 * t1) |u|) cur) with _ | r0
                  · rfl
                  · rcases (if |u| > tl then some ml else interp |u| cur) with _ | r
                    · rfl
                    · simp only [Option.map_some, Option.bind_some]
                      rw [← mul_sub, quot_scale c hc]

/-! ### the pile -/

/-- The element with Young's modulus times `c`. -/
def scaleElem (c : K) (e : Elem K) : Elem K := { e with E := c * e.E }

omit [LinearOrder K] [IsStrictOrderedRing K] in
theorem kappa_scale (c : K) (ty : ElementType) (e : Elem K) : kappa ty (scaleElem c e) = kappa ty e := rfl

omit [LinearOrder K] [IsStrictOrderedRing K] in
theorem ratio_scale (c : K) (hc : c ≠ 0) (e : Elem K) (a b d : K) :
    a * (c * e.E) * b / (d * shearMod (scaleElem c e) * e.L ^ 2) = a * e.E * b / (d * shearMod e * e.L ^ 2) := by
  unfold shearMod scaleElem
  simp only
  rw [show d * (c * e.E / (2 + 2 * e.nu)) * e.L ^ 2 = c * (d * (e.E / (2 + 2 * e.nu)) * e.L ^ 2) by ring,
    show a * (c * e.E) * b = c * (a * e.E * b) by ring, mul_div_mul_left _ _ hc]

omit [LinearOrder K] [IsStrictOrderedRing K] in
theorem phi_scale (c : K) (hc : c ≠ 0) (ty : ElementType) (e : Elem K) : phi ty (scaleElem c e) = phi ty e := by
  have := ratio_scale c hc e 12 (e.I * kappa ty e) e.A
  unfold phi
  rw [kappa_scale]
  simp only [scaleElem] at this ⊢
  rw [mul_assoc (12 * _), mul_assoc (12 * _)]
  exact this

omit [LinearOrder K] [IsStrictOrderedRing K] in
/-- The shear parameter does not change, the matrix is multiplied by `c`. -/
theorem mech_scale (c : K) (hc : c ≠ 0) (ty : ElementType) (e : Elem K) :
    mechMatrix ty (scaleElem c e) = c • mechMatrix ty e := by
  unfold mechMatrix
  rw [phi_scale c hc]
  ext i j
  fin_cases i <;> fin_cases j <;> simp [beamMatrix, scaleElem] <;> ring

omit [LinearOrder K] [IsStrictOrderedRing K] in
theorem mtCoeffs_scale (c : K) (hc : c ≠ 0) (ty : ElementType) (e : Elem K) :
    mtCoeffs ty (scaleElem c e) = mtCoeffs ty e := by
  cases ty with
  | eulerBernoulli => rfl
  | timoshenko =>
    have := ratio_scale c hc e 1 (e.I * kappa .timoshenko e) e.A
    simp only [one_mul, ← mul_assoc] at this
    unfold mtCoeffs
    simp only [kappa_scale]
    have h : (scaleElem c e).E * (scaleElem c e).I * kappa .timoshenko e
        / ((scaleElem c e).A * shearMod (scaleElem c e) * (scaleElem c e).L ^ 2)
        = e.E * e.I * kappa .timoshenko e / (e.A * shearMod e * e.L ^ 2) := this
    rw [h]
    rfl

/-- Spring stiffnesses in another unit. -/
def scaleSoilK (c : K) (s : SoilK K) : SoilK K :=
  ⟨(c * s.py.1, c * s.py.2), (c * s.tz.1, c * s.tz.2), (c * s.mt.1, c * s.mt.2)⟩

omit [LinearOrder K] [IsStrictOrderedRing K] in
theorem elemMatrix_scale (c : K) (hc : c ≠ 0) (ty : ElementType) (e : Elem K) (s : SoilK K) :
    elemMatrix ty (scaleElem c e) (scaleSoilK c s) = c • elemMatrix ty e s := by
  unfold elemMatrix
  rw [mech_scale c hc]
  have h1 : pyMatrix (scaleElem c e).L (scaleSoilK c s).py.1 (scaleSoilK c s).py.2
      = c • pyMatrix e.L s.py.1 s.py.2 := by
    unfold pyMatrix scaleSoilK scaleElem
    simp only [smul_add, smul_smul]
  have h2 : tzMatrix (scaleElem c e).L (scaleSoilK c s).tz.1 (scaleSoilK c s).tz.2
      = c • tzMatrix e.L s.tz.1 s.tz.2 := by
    unfold tzMatrix scaleSoilK scaleElem
    simp only [smul_add, smul_smul]
  have h3 : mtMatrix ty (scaleElem c e) (scaleSoilK c s).mt.1 (scaleSoilK c s).mt.2
      = c • mtMatrix ty e s.mt.1 s.mt.2 := by
    unfold mtMatrix scaleSoilK
    rw [mtCoeffs_scale c hc]
    simp only [smul_smul]
    congr 1
    ring
  rw [h1, h2, h3, ← smul_add, ← smul_add, ← smul_add]

omit [LinearOrder K] [IsStrictOrderedRing K] in
theorem assemble_smul (c : K) (n : ℕ) (k : Fin n → Matrix (Fin 6) (Fin 6) K) :
    assemble n (fun i => c • k i) = c • assemble n k := by
  unfold assemble
  rw [Finset.smul_sum]
  refine Finset.sum_congr rfl (fun i _ => ?_)
  ext r q
  simp only [place, Matrix.smul_apply, smul_eq_mul]
  split <;> simp

omit [LinearOrder K] [IsStrictOrderedRing K] in
theorem soilStiffness_scale (c : K) (hc : c ≠ 0) (ty : ElementType) (n : ℕ) (el : Fin n → Elem K)
    (s : Fin n → SoilK K) (h m q : K) :
    soilStiffness ty n (fun i => scaleElem c (el i)) (fun i => scaleSoilK c (s i)) (c * h) (c * m) (c * q)
      = c • soilStiffness ty n el s h m q := by
  unfold soilStiffness
  have hb : baseMatrix n (c * h) (c * m) (c * q) = c • baseMatrix n h m q := by
    ext r k
    simp only [baseMatrix, Matrix.smul_apply, smul_eq_mul]
    split
    · rfl
    · split
      · rfl
      · split <;> simp
  simp only [elemMatrix_scale c hc, assemble_smul, hb, smul_add]

omit [LinearOrder K] [IsStrictOrderedRing K] in
theorem beamStiffness_scale (c : K) (hc : c ≠ 0) (ty : ElementType) (n : ℕ) (el : Fin n → Elem K) :
    beamStiffness ty n (fun i => scaleElem c (el i)) = c • beamStiffness ty n el := by
  unfold beamStiffness
  simp only [mech_scale c hc, assemble_smul]

omit [LinearOrder K] [IsStrictOrderedRing K] in
theorem internalForces_scale (c a : K) (hc : c ≠ 0) (ty : ElementType) {n : ℕ} (el : Fin n → Elem K)
    (u : Fin (3 * n + 3) → K) (i : Fin n) (k : Fin 6) :
    internalForces ty (fun i => scaleElem c (el i)) (a • u) i k = c * a * internalForces ty el u i k := by
  unfold internalForces
  rw [mech_scale c hc, show stacked (a • u) i = a • stacked u i from rfl, mulVec_smul, smul_mulVec]
  simp only [Pi.smul_apply, smul_eq_mul]
  ring

/-- All springs with resistances in another unit. -/
def scaleSprings (c : K) {n : ℕ} (sp : Springs K n) : Springs K n :=
  { sp with
    py := fun e b => scaleTab c (sp.py e b)
    tz := fun e b => scaleTab c (sp.tz e b)
    mt := fun e b => scaleMt c (sp.mt e b)
    hb := scaleTab c sp.hb
    mb := scaleTab c sp.mb
    qz := scaleTab c sp.qz }

theorem soilAt_scale (c : K) (hc : 0 < c) {n : ℕ} (sp : Springs K n) (kind : Kind) (u : Fin (3 * n + 3) → K)
    (e : Fin n) : soilAt (scaleSprings c sp) kind u e = (soilAt sp kind u e).map (scaleSoilK c) := by
  have h1 : ∀ b, pyAt (scaleSprings c sp) kind u e b = (pyAt sp kind u e b).map (c * ·) := by
    intro b
    unfold pyAt
    simp only [scaleSprings, Option.bind_eq_bind, py_scale c hc]
    generalize springDisp u 1 e b = o
    split
    · rcases o with _ | d <;> rfl
    · simp
  have h2 : ∀ b, tzAt (scaleSprings c sp) kind u e b = (tzAt sp kind u e b).map (c * ·) := by
    intro b
    unfold tzAt
    simp only [scaleSprings, Option.bind_eq_bind, tz_scale c hc]
    generalize springDisp u 0 e b = o
    split
    · rcases o with _ | d <;> rfl
    · simp
  have h3 : ∀ b, mtAt (scaleSprings c sp) kind u e b = (mtAt sp kind u e b).map (c * ·) := by
    intro b
    unfold mtAt
    simp only [scaleSprings, Option.bind_eq_bind, py_scale c hc]
    generalize springDisp u 1 e b = o
    generalize springDisp u 2 e b = o'
    split
    · split
      · rcases o with _ | d
        · rfl
        · simp only [Option.bind_some]
          generalize pyStiffness (sp.py e b) .secant d = o''
          rcases o'' with _ | k
          · rfl
          · simp only [Option.map_some, Option.bind_some, mul_assoc, mt_scale c hc]
            rcases o' with _ | t <;> rfl
      · rfl
    · simp
  unfold soilAt
  simp only [h1, h2, h3, Option.bind_eq_bind]
  generalize pyAt sp kind u e false = a1
  generalize pyAt sp kind u e true = a2
  generalize tzAt sp kind u e false = a3
  generalize tzAt sp kind u e true = a4
  generalize mtAt sp kind u e false = a5
  generalize mtAt sp kind u e true = a6
  rcases a1 with _ | a1 <;> [rfl; skip]
  rcases a2 with _ | a2 <;> [rfl; skip]
  rcases a3 with _ | a3 <;> [rfl; skip]
  rcases a4 with _ | a4 <;> [rfl; skip]
  rcases a5 with _ | a5 <;> [rfl; skip]
  rcases a6 with _ | a6 <;> rfl

theorem allSome_map {n : ℕ} {α β : Type} (g : α → β) (f : Fin n → Option α) :
    allSome (fun i => (f i).map g) = (allSome f).map (fun s i => g (s i)) := by
  rcases h : allSome f with _ | s
  · unfold allSome at h ⊢
    split at h
    · cases h
    · next hn =>
      rw [dif_neg (by simpa using hn)]
      rfl
  · rw [allSome_iff] at h
    rw [Option.map_some, allSome_iff]
    intro i
    rw [h i]
    rfl

/-- The stiffness matrix in another unit of force. -/
theorem build_scale (c : K) (hc : 0 < c) (ty : ElementType) {n : ℕ} (el : Fin n → Elem K) (sp : Springs K n)
    (kind : Kind) (u : Fin (3 * n + 3) → K) :
    buildStiffness ty (fun i => scaleElem c (el i)) (scaleSprings c sp) kind u
      = (buildStiffness ty el sp kind u).map (c • ·) := by
  have h1 : allSome (soilAt (scaleSprings c sp) kind u)
      = (allSome (soilAt sp kind u)).map (fun s i => scaleSoilK c (s i)) := by
    rw [← allSome_map]
    congr 1
    funext e
    exact soilAt_scale c hc sp kind u e
  unfold buildStiffness
  rw [h1]
  simp only [scaleSprings, base_scale c hc, qz_scale c hc, Option.bind_eq_bind]
  generalize allSome (soilAt sp kind u) = o1
  generalize baseStiffness sp.hb kind (u ⟨3 * n + 1, by omega⟩) = o2
  generalize baseStiffness sp.mb kind (u ⟨3 * n + 2, by omega⟩) = o3
  generalize baseAxialStiffness sp.qz kind (u ⟨3 * n, by omega⟩) = o4
  rcases o1 with _ | s
  · rfl
  · have key : ∀ h m q : K, soilStiffness ty n (fun i => scaleElem c (el i)) (fun i => scaleSoilK c (s i)) (c * h)
        (c * m) (c * q) = c • soilStiffness ty n el s h m q :=
      fun h m q => soilStiffness_scale c hc.ne' ty n el s h m q
    have k0 : (0 : K) = c * 0 := by simp
    cases sp.baseShear <;> cases sp.baseMoment <;> cases sp.baseAxial <;> rcases o2 with _ | h <;>
      rcases o3 with _ | m <;> rcases o4 with _ | q <;>
      simp only [Option.map_some, Option.map_none, Option.bind_some, Option.bind_none, Option.pure_def, if_true,
        Bool.false_eq_true, if_false] <;> (first | rfl | (rw [← key]; try simp only [mul_zero]))

/-- **C79, unit of force, pile in soil.** With Young's modulus, all spring resistances and all loads multiplied by the
same positive number, the analysis ends in the same way after the same number of iterations with the same
displacements; reactions are multiplied by that number, tolerance and error by its square (they are squares here), and
so are the section forces by that number. -/
theorem C79_unit_soil (c : K) (hc : 0 < c) (ty : ElementType) {n : ℕ} (el : Fin n → Elem K) (sp : Springs K n)
    (F U : Fin (3 * n + 3) → K) (fix : Fin (3 * n + 3) → Bool) (maxIter : ℕ) :
    winkler (buildStiffness ty (fun i => scaleElem c (el i)) (scaleSprings c sp)) (c • F) U fix maxIter
      = scaleOutcome c (winkler (buildStiffness ty el sp) F U fix maxIter) ∧
    ∀ (u : Fin (3 * n + 3) → K) (i : Fin n) (k : Fin 6),
      internalForces ty (fun i => scaleElem c (el i)) u i k = c * internalForces ty el u i k := by
  refine ⟨winkler_smul c hc _ _ (build_scale c hc ty el sp) F U fix maxIter, fun u i k => ?_⟩
  have := internalForces_scale c 1 hc.ne' ty el u i k
  simpa using this

/-- **C79, unit of force, pile without soil.** Young's modulus times `c`, loads times `c * a` and prescribed
displacements times `a ≠ 0` give displacements times `a` and reactions and section forces times `c * a`; the analysis
fails in the same cases. -/
theorem C79_unit_beam (c a : K) (hc : c ≠ 0) (ha : a ≠ 0) (ty : ElementType) {n : ℕ} (el : Fin n → Elem K)
    (F U : Fin (3 * n + 3) → K) (fix : Fin (3 * n + 3) → Bool) :
    beam ty (fun i => scaleElem c (el i)) ((c * a) • F) (a • U) fix
      = (beam ty el F U fix).map (fun r => (a • r.1, (c * a) • r.2.1, fun i =>
          ((c * a * (r.2.2 i).1.1, c * a * (r.2.2 i).1.2.1, c * a * (r.2.2 i).1.2.2),
           (c * a * (r.2.2 i).2.1, c * a * (r.2.2 i).2.2.1, c * a * (r.2.2 i).2.2.2)))) := by
  unfold beam
  have hsup : (fun r => fix r || decide ((a • U) r ≠ 0)) = fun r => fix r || decide (U r ≠ 0) := by
    funext r
    simp [ha]
  rw [hsup, beamStiffness_scale c hc, solve_smul c a hc]
  generalize solveEquations (beamStiffness ty n el) F U _ = o
  rcases o with _ | ⟨u, Q⟩
  · rfl
  · simp only [Option.map_some, Option.some.injEq, Prod.mk.injEq, true_and]
    funext i
    have hL : (scaleElem c (el i)).L = (el i).L := rfl
    simp only [sectionForces, internalForces_scale c a hc, hL, Prod.mk.injEq]
    refine ⟨⟨?_, ?_, ?_⟩, ?_, ?_, ?_⟩ <;> first | ring | trivial

/-! ### from the public calls -/

section model
open OpenPile.BC OpenPile.Mesh OpenPile.Analysis OpenPile.Result
open OpenPile.Pile (Pile)

variable [FloorRing K]

/-- The pile of a material with Young's modulus times `c` (and the same Poisson's ratio and unit weight). -/
def stiffer (c : K) (p : Pile K) : Pile K := { p with material := { p.material with E := c * p.material.E } }

/-- No boundary condition prescribes a displacement other than zero. -/
def NoMoves (bcs : List (Cond K)) : Prop :=
  ∀ b ∈ bcs, b.cls = .displacement → ∀ a w, b.get a = some w → w.truthy = false

omit [FloorRing K] in
theorem globalDisp_zero (nodes : List K) (bcs : List (Cond K)) (h : NoMoves bcs) (g : Nodal K)
    (hg : globalDisp nodes bcs = .ok g) (a : Axis) : ∀ q ∈ g.get a, q = 0 := by
  have key : ∀ (l : List (Cond K)), (∀ b ∈ l, b ∈ bcs) → ∀ g0 : Nodal K,
      applyBc storeFloat nodes g0 l .displacement = g0 := by
    intro l
    induction l with
    | nil => intro _ g0; rfl
    | cons b l ih =>
      intro hl g0
      have h1 : applyOne storeFloat nodes .displacement g0 b = g0 := by
        unfold applyOne
        split
        · next hc =>
          have hw : ∀ (arr : List K) (i : ℕ) (a : Axis), writeAxis storeFloat arr i (b.get a) = arr := by
            intro arr i a
            unfold writeAxis
            split
            · next w hw =>
              rw [h b (hl b (by simp)) hc a w hw]
              simp
            · rfl
          split
          · have hx := hw g0.x
            have hy := hw g0.y
            have hz := hw g0.z
            next i _ =>
            have e1 := hx i .x
            have e2 := hy i .y
            have e3 := hz i .z
            simp only [Cond.get] at e1 e2 e3
            rw [e1, e2, e3]
          · rfl
        · rfl
      have : applyBc storeFloat nodes g0 (b :: l) .displacement
          = applyBc storeFloat nodes (applyOne storeFloat nodes .displacement g0 b) l .displacement := rfl
      rw [this, h1]
      exact ih (fun b hb => hl b (by simp [hb])) g0
  unfold globalDisp at hg
  rcases hv : validateBc bcs .displacement with e | ⟨⟩
  · rw [hv] at hg
    cases hg
  · rw [hv] at hg
    have hg' : applyBc storeFloat nodes ⟨nodes.map (fun _ => (0 : K)), nodes.map (fun _ => (0 : K)),
        nodes.map (fun _ => (0 : K))⟩ bcs .displacement = g := by
      simpa [bind, Except.bind, pure, Except.pure] using hg
    rw [key bcs (fun _ h => h)] at hg'
    subst hg'
    cases a <;> simp [Nodal.get]

omit [LinearOrder K] [IsStrictOrderedRing K] [FloorRing K] in
theorem every3_map (a : K) (k : ℕ) (u : List K) : every3 k (u.map (a * ·)) = (every3 k u).map (a * ·) := by
  unfold every3
  rw [List.map_filterMap, List.length_map]
  congr 1
  funext j
  simp

omit [IsStrictOrderedRing K] [FloorRing K] in
theorem dispRows_scale (a : K) (z u : List K) :
    dispRows z (u.map (a * ·)) = (dispRows z u).map (List.map (fun r => (r.1, a * r.2.1, a * r.2.2.1, a * r.2.2.2))) := by
  unfold dispRows
  simp only [every3_map, List.length_map]
  split
  · simp only [Option.map_some, Option.some.injEq]
    rw [List.zip_map, List.zip_map, List.zip_map_right]
    rfl
  · rfl

omit [IsStrictOrderedRing K] in
/-- The data of an element depends on the material through Young's modulus and Poisson's ratio only. -/
theorem elemAt_stiffer (c pi : K) (p : Pile K) (e : K × K) :
    elemAt pi (stiffer c p) e = (elemAt pi p e).map (scaleElem c) := by
  unfold elemAt stiffer
  simp only [Option.bind_eq_bind]
  generalize parameterOf (·.top) (·.bottom) (·.inertia pi) p.sections e = o1
  generalize parameterOf (·.top) (·.bottom) (·.area pi) p.sections e = o2
  generalize parameterOf (·.top) (·.bottom) (·.width) p.sections e = o3
  generalize parameterOf (·.top) (·.bottom) (·.thickness) p.sections e = o4
  rcases o1 with _ | o1 <;> [rfl; skip]
  rcases o2 with _ | o2 <;> [rfl; skip]
  rcases o3 with _ | o3 <;> [rfl; skip]
  rcases o4 with _ | o4 <;> rfl

/-- **C79, Young's modulus.** Without soil and without prescribed displacements other than zero, `solve()` of the model
with Young's modulus times `c ≠ 0` gives displacements and rotations divided by `c` and the same section forces and
reactions, and fails in the same cases. -/
theorem C79_modulus (c : K) (hc : c ≠ 0) (pi : K) (ty : ElementType) (p : Pile K) (x2mesh : List K) (coarseness : K)
    (bcs : List (Cond K)) (h : NoMoves bcs) :
    solveModel pi ty (stiffer c p) x2mesh coarseness bcs
      = (solveModel pi ty p x2mesh coarseness bcs).map (fun T => { T with
          disp := T.disp.map (fun r => (r.1, r.2.1 / c, r.2.2.1 / c, r.2.2.2 / c)) }) := by
  have hC : getCoordinates (stiffer c p) none x2mesh coarseness = getCoordinates p none x2mesh coarseness := rfl
  unfold solveModel
  rw [hC]
  rcases getCoordinates p none x2mesh coarseness with _ | C
  · rfl
  simp only [Option.bind_eq_bind, Option.bind_some]
  unfold solveOn
  rcases globalForces C.nodes bcs with _ | F
  · rfl
  rcases hU : globalDisp C.nodes bcs with _ | gU
  · rfl
  rcases globalRestrained C.nodes bcs with _ | R
  · rfl
  simp only [Except.toOption, Option.bind_eq_bind, Option.bind_some]
  generalize asVec C.elements.length ((dofList F).map (fun i : ℤ => (i : K))) = oF
  rcases oF with _ | F
  · rfl
  rcases hV : asVec C.elements.length (dofList gU) with _ | U
  · rfl
  have hU0 : U = 0 := by
    unfold asVec at hV
    split at hV
    · next hl =>
      simp only [Option.some.injEq] at hV
      rw [← hV]
      funext r
      have hm := List.getElem_mem (l := dofList gU) (n := r.1) (by omega)
      generalize (dofList gU)[r.1]'(by omega) = q at hm
      unfold dofList at hm
      obtain ⟨w, hw, hq⟩ := List.mem_flatMap.1 hm
      have m1 := (List.of_mem_zip hw).1
      have m2 := (List.of_mem_zip hw).2
      have m3 := (List.of_mem_zip m2).1
      have m4 := (List.of_mem_zip m2).2
      simp only [List.mem_cons, List.not_mem_nil, or_false] at hq
      rcases hq with rfl | rfl | rfl
      · exact globalDisp_zero C.nodes bcs h gU hU .z _ m1
      · exact globalDisp_zero C.nodes bcs h gU hU .y _ m3
      · exact globalDisp_zero C.nodes bcs h gU hU .x _ m4
    · cases hV
  subst hU0
  simp only [Option.bind_some]
  generalize asVec C.elements.length (dofList R) = oR
  rcases oR with _ | R
  · rfl
  simp only [Option.bind_some]
  have hel : allSome (fun i : Fin C.elements.length => elemAt pi (stiffer c p) C.elements[i.1])
      = (allSome (fun i : Fin C.elements.length => elemAt pi p C.elements[i.1])).map (fun s i => scaleElem c (s i)) := by
    rw [← allSome_map]
    congr 1
    funext i
    exact elemAt_stiffer c pi p _
  rw [hel]
  generalize allSome (fun i : Fin C.elements.length => elemAt pi p C.elements[i.1]) = oel
  rcases oel with _ | el
  · rfl
  simp only [Option.map_some, Option.bind_some]
  have hb := C79_unit_beam c c⁻¹ hc (inv_ne_zero hc) ty el F 0 R
  rw [mul_inv_cancel₀ hc, one_smul, smul_zero] at hb
  rw [hb]
  rcases hr : beam ty el F 0 R with _ | ⟨u, Q, f⟩
  · rfl
  simp only [Option.map_some, Option.bind_some, one_smul]
  unfold tables
  have e1 : List.ofFn (c⁻¹ • u) = (List.ofFn u).map (c⁻¹ * ·) := by
    rw [List.map_ofFn]
    rfl
  have e2 : ∀ i, List.ofFn (internalForces ty (fun i => scaleElem c (el i)) (c⁻¹ • u) i)
      = List.ofFn (internalForces ty el u i) := by
    intro i
    congr 1
    funext k
    rw [internalForces_scale c c⁻¹ hc, mul_inv_cancel₀ hc, one_mul]
  rw [e1, dispRows_scale]
  simp only [e2]
  have e3 : (fun i => (scaleElem c (el i)).L) = fun i => (el i).L := rfl
  rw [e3]
  generalize dispRows C.nodes (List.ofFn u) = o1
  generalize forceRows C.nodes _ _ = o2
  generalize reactionRows C.nodes (List.ofFn Q) = o3
  rcases o1 with _ | d <;> [rfl; skip]
  rcases o2 with _ | f <;> [rfl; skip]
  rcases o3 with _ | r <;> [rfl; skip]
  simp only [Option.map_some, Option.bind_eq_bind, Option.bind_some, Option.pure_def, Option.some.injEq,
    Tables.mk.injEq, and_true]
  refine List.map_congr_left (fun r _ => ?_)
  simp only [div_eq_mul_inv, mul_comm c⁻¹]

end model

/-! ### cases that meet the hypotheses -/

section cases
open OpenPile.BC OpenPile.Mesh OpenPile.Analysis OpenPile.Result OpenPile.Props.Analysis OpenPile.Props.LinearRange

/-- A pile in soil springs that moves by 0.1 m: in a unit of force a thousand times smaller it moves by 0.1 m after the
same two iterations. -/
example : ∃ t, winkler (buildStiffness .eulerBernoulli (fun i => scaleElem 1000 (elD (K := ℚ) i)) (scaleSprings 1000 spD))
    ((1000 : ℚ) • loadD) 0 fixD 100 = .converged uD 0 2 t 0 := by
  obtain ⟨t, ht⟩ := convergedD (K := ℚ) 100 (by norm_num)
  refine ⟨1000 ^ 2 * t, ?_⟩
  rw [(C79_unit_soil 1000 (by norm_num) .eulerBernoulli elD spD loadD 0 fixD 100).1, ht]
  simp [scaleOutcome]

/-- A loaded head and a fixed tip. -/
def bcsF : List (Cond ℚ) :=
  [⟨.force, 0, none, some (.num 100), some (.num (-500))⟩,
   ⟨.fixation, -10, some (.flag true), some (.flag true), some (.flag true)⟩]

theorem noMovesF : NoMoves bcsF := by
  intro b hb hcls
  simp only [bcsF, List.mem_cons, List.not_mem_nil, or_false] at hb
  rcases hb with rfl | rfl <;> cases hcls

/-- A stepped steel pile with a loaded head and a fixed tip, and the same pile three times as stiff: both are solved. -/
example : ∃ T, solveModel (22 / 7) .timoshenko pileE [] 2 bcsF = some T ∧
    solveModel (22 / 7) .timoshenko (stiffer 3 pileE) [] 2 bcsF
      = some { T with disp := T.disp.map (fun r => (r.1, r.2.1 / 3, r.2.2.1 / 3, r.2.2.2 / 3)) } := by
  have hs : ∃ T, solveModel (22 / 7) .timoshenko pileE [] 2 bcsF = some T := by
    rw [← Option.ne_none_iff_exists']
    have hC : getCoordinates pileE none [] 2 = some ⟨[0, -2, -4, -6, -8, -10],
        [(0, -2), (-2, -4), (-4, -6), (-6, -8), (-8, -10)]⟩ := by decide +kernel
    unfold solveModel
    rw [hC]
    refine (C20_tables (22 / 7) (by norm_num) .timoshenko 78 210000000 (3 / 10) pileE (by decide +kernel)
      (fun _ => by norm_num) 0 (-10) ⟨by simp [pileE], by simp [pileE]; norm_num, rfl, rfl⟩ ?_
      ⟨[0, -2, -4, -6, -8, -10], [(0, -2), (-2, -4), (-4, -6), (-6, -8), (-8, -10)]⟩
      ⟨by decide +kernel, by decide +kernel, rfl, rfl, by decide +kernel⟩ bcsF).2 ⟨?_, ?_, ?_⟩
    · simp only [OpenPile.Pile.built_iff, pileE]
      norm_num
    · intro cls
      cases cls <;> decide +kernel
    · exact ⟨5, by decide, Or.inl (by decide +kernel)⟩
    · exact ⟨5, by decide, Or.inl (by decide +kernel), Or.inl ⟨5, by decide, Or.inl (by decide +kernel)⟩⟩
  obtain ⟨T, hT⟩ := hs
  refine ⟨T, hT, ?_⟩
  rw [C79_modulus 3 (by norm_num) _ _ _ _ _ _ noMovesF, hT]
  rfl

end cases

end OpenPile.Props.ForceUnit

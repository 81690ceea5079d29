/-
C71: axial and lateral loading do not influence one another.
-/
import Verif.Props.Mirror
import Verif.Props.Reported

namespace OpenPile.Props.Decouple
open OpenPile.Kernel OpenPile.Winkler OpenPile.Spring OpenPile.Props.Solve OpenPile.Spec.Kernel OpenPile.Props.Mirror
open OpenPile.Props.SoilStiffness Matrix

variable {K : Type} [Field K] [LinearOrder K] [IsStrictOrderedRing K]

/-! ### systems with two parts that are not coupled -/

section abstract
variable {ι : Type} [Fintype ι] [DecidableEq ι]

/-- Two vectors agree on the degrees of freedom in `S`. -/
def Agree {α : Type} (S : ι → Prop) (u v : ι → α) : Prop := ∀ i, S i → u i = v i

/-- Two matrices agree on the block of the degrees of freedom in `S`. -/
def SameBlock (S : ι → Prop) (A B : Matrix ι ι K) : Prop := ∀ i j, S i → S j → A i j = B i j

/-- A matrix does not couple the degrees of freedom in `S` with the others. -/
def Apart (S : ι → Prop) (A : Matrix ι ι K) : Prop := ∀ i j, S i ≠ S j → A i j = 0

omit [LinearOrder K] [IsStrictOrderedRing K] [DecidableEq ι] in
theorem mulVec_agree {S : ι → Prop} {A B : Matrix ι ι K} (hAB : SameBlock S A B) (hA : Apart S A) (hB : Apart S B)
    {u v : ι → K} (h : Agree S u v) : Agree S (A *ᵥ u) (B *ᵥ v) := by
  intro i hi
  unfold mulVec dotProduct
  refine Finset.sum_congr rfl (fun j _ => ?_)
  beta_reduce
  by_cases hj : S j
  · rw [hAB i j hi hj, h j hj]
  · have : S i ≠ S j := by simp [hi, hj]
    rw [hA i j this, hB i j this, zero_mul, zero_mul]

omit [LinearOrder K] [IsStrictOrderedRing K] in
/-- The part of the solution in `S` depends on the data in `S` only. -/
theorem solve_agree {S : ι → Prop} {A B : Matrix ι ι K} (hAB : SameBlock S A B) (hA : Apart S A) (hB : Apart S B)
    {F F' U U' : ι → K} {r r' : ι → Bool} (hF : Agree S F F') (hU : Agree S U U') (hr : Agree S r r')
    {u Q u' Q' : ι → K} (h : solveEquations A F U r = some (u, Q)) (h' : solveEquations B F' U' r' = some (u', Q')) :
    Agree S u u' ∧ Agree S Q Q' := by
  classical
  obtain ⟨a1, a2, a3, -⟩ := C15_solution A F U r u Q h
  obtain ⟨b1, b2, b3, -⟩ := C15_solution B F' U' r' u' Q' h'
  have hu : Agree S u u' := by
    by_contra hne
    have hn : solveEquations A F U r = none := by
      rw [C15_fails_iff]
      refine ⟨fun i => if S i then u i - u' i else 0, ?_, ?_, ?_⟩
      · intro h0
        apply hne
        intro i hi
        have := congrFun h0 i
        simp only [if_pos hi, Pi.zero_apply] at this
        linear_combination this
      · intro i hi
        by_cases hs : S i
        · simp only [if_pos hs]
          rw [a2 i hi, b2 i (by rw [← hr i hs, hi]), hU i hs, sub_self]
        · simp only [if_neg hs]
      · intro i hi
        by_cases hs : S i
        · have e1 : (A *ᵥ (fun i => if S i then u i - u' i else 0)) i = (A *ᵥ u) i - (B *ᵥ u') i := by
            unfold mulVec dotProduct
            rw [← Finset.sum_sub_distrib]
            refine Finset.sum_congr rfl (fun j _ => ?_)
            beta_reduce
            by_cases hj : S j
            · rw [if_pos hj, hAB i j hs hj]
              ring
            · have : S i ≠ S j := by simp [hs, hj]
              rw [hA i j this, hB i j this]
              ring
          rw [e1, (a1 i hi).1, (b1 i (by rw [← hr i hs, hi])).1, hF i hs, sub_self]
        · unfold mulVec dotProduct
          refine Finset.sum_eq_zero (fun j _ => ?_)
          beta_reduce
          by_cases hj : S j
          · rw [hA i j (by simp [hs, hj]), zero_mul]
          · rw [if_neg hj, mul_zero]
    rw [hn] at h
    cases h
  refine ⟨hu, fun i hi => ?_⟩
  have := mulVec_agree hAB hA hB hu i hi
  have e1 := a3 i
  have e2 := b3 i
  rw [this, ← e2, hF i hi] at e1
  exact add_left_cancel e1

/-- Two stiffness laws agree on `S` and do not couple `S` with the rest. -/
def Local (S : ι → Prop) (b b' : Kind → (ι → K) → Option (Matrix ι ι K)) : Prop :=
  ∀ kind d d' A A', Agree S d d' → b kind d = some A → b' kind d' = some A' →
    SameBlock S A A' ∧ Apart S A ∧ Apart S A'

omit [IsStrictOrderedRing K] in
/-- A converged loop has taken at least one further step. -/
theorem loop_later (build : Kind → (ι → K) → Option (Matrix ι ι K)) (F U0 : ι → K) (sup : ι → Bool) (fuel : ℕ) :
    ∀ (it : ℕ) (d : ι → K) (A : Matrix ι ι K) (U Rg Q0 : ι → K) (t0 r0 : K) (d' Q : ι → K) (k : ℕ) (t r : K),
      loop build F U0 sup fuel it d A U Rg Q0 t0 r0 = .converged d' Q k t r → it < k := by
  induction fuel with
  | zero => intro it d A U Rg Q0 t0 r0 d' Q k t r h; simp [loop] at h
  | succ fuel ih =>
    intro it d A U Rg Q0 t0 r0 d' Q k t r h
    rcases hs : solveEquations A Rg U sup with _ | ⟨uInc, Q1⟩
    · simp [loop, hs] at h
    · rw [loop, hs] at h
      simp only at h
      rcases hb : build .secant (fun i => d i + uInc i) with _ | Ks
      · simp [hb] at h
      · rw [hb] at h
        simp only at h
        split at h
        · split at h
          · cases h
          · cases h; omega
        · split at h
          · cases h
          · split at h
            · cases h
            · have := ih _ _ _ _ _ _ _ _ _ _ _ _ _ h
              omega

omit [IsStrictOrderedRing K] in
theorem loop_agree {S : ι → Prop} {b b' : Kind → (ι → K) → Option (Matrix ι ι K)} (hloc : Local S b b')
    {F F' U0 U0' : ι → K} {sup sup' : ι → Bool} (hF : Agree S F F') (hU0 : Agree S U0 U0') (hsup : Agree S sup sup')
    (fuel : ℕ) : ∀ (fuel' it : ℕ) (d d1 : ι → K) (A A1 : Matrix ι ι K) (U U1 Rg Rg1 Q0 Q01 : ι → K) (t0 r0 t01 r01 : K)
      (e Q e' Q' : ι → K) (k : ℕ) (t r t' r' : K), Agree S d d1 → SameBlock S A A1 → Apart S A → Apart S A1 →
      Agree S U U1 → Agree S Rg Rg1 →
      loop b F U0 sup fuel it d A U Rg Q0 t0 r0 = .converged e Q k t r →
      loop b' F' U0' sup' fuel' it d1 A1 U1 Rg1 Q01 t01 r01 = .converged e' Q' k t' r' →
      Agree S e e' ∧ Agree S Q Q' := by
  induction fuel with
  | zero => intro fuel' it d d1 A A1 U U1 Rg Rg1 Q0 Q01 t0 r0 t01 r01 e Q e' Q' k t r t' r' _ _ _ _ _ _ h; simp [loop] at h
  | succ fuel ih =>
    intro fuel' it d d1 A A1 U U1 Rg Rg1 Q0 Q01 t0 r0 t01 r01 e Q e' Q' k t r t' r' hd hA a1 a2 hU hR h h'
    cases fuel' with
    | zero => simp [loop] at h'
    | succ fuel' =>
      rcases hs : solveEquations A Rg U sup with _ | ⟨uInc, Q1⟩
      · simp [loop, hs] at h
      rcases hs' : solveEquations A1 Rg1 U1 sup' with _ | ⟨uInc', Q1'⟩
      · simp [loop, hs'] at h'
      obtain ⟨g1, g2⟩ := solve_agree hA a1 a2 hR hU hsup hs hs'
      rw [loop, hs] at h
      rw [loop, hs'] at h'
      simp only at h h'
      have hd' : Agree S (fun i => d i + uInc i) (fun i => d1 i + uInc' i) := by
        intro i hi
        simp only [hd i hi, g1 i hi]
      rcases hb : b .secant (fun i => d i + uInc i) with _ | Ks
      · simp [hb] at h
      rcases hb' : b' .secant (fun i => d1 i + uInc' i) with _ | Ks'
      · simp [hb'] at h'
      rw [hb] at h
      rw [hb'] at h'
      simp only at h h'
      obtain ⟨c1, c2, c3⟩ := hloc _ _ _ _ _ hd' hb hb'
      have hR' : Agree S (fun i => F i - Q1 i - (Ks *ᵥ fun i => d i + uInc i) i)
          (fun i => F' i - Q1' i - (Ks' *ᵥ fun i => d1 i + uInc' i) i) := by
        intro i hi
        simp only [hF i hi, g2 i hi, mulVec_agree c1 c2 c3 hd' i hi]
      split at h
      · split at h
        · cases h
        · rename_i x uf Qf hf
          cases h
          split at h'
          · split at h'
            · cases h'
            · rename_i x uf' Qf' hf'
              cases h'
              exact ⟨hd', (solve_agree c1 c2 c3 hF hU0 hsup hf hf').2⟩
          · split at h'
            · cases h'
            · split at h'
              · cases h'
              · have := loop_later _ _ _ _ _ _ _ _ _ _ _ _ _ _ _ _ _ _ h'
                omega
      · split at h
        · cases h
        · split at h
          · cases h
          · rename_i x Kt hkt
            have hk := loop_later _ _ _ _ _ _ _ _ _ _ _ _ _ _ _ _ _ _ h
            split at h'
            · split at h'
              · cases h'
              · cases h'
                omega
            · split at h'
              · cases h'
              · rename_i x' Kt' hkt'
                obtain ⟨e1, e2, e3⟩ := hloc _ _ _ _ _ hd' hkt hkt'
                exact ih fuel' _ _ _ _ _ _ _ _ _ _ _ _ _ _ _ _ _ _ _ _ _ _ _ _ hd' e1 e2 e3 (fun _ _ => rfl) hR' h h'

omit [IsStrictOrderedRing K] in
theorem winkler_agree {S : ι → Prop} {b b' : Kind → (ι → K) → Option (Matrix ι ι K)} (hloc : Local S b b')
    {F F' U U' : ι → K} {fix fix' : ι → Bool} (hF : Agree S F F') (hU : Agree S U U') (hfix : Agree S fix fix')
    {m m' k : ℕ} {d Q d' Q' : ι → K} {t r t' r' : K} (h : winkler b F U fix m = .converged d Q k t r)
    (h' : winkler b' F' U' fix' m' = .converged d' Q' k t' r') : Agree S d d' ∧ Agree S Q Q' := by
  unfold winkler at h h'
  split at h
  · cases h
  · rename_i A hA
    split at h'
    · cases h'
    · rename_i A' hA'
      obtain ⟨c1, c2, c3⟩ := hloc _ _ _ _ _ (fun _ _ => rfl) hA hA'
      have hsup : Agree S (fun i => fix i || decide (U i ≠ 0)) (fun i => fix' i || decide (U' i ≠ 0)) := by
        intro i hi
        simp only [hfix i hi, hU i hi]
      exact loop_agree hloc hF hU hsup _ _ _ _ _ _ _ _ _ _ _ _ _ _ _ _ _ _ _ _ _ _ _ _ _ _ (fun _ _ => rfl) c1 c2 c3 hU hF h h'

end abstract

/-! ### piles -/

/-- Degrees of freedom along the axis. -/
def Along {n : ℕ} (r : Fin (3 * n + 3)) : Prop := r.1 % 3 = 0

/-- Degrees of freedom across the axis: deflections and rotations. -/
def Across {n : ℕ} (r : Fin (3 * n + 3)) : Prop := r.1 % 3 ≠ 0

/-- The two element types and element data have the same axial stiffness. -/
def SameBar (e e' : Elem K) : Prop := e.L = e'.L ∧ e.E = e'.E ∧ e.A = e'.A

/-- Springs that agree in everything that acts across the axis. -/
structure SameAcross {n : ℕ} (sp sp' : Springs K n) : Prop where
  py : sp.py = sp'.py
  mt : sp.mt = sp'.mt
  ncol : sp.ncol = sp'.ncol
  hb : sp.hb = sp'.hb
  mb : sp.mb = sp'.mb
  lateral : sp.distributedLateral = sp'.distributedLateral
  moment : sp.distributedMoment = sp'.distributedMoment
  shear : sp.baseShear = sp'.baseShear
  base : sp.baseMoment = sp'.baseMoment

/-- Springs that agree in everything that acts along the axis. -/
structure SameAlong {n : ℕ} (sp sp' : Springs K n) : Prop where
  tz : sp.tz = sp'.tz
  qz : sp.qz = sp'.qz
  axial : sp.distributedAxial = sp'.distributedAxial
  base : sp.baseAxial = sp'.baseAxial

omit [LinearOrder K] [IsStrictOrderedRing K] in
theorem across_entry (ty : ElementType) (e : Elem K) (s s' : SoilK K) (h1 : s.py = s'.py) (h2 : s.mt = s'.mt)
    (a b : Fin 6) (ha : a.1 % 3 ≠ 0) (hb : b.1 % 3 ≠ 0) : elemMatrix ty e s a b = elemMatrix ty e s' a b := by
  have ht : ∀ x y, tzMatrix e.L x y a b = 0 := by
    intro x y
    fin_cases a <;> fin_cases b <;> first | (exfalso; revert ha hb; decide) | simp [tzMatrix]
  simp only [elemMatrix, Matrix.add_apply, ht, h1, h2]

omit [LinearOrder K] [IsStrictOrderedRing K] in
theorem along_entry (ty ty' : ElementType) (e e' : Elem K) (he : SameBar e e') (s s' : SoilK K) (h1 : s.tz = s'.tz)
    (a b : Fin 6) (ha : a.1 % 3 = 0) (hb : b.1 % 3 = 0) : elemMatrix ty e s a b = elemMatrix ty' e' s' a b := by
  obtain ⟨g1, g2, g3⟩ := he
  have ht : ∀ L x y : K, pyMatrix L x y a b = 0 := by
    intro L x y
    fin_cases a <;> fin_cases b <;> first | (exfalso; revert ha hb; decide) | simp [pyMatrix]
  have hm : ∀ ty (e : Elem K) x y, mtMatrix ty e x y a b = 0 := by
    intro ty e x y
    fin_cases a <;> fin_cases b <;> first | (exfalso; revert ha hb; decide) | simp [mtMatrix, mtPattern]
  have hk : mechMatrix ty e a b = mechMatrix ty' e' a b := by
    unfold mechMatrix
    rw [g1, g2, g3]
    fin_cases a <;> fin_cases b <;> first | (exfalso; revert ha hb; decide) | simp [beamMatrix]
  simp only [elemMatrix, Matrix.add_apply, ht, hm, hk, h1, g1]

omit [LinearOrder K] [IsStrictOrderedRing K] in
theorem soil_entry {n : ℕ} (ty ty' : ElementType) (el el' : Fin n → Elem K) (s s' : Fin n → SoilK K)
    (h m q h' m' q' : K) (r c : Fin (3 * n + 3))
    (he : ∀ i (a b : Fin 6), a.1 % 3 = r.1 % 3 → b.1 % 3 = c.1 % 3 →
      elemMatrix ty (el i) (s i) a b = elemMatrix ty' (el' i) (s' i) a b)
    (hb : baseMatrix n h m q r c = baseMatrix n h' m' q' r c) :
    soilStiffness ty n el s h m q r c = soilStiffness ty' n el' s' h' m' q' r c := by
  unfold soilStiffness assemble
  rw [Matrix.add_apply, Matrix.add_apply, Matrix.sum_apply, Matrix.sum_apply, hb]
  congr 1
  refine Finset.sum_congr rfl (fun i _ => ?_)
  unfold place
  split
  · apply he <;> simp only <;> omega
  · rfl

theorem apart_across {n : ℕ} {A : Matrix (Fin (3 * n + 3)) (Fin (3 * n + 3)) K} (h : Uncoupled mirror A) :
    Apart Across A ∧ Apart Along A := by
  have key : ∀ i j : Fin (3 * n + 3), (i.1 % 3 = 0) ≠ (j.1 % 3 = 0) → (mirror i : K) ≠ mirror j := by
    intro i j hij
    unfold mirror
    by_cases h1 : i.1 % 3 = 0
    · have h2 : ¬ j.1 % 3 = 0 := fun h2 => hij (by simp [h1, h2])
      rw [if_pos h1, if_neg h2]
      norm_num
    · have h2 : j.1 % 3 = 0 := by
        by_contra h2
        exact hij (by simp [h1, h2])
      rw [if_neg h1, if_pos h2]
      norm_num
  refine ⟨fun i j hij => h i j (key i j ?_), fun i j hij => h i j (key i j hij)⟩
  intro he
  apply hij
  unfold Across
  simp only [ne_eq, he]

theorem pair_eq {α : Type} {p q : α × α} (h : ∀ b, side p b = side q b) : p = q :=
  Prod.ext (h false) (h true)

/-- The lateral part of the stiffness depends on the lateral displacements and springs only. -/
theorem local_across (ty : ElementType) {n : ℕ} (el : Fin n → Elem K) {sp sp' : Springs K n} (hs : SameAcross sp sp') :
    Local Across (buildStiffness ty el sp) (buildStiffness ty el sp') := by
  intro kind d d' A A' hd hA hA'
  obtain ⟨s, h, m, q, p1, p2, p3, -, rfl⟩ := build_parts ty el sp kind d A hA
  obtain ⟨s', h', m', q', p1', p2', p3', -, rfl⟩ := build_parts ty el sp' kind d' A' hA'
  have d1 : ∀ j : Fin (n + 1), d (dof j 1) = d' (dof j 1) := fun j => hd _ (by
    show (3 * j.1 + 1) % 3 ≠ 0; omega)
  have d2 : ∀ j : Fin (n + 1), d (dof j 2) = d' (dof j 2) := fun j => hd _ (by
    show (3 * j.1 + 2) % 3 ≠ 0; omega)
  have hpy : ∀ e, (s e).py = (s' e).py := by
    intro e
    refine pair_eq (fun b => ?_)
    cases hl : sp.distributedLateral with
    | false => rw [(p1 e).noLateral b hl, (p1' e).noLateral b (hs.lateral ▸ hl)]
    | true =>
      have e1 := (p1 e).lateral b hl
      have e2 := (p1' e).lateral b (hs.lateral ▸ hl)
      rw [← hs.py, ← d1, e1] at e2
      exact Option.some.inj e2
  have hmt : ∀ e, (s e).mt = (s' e).mt := by
    intro e
    refine pair_eq (fun b => ?_)
    cases hl : sp.distributedMoment with
    | false => rw [(p1 e).noMoment b hl, (p1' e).noMoment b (hs.moment ▸ hl)]
    | true =>
      obtain ⟨k1, e1, f1⟩ := (p1 e).moment b hl
      obtain ⟨k2, e2, f2⟩ := (p1' e).moment b (hs.moment ▸ hl)
      rw [← hs.py, ← d1, e1] at e2
      cases e2
      rw [← hs.mt, ← hs.ncol, ← d1, ← d2, f1] at f2
      exact Option.some.inj f2
  have hh : h = h' := by
    rw [← hs.shear, ← hs.hb, ← d1, p2] at p2'
    exact Option.some.inj p2'
  have hm : m = m' := by
    rw [← hs.base, ← hs.mb, ← d2, p3] at p3'
    exact Option.some.inj p3'
  subst hh hm
  refine ⟨?_, (apart_across (stiffness_uncoupled ty el s h m q)).1, (apart_across (stiffness_uncoupled ty el s' h m q')).1⟩
  intro r c hr hc
  refine soil_entry ty ty el el s s' _ _ _ _ _ _ r c (fun i a b ha hb => ?_) ?_
  · exact across_entry ty (el i) _ _ (hpy i) (hmt i) a b (ha ▸ hr) (hb ▸ hc)
  · unfold baseMatrix
    have : ¬ (r.1 = 3 * n ∧ c.1 = 3 * n) := by
      rintro ⟨g, -⟩
      apply hr
      omega
    rw [if_neg this, if_neg this]

/-- The axial part of the stiffness depends on the axial displacements and springs only. -/
theorem local_along (ty ty' : ElementType) {n : ℕ} (el el' : Fin n → Elem K) (he : ∀ i, SameBar (el i) (el' i))
    {sp sp' : Springs K n} (hs : SameAlong sp sp') :
    Local Along (buildStiffness ty el sp) (buildStiffness ty' el' sp') := by
  intro kind d d' A A' hd hA hA'
  obtain ⟨s, h, m, q, p1, -, -, p4, rfl⟩ := build_parts ty el sp kind d A hA
  obtain ⟨s', h', m', q', p1', -, -, p4', rfl⟩ := build_parts ty' el' sp' kind d' A' hA'
  have d0 : ∀ j : Fin (n + 1), d (dof j 0) = d' (dof j 0) := fun j => hd _ (by
    show (3 * j.1 + 0) % 3 = 0; omega)
  have htz : ∀ e, (s e).tz = (s' e).tz := by
    intro e
    refine pair_eq (fun b => ?_)
    cases hl : sp.distributedAxial with
    | false => rw [(p1 e).noAxial b hl, (p1' e).noAxial b (hs.axial ▸ hl)]
    | true =>
      have e1 := (p1 e).axial b hl
      have e2 := (p1' e).axial b (hs.axial ▸ hl)
      rw [← hs.tz, ← d0, e1] at e2
      exact Option.some.inj e2
  have hq : q = q' := by
    rw [← hs.base, ← hs.qz, ← d0, p4] at p4'
    exact Option.some.inj p4'
  subst hq
  refine ⟨?_, (apart_across (stiffness_uncoupled ty el s h m q)).2, (apart_across (stiffness_uncoupled ty' el' s' h' m' q)).2⟩
  intro r c hr hc
  refine soil_entry ty ty' el el' s s' _ _ _ _ _ _ r c (fun i a b ha hb => ?_) ?_
  · exact along_entry ty ty' (el i) (el' i) (he i) _ _ (htz i) a b (ha.trans hr) (hb.trans hc)
  · unfold baseMatrix
    have h1 : ¬ (r.1 = 3 * n + 1 ∧ c.1 = 3 * n + 1) := by
      rintro ⟨g, -⟩
      unfold Along at hr
      omega
    have h2 : ¬ (r.1 = 3 * n + 2 ∧ c.1 = 3 * n + 2) := by
      rintro ⟨g, -⟩
      unfold Along at hr
      omega
    rw [if_neg h1, if_neg h1, if_neg h2, if_neg h2]

/-- **C71, in soil.** Two analyses of the same pile with the same lateral springs and the same lateral loads, moments,
prescribed displacements and supports; axial springs, loads, settlements and supports may differ.  If both converge
with the same number of iterations, deflections, rotations and lateral reactions are the same.  Missing: other numbers
of iterations, see `C71_violated_iterations`. -/
theorem C71_lateral_partial (ty : ElementType) {n : ℕ} (el : Fin n → Elem K) (sp sp' : Springs K n)
    (hs : SameAcross sp sp') (F F' U U' : Fin (3 * n + 3) → K) (fix fix' : Fin (3 * n + 3) → Bool)
    (hF : Agree Across F F') (hU : Agree Across U U') (hfix : Agree Across fix fix') (m m' k : ℕ)
    (d Q d' Q' : Fin (3 * n + 3) → K) (t r t' r' : K)
    (h : winkler (buildStiffness ty el sp) F U fix m = .converged d Q k t r)
    (h' : winkler (buildStiffness ty el sp') F' U' fix' m' = .converged d' Q' k t' r') :
    Agree Across d d' ∧ Agree Across Q Q' :=
  winkler_agree (local_across ty el hs) hF hU hfix h h'

/-- **C71, in soil, axial direction.** Likewise the settlements and axial reactions do not depend on anything that acts
across the axis: lateral springs, loads, moments and supports, nor on the element type and the bending stiffness. -/
theorem C71_axial_partial (ty ty' : ElementType) {n : ℕ} (el el' : Fin n → Elem K) (he : ∀ i, SameBar (el i) (el' i))
    (sp sp' : Springs K n) (hs : SameAlong sp sp') (F F' U U' : Fin (3 * n + 3) → K)
    (fix fix' : Fin (3 * n + 3) → Bool) (hF : Agree Along F F') (hU : Agree Along U U') (hfix : Agree Along fix fix')
    (m m' k : ℕ) (d Q d' Q' : Fin (3 * n + 3) → K) (t r t' r' : K)
    (h : winkler (buildStiffness ty el sp) F U fix m = .converged d Q k t r)
    (h' : winkler (buildStiffness ty' el' sp') F' U' fix' m' = .converged d' Q' k t' r') :
    Agree Along d d' ∧ Agree Along Q Q' :=
  winkler_agree (local_along ty ty' el el' he hs) hF hU hfix h h'

/-! ### analyses without soil -/

omit [IsStrictOrderedRing K] in
theorem beam_is_soil (ty : ElementType) {n : ℕ} (el : Fin n → Elem K) :
    beamStiffness ty n el = soilStiffness ty n el (fun _ => ⟨(0, 0), (0, 0), (0, 0)⟩) 0 0 0 := by
  have hb : baseMatrix n (0 : K) 0 0 = 0 := by
    ext r c
    unfold baseMatrix
    split_ifs <;> rfl
  unfold beamStiffness soilStiffness
  rw [hb, add_zero]
  congr 1
  funext i
  unfold elemMatrix mtMatrix pyMatrix tzMatrix
  simp

/-- Without soil both directions are independent of one another. -/
theorem beam_agree (ty : ElementType) {n : ℕ} (el : Fin n → Elem K) (S : Fin (3 * n + 3) → Prop)
    (hS : S = Across ∨ S = Along) {F F' U U' : Fin (3 * n + 3) → K} {fix fix' : Fin (3 * n + 3) → Bool}
    (hF : Agree S F F') (hU : Agree S U U') (hfix : Agree S fix fix') {u Q u' Q' : Fin (3 * n + 3) → K}
    {f f' : Fin n → (K × K × K) × (K × K × K)} (h : beam ty el F U fix = some (u, Q, f))
    (h' : beam ty el F' U' fix' = some (u', Q', f')) : Agree S u u' ∧ Agree S Q Q' := by
  have hA : Apart S (beamStiffness ty n el) := by
    rw [beam_is_soil]
    have := apart_across (stiffness_uncoupled ty el (fun _ => ⟨(0, 0), (0, 0), (0, 0)⟩) 0 0 0)
    rcases hS with rfl | rfl
    · exact this.1
    · exact this.2
  unfold beam at h h'
  simp only [Option.map_eq_some_iff, Prod.mk.injEq] at h h'
  obtain ⟨⟨v, R⟩, hs, rfl, rfl, -⟩ := h
  obtain ⟨⟨v', R'⟩, hs', rfl, rfl, -⟩ := h'
  refine solve_agree (fun _ _ _ _ => rfl) hA hA hF hU ?_ hs hs'
  intro i hi
  simp only [hfix i hi, hU i hi]

omit [IsStrictOrderedRing K] in
theorem across_forces (ty : ElementType) {n : ℕ} (el : Fin n → Elem K) {u u' : Fin (3 * n + 3) → K}
    (h : Agree Across u u') (i : Fin n) :
    (sectionForces (el i).L (internalForces ty el u i)).1.2 = (sectionForces (el i).L (internalForces ty el u' i)).1.2 ∧
    (sectionForces (el i).L (internalForces ty el u i)).2.2 = (sectionForces (el i).L (internalForces ty el u' i)).2.2 := by
  have e : ∀ a : Fin 6, a.1 % 3 ≠ 0 → stacked u i a = stacked u' i a := by
    intro a ha
    refine h _ ?_
    show (3 * i.1 + a.1) % 3 ≠ 0
    omega
  have e1 := e 1 (by decide)
  have e2 := e 2 (by decide)
  have e4 := e 4 (by decide)
  have e5 := e 5 (by decide)
  simp only [sectionForces, internalForces, mechMatrix, OpenPile.Props.Element.beam_mulVec]
  simp [e1, e2, e4, e5]

omit [IsStrictOrderedRing K] in
theorem along_forces (ty : ElementType) {n : ℕ} (el : Fin n → Elem K) {u u' : Fin (3 * n + 3) → K}
    (h : Agree Along u u') (i : Fin n) :
    (sectionForces (el i).L (internalForces ty el u i)).1.1 = (sectionForces (el i).L (internalForces ty el u' i)).1.1 ∧
    (sectionForces (el i).L (internalForces ty el u i)).2.1 = (sectionForces (el i).L (internalForces ty el u' i)).2.1 := by
  have e : ∀ a : Fin 6, a.1 % 3 = 0 → stacked u i a = stacked u' i a := by
    intro a ha
    refine h _ ?_
    show (3 * i.1 + a.1) % 3 = 0
    omega
  have e0 := e 0 (by decide)
  have e3 := e 3 (by decide)
  simp only [sectionForces, internalForces, mechMatrix, OpenPile.Props.Element.beam_mulVec]
  simp [e0, e3]

end OpenPile.Props.Decouple

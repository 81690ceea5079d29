/-
Property C116: a pile in stiffer soil gives way less.

`winkler.py` 502-637 (`winkler`), `kernel.py` 717-787 (stiffness) and 790-852 (`solve_equations`), from the tables of results.
Two piles on the same mesh with the same loads are compared while the springs stay on their first branch.
-/
import Verif.Props.ReleaseSoil
import Verif.Props.Switch

namespace OpenPile.Props.StifferSoil
open OpenPile.SoilAnalysis OpenPile.Analysis OpenPile.BC OpenPile.Mesh OpenPile.Kernel OpenPile.Winkler OpenPile.Spring
  OpenPile.Result OpenPile.Assemble OpenPile.Props.SoilAnalysis OpenPile.Props.Analysis OpenPile.Props.SoilTables
  OpenPile.Spec.Kernel OpenPile.Props.Beam OpenPile.Props.Balance OpenPile.Props.Element OpenPile.Props.LinearRange
open OpenPile.Props.Reported (shown tables_exact elementsOn_unique comp virtualWork virtualWork_eq)
open OpenPile.Props.Compliance (energy_sub element_mono Stiffer StifferPile Accepted good_of_accepted MoreHeld still_zero OneLoad
  virtualWork_one)
open OpenPile.Props.SoilStiffness (seenNode Distributed side)
open OpenPile.Props.SoilSupport (MomentRows springs_add extent extent_eq)
open OpenPile.Props.Superpose (OnFirstBranch soil_read' rows_injective build_symmetric)
open Matrix

/-! ### the springs -/

/-- Springs at least as stiff at the outset: each spring in use is in use there as well, with an initial slope that is not
smaller. -/
structure StifferSprings (w w' : Switches) (A A' : Arrays) (n : ℕ) : Prop where
  lateral : w.distributedLateral = true → w'.distributedLateral = true ∧ ∀ e < n, ∀ b k k',
    pyStiffness (A.py e b) .initial 0 = some k → pyStiffness (A'.py e b) .initial 0 = some k' → k ≤ k'
  axial : w.distributedAxial = true → w'.distributedAxial = true ∧ ∀ e < n, ∀ b k k',
    tzStiffness (A.tz e b) .initial 0 = some k → tzStiffness (A'.tz e b) .initial 0 = some k' → k ≤ k'
  rotation : w.distributedMoment = true → w'.distributedMoment = true ∧ ∀ e < n, ∀ b k k',
    mtStiffness (((A.py e b).map (·.2)).zip (A.mt e b)) 15 0 .initial 0 = some k →
    mtStiffness (((A'.py e b).map (·.2)).zip (A'.mt e b)) 15 0 .initial 0 = some k' → k ≤ k'
  baseShear : w.baseShear = true → w'.baseShear = true ∧ ∀ k k',
    baseStiffness A.hb .initial 0 = some k → baseStiffness A'.hb .initial 0 = some k' → k ≤ k'
  baseMoment : w.baseMoment = true → w'.baseMoment = true ∧ ∀ k k',
    baseStiffness A.mb .initial 0 = some k → baseStiffness A'.mb .initial 0 = some k' → k ≤ k'
  baseAxial : w.baseAxial = true → w'.baseAxial = true ∧ ∀ k k',
    baseAxialStiffness A.qz .initial 0 = some k → baseAxialStiffness A'.qz .initial 0 = some k' → k ≤ k'

theorem py_mono (L a b a' b' : ℝ) (hL : 0 < L) (ha : a ≤ a') (hb : b ≤ b') (u : Fin 6 → ℝ) :
    energy (pyMatrix L a b) u ≤ energy (pyMatrix L a' b') u := by
  have h := (C18_nonneg L (a' - a) (b' - b) hL (sub_nonneg.2 ha) (sub_nonneg.2 hb) u).1
  rw [py_energy] at h ⊢
  rw [py_energy]
  linarith

theorem tz_mono (L a b a' b' : ℝ) (hL : 0 < L) (ha : a ≤ a') (hb : b ≤ b') (u : Fin 6 → ℝ) :
    energy (tzMatrix L a b) u ≤ energy (tzMatrix L a' b') u := by
  have h := (C18_nonneg L (a' - a) (b' - b) hL (sub_nonneg.2 ha) (sub_nonneg.2 hb) u).2.1
  rw [tz_energy] at h ⊢
  rw [tz_energy]
  linarith

theorem mt_mono (e e' : Elem ℝ) (a b a' b' : ℝ) (hL : 0 < e.L) (hLL : e'.L = e.L) (ha : a ≤ a') (hb : b ≤ b') (u : Fin 6 → ℝ) :
    energy (mtMatrix .eulerBernoulli e a b) u ≤ energy (mtMatrix .eulerBernoulli e' a' b') u := by
  have h := C18_mt_nonneg_euler e hL (a' - a) (b' - b) (sub_nonneg.2 ha) (sub_nonneg.2 hb) u
  have hc : mtCoeffs .eulerBernoulli e' = mtCoeffs .eulerBernoulli e := by
    simp only [mtCoeffs, hLL]
  rw [mtMatrix_energy] at h ⊢
  rw [mtMatrix_energy, hc]
  linarith

/-- Stiffer springs on a stiffer pile store more energy. -/
theorem soil_mono {ty ty' : ElementType} {n : ℕ} {el el' : Fin n → Elem ℝ} (good : GoodElems ty el) (good' : GoodElems ty' el')
    (hst : ∀ i, Stiffer ty ty' (el i) (el' i) ∧ (el' i).L = (el i).L) {w w' : Switches} {A A' : Arrays}
    (hw : StifferSprings w w' A A' n) (hty : w.distributedMoment = false ∨ ty = .eulerBernoulli)
    (hty' : w'.distributedMoment = false ∨ (ty' = .eulerBernoulli ∧ MomentRows A' n))
    {B B' : Matrix (Fin (3 * n + 3)) (Fin (3 * n + 3)) ℝ}
    (h : buildStiffness ty el (springsOf w A n) .initial 0 = some B)
    (h' : buildStiffness ty' el' (springsOf w' A' n) .initial 0 = some B') (v : Fin (3 * n + 3) → ℝ) :
    energy B v ≤ energy B' v := by
  obtain ⟨s, hh, m, q, hd, h1, h2, h3, he⟩ := SoilStiffness.C53_springs ty el _ _ _ B h
  obtain ⟨s', hh', m', q', hd', h1', h2', h3', he'⟩ := SoilStiffness.C53_springs ty' el' _ _ _ B' h'
  have base : ∀ (c c' : Bool) (o o' : Option ℝ) (k k' : ℝ),
      (c = true → c' = true ∧ ∀ k k', o = some k → o' = some k' → k ≤ k') → (∀ k, o' = some k → 0 ≤ k) →
      (if c then o else some 0) = some k → (if c' then o' else some 0) = some k' → k ≤ k' := by
    intro c c' o o' k k' hc ho hk hk'
    cases c
    · obtain rfl : 0 = k := Option.some.inj (by simpa using hk)
      cases c'
      · obtain rfl : 0 = k' := Option.some.inj (by simpa using hk')
        exact le_rfl
      · exact ho k' (by simpa using hk')
    · obtain ⟨rfl, hl⟩ := hc rfl
      exact hl k k' (by simpa using hk) (by simpa using hk')
  have p1 : hh ≤ hh' := base _ _ _ _ _ _ hw.baseShear (fun k hk => Props.Spring.C24_nonneg _ _ _ _ (.inr (.inl hk))) h1 h1'
  have p2 : m ≤ m' := base _ _ _ _ _ _ hw.baseMoment (fun k hk => Props.Spring.C24_nonneg _ _ _ _ (.inr (.inl hk))) h2 h2'
  have p3 : q ≤ q' :=
    base _ _ _ _ _ _ hw.baseAxial (fun k hk => Props.Spring.C24_nonneg _ _ _ _ (.inr (.inr (.inr hk)))) h3 h3'
  have py : ∀ e b, side (s e).py b ≤ side (s' e).py b := by
    intro e b
    by_cases g : (springsOf w A n).distributedLateral = true
    · obtain ⟨g', hl⟩ := hw.lateral g
      exact hl e.1 e.2 b _ _ ((hd e).lateral b g) ((hd' e).lateral b g')
    · rw [(hd e).noLateral b (by simpa using g)]
      by_cases g' : (springsOf w' A' n).distributedLateral = true
      · exact Props.Spring.C24_nonneg _ _ _ _ (.inl ((hd' e).lateral b g'))
      · rw [(hd' e).noLateral b (by simpa using g')]
  have tz : ∀ e b, side (s e).tz b ≤ side (s' e).tz b := by
    intro e b
    by_cases g : (springsOf w A n).distributedAxial = true
    · obtain ⟨g', hl⟩ := hw.axial g
      exact hl e.1 e.2 b _ _ ((hd e).axial b g) ((hd' e).axial b g')
    · rw [(hd e).noAxial b (by simpa using g)]
      by_cases g' : (springsOf w' A' n).distributedAxial = true
      · exact Props.Spring.C24_nonneg _ _ _ _ (.inr (.inr (.inl ((hd' e).axial b g'))))
      · rw [(hd' e).noAxial b (by simpa using g')]
  have mt : ∀ i, energy (mtMatrix ty (el i) (s i).mt.1 (s i).mt.2) (stacked v i)
      ≤ energy (mtMatrix ty' (el' i) (s' i).mt.1 (s' i).mt.2) (stacked v i) := by
    intro i
    by_cases g0 : (springsOf w A n).distributedMoment = true
    · obtain ⟨g1, hl⟩ := hw.rotation g0
      have g2 : w.distributedMoment = true := g0
      obtain rfl : ty = .eulerBernoulli := by
        rcases hty with h | h
        · rw [g2] at h
          cases h
        · exact h
      obtain ⟨rfl, -⟩ : ty' = .eulerBernoulli ∧ MomentRows A' n := by
        rcases hty' with h | h
        · rw [g1] at h
          cases h
        · exact h
      have each : ∀ b, side (s i).mt b ≤ side (s' i).mt b := by
        intro b
        obtain ⟨c, -, hc⟩ := (hd i).moment b g0
        obtain ⟨c', -, hc'⟩ := (hd' i).moment b g1
        rw [Pi.zero_apply, Pi.zero_apply, mul_zero] at hc hc'
        exact hl i.1 i.2 b _ _ hc hc'
      exact mt_mono _ _ _ _ _ _ (good i).1.L (hst i).2 (each false) (each true) _
    have z : energy (mtMatrix ty (el i) (s i).mt.1 (s i).mt.2) (stacked v i) = 0 := by
      have z1 : (s i).mt.1 = 0 := (hd i).noMoment false (by simpa using g0)
      have z2 : (s i).mt.2 = 0 := (hd i).noMoment true (by simpa using g0)
      rw [z1, z2, mtMatrix_energy]
      simp
    rw [z]
    by_cases g : (springsOf w' A' n).distributedMoment = true
    · rcases hty' with hty | ⟨rfl, hrow⟩
      · rw [show (springsOf w' A' n).distributedMoment = w'.distributedMoment from rfl, hty] at g
        cases g
      · have mt : ∀ b, 0 ≤ side (s' i).mt b := by
          intro b
          obtain ⟨k, -, hk⟩ := (hd' i).moment b g
          refine Props.Spring.C24_mt_nonneg _ _ (by simp [springsOf]) _ _ _ _ ?_ hk
          intro r hr z hz
          have : r.2 ∈ A'.mt i.1 b := (List.of_mem_zip (show (r.1, r.2) ∈ _ from hr)).2
          exact hrow i.1 i.2 b _ this z hz
        exact C18_mt_nonneg_euler (el' i) (good' i).1.L _ _ (mt false) (mt true) _
    · have z1 : (s' i).mt.1 = 0 := (hd' i).noMoment false (by simpa using g)
      have z2 : (s' i).mt.2 = 0 := (hd' i).noMoment true (by simpa using g)
      rw [z1, z2, mtMatrix_energy]
      simp
  rw [he, he']
  refine add_le_add (Finset.sum_le_sum fun i _ => ?_) ?_
  · have e1 := element_mono ty ty' (el i) (el' i) (good i).1 (good' i).1 (good i).2 (good' i).2 (hst i).2 (hst i).1 (stacked v i)
    have e2 := py_mono (el i).L _ _ _ _ (good i).1.L (py i false) (py i true) (stacked v i)
    have e3 := tz_mono (el i).L _ _ _ _ (good i).1.L (tz i false) (tz i true) (stacked v i)
    have e4 := mt i
    rw [← (hst i).2] at e2 e3
    have e2' : energy (pyMatrix (el i).L (s i).py.1 (s i).py.2) (stacked v i)
        ≤ energy (pyMatrix (el' i).L (s' i).py.1 (s' i).py.2) (stacked v i) := by
      rw [← (hst i).2]
      exact e2
    have e3' : energy (tzMatrix (el i).L (s i).tz.1 (s i).tz.2) (stacked v i)
        ≤ energy (tzMatrix (el' i).L (s' i).tz.1 (s' i).tz.2) (stacked v i) := by
      rw [← (hst i).2]
      exact e3
    linarith
  · exact add_le_add (add_le_add (mul_le_mul_of_nonneg_right p3 (sq_nonneg _)) (mul_le_mul_of_nonneg_right p1 (sq_nonneg _)))
      (mul_le_mul_of_nonneg_right p2 (sq_nonneg _))

/-! ### in the solver -/

/-- Two converged analyses whose secant stiffnesses are ordered where they end. -/
theorem converged_order {n : ℕ} {build build' : Kind → (Fin n → ℝ) → Option (Matrix (Fin n) (Fin n) ℝ)} {F : Fin n → ℝ}
    {R R' : Fin n → Bool} (hR : ∀ i, R i = true → R' i = true) {m m' : ℕ} {u Q u' Q' : Fin n → ℝ} {it it' : ℕ}
    {tolSq resSq tolSq' resSq' : ℝ} (h : winkler build F 0 R m = .converged u Q it tolSq resSq)
    (h' : winkler build' F 0 R' m' = .converged u' Q' it' tolSq' resSq') {B B' : Matrix (Fin n) (Fin n) ℝ}
    (hB : build .secant u = some B) (hB' : build' .secant u' = some B') (hs : Bᵀ = B) (hpos : ∀ v, 0 ≤ energy B v)
    (hle : ∀ v, energy B v ≤ energy B' v) :
    -(Real.sqrt (∑ i, u' i ^ 2) * Real.sqrt resSq') ≤ ∑ i, F i * u' i ∧
    ∑ i, F i * u' i ≤ ∑ i, F i * u i + Real.sqrt (∑ i, u' i ^ 2) * Real.sqrt resSq'
      + (2 * Real.sqrt (∑ i, u' i ^ 2) + Real.sqrt (∑ i, u i ^ 2)) * Real.sqrt resSq := by
  obtain ⟨-, -, -, hd, -⟩ := Winkler.C26_converged build F 0 R m u Q it tolSq resSq h
  obtain ⟨-, -, -, hd', -⟩ := Winkler.C26_converged build' F 0 R' m' u' Q' it' tolSq' resSq' h'
  obtain ⟨-, K, hK, hw⟩ := residual_work _ F 0 R m u Q it tolSq resSq h
  obtain ⟨-, K', hK', hw'⟩ := residual_work _ F 0 R' m' u' Q' it' tolSq' resSq' h'
  obtain rfl : B = K := Option.some.inj (hB.symm.trans hK)
  obtain rfl : B' = K' := Option.some.inj (hB'.symm.trans hK')
  have z : ∀ i, R i = true → u i = 0 := fun i hi => hd i (.inl hi)
  have z' : ∀ i, R' i = true → u' i = 0 := fun i hi => hd' i (.inl hi)
  have bound : ∀ (S : Fin n → Bool) (M : Matrix (Fin n) (Fin n) ℝ) (x : Fin n → ℝ) (r : ℝ),
      (∀ v : Fin n → ℝ, (∀ i, S i = true ∨ (0 : Fin n → ℝ) i ≠ 0 → v i = 0) →
        (∑ i, v i * F i - work M v x) ^ 2 ≤ (∑ i, v i ^ 2) * r) →
      ∀ v : Fin n → ℝ, (∀ i, S i = true → v i = 0) → |∑ i, F i * v i - work M v x| ≤ Real.sqrt (∑ i, v i ^ 2) * Real.sqrt r := by
    intro S M x r hb v hv
    have := Real.abs_le_sqrt (hb v (by
      rintro i (hi | hi)
      · exact hv i hi
      · exact absurd rfl hi))
    rw [Real.sqrt_mul (Finset.sum_nonneg (fun i _ => sq_nonneg _))] at this
    have ec : ∑ i, v i * F i = ∑ i, F i * v i := Finset.sum_congr rfl (fun i _ => mul_comm _ _)
    rw [ec] at this
    exact this
  have b1 := abs_le.1 (bound R B u resSq hw u z)
  have b2 := abs_le.1 (bound R B u resSq hw u' (fun i hi => z' i (hR i hi)))
  have b3 := abs_le.1 (bound R' B' u' resSq' hw' u' z')
  have h1 := hpos (u' - u)
  rw [energy_sub B hs] at h1
  have h2 := hle u'
  have h3 := hpos u'
  unfold energy at h1 h2 h3
  constructor
  · linarith [b3.1, b3.2]
  · nlinarith [b1.1, b1.2, b2.1, b2.2, b3.1, b3.2]

/-! ### in the tables -/

/-- **C116, from the tables (partial).** Two analyses with soil on the same mesh with the same loads and no prescribed
displacement.  In the second the pile and every spring are at least as stiff and more may be held.  While the springs stay
on their first branch, the loads do at most the work they do in the softer soil, up to the reported residuals times the sizes of
the displacements.  Partial: first branch only, and rotational springs along the shaft only with Euler-Bernoulli elements and
tables that go on from the origin to a positive rotation. -/
theorem C116_tables_partial (ty ty' : ElementType) (p p' : Pile.Pile ℝ) (top tip : ℝ)
    (hp : Accepted ty p top tip) (hp' : Accepted ty' p' top tip) (hst : StifferPile Real.pi ty ty' p p') (C : Coordinates ℝ)
    (h : MeshOn p top tip C) (h' : MeshOn p' top tip C) (bcs bcs' : List (Cond ℝ)) (hb : MoreHeld C.nodes bcs bcs')
    (w w' : Switches) (A A' : Arrays) (hsp : StifferSprings w w' A A' C.elements.length)
    (hty : w.distributedMoment = false ∨ (ty = .eulerBernoulli ∧ MomentRows A C.elements.length))
    (hty' : w'.distributedMoment = false ∨ (ty' = .eulerBernoulli ∧ MomentRows A' C.elements.length))
    (t t' : SoilTables) (ht : solveSoilOn ty p C w A bcs 100 = some (.numbers t))
    (ht' : solveSoilOn ty' p' C w' A' bcs' 100 = some (.numbers t'))
    (first : OnFirstBranch w A C.elements.length (t.disp.map (·.2)))
    (first' : OnFirstBranch w' A' C.elements.length (t'.disp.map (·.2))) :
    ∃ g, globalForces C.nodes bcs = .ok g ∧ -(extent t'.disp * t'.error) ≤ virtualWork g t'.disp ∧
      virtualWork g t'.disp ≤ virtualWork g t.disp + extent t'.disp * t'.error
        + (2 * extent t'.disp + extent t.disp) * t.error := by
  obtain ⟨z, el, F, U, R, g, gU, gR, u, Q, tolSq, resSq, n1, hz, anti, hel, gF, hU, hR, cF, cU, cR, hs, htab, er, p0⟩ :=
    soil_read' hp.stack h ht
  obtain ⟨z', el', F', U', R', g', gU', gR', u', Q', tolSq', resSq', -, hz', -, hel', gF', hU', hR', cF', cU', cR', hs', htab',
    er', p0'⟩ := soil_read' hp'.stack h' ht'
  obtain rfl : z = z' := List.ofFn_injective (hz ▸ hz')
  obtain ⟨T, y, t2, -⟩ := tables_exact ty n1 z el u Q
  obtain ⟨T', y', t2', -⟩ := tables_exact ty' n1 z el' u' Q'
  rw [hz] at htab htab'
  obtain rfl : T = t.toTables := Option.some.inj (y.symm.trans htab)
  obtain rfl : T' = t'.toTables := Option.some.inj (y'.symm.trans htab')
  have zU := still_zero (fun c hc => hb.still c (List.mem_append_left _ hc)) hU cU
  have zU' := still_zero (fun c hc => hb.still c (List.mem_append_right _ hc)) hU' cU'
  have hgg : g = g' := by
    have := hb.loads
    rw [gF, gF'] at this
    exact Except.ok.inj this
  have hFF : F = F' := by
    funext r
    obtain ⟨j, c, rfl⟩ := dof_surjective r
    have := (cF c).symm.trans (hgg ▸ cF' c)
    exact congrFun (List.ofFn_injective this) j
  subst zU zU' hFF hgg
  have good := good_of_accepted Real.pi_pos hp anti hel
  have good' := good_of_accepted Real.pi_pos hp' anti hel'
  have hsub : ∀ i, R i = true → R' i = true := by
    intro r hr
    obtain ⟨j, c, rfl⟩ := dof_surjective r
    have e1 : (gR.get (axisOf c))[j.1]? = some true := by
      rw [cR, List.getElem?_ofFn, dif_pos j.2, ← hr]
    have e2 := hb.supports gR gR' _ _ hR hR' e1
    rw [cR', List.getElem?_ofFn, dif_pos j.2] at e2
    exact Option.some.inj e2
  have hstiff : ∀ i, Stiffer ty ty' (el i) (el' i) ∧ (el' i).L = (el i).L := by
    intro i
    have hi := anti (Fin.castSucc_lt_succ (i := i))
    obtain ⟨a, ha, ea⟩ := hel i
    obtain ⟨a', ha', ea'⟩ := hel' i
    have ma : a ∈ p.sections.filter (fun s => decide (z i.castSucc ≤ s.top ∧ z i.succ ≥ s.bottom)) := by rw [ha]; simp
    have ma' : a' ∈ p'.sections.filter (fun s => decide (z i.castSucc ≤ s.top ∧ z i.succ ≥ s.bottom)) := by
      rw [ha']; simp
    rw [List.mem_filter, decide_eq_true_eq] at ma ma'
    have := hst a ma.1 a' ma'.1 (lt_of_le_of_lt (max_le ma.2.2 ma'.2.2) (lt_of_lt_of_le hi (le_min ma.2.1 ma'.2.1)))
    rw [ea, ea']
    exact ⟨⟨this.axial, this.bending, this.shear⟩, rfl⟩
  have small : SmallMotions (springsOf w A C.elements.length) u := by
    obtain ⟨d, hd, hs⟩ := first
    rw [t2, List.map_ofFn] at hd
    exact rows_injective hd ▸ hs
  have small' : SmallMotions (springsOf w' A' C.elements.length) u' := by
    obtain ⟨d, hd, hs⟩ := first'
    rw [t2', List.map_ofFn] at hd
    exact rows_injective hd ▸ hs
  obtain ⟨-, B, hB, -⟩ := residual_work _ F 0 R 100 u Q _ tolSq resSq hs
  obtain ⟨-, B', hB', -⟩ := residual_work _ F 0 R' 100 u' Q' _ tolSq' resSq' hs'
  have key := converged_order hsub hs hs' hB hB' (build_symmetric hB)
    (fun v => ((C19_nonneg_partial ty el (fun _ => ⟨(0, 0), (0, 0), (0, 0)⟩) 0 0 0 good
      ⟨fun _ => ⟨⟨le_rfl, le_rfl⟩, ⟨le_rfl, le_rfl⟩, ⟨le_rfl, le_rfl⟩, fun _ => .inl ⟨rfl, rfl⟩⟩, le_rfl, le_rfl, le_rfl⟩ v).2).trans
      (springs_add good hty hB v))
    (fun v => soil_mono good good' hstiff hsp (hty.imp_right (·.1)) hty' (by rw [← build_first_mt _ _ _ u small .secant]; exact hB)
      (by rw [← build_first_mt _ _ _ u' small' .secant]; exact hB') v)
  refine ⟨g, gF, ?_⟩
  rw [t2, t2', virtualWork_eq z g F u cF, virtualWork_eq z g F u' cF, extent_eq, extent_eq, er, er']
  exact key

/-- **C116, for a single lateral load (partial).** The loaded node moves at most as far as in the softer soil, up to the
reported residuals times the sizes of the displacements over the load. -/
theorem C116_deflection_partial (ty : ElementType) (p : Pile.Pile ℝ) (top tip : ℝ) (hp : Accepted ty p top tip)
    (C : Coordinates ℝ) (h : MeshOn p top tip C) (calls : List (Call ℝ)) (hc : ∀ k ∈ calls, Spec.BC.kind k ≠ .displacement)
    (w w' : Switches) (A A' : Arrays) (hsp : StifferSprings w w' A A' C.elements.length)
    (hty : w.distributedMoment = false ∨ (ty = .eulerBernoulli ∧ MomentRows A C.elements.length))
    (hty' : w'.distributedMoment = false ∨ (ty = .eulerBernoulli ∧ MomentRows A' C.elements.length))
    (t t' : SoilTables) (ht : solveSoilOn ty p C w A (run [] calls) 100 = some (.numbers t))
    (ht' : solveSoilOn ty p C w' A' (run [] calls) 100 = some (.numbers t'))
    (first : OnFirstBranch w A C.elements.length (t.disp.map (·.2)))
    (first' : OnFirstBranch w' A' C.elements.length (t'.disp.map (·.2)))
    (g : Nodal ℤ) (hg : globalForces C.nodes (run [] calls) = .ok g) (i : ℕ) (H : ℤ) (hH : 0 < H)
    (hone : OneLoad C.nodes.length g i H) :
    ∃ x u u', C.nodes[i]? = some x ∧ (∃ a b, t.disp[i]? = some (x, a, u, b)) ∧ (∃ a b, t'.disp[i]? = some (x, a, u', b)) ∧
      -(extent t'.disp * t'.error / H) ≤ u' ∧
      u' ≤ u + (extent t'.disp * t'.error + (2 * extent t'.disp + extent t.disp) * t.error) / H := by
  have hm := Compliance.moreHeld_calls C.nodes calls [] hc (fun k hk => by cases hk)
  rw [List.append_nil] at hm
  obtain ⟨g', hg', w0, w1⟩ := C116_tables_partial ty ty p p top tip hp hp (SoilSupport.stiffer_refl Real.pi ty hp.stack) C h h _ _
    hm w w' A A' hsp hty hty' t t' ht ht' first first'
  rw [hg] at hg'
  obtain rfl : g = g' := Except.ok.inj hg'
  have names : ∀ (v : Switches) (V : Arrays) (s : SoilTables), solveSoilOn ty p C v V (run [] calls) 100 = some (.numbers s) →
      s.disp.map (·.1) = C.nodes := by
    intro v V s hs
    obtain ⟨n, z', el', F', U', R', g', gU', gR', d', Q', tolSq, resSq, -, hz', -, hel', gF', hU', hR', cF', cU', cR', hw, -,
      hd, he, -⟩ := soil_read hp.stack h hs
    rw [hd, hz', List.map_ofFn]
    rfl
  have n1 := names w A t ht
  have n2 := names w' A' t' ht'
  obtain ⟨r, hr, e⟩ := virtualWork_one C.nodes.length g i H hone t.disp (by rw [← n1, List.length_map])
  obtain ⟨r', hr', e'⟩ := virtualWork_one C.nodes.length g i H hone t'.disp (by rw [← n2, List.length_map])
  rw [e'] at w0
  rw [e, e'] at w1
  have hH' : (0 : ℝ) < H := by exact_mod_cast hH
  have x1 : C.nodes[i]? = some r.1 := by rw [← n1, List.getElem?_map, hr]; rfl
  have x2 : C.nodes[i]? = some r'.1 := by rw [← n2, List.getElem?_map, hr']; rfl
  have hx : r'.1 = r.1 := by
    rw [x1] at x2
    exact (Option.some.inj x2).symm
  refine ⟨r.1, r.2.2.1, r'.2.2.1, x1, ⟨r.2.1, r.2.2.2, hr⟩, ⟨r'.2.1, r'.2.2.2, by rw [hr', ← hx]⟩, ?_, ?_⟩
  · rw [← neg_div, div_le_iff₀ hH']
    linarith
  · rw [← sub_le_iff_le_add', le_div_iff₀ hH']
    linarith

/-! ### switching springs on -/

open OpenPile.Props.Switch (Fewer keep C100_springs)

theorem stiffer_on (v w : Switches) (h : Fewer v w) (hv : v.distributedMoment = true → v.distributedLateral = true) (A : Arrays) (n : ℕ) :
    StifferSprings v w (keep v A) A n := by
  have same : ∀ (o o' : Option ℝ) k k', o = o' → o = some k → o' = some k' → k ≤ k' := by
    rintro o _ k k' rfl h h'
    exact (Option.some.inj (h.symm.trans h')).le
  refine ⟨fun g => ⟨h.lateral g, fun e _ b k k' => same _ _ k k' ?_⟩, fun g => ⟨h.axial g, fun e _ b k k' => same _ _ k k' ?_⟩,
    fun g => ⟨h.moment g, fun e _ b k k' => same _ _ k k' ?_⟩, fun g => ⟨h.shear g, fun k k' => same _ _ k k' ?_⟩,
    fun g => ⟨h.base g, fun k k' => same _ _ k k' ?_⟩, fun g => ⟨h.tip g, fun k k' => same _ _ k k' ?_⟩⟩
  · simp only [keep, g, if_true]
  · simp only [keep, g, if_true]
  · simp only [keep, g, hv g, if_true]
  · simp only [keep, g, if_true]
  · simp only [keep, g, if_true]
  · simp only [keep, g, if_true]

/-- **C116, switches (partial).** A Model with some of its kinds of springs switched off and the Model with more of them
switched on, loaded and supported by the same calls.  While the springs stay on their first branch, the loads do at most the
work they do with fewer springs, up to the reported residuals times the sizes of the displacements. -/
theorem C116_switches_partial (ty : ElementType) (p : Pile.Pile ℝ) (top tip : ℝ) (hp : Accepted ty p top tip)
    (sp : SoilProfile) (x2mesh : List ℝ) (c : ℝ) (v w : Switches) (hvw : Fewer v w)
    (hv : v.distributedMoment = true → v.distributedLateral = true) (table : List (ℝ × Pile.Section ℝ)) (env : Draws)
    (C : Coordinates ℝ) (hC : getCoordinates p (some sp.geometry) x2mesh c = some C) (h : MeshOn p top tip C) (A : Arrays)
    (hA : modelSprings p sp x2mesh c w table env = some A)
    (hty : w.distributedMoment = false ∨ (ty = .eulerBernoulli ∧ MomentRows A C.elements.length))
    (calls : List (Call ℝ)) (hc : ∀ k ∈ calls, Spec.BC.kind k ≠ .displacement) (t t' : SoilTables)
    (ht : solveSoil ty p sp x2mesh c v table env (run [] calls) = some (.numbers t))
    (ht' : solveSoil ty p sp x2mesh c w table env (run [] calls) = some (.numbers t'))
    (first : OnFirstBranch v A C.elements.length (t.disp.map (·.2)))
    (first' : OnFirstBranch w A C.elements.length (t'.disp.map (·.2))) :
    ∃ g, globalForces C.nodes (run [] calls) = .ok g ∧ -(extent t'.disp * t'.error) ≤ virtualWork g t'.disp ∧
      virtualWork g t'.disp ≤ virtualWork g t.disp + extent t'.disp * t'.error
        + (2 * extent t'.disp + extent t.disp) * t.error := by
  have hA' := C100_springs p sp x2mesh c v w hvw table env A hA
  unfold solveSoil at ht ht'
  simp only [hC, hA', Option.bind_eq_bind, Option.bind_some] at ht
  simp only [hC, hA, Option.bind_eq_bind, Option.bind_some] at ht'
  have hm := Compliance.moreHeld_calls C.nodes calls [] hc (fun k hk => by cases hk)
  rw [List.append_nil] at hm
  refine C116_tables_partial ty ty p p top tip hp hp (SoilSupport.stiffer_refl Real.pi ty hp.stack) C h h _ _ hm v w (keep v A) A
    (stiffer_on v w hvw hv A _) ?_ hty t t' ht ht' ?_ first'
  · rcases g : v.distributedMoment with _ | _
    · exact .inl rfl
    · rcases hty with hty | ⟨h1, h2⟩
      · rw [hvw.moment g] at hty
        cases hty
      · refine .inr ⟨h1, ?_⟩
        simp only [keep, g, if_true]
        exact h2
  · obtain ⟨d, hd, hs⟩ := first
    refine ⟨d, hd, ?_⟩
    obtain ⟨⟨a1, a2, a3, a4, a5, a6⟩, a7⟩ := hs
    refine ⟨⟨fun g => ?_, fun g => ?_, a3, fun g => ?_, fun g => ?_, fun g => ?_⟩, fun g => ?_⟩
    · have g' : v.distributedLateral = true := g
      simpa only [springsOf, keep, g', if_true] using a1 g
    · have g' : v.distributedAxial = true := g
      simpa only [springsOf, keep, g', if_true] using a2 g
    · have g' : v.baseShear = true := g
      simpa only [springsOf, keep, g', if_true] using a4 g
    · have g' : v.baseMoment = true := g
      simpa only [springsOf, keep, g', if_true] using a5 g
    · have g' : v.baseAxial = true := g
      simpa only [springsOf, keep, g', if_true] using a6 g
    · have g' : v.distributedMoment = true := g
      simpa only [springsOf, keep, g', hv g', if_true] using a7 g

/-! ### analyses that meet the hypotheses -/

open OpenPile.Props.SoilSupport (idx0 idx1 acceptedT stiffT readT callsT runT forcesT dispT heldT fixT loadT supT soilHeldT)

/-- Lateral springs of `k` kN/m per metre, a tip spring of 10 kN/m. -/
noncomputable def arraysK (k : ℝ) : Arrays where
  py := fun _ _ => [(0, 0), (1, k)]
  mt := fun _ _ => [[(0, 0)], [(0, 0)]]
  tz := fun _ _ => zeros
  hb := zeros
  mb := zeros
  qz := [(1, 10), (0, 0), (-1, -10)]

noncomputable def matK (k : ℝ) : Matrix (Fin (3 * 1 + 3)) (Fin (3 * 1 + 3)) ℝ :=
  soilStiffness .eulerBernoulli 1 elS (fun _ => ⟨(k, k), (0, 0), (0, 0)⟩) 0 0 10

theorem initK (k : ℝ) (k0 : 0 < k) : buildStiffness .eulerBernoulli elS (springsOf switchesS (arraysK k) 1) .initial 0 = some (matK k) := by
  obtain ⟨z1, z2, z3, z4⟩ := NoModels.zeros_sums
  have h1 : soilAt (springsOf switchesS (arraysK k) 1) .initial 0 = fun _ => some ⟨(k, k), (0, 0), (0, 0)⟩ := by
    funext e
    have hp : ∀ b, pyAt (springsOf switchesS (arraysK k) 1) .initial 0 e b = some k := by
      intro b
      unfold pyAt
      rw [SoilStiffness.springDisp_seen]
      simp [springsOf, switchesS, arraysK, pyStiffness, curveStiffness, absQuot, abs_of_pos k0]
    have ht : ∀ b, tzAt (springsOf switchesS (arraysK k) 1) .initial 0 e b = some 0 := by
      intro b
      unfold tzAt
      rw [SoilStiffness.springDisp_seen]
      simp [springsOf, switchesS, arraysK, tzStiffness, z3]
    unfold soilAt
    simp only [hp, ht]
    simp [springsOf, switchesS, mtAt]
  have h2 : allSome (soilAt (springsOf switchesS (arraysK k) 1) .initial 0)
      = some (fun _ => ⟨(k, k), (0, 0), (0, 0)⟩) := by
    rw [h1]
    simp [allSome]
  have h3 : zeroIndex 3 = 1 := by decide
  have h4 : baseAxialStiffness (K := ℝ) [(1, 10), (0, 0), (-1, -10)] .initial 0 = some 10 := by
    simp [baseAxialStiffness, axialCurveStiffness, absQuot, h3]
  have h5 : baseStiffness zeros .initial (0 : ℝ) = some 0 := by
    unfold baseStiffness
    rw [if_pos z2]
  unfold buildStiffness
  rw [h2]
  simp [springsOf, switchesS, arraysK, matK, h4, h5]

/-- The pile of one element in these springs, analysed with displacements up to 1 m and no rotation of the head. -/
theorem numbersK (k : ℝ) (k0 : 0 < k) (bcs : List (Cond ℝ)) {g : Nodal ℤ} {gU : Nodal ℝ} {gR : Nodal Bool} {F U u Q : Fin (3 * 1 + 3) → ℝ}
    {R : Fin (3 * 1 + 3) → Bool} (h1 : globalForces meshS.nodes bcs = .ok g) (h2 : globalDisp meshS.nodes bcs = .ok gU)
    (h3 : globalRestrained meshS.nodes bcs = .ok gR) (h4 : asVec 1 ((dofList g).map (fun i : ℤ => (i : ℝ))) = some F)
    (h5 : asVec 1 (dofList gU) = some U) (h6 : asVec 1 (dofList gR) = some R)
    (hsol : solveEquations (matK k) F U (fun i => R i || decide (U i ≠ 0)) = some (u, Q)) (hu : ∀ i, |u i| ≤ 1) (h0 : u 2 = 0)
    (hne : ¬ (F = 0 ∧ Q = 0)) :
    ∃ t, solveSoilOn .eulerBernoulli pileS meshS switchesS (arraysK k) bcs 100 = some (.numbers t) ∧ t.error = 0 ∧
      SmallMotions (springsOf switchesS (arraysK k) 1) u ∧
      t.disp = List.ofFn (fun j : Fin 2 => (![1, 0] j, u (dof j 0), u (dof j 1), u (dof j 2))) ∧
      t.reactions = (List.ofFn (fun j : Fin 2 => ((![1, 0] : Fin 2 → ℝ) j, shown Q j))).filter
        (fun r => r.2.any (fun q => decide (1 / 1000 < |q|))) := by
  obtain ⟨-, -, -, hel⟩ := readT
  obtain ⟨z1, z2, z3, z4⟩ := NoModels.zeros_sums
  have small : SmallMotions (springsOf switchesS (arraysK k) 1) u := by
    refine ⟨⟨fun _ e b => .inr ⟨1, k, [], rfl, ?_, hu _⟩, fun _ _ _ => .inl z3, rfl, fun _ => .inl z2, fun _ => .inl z2, ?_⟩,
      fun h => by cases h⟩
    · simp [springsOf, arraysK, Asc]
    · refine fun _ => .inr ⟨[], 1, 10, 1, 10, [], rfl, rfl, rfl, ?_, rfl, ?_, ?_⟩
      · simp [springsOf, arraysK]
      · exact (abs_le.1 (hu _)).1
      · exact (abs_le.1 (hu _)).2
  obtain ⟨it, tol, -, hw⟩ := (NoModels.C60_linear_exactly .eulerBernoulli elS (springsOf switchesS (arraysK k) 1) F U R (matK k) _ _ (initK k k0) hsol
    small).2 hne
  obtain ⟨T, t1, t2, -, -, t5⟩ := tables_exact .eulerBernoulli (le_refl 1) (![1, 0] : Fin 2 → ℝ) elS u Q
  have hn : meshS.nodes = List.ofFn (![1, 0] : Fin 2 → ℝ) := by simp [meshS]
  have hres : ∃ t, results .eulerBernoulli meshS.nodes elS (springsOf switchesS (arraysK k) 1) u Q it tol 0 = some t ∧
      t.toTables = T ∧ t.error = 0 := by
    have hpy : pyStiffness [((0 : ℝ), (0 : ℝ)), (1, k)] .secant (u 1) = some k := by
      rw [LinearRange.py_first _ _ (.inr ⟨1, k, [], rfl, by simp [Asc], hu 1⟩) .secant]
      simp [pyStiffness, curveStiffness, absQuot, abs_of_pos k0]
    have hrow : ∀ e : ℝ, ∃ r, mobRow e (u 1) 0 [((0 : ℝ), (0 : ℝ)), (1, k)]
        (([((0 : ℝ), (0 : ℝ)), (1, k)].map (·.2)).zip [[(0, 0)], [(0, 0)]]) 15 = some r := by
      intro e
      have hm : mtStiffness (([((0 : ℝ), (0 : ℝ)), (1, k)].map (·.2)).zip [[(0, 0)], [(0, 0)]]) 15
          (u 1 * k) .secant 0 = some 0 := by
        unfold mtStiffness
        simp
      unfold mobRow
      rw [hpy]
      simp only [Option.bind_eq_bind, Option.bind_some, hm]
      simp [maxOf]
    obtain ⟨r1, hr1⟩ := hrow 1
    have hmob : ∃ rows, springsMob (List.ofFn (![1, 0] : Fin 2 → ℝ)) (component u 1) (component u 2)
        (flat 1 (springsOf switchesS (arraysK k) 1).py) (flat 1 (springsOf switchesS (arraysK k) 1).mt) 15 = some rows := by
      have c1 : component u 1 = [u 1, u 4] := by simp [component]
      have c2 : component u 2 = [0, u 5] := by
        rw [← h0]
        simp [component]
      have c3 : List.ofFn (![1, 0] : Fin 2 → ℝ) = [1, 0] := by simp
      have f1 : flat 1 (springsOf switchesS (arraysK k) 1).py = [[(0, 0), (1, k)], [(0, 0), (1, k)]] := by
        simp [flat, springsOf, arraysK]
      have f2 : flat 1 (springsOf switchesS (arraysK k) 1).mt
          = [(([((0 : ℝ), (0 : ℝ)), (1, k)].map (·.2)).zip [[(0, 0)], [(0, 0)]]),
            (([((0 : ℝ), (0 : ℝ)), (1, k)].map (·.2)).zip [[(0, 0)], [(0, 0)]])] := by
        simp [flat, springsOf, arraysK]
      unfold springsMob
      rw [c1, c2, c3, f1, f2, two_nodes, two_nodes, two_nodes]
      simp only [Option.bind_eq_bind, Option.bind_some]
      refine ⟨[r1, r1], ?_⟩
      have hrange : List.range ([(1 : ℝ), 1].length) = [0, 1] := by decide
      rw [hrange]
      simp only [List.mapM_cons, List.mapM_nil, List.getElem?_cons_zero, List.getElem?_cons_succ, Option.bind_some, hr1,
        Option.bind_eq_bind, Option.pure_def]
    obtain ⟨rows, hmob⟩ := hmob
    have e1 : (springsOf switchesS (arraysK k) 1).hb = zeros := rfl
    have e2 : (springsOf switchesS (arraysK k) 1).mb = zeros := rfl
    have e3 : (springsOf switchesS (arraysK k) 1).ncol = 15 := rfl
    unfold results
    rw [hn, t1]
    refine ⟨⟨T, rows, (0, 0), (0, 0), it, Real.sqrt 0, Real.sqrt tol⟩, ?_, rfl, Real.sqrt_zero⟩
    simp only [e3, hmob, e1, e2, NoModels.baseMob_zero, Option.bind_eq_bind, Option.bind_some]
    rfl
  obtain ⟨t, ht, e, e0⟩ := hres
  subst e
  exact ⟨t, solveSoilOn_of (C := meshS) h1 h2 h3 h4 h5 h6 hel hw ht, e0, small, t2, t5⟩

/-- Deflection of the head under 60 kN. -/
noncomputable def headK (k : ℝ) : ℝ := 60 / (12 * (elS 0).E * (elS 0).I + 13 / 35 * k)

noncomputable def uK (k : ℝ) : Fin (3 * 1 + 3) → ℝ := ![0, headK k, 0, 0, 0, 0]

theorem headK_range (k : ℝ) (k0 : 162 ≤ k) : 0 < headK k ∧ headK k ≤ 1 := by
  have h := stiffT
  have h2 : 0 < 12 * (elS 0).E * (elS 0).I + 13 / 35 * k := by nlinarith
  unfold headK
  refine ⟨by positivity, ?_⟩
  rw [div_le_one h2]
  nlinarith

theorem matK_rows (k : ℝ) (k0 : 0 < k) : (matK k *ᵥ uK k) 0 = 0 ∧ (matK k *ᵥ uK k) 1 = 60 := by
  have hL : ∀ i, (elS i).L = 1 := fun i => rfl
  have h2 : 12 * (elS 0).E * (elS 0).I + 13 / 35 * k ≠ 0 := by
    have := stiffT
    nlinarith
  have e : (matK k *ᵥ uK k) 1 = (12 * (elS 0).E * (elS 0).I + 13 / 35 * k) * headK k := by
    unfold matK soilStiffness
    simp [assemble, Kernel.place, baseMatrix, mulVec, dotProduct, Fin.sum_univ_succ, uK, elemMatrix,
      mechMatrix, beamMatrix, pyMatrix, tzMatrix, mtMatrix, mtPattern, mtCoeffs, hL, phi, kappa]
    left
    ring
  refine ⟨?_, ?_⟩
  · unfold matK soilStiffness
    simp [assemble, Kernel.place, baseMatrix, mulVec, dotProduct, Fin.sum_univ_succ, uK, elemMatrix,
      mechMatrix, beamMatrix, pyMatrix, tzMatrix, mtMatrix, mtPattern, mtCoeffs, hL]
  · rw [e]
    unfold headK
    rw [mul_div_cancel₀ _ h2]

theorem solveK (k : ℝ) (k0 : 0 < k) : solveEquations (matK k) loadT 0 (fun i => fixT i || decide ((0 : Fin (3 * 1 + 3) → ℝ) i ≠ 0))
    = some (uK k, fun i => (matK k *ᵥ uK k) i - loadT i) := by
  rw [supT]
  refine Solve.solve_eq_some (matK k) loadT 0 _ ?_ (uK k) ?_ ?_
  · exact soilHeldT _ _ (fun _ => ⟨k0.le, k0.le⟩) (fun _ => ⟨rfl, rfl⟩) (by norm_num) _
  · intro i hi
    obtain ⟨h0, h1⟩ := matK_rows k k0
    fin_cases i
    · exact h0
    · exact h1
    all_goals cases hi
  · intro i hi
    fin_cases i
    · cases hi
    · cases hi
    all_goals rfl

theorem solvedK (k : ℝ) (k0 : 162 ≤ k) :
    ∃ t, solveSoilOn .eulerBernoulli pileS meshS switchesS (arraysK k) (run [] callsT) 100 = some (.numbers t) ∧ t.error = 0 ∧
      OnFirstBranch switchesS (arraysK k) 1 (t.disp.map (·.2)) ∧ t.disp[0]? = some (1, 0, headK k, 0) := by
  obtain ⟨hF, hU, hR, -⟩ := readT
  obtain ⟨r0, r1⟩ := headK_range k k0
  obtain ⟨t, h1, h2, h3, h4, -⟩ := numbersK k (by linarith) (run [] callsT) forcesT dispT heldT hF hU hR (solveK k (by linarith)) (by
    intro i
    fin_cases i
    · simp [uK]
    · simp [uK, abs_of_pos r0, r1]
    all_goals simp [uK]) rfl (by
    rintro ⟨h, -⟩
    have := congrFun h 1
    simp [loadT] at this)
  exact ⟨t, h1, h2, ⟨uK k, by rw [h4, List.map_ofFn]; rfl, h3⟩, by rw [h4]; simp [uK, dof]⟩

theorem stifferK (k k' : ℝ) (k0 : 0 < k) (hk : k ≤ k') : StifferSprings switchesS switchesS (arraysK k) (arraysK k') 1 := by
  have hp : ∀ k : ℝ, 0 < k → pyStiffness [((0 : ℝ), (0 : ℝ)), (1, k)] .initial 0 = some k := by
    intro k k0
    simp [pyStiffness, curveStiffness, absQuot, abs_of_pos k0]
  have same : ∀ (o : Option ℝ) k k', o = some k → o = some k' → k ≤ k' := by
    intro o k k' h h'
    exact (Option.some.inj (h.symm.trans h')).le
  refine ⟨fun _ => ⟨rfl, ?_⟩, fun _ => ⟨rfl, fun _ _ _ => same _⟩, (fun h => by cases h), fun _ => ⟨rfl, same _⟩, fun _ => ⟨rfl, same _⟩, fun _ => ⟨rfl, same _⟩⟩
  intro e _ b x x' hx hx'
  rw [show (arraysK k).py e b = [(0, 0), (1, k)] from rfl, hp k k0] at hx
  rw [show (arraysK k').py e b = [(0, 0), (1, k')] from rfl, hp k' (by linarith)] at hx'
  cases hx
  cases hx'
  exact hk

/-- The head of the pile in lateral springs of any two stiffnesses: it moves less in the stiffer ones. -/
example (k k' : ℝ) (k0 : 162 ≤ k) (hk : k ≤ k') :
    ∃ t t', solveSoilOn .eulerBernoulli pileS meshS switchesS (arraysK k) (run [] callsT) 100 = some (.numbers t) ∧
      solveSoilOn .eulerBernoulli pileS meshS switchesS (arraysK k') (run [] callsT) 100 = some (.numbers t') ∧
      ∃ u u', (∃ a b, t.disp[0]? = some (1, a, u, b)) ∧ (∃ a b, t'.disp[0]? = some (1, a, u', b)) ∧ 0 ≤ u' ∧ u' ≤ u := by
  obtain ⟨t, h1, h2, h3, h4⟩ := solvedK k k0
  obtain ⟨t', h1', h2', h3', h4'⟩ := solvedK k' (k0.trans hk)
  refine ⟨t, t', h1, h1', ?_⟩
  obtain ⟨x, u, u', hx, a, b, c, d⟩ := C116_deflection_partial .eulerBernoulli pileS 1 0 acceptedT meshS meshOnS callsT
    (by simp [callsT, Spec.BC.kind]) switchesS switchesS (arraysK k) (arraysK k') (stifferK k k' (by linarith) hk) (.inl rfl) (.inl rfl) t t' h1
    h1' h3 h3' _ forcesT 0 60 (by norm_num)
    ⟨by simp [meshS], by simp [meshS], by simp [meshS], by simp [meshS]⟩
  obtain rfl : 1 = x := Option.some.inj hx
  rw [h2'] at c d
  rw [h2] at d
  simp only [mul_zero, zero_div, neg_zero, add_zero] at c d
  exact ⟨u, u', a, b, c, d⟩

/-- A pile in a profile without soil models, with lateral and tip springs off and on: the hypotheses of the theorem on switches
are met. -/
example (v w : Switches) (hvw : Fewer v w) (hw : w.distributedMoment = false) (table : List (ℝ × Pile.Section ℝ)) (env : Draws) :
    ∃ C t t' g, getCoordinates NoModels.pileN (some NoModels.soilN.geometry) [] 1 = some C ∧
      solveSoil .timoshenko NoModels.pileN NoModels.soilN [] 1 v table env
        (run [] [.pointload 1 (some 100) none none, .support (-10) (some true) (some true) (some true)]) = some (.numbers t) ∧
      solveSoil .timoshenko NoModels.pileN NoModels.soilN [] 1 w table env
        (run [] [.pointload 1 (some 100) none none, .support (-10) (some true) (some true) (some true)]) = some (.numbers t') ∧
      virtualWork g t'.disp ≤ virtualWork g t.disp + extent t'.disp * t'.error + (2 * extent t'.disp + extent t.disp) * t.error := by
  have hset : Weight.Setup NoModels.pileN NoModels.soilN.geometry [] 1 1 (-10) := Assemble.setup_example none none
  have hv : v.distributedMoment = false := by
    rcases g : v.distributedMoment with _ | _
    · rfl
    · rw [hvw.moment g] at hw
      cases hw
  obtain ⟨t, ht, -⟩ := NoModels.solvedN v (fun h => by rw [hv] at h; cases h) table env
  obtain ⟨t', ht', -⟩ := NoModels.solvedN w (fun h => by rw [hw] at h; cases h) table env
  have e : run [] [.pointload 1 (some 100) none none, .support (-10) (some true) (some true) (some true)] = NoModels.bcsN := by
    simp [run, BC.step, setPointload, setSupport, updateBc, Cond.isAt, NoModels.bcsN]
  obtain ⟨C, S, water, hC, hS, -, -, hlay, -⟩ := Assemble.C54_mesh hset w table
  obtain ⟨C', hC', hm⟩ := NoModels.meshOn_setup hset
  rw [hC] at hC'
  cases hC'
  have hA : modelSprings NoModels.pileN NoModels.soilN [] 1 w table env = some Arrays.zero := by
    unfold modelSprings
    rw [hS]
    exact NoModels.create_none (by rw [hlay]; simp [NoModels.soilN])
  have hacc : Accepted .timoshenko NoModels.pileN 1 (-10) := by
    refine ⟨⟨78, 210000000, 3 / 10, ?_⟩, fun _ => by norm_num [NoModels.pileN, Pile.steel], NoModels.stack_setup hset, ?_⟩
    · unfold Pile.mkMaterial
      norm_num [NoModels.pileN, Pile.steel]
    · intro s hs
      simp only [NoModels.pileN, List.mem_cons, List.not_mem_nil, or_false] at hs
      subst hs
      refine ⟨?_, by norm_num⟩
      rw [Pile.built_iff]
      norm_num
  have branch : ∀ (x : Switches) (r : SoilTables), x.distributedMoment = false →
      solveSoil .timoshenko NoModels.pileN NoModels.soilN [] 1 x table env NoModels.bcsN = some (.numbers r) →
      OnFirstBranch x Arrays.zero C.elements.length (r.disp.map (·.2)) := by
    intro x r hx hr
    obtain ⟨D, hD, e', -⟩ := NoModels.solveSoil_none .timoshenko hset (by simp [NoModels.soilN]) x table env NoModels.bcsN
    rw [hC] at hD
    cases hD
    rw [e'] at hr
    obtain ⟨z, el, F, U, R, g, gU, gR, u, Q, tolSq, resSq, n1, hz, -, -, -, -, -, -, -, -, -, htab, -⟩ :=
      soil_read' (NoModels.stack_setup hset) hm hr
    obtain ⟨T, y, t2, -⟩ := tables_exact .timoshenko n1 z el u Q
    rw [hz] at htab
    obtain rfl : T = r.toTables := Option.some.inj (y.symm.trans htab)
    obtain ⟨z1, z2, z3, z4⟩ := NoModels.zeros_sums
    refine ⟨u, by rw [t2, List.map_ofFn]; rfl, ⟨⟨fun _ _ _ => .inl z1, fun _ _ _ => .inl z3, rfl, fun _ => .inl z2,
      fun _ => .inl z2, fun _ => .inl z4⟩, fun h => ?_⟩⟩
    rw [show (springsOf x Arrays.zero C.elements.length).distributedMoment = x.distributedMoment from rfl, hx] at h
    cases h
  obtain ⟨g, -, -, k⟩ := C116_switches_partial .timoshenko NoModels.pileN 1 (-10) hacc NoModels.soilN [] 1 v w hvw
    (fun h => by rw [hv] at h; cases h) table env C hC hm Arrays.zero hA (.inl hw)
    [.pointload 1 (some 100) none none, .support (-10) (some true) (some true) (some true)] (by simp [Spec.BC.kind]) t t'
    (by rw [e]; exact ht) (by rw [e]; exact ht') (branch v t hv ht) (branch w t' hw ht')
  exact ⟨C, t, t', g, hC, by rw [e]; exact ht, by rw [e]; exact ht', k⟩

end OpenPile.Props.StifferSoil

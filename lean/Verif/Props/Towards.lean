/-
C115: a pile in soil moves towards its loads.

`winkler.py` 502-637 (`winkler`), `kernel.py` 717-787 (stiffness), from the tables of results.
-/
import Verif.Props.Superpose

namespace OpenPile.Props.Towards
open OpenPile.SoilAnalysis OpenPile.Analysis OpenPile.BC OpenPile.Mesh OpenPile.Kernel OpenPile.Winkler OpenPile.Spring
  OpenPile.Result OpenPile.Assemble OpenPile.Props.SoilAnalysis OpenPile.Props.Analysis OpenPile.Props.Reported
  OpenPile.Spec.Kernel OpenPile.Props.Beam OpenPile.Props.Balance OpenPile.Props.Element OpenPile.Props.SoilTables
open OpenPile.Props.Compliance (energy_sub Accepted good_of_accepted still_zero)
open OpenPile.Props.SoilSupport (MomentRows springs_add extent extent_eq)
open OpenPile.Props.Superpose (build_symmetric free_iff)
open Matrix

/-! ### matrices without negative energy -/

/-- What costs no energy meets no resistance. -/
theorem no_resistance {n : ℕ} {A : Matrix (Fin n) (Fin n) ℝ} (hA : Aᵀ = A) (hpos : ∀ v, 0 ≤ energy A v) {d : Fin n → ℝ}
    (h0 : energy A d = 0) : A *ᵥ d = 0 := by
  have hw : ∀ v, work A v d = 0 := by
    intro v
    have key : ∀ s : ℝ, 0 ≤ energy A v - 2 * s * work A v d := by
      intro s
      have h1 := hpos (v - s • d)
      rw [energy_sub A hA] at h1
      have e1 : energy A (s • d) = s * s * energy A d := by
        unfold energy work
        rw [mulVec_smul, dotProduct_smul, smul_dotProduct]
        simp only [smul_eq_mul]
        ring
      have e2 : work A v (s • d) = s * work A v d := by
        unfold work
        rw [mulVec_smul, dotProduct_smul]
        rfl
      rw [e1, e2, h0] at h1
      linarith
    by_contra hne
    have := key ((energy A v + 1) / (2 * work A v d))
    rw [show 2 * ((energy A v + 1) / (2 * work A v d)) * work A v d = energy A v + 1 by field_simp] at this
    linarith
  funext i
  have := hw (Pi.single i 1)
  unfold work at this
  rwa [single_one_dotProduct] at this

/-- Loads do no negative work on a converged analysis with stiffnesses of that kind, but for the residual. -/
theorem converged_towards {n : ℕ} {build : Kind → (Fin n → ℝ) → Option (Matrix (Fin n) (Fin n) ℝ)}
    (hsym : ∀ d Ks, build .secant d = some Ks → Ksᵀ = Ks) (hpos : ∀ d Ks, build .secant d = some Ks → ∀ v, 0 ≤ energy Ks v)
    {F : Fin n → ℝ} {R : Fin n → Bool} {maxIter : ℕ} {d Q : Fin n → ℝ} {it : ℕ} {tolSq resSq : ℝ}
    (h : winkler build F 0 R maxIter = .converged d Q it tolSq resSq) :
    -(Real.sqrt (∑ i, d i ^ 2) * Real.sqrt resSq) ≤ ∑ i, F i * d i ∧
    (resSq = 0 → (∃ i, R i = false ∧ F i ≠ 0) → 0 < ∑ i, F i * d i) := by
  obtain ⟨-, -, -, hd, Ks', hK', hsum, -⟩ := Winkler.C26_converged build F 0 R maxIter d Q it tolSq resSq h
  obtain ⟨-, Ks, hK, hw⟩ := residual_work _ F 0 R maxIter d Q it tolSq resSq h
  obtain rfl : Ks = Ks' := Option.some.inj (hK.symm.trans hK')
  have hr := hw d (by
    rintro i (hi | hi)
    · exact hd i (.inl hi)
    · exact absurd rfl hi)
  have hr' := Real.abs_le_sqrt hr
  rw [Real.sqrt_mul (Finset.sum_nonneg (fun i _ => sq_nonneg _)), abs_le] at hr'
  have ec : ∑ i, d i * F i = ∑ i, F i * d i := Finset.sum_congr rfl (fun i _ => mul_comm _ _)
  rw [ec] at hr'
  have h3 := hpos d Ks hK d
  unfold energy at h3
  refine ⟨by linarith [hr'.1], ?_⟩
  rintro rfl ⟨i, hi, hF⟩
  rw [Real.sqrt_zero, mul_zero, neg_zero] at hr'
  have hE : ∑ i, F i * d i = work Ks d d := by linarith [hr'.1, hr'.2]
  rw [hE]
  refine lt_of_le_of_ne h3 (fun h0 => hF ?_)
  have hz := no_resistance (hsym d Ks hK) (hpos d Ks hK) h0.symm
  have := (Finset.sum_eq_zero_iff_of_nonneg (fun i _ => by split_ifs <;> positivity)).1 hsum i (Finset.mem_univ i)
  rw [if_neg (by simp [hi]), hz] at this
  simpa using this

/-! ### in the tables -/

/-- **C115 (partial).** An analysis with soil of an accepted pile with loads and supports and no prescribed displacement, whatever the
spring tables and whether or not supports alone hold the pile.  The loads do no negative work on the listed displacements, up to
the reported residual times the size of the displacements; if the residual is zero and some load acts in a direction that is not held,
they do positive work.  Partial: rotational springs along the shaft only with Euler-Bernoulli elements and tables that go on from the
origin to a positive rotation. -/
theorem C115_work_partial (ty : ElementType) (p : Pile.Pile ℝ) (top tip : ℝ) (hp : Accepted ty p top tip) (C : Coordinates ℝ)
    (h : MeshOn p top tip C) (bcs : List (Cond ℝ)) (hno : ∀ c ∈ bcs, c.cls ≠ .displacement) (w : Switches) (A : Arrays)
    (hty : w.distributedMoment = false ∨ (ty = .eulerBernoulli ∧ MomentRows A C.elements.length)) (t : SoilTables)
    (ht : solveSoilOn ty p C w A bcs 100 = some (.numbers t)) :
    ∃ g, globalForces C.nodes bcs = .ok g ∧ -(extent t.disp * t.error) ≤ virtualWork g t.disp ∧
      (t.error = 0 → (∃ ax i v, At g ax i v ∧ v ≠ 0 ∧ Free C.nodes bcs ax i) → 0 < virtualWork g t.disp) := by
  obtain ⟨z, el, F, U, R, g, gU, gR, d, Q, tolSq, resSq, n1, hz, anti, hel, gF, hU, hR, cF, cU, cR, hw, q, he, p0⟩ :=
    Superpose.soil_read' hp.stack h ht
  obtain ⟨T, y, hd, -⟩ := tables_exact ty n1 z el d Q
  rw [hz] at q
  obtain rfl : T = t.toTables := Option.some.inj (y.symm.trans q)
  generalize C.elements.length = n at *
  obtain rfl := still_zero hno hU cU
  have good := good_of_accepted Real.pi_pos hp anti hel
  have key := converged_towards (fun d Ks hK => build_symmetric hK) (fun d Ks hK v => le_trans
    (C19_nonneg_partial ty el (fun _ => ⟨(0, 0), (0, 0), (0, 0)⟩) 0 0 0 good
      ⟨fun _ => ⟨⟨le_rfl, le_rfl⟩, ⟨le_rfl, le_rfl⟩, ⟨le_rfl, le_rfl⟩, fun _ => .inl ⟨rfl, rfl⟩⟩, le_rfl, le_rfl, le_rfl⟩ v).2
    (springs_add good hty hK v)) hw
  refine ⟨g, gF, ?_⟩
  rw [hd, virtualWork_eq z g F d cF, extent_eq, he]
  refine ⟨key.1, ?_⟩
  rintro e0 ⟨ax, i, v, hv, v0, hf⟩
  refine key.2 ((Real.sqrt_eq_zero p0).1 e0) ?_
  obtain ⟨c, rfl⟩ : ∃ c, ax = axisOf c := by
    cases ax
    · exact ⟨2, rfl⟩
    · exact ⟨1, rfl⟩
    · exact ⟨0, rfl⟩
  have hv' : (List.ofFn (fun j => F (dof j c)))[i]? = some (v : ℝ) := by
    rw [← cF, List.getElem?_map, show (g.get (axisOf c))[i]? = some v from hv]
    rfl
  rw [List.getElem?_ofFn] at hv'
  by_cases hi : i < n + 1
  · rw [dif_pos hi] at hv'
    have hfr := (free_iff hU hR cU cR ⟨i, hi⟩ c).1 hf
    rw [Bool.or_eq_false_iff] at hfr
    refine ⟨dof ⟨i, hi⟩ c, hfr.1, ?_⟩
    rw [Option.some.inj hv']
    exact_mod_cast v0
  · rw [dif_neg hi] at hv'
    cases hv'

/-- The displacement or rotation in a row `(elevation, Tz, Ty, Rx)` of the displacement table. -/
def inRow : Axis → ℝ × ℝ × ℝ × ℝ → ℝ
  | .z, r => r.2.1
  | .y, r => r.2.2.1
  | .x, r => r.2.2.2

/-- A load `v` in one direction at one node and no other. -/
def OnlyLoad (g : Nodal ℤ) (ax : Axis) (i : ℕ) (v : ℤ) : Prop :=
  At g ax i v ∧ ∀ ax' i' v', At g ax' i' v' → v' ≠ 0 → ax' = ax ∧ i' = i

/-- **C115, one load (partial).** Under one load or moment the node it acts on moves or turns in its direction: its listed
displacement in that direction never has the opposite sign but for the residual, and with no residual it has the sign of the load. -/
theorem C115_single_partial (ty : ElementType) (p : Pile.Pile ℝ) (top tip : ℝ) (hp : Accepted ty p top tip) (C : Coordinates ℝ)
    (h : MeshOn p top tip C) (bcs : List (Cond ℝ)) (hno : ∀ c ∈ bcs, c.cls ≠ .displacement) (w : Switches) (A : Arrays)
    (hty : w.distributedMoment = false ∨ (ty = .eulerBernoulli ∧ MomentRows A C.elements.length)) (t : SoilTables)
    (ht : solveSoilOn ty p C w A bcs 100 = some (.numbers t)) (g : Nodal ℤ) (hg : globalForces C.nodes bcs = .ok g) (ax : Axis) (i : ℕ)
    (v : ℤ) (hone : OnlyLoad g ax i v) :
    ∃ r, t.disp[i]? = some r ∧ C.nodes[i]? = some r.1 ∧ -(extent t.disp * t.error) ≤ v * inRow ax r ∧
      (t.error = 0 → v ≠ 0 → Free C.nodes bcs ax i → 0 < v * inRow ax r) := by
  obtain ⟨g', hg', w1, w2⟩ := C115_work_partial ty p top tip hp C h bcs hno w A hty t ht
  rw [hg] at hg'
  obtain rfl : g = g' := Except.ok.inj hg'
  obtain ⟨z, el, F, U, R, g', gU, gR, d, Q, tolSq, resSq, n1, hz, anti, hel, gF, hU, hR, cF, cU, cR, hw, q, he, p0⟩ :=
    Superpose.soil_read' hp.stack h ht
  rw [hg] at gF
  obtain rfl : g = g' := Except.ok.inj gF
  obtain ⟨T, y, hd, -⟩ := tables_exact ty n1 z el d Q
  rw [hz] at q
  obtain rfl : T = t.toTables := Option.some.inj (y.symm.trans q)
  clear hty hw q y
  generalize C.elements.length = n at *
  have entry : ∀ (c : Fin 3) (j : Fin (n + 1)), ∃ v : ℤ, At g (axisOf c) j.1 v ∧ F (dof j c) = v := by
    intro c j
    have h1 : ((g.get (axisOf c)).map (fun i : ℤ => (i : ℝ)))[j.1]? = some (F (dof j c)) := by
      rw [cF, List.getElem?_ofFn, dif_pos j.2]
    rw [List.getElem?_map, Option.map_eq_some_iff] at h1
    obtain ⟨v, h1, h2⟩ := h1
    exact ⟨v, h1, h2.symm⟩
  obtain ⟨c, rfl⟩ : ∃ c, ax = axisOf c := by
    cases ax
    · exact ⟨2, rfl⟩
    · exact ⟨1, rfl⟩
    · exact ⟨0, rfl⟩
  have hi : i < n + 1 := by
    have h1 : ((g.get (axisOf c)).map (fun i : ℤ => (i : ℝ)))[i]? = some (v : ℝ) := by
      rw [List.getElem?_map, show (g.get (axisOf c))[i]? = some v from hone.1]
      rfl
    rw [cF, List.getElem?_ofFn] at h1
    by_contra hi
    rw [dif_neg hi] at h1
    cases h1
  have hsum : virtualWork g t.disp = v * d (dof ⟨i, hi⟩ c) := by
    rw [hd, virtualWork_eq z g F d cF, Finset.sum_eq_single (dof ⟨i, hi⟩ c)]
    · obtain ⟨v', h1, h2⟩ := entry c ⟨i, hi⟩
      obtain rfl : v = v' := Option.some.inj (hone.1.symm.trans h1)
      rw [h2]
    · intro r _ hr
      obtain ⟨j, c', rfl⟩ := dof_surjective r
      obtain ⟨v', h1, h2⟩ := entry c' j
      rw [h2]
      by_cases h0 : v' = 0
      · rw [h0]
        simp
      · obtain ⟨e1, e2⟩ := hone.2 _ _ _ h1 h0
        exfalso
        apply hr
        have inj : ∀ c c' : Fin 3, axisOf c' = axisOf c → c' = c := by decide
        have ec := inj c c' e1
        subst ec
        congr 1
        exact Fin.ext e2
    · intro hn
      exact absurd (Finset.mem_univ _) hn
  have hrow : inRow (axisOf c) (z ⟨i, hi⟩, d (dof ⟨i, hi⟩ 0), d (dof ⟨i, hi⟩ 1), d (dof ⟨i, hi⟩ 2)) = d (dof ⟨i, hi⟩ c) := by
    fin_cases c <;> rfl
  refine ⟨_, by rw [hd, List.getElem?_ofFn, dif_pos hi], by rw [hz, List.getElem?_ofFn, dif_pos hi], ?_, ?_⟩
  · rw [hrow, ← hsum]
    exact w1
  · intro e0 v0 hf
    rw [hrow, ← hsum]
    exact w2 e0 ⟨_, _, _, hone.1, v0, hf⟩

/-- **C115, for the calls (partial).** The same for loads and supports set by `set_pointload` and `set_support`. -/
theorem C115_calls_partial (ty : ElementType) (p : Pile.Pile ℝ) (top tip : ℝ) (hp : Accepted ty p top tip) (C : Coordinates ℝ)
    (h : MeshOn p top tip C) (calls : List (Call ℝ)) (hc : ∀ k ∈ calls, Spec.BC.kind k ≠ .displacement) (w : Switches) (A : Arrays)
    (hty : w.distributedMoment = false ∨ (ty = .eulerBernoulli ∧ MomentRows A C.elements.length)) (t : SoilTables)
    (ht : solveSoilOn ty p C w A (run [] calls) 100 = some (.numbers t)) :
    ∃ g, globalForces C.nodes (run [] calls) = .ok g ∧ -(extent t.disp * t.error) ≤ virtualWork g t.disp ∧
      (t.error = 0 → (∃ ax i v, At g ax i v ∧ v ≠ 0 ∧ Free C.nodes (run [] calls) ax i) → 0 < virtualWork g t.disp) ∧
      ∀ ax i v, OnlyLoad g ax i v → ∃ r, t.disp[i]? = some r ∧ C.nodes[i]? = some r.1 ∧
        -(extent t.disp * t.error) ≤ v * inRow ax r ∧
        (t.error = 0 → v ≠ 0 → Free C.nodes (run [] calls) ax i → 0 < v * inRow ax r) := by
  have hm := (Compliance.moreHeld_calls C.nodes calls [] hc (fun k hk => by cases hk)).still
  have hno : ∀ c ∈ run [] calls, c.cls ≠ .displacement := fun c hc => hm c (List.mem_append_left _ hc)
  obtain ⟨g, hg, w1, w2⟩ := C115_work_partial ty p top tip hp C h _ hno w A hty t ht
  exact ⟨g, hg, w1, w2, fun ax i v hone => C115_single_partial ty p top tip hp C h _ hno w A hty t ht g hg ax i v hone⟩

/-! ### analyses that meet the hypotheses -/

open OpenPile.Props.SoilSupport (acceptedT)
open OpenPile.Props.Superpose (caseP solvedP readP)

/-- A pile in soil without any support, with 60 kN and a moment of 10 kNm at its head: the work is 12 kNm. -/
example : ∃ t g, solveSoilOn .eulerBernoulli pileS meshS switchesS arraysS bcsS 100 = some (.numbers t) ∧
    globalForces meshS.nodes bcsS = .ok g ∧ t.error = 0 ∧ 0 < virtualWork g t.disp ∧ virtualWork g t.disp = 12 := by
  obtain ⟨t, ht, hd, he⟩ := solvedS
  obtain ⟨g, hg, -, h2⟩ := C115_work_partial .eulerBernoulli pileS 1 0 acceptedT meshS meshOnS bcsS
    (by simp [bcsS]) switchesS arraysS (.inl rfl) t ht
  have e := hg
  rw [forcesS] at e
  obtain rfl := Except.ok.inj e
  refine ⟨t, _, ht, hg, he, h2 he ⟨.y, 0, 60, rfl, by norm_num, ⟨_, heldS, rfl⟩, _, dispS, rfl⟩, ?_⟩
  rw [hd]
  norm_num [virtualWork]

/-- One lateral load at the head. -/
example (P : ℤ) (h0 : 0 < P) (h1 : P ≤ 60) :
    ∃ t r, solveSoilOn .eulerBernoulli pileS meshS switchesS arraysS (caseP P) 100 = some (.numbers t) ∧ t.disp[0]? = some r ∧
      0 < r.2.2.1 := by
  obtain ⟨t, ht, hd, he⟩ := solvedP P h0 h1
  obtain ⟨g1, g2, g3⟩ := readP P h0.ne'
  obtain ⟨r, h2, -, -, h3⟩ := C115_single_partial .eulerBernoulli pileS 1 0 acceptedT meshS meshOnS (caseP P)
    (by simp [caseP]) switchesS arraysS (.inl rfl) t ht _ g1 .y 0 P ⟨rfl, by
      intro ax' i' v' h hv
      cases ax' <;> rcases i' with _ | _ | i' <;> simp [At, Nodal.get] at h <;> simp_all⟩
  have := h3 he h0.ne' ⟨⟨_, g3, rfl⟩, _, g2, rfl⟩
  exact ⟨t, r, ht, h2, (pos_iff_pos_of_mul_pos this).1 (by exact_mod_cast h0)⟩

end OpenPile.Props.Towards

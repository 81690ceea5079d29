/-
Property C84: soil never makes a pile give way more than the loads would without it.
-/
import Verif.Props.SoilTables
import Verif.Props.Compliance

namespace OpenPile.Props.SoilSupport
open OpenPile.SoilAnalysis OpenPile.Analysis OpenPile.BC OpenPile.Mesh OpenPile.Kernel OpenPile.Winkler OpenPile.Spring
  OpenPile.Result OpenPile.Assemble OpenPile.Props.SoilAnalysis OpenPile.Props.Analysis OpenPile.Props.Reported
  OpenPile.Spec.Kernel OpenPile.Props.Beam OpenPile.Props.Balance OpenPile.Props.Element OpenPile.Props.SoilTables
open OpenPile.Props.Compliance (energy_sub pile_mono Stiffer StifferPile Accepted good_of_accepted MoreHeld still_zero OneLoad
  virtualWork_one)
open OpenPile.Props.Solve (C15_solution)
open OpenPile.Props.SoilStiffness (seenNode Distributed side)
open Matrix

/-! ### the springs resist -/

/-- Rotational springs along the shaft whose tables begin with the origin and a positive rotation. -/
def MomentRows (A : Arrays) (n : ℕ) : Prop :=
  ∀ e < n, ∀ b, ∀ row ∈ A.mt e b, ∀ x, row[1]? = some x → 0 < x.1

/-- Whatever the tables, the stiffnesses read from them never make the energy of the pile smaller. -/
theorem springs_add {ty : ElementType} {n : ℕ} {el : Fin n → Elem ℝ} (good : GoodElems ty el) {w : Switches} {A : Arrays}
    (hty : w.distributedMoment = false ∨ (ty = .eulerBernoulli ∧ MomentRows A n)) {d : Fin (3 * n + 3) → ℝ} {kind : Kind}
    {Ks : Matrix (Fin (3 * n + 3)) (Fin (3 * n + 3)) ℝ}
    (h : buildStiffness ty el (springsOf w A n) kind d = some Ks) (v : Fin (3 * n + 3) → ℝ) :
    energy (beamStiffness ty n el) v ≤ energy Ks v := by
  obtain ⟨s, hh, m, q, hd, h1, h2, h3, he⟩ := SoilStiffness.C53_springs ty el _ kind d Ks h
  have base : ∀ (c : Bool) (o : Option ℝ) (k : ℝ), (∀ k, o = some k → 0 ≤ k) → (if c then o else some 0) = some k → 0 ≤ k := by
    intro c o k ho hk
    cases c
    · have : (some (0 : ℝ)) = some k := by simpa using hk
      rw [← Option.some.inj this]
    · exact ho k (by simpa using hk)
  have p1 : 0 ≤ hh := base _ _ _ (fun k hk => Props.Spring.C24_nonneg _ _ _ _ (.inr (.inl hk))) h1
  have p2 : 0 ≤ m := base _ _ _ (fun k hk => Props.Spring.C24_nonneg _ _ _ _ (.inr (.inl hk))) h2
  have p3 : 0 ≤ q := base _ _ _ (fun k hk => Props.Spring.C24_nonneg _ _ _ _ (.inr (.inr (.inr hk)))) h3
  have py : ∀ e b, 0 ≤ side (s e).py b := by
    intro e b
    by_cases hw : (springsOf w A n).distributedLateral = true
    · exact Props.Spring.C24_nonneg _ _ _ _ (.inl ((hd e).lateral b hw))
    · rw [(hd e).noLateral b (by simpa using hw)]
  have tz : ∀ e b, 0 ≤ side (s e).tz b := by
    intro e b
    by_cases hw : (springsOf w A n).distributedAxial = true
    · exact Props.Spring.C24_nonneg _ _ _ _ (.inr (.inr (.inl ((hd e).axial b hw))))
    · rw [(hd e).noAxial b (by simpa using hw)]
  rw [he, (C19_energy ty el s hh m q v).2]
  have hsum : ∀ i, energy (mechMatrix ty (el i)) (stacked v i) ≤ energy (mechMatrix ty (el i)) (stacked v i)
        + energy (pyMatrix (el i).L (s i).py.1 (s i).py.2) (stacked v i)
        + energy (tzMatrix (el i).L (s i).tz.1 (s i).tz.2) (stacked v i)
        + energy (mtMatrix ty (el i) (s i).mt.1 (s i).mt.2) (stacked v i) := by
    intro i
    have h2 := (C18_nonneg (el i).L (s i).py.1 (s i).py.2 (good i).1.L (py i false) (py i true) (stacked v i)).1
    have h3 := (C18_nonneg (el i).L (s i).tz.1 (s i).tz.2 (good i).1.L (tz i false) (tz i true) (stacked v i)).2.1
    have h4 : 0 ≤ energy (mtMatrix ty (el i) (s i).mt.1 (s i).mt.2) (stacked v i) := by
      by_cases hw : (springsOf w A n).distributedMoment = true
      · rcases hty with hty | ⟨rfl, hrow⟩
        · rw [show (springsOf w A n).distributedMoment = w.distributedMoment from rfl, hty] at hw
          cases hw
        · have mt : ∀ b, 0 ≤ side (s i).mt b := by
            intro b
            obtain ⟨k, -, hk⟩ := (hd i).moment b hw
            refine Props.Spring.C24_mt_nonneg _ _ (by simp [springsOf]) _ _ _ _ ?_ hk
            intro r hr z hz
            have : r.2 ∈ A.mt i.1 b := (List.of_mem_zip (show (r.1, r.2) ∈ _ from hr)).2
            exact hrow i.1 i.2 b _ this z hz
          exact C18_mt_nonneg_euler (el i) (good i).1.L _ _ (mt false) (mt true) _
      · have z1 : (s i).mt.1 = 0 := (hd i).noMoment false (by simpa using hw)
        have z2 : (s i).mt.2 = 0 := (hd i).noMoment true (by simpa using hw)
        rw [z1, z2, mtMatrix_energy]
        simp
    linarith
  have := Finset.sum_le_sum (fun i (_ : i ∈ Finset.univ) => hsum i)
  have b0 : 0 ≤ q * v (dof (Fin.last n) 0) ^ 2 + hh * v (dof (Fin.last n) 1) ^ 2 + m * v (dof (Fin.last n) 2) ^ 2 := by
    positivity
  linarith

/-! ### in the solver -/

/-- Euclidean size of the listed displacements and rotations. -/
noncomputable def extent (d : List (ℝ × ℝ × ℝ × ℝ)) : ℝ :=
  Real.sqrt ((d.map (fun r => r.2.1 ^ 2 + r.2.2.1 ^ 2 + r.2.2.2 ^ 2)).sum)

theorem extent_eq {n : ℕ} (z : Fin (n + 1) → ℝ) (u : Fin (3 * n + 3) → ℝ) :
    extent (List.ofFn (fun j => (z j, u (dof j 0), u (dof j 1), u (dof j 2)))) = Real.sqrt (∑ r, u r ^ 2) := by
  unfold extent
  rw [List.map_ofFn, List.sum_ofFn, sum_dof]
  congr 1
  refine Finset.sum_congr rfl (fun j _ => ?_)
  rw [Fin.sum_univ_three]
  rfl

/-- A converged analysis with a build whose secant stiffness is nowhere softer than `A`, more of it held. -/
theorem converged_work {n : ℕ} {A : Matrix (Fin n) (Fin n) ℝ} (hA : Aᵀ = A) (hpos : ∀ v, 0 ≤ energy A v)
    {build : Kind → (Fin n → ℝ) → Option (Matrix (Fin n) (Fin n) ℝ)}
    (hle : ∀ d Ks, build .secant d = some Ks → ∀ v, energy A v ≤ energy Ks v) {F : Fin n → ℝ} {R R' : Fin n → Bool}
    (hR : ∀ i, R i = true → R' i = true) {u Q : Fin n → ℝ} (h : solveEquations A F 0 R = some (u, Q)) {maxIter : ℕ}
    {d Q' : Fin n → ℝ} {it : ℕ} {tolSq resSq : ℝ}
    (h' : winkler build F 0 R' maxIter = .converged d Q' it tolSq resSq) :
    -(Real.sqrt (∑ i, d i ^ 2) * Real.sqrt resSq) ≤ ∑ i, F i * d i ∧
    ∑ i, F i * d i ≤ ∑ i, F i * u i + Real.sqrt (∑ i, d i ^ 2) * Real.sqrt resSq := by
  obtain ⟨a1, a2, -, -⟩ := C15_solution A F 0 R u Q h
  obtain ⟨-, -, -, hd, -⟩ := Winkler.C26_converged build F 0 R' maxIter d Q' it tolSq resSq h'
  obtain ⟨-, Ks, hK, hw⟩ := residual_work _ F 0 R' maxIter d Q' it tolSq resSq h'
  have e1 : ∀ v : Fin n → ℝ, (∀ i, R i = true → v i = 0) → work A v u = ∑ i, F i * v i := by
    intro v hv
    unfold work dotProduct
    refine Finset.sum_congr rfl (fun i _ => ?_)
    by_cases hi : R i = true
    · rw [hv i hi, zero_mul, mul_zero]
    · rw [(a1 i (by simpa using hi)).1, mul_comm]
  have d0 : ∀ i, R' i = true → d i = 0 := fun i hi => hd i (.inl hi)
  have s1 := e1 u a2
  have s2 := e1 d (fun i hi => d0 i (hR i hi))
  have h1 := hpos (d - u)
  rw [energy_sub A hA, s2] at h1
  have h2 := hle d Ks hK d
  have h3 := hpos d
  have hr := hw d (by
    rintro i (hi | hi)
    · exact d0 i hi
    · exact absurd rfl hi)
  have hr' := Real.abs_le_sqrt hr
  rw [Real.sqrt_mul (Finset.sum_nonneg (fun i _ => sq_nonneg _)), abs_le] at hr'
  have ec : ∑ i, d i * F i = ∑ i, F i * d i := Finset.sum_congr rfl (fun i _ => mul_comm _ _)
  rw [ec] at hr'
  unfold energy at h1 h2 h3
  rw [s1] at h1
  constructor <;> linarith [hr'.1, hr'.2]

/-! ### in the tables -/

/-- **C84, from the tables (partial).** An analysis without soil and one with soil on the same mesh with the same loads; in
the second the pile may be stiffer and more of it held, no displacement is prescribed.  Whatever the spring tables, the
loads do at most the work they do without soil, up to the reported residual times the size of the displacements.  Partial:
rotational springs along the shaft only with Euler-Bernoulli elements and tables that go on from the origin to a positive
rotation. -/
theorem C84_tables_partial (ty ty' : ElementType) (p p' : Pile.Pile ℝ) (top tip : ℝ)
    (hp : Accepted ty p top tip) (hp' : Accepted ty' p' top tip) (hst : StifferPile Real.pi ty ty' p p') (C : Coordinates ℝ)
    (h : MeshOn p top tip C) (h' : MeshOn p' top tip C) (bcs bcs' : List (Cond ℝ)) (hb : MoreHeld C.nodes bcs bcs')
    (w : Switches) (A : Arrays)
    (hty : w.distributedMoment = false ∨ (ty' = .eulerBernoulli ∧ MomentRows A C.elements.length))
    (T : Tables ℝ) (t : SoilTables) (hT : solveOn Real.pi ty p C bcs = some T)
    (ht : solveSoilOn ty' p' C w A bcs' 100 = some (.numbers t)) :
    ∃ g, globalForces C.nodes bcs = .ok g ∧ -(extent t.disp * t.error) ≤ virtualWork g t.disp ∧
      virtualWork g t.disp ≤ virtualWork g T.disp + extent t.disp * t.error := by
  obtain ⟨z, el, F, U, R, g, gU, gR, n1, hz, anti, hel, gF, hU, hR, cF, cU, cR, s⟩ :=
    solveOn_read Real.pi ty hp.stack h bcs (valid_of_some Real.pi ty bcs T hT)
  obtain ⟨n, z', el', F', U', R', g', gU', gR', d', Q', tolSq, resSq, -, hz', -, hel', gF', hU', hR', cF', cU', cR', hw, -,
    hd, he, -⟩ := soil_read hp'.stack h' ht
  obtain rfl : C.elements.length = n := by
    have := congrArg List.length (hz.symm.trans hz')
    simpa using this
  obtain rfl : z = z' := List.ofFn_injective (hz ▸ hz')
  rw [s] at hT
  obtain ⟨u, Q, f, b, d, -⟩ := tables_of_beam ty n1 z el F U R T hT
  generalize C.elements.length = n at *
  have zU := still_zero (fun c hc => hb.still c (List.mem_append_left _ hc)) hU cU
  have zU' := still_zero (fun c hc => hb.still c (List.mem_append_right _ hc)) hU' cU'
  have hgg : g = g' := by
    have := hb.loads
    rw [gF, gF'] at this
    exact Except.ok.inj this
  have hFF : F = F' := by
    funext r
    obtain ⟨j, c, rfl⟩ := dof_surjective r
    have := (cF c).symm.trans (hgg ▸ cF' c)
    exact congrFun (List.ofFn_injective this) j
  subst zU zU' hFF hgg
  unfold beam at b
  simp only [Option.map_eq_some_iff, Prod.mk.injEq] at b
  obtain ⟨⟨u₁, Q₁⟩, x₁, rfl, rfl, rfl⟩ := b
  have good := good_of_accepted Real.pi_pos hp anti hel
  have good' := good_of_accepted Real.pi_pos hp' anti hel'
  have hsub : ∀ i, (R i || decide ((0 : Fin (3 * n + 3) → ℝ) i ≠ 0)) = true → R' i = true := by
    intro r hr
    obtain ⟨j, c, rfl⟩ := dof_surjective r
    simp only [Pi.zero_apply, ne_eq, not_true_eq_false, decide_false, Bool.or_false] at hr
    have e1 : (gR.get (axisOf c))[j.1]? = some true := by
      rw [cR, List.getElem?_ofFn, dif_pos j.2, ← hr]
    have e2 := hb.supports gR gR' _ _ hR hR' e1
    rw [cR', List.getElem?_ofFn, dif_pos j.2] at e2
    exact Option.some.inj e2
  have hstiff : ∀ i, Stiffer ty ty' (el i) (el' i) ∧ (el' i).L = (el i).L := by
    intro i
    have hi := anti (Fin.castSucc_lt_succ (i := i))
    obtain ⟨a, ha, ea⟩ := hel i
    obtain ⟨a', ha', ea'⟩ := hel' i
    have ma : a ∈ p.sections.filter (fun s => decide (z i.castSucc ≤ s.top ∧ z i.succ ≥ s.bottom)) := by rw [ha]; simp
    have ma' : a' ∈ p'.sections.filter (fun s => decide (z i.castSucc ≤ s.top ∧ z i.succ ≥ s.bottom)) := by
      rw [ha']; simp
    rw [List.mem_filter, decide_eq_true_eq] at ma ma'
    have := hst a ma.1 a' ma'.1 (lt_of_le_of_lt (max_le ma.2.2 ma'.2.2) (lt_of_lt_of_le hi (le_min ma.2.1 ma'.2.1)))
    rw [ea, ea']
    exact ⟨⟨this.axial, this.bending, this.shear⟩, rfl⟩
  have key := converged_work (A := beamStiffness ty n el)
    (C19_symmetric ty el (fun _ => ⟨(0, 0), (0, 0), (0, 0)⟩) 0 0 0).2
    (fun v => (C19_nonneg_partial ty el (fun _ => ⟨(0, 0), (0, 0), (0, 0)⟩) 0 0 0 good
      ⟨fun _ => ⟨⟨le_rfl, le_rfl⟩, ⟨le_rfl, le_rfl⟩, ⟨le_rfl, le_rfl⟩, fun _ => .inl ⟨rfl, rfl⟩⟩, le_rfl, le_rfl, le_rfl⟩ v).2)
    (fun d Ks hK v => (pile_mono ty ty' el el' good good' (fun i => (hstiff i).2) (fun i => (hstiff i).1) v).trans
      (springs_add good' hty hK v)) hsub x₁ hw
  refine ⟨g, gF, ?_⟩
  rw [d, hd, virtualWork_eq z g F u₁ cF, virtualWork_eq z g F d' cF, extent_eq, he]
  exact key

theorem stiffer_refl (pi : ℝ) (ty : ElementType) {p : Pile.Pile ℝ} {top tip : ℝ} (hp : Stack p top tip) :
    StifferPile pi ty ty p p := by
  have hpw := Model.stack_order p.sections hp.built hp.chain
  intro s hs s' hs' ho
  have hss : s = s' := by
    obtain ⟨i, hi, rfl⟩ := List.mem_iff_getElem.1 hs
    obtain ⟨j, hj, rfl⟩ := List.mem_iff_getElem.1 hs'
    have hq := List.pairwise_iff_getElem.1 hpw
    rcases lt_trichotomy i j with hij | rfl | hij
    · have := hq i j hi hj hij
      exact absurd (lt_of_le_of_lt (le_max_left _ _) (lt_of_lt_of_le ho (min_le_right _ _))) (not_lt.2 this)
    · rfl
    · have := hq j i hj hi hij
      exact absurd (lt_of_le_of_lt (le_max_right _ _) (lt_of_lt_of_le ho (min_le_left _ _))) (not_lt.2 this)
  subst hss
  exact ⟨le_rfl, le_rfl, le_rfl⟩

/-- **C84, for the calls (partial).** The same pile, meshed alike and loaded and supported by the same calls, without a
prescribed displacement: in soil the loads do at most the work they do without, up to the reported residual times the size
of the displacements, and never less than minus that. -/
theorem C84_same_pile_partial (ty : ElementType) (p : Pile.Pile ℝ) (top tip : ℝ) (hp : Accepted ty p top tip)
    (C : Coordinates ℝ) (h : MeshOn p top tip C) (calls : List (Call ℝ))
    (hc : ∀ k ∈ calls, Spec.BC.kind k ≠ .displacement) (w : Switches) (A : Arrays)
    (hty : w.distributedMoment = false ∨ (ty = .eulerBernoulli ∧ MomentRows A C.elements.length))
    (T : Tables ℝ) (t : SoilTables) (hT : solveOn Real.pi ty p C (run [] calls) = some T)
    (ht : solveSoilOn ty p C w A (run [] calls) 100 = some (.numbers t)) :
    ∃ g, globalForces C.nodes (run [] calls) = .ok g ∧ -(extent t.disp * t.error) ≤ virtualWork g t.disp ∧
      virtualWork g t.disp ≤ virtualWork g T.disp + extent t.disp * t.error := by
  have hm := Compliance.moreHeld_calls C.nodes calls [] hc (fun k hk => by cases hk)
  rw [List.append_nil] at hm
  exact C84_tables_partial ty ty p p top tip hp hp (stiffer_refl Real.pi ty hp.stack) C h h _ _ hm w A hty T t hT ht

/-- **C84, for a single lateral load (partial).** The loaded node moves in soil at most as far as without soil, up to the
reported residual times the size of the displacements over the load. -/
theorem C84_deflection_partial (ty : ElementType) (p : Pile.Pile ℝ) (top tip : ℝ) (hp : Accepted ty p top tip)
    (C : Coordinates ℝ) (h : MeshOn p top tip C) (calls : List (Call ℝ))
    (hc : ∀ k ∈ calls, Spec.BC.kind k ≠ .displacement) (w : Switches) (A : Arrays)
    (hty : w.distributedMoment = false ∨ (ty = .eulerBernoulli ∧ MomentRows A C.elements.length))
    (T : Tables ℝ) (t : SoilTables) (hT : solveOn Real.pi ty p C (run [] calls) = some T)
    (ht : solveSoilOn ty p C w A (run [] calls) 100 = some (.numbers t))
    (g : Nodal ℤ) (hg : globalForces C.nodes (run [] calls) = .ok g) (i : ℕ) (H : ℤ) (hH : 0 < H)
    (hone : OneLoad C.nodes.length g i H) :
    ∃ x u u', C.nodes[i]? = some x ∧ (∃ a b, T.disp[i]? = some (x, a, u, b)) ∧ (∃ a b, t.disp[i]? = some (x, a, u', b)) ∧
      -(extent t.disp * t.error / H) ≤ u' ∧ u' ≤ u + extent t.disp * t.error / H := by
  obtain ⟨g', hg', w0, w1⟩ := C84_same_pile_partial ty p top tip hp C h calls hc w A hty T t hT ht
  rw [hg] at hg'
  obtain rfl : g = g' := Except.ok.inj hg'
  have n1 : T.disp.map (·.1) = C.nodes := by
    obtain ⟨z, el, F, U, R, g, gU, gR, n1, hz, anti, hel, gF, hU, hR, cF, cU, cR, s⟩ :=
      solveOn_read Real.pi ty hp.stack h _ (valid_of_some Real.pi ty _ T hT)
    rw [s] at hT
    obtain ⟨u, Q, f, b, d, -⟩ := tables_of_beam ty n1 z el F U R T hT
    rw [d, hz, List.map_ofFn]
    rfl
  have n2 : t.disp.map (·.1) = C.nodes := by
    obtain ⟨n, z', el', F', U', R', g', gU', gR', d', Q', tolSq, resSq, -, hz', -, hel', gF', hU', hR', cF', cU', cR', hw, -,
      hd, he, -⟩ := soil_read hp.stack h ht
    rw [hd, hz', List.map_ofFn]
    rfl
  obtain ⟨r, hr, e⟩ := virtualWork_one C.nodes.length g i H hone T.disp (by rw [← n1, List.length_map])
  obtain ⟨r', hr', e'⟩ := virtualWork_one C.nodes.length g i H hone t.disp (by rw [← n2, List.length_map])
  rw [e'] at w0
  rw [e, e'] at w1
  have hH' : (0 : ℝ) < H := by exact_mod_cast hH
  have x1 : C.nodes[i]? = some r.1 := by rw [← n1, List.getElem?_map, hr]; rfl
  have x2 : C.nodes[i]? = some r'.1 := by rw [← n2, List.getElem?_map, hr']; rfl
  have hx : r'.1 = r.1 := by
    rw [x1] at x2
    exact (Option.some.inj x2).symm
  refine ⟨r.1, r.2.2.1, r'.2.2.1, x1, ⟨r.2.1, r.2.2.2, hr⟩, ⟨r'.2.1, r'.2.2.2, by rw [hr', ← hx]⟩, ?_, ?_⟩
  · rw [← neg_div, div_le_iff₀ hH']
    linarith
  · rw [← sub_le_iff_le_add', le_div_iff₀ hH']
    linarith

/-! ### an analysis that meets the hypotheses -/

/-- Head guided, tip fixed, a lateral load of 60 kN at the head. -/
noncomputable def callsT : List (Call ℝ) :=
  [.pointload 1 (some 60) none none, .support 1 none none (some true), .support 0 (some true) (some true) (some true)]

theorem runT : run [] callsT = [⟨.force, 1, none, some (.num 60), none⟩, ⟨.fixation, 1, some (.flag true), none, none⟩,
    ⟨.fixation, 0, some (.flag true), some (.flag true), some (.flag true)⟩] := by
  simp [run, callsT, BC.step, setPointload, setSupport, updateBc]

theorem idx1 : nodeIdx [(1 : ℝ), 0] 1 = some 0 := by
  simp [nodeIdx, isClose, List.findIdx?_cons]
  norm_num

theorem idx0 : nodeIdx [(1 : ℝ), 0] 0 = some 1 := by
  simp [nodeIdx, isClose, List.findIdx?_cons]
  norm_num

theorem forcesT : globalForces meshS.nodes (run [] callsT) = .ok ⟨[0, 0], [60, 0], [0, 0]⟩ := by
  have h3 : validateBc (run [] callsT) .force = .ok () := by
    rw [runT]
    simp [validateBc, axisConflict]
  unfold globalForces
  rw [h3, runT]
  simp [meshS, applyBc, applyOne, idx1, writeAxis, Val.truthy, storeInt]

theorem dispT : globalDisp meshS.nodes (run [] callsT) = .ok ⟨[0, 0], [0, 0], [0, 0]⟩ := by
  rw [runT]
  simp [globalDisp, meshS, validateBc, axisConflict, applyBc, applyOne]

theorem heldT : globalRestrained meshS.nodes (run [] callsT) = .ok ⟨[true, true], [false, true], [false, true]⟩ := by
  have h3 : validateBc (run [] callsT) .fixation = .ok () := by
    rw [runT]
    simp [validateBc, axisConflict]
  unfold globalRestrained
  rw [h3, runT]
  simp [meshS, applyBc, applyOne, idx1, idx0, writeAxis, Val.truthy, storeBool]

/-- Degrees of freedom that are held. -/
def fixT : Fin (3 * 1 + 3) → Bool := ![false, false, true, true, true, true]

noncomputable def loadT : Fin (3 * 1 + 3) → ℝ := ![0, 60, 0, 0, 0, 0]

/-- Deflection of the head in the springs. -/
noncomputable def headT : ℝ := 60 / (12 * (elS 0).E * (elS 0).I + 3120 / 7)

noncomputable def uT : Fin (3 * 1 + 3) → ℝ := ![0, headT, 0, 0, 0, 0]

theorem stiffT : 0 < (elS 0).E * (elS 0).I := mul_pos (goodS 0).1.E (goodS 0).1.I

theorem headT_range : 0 < headT ∧ headT ≤ 1 := by
  have h := stiffT
  have h2 : 0 < 12 * (elS 0).E * (elS 0).I + 3120 / 7 := by nlinarith
  unfold headT
  refine ⟨by positivity, ?_⟩
  rw [div_le_one h2]
  nlinarith

theorem matS_rows : (matS *ᵥ uT) 0 = 0 ∧ (matS *ᵥ uT) 1 = 60 := by
  have hL : ∀ i, (elS i).L = 1 := fun i => rfl
  have h2 : 12 * (elS 0).E * (elS 0).I + 3120 / 7 ≠ 0 := by
    have := stiffT
    nlinarith
  have e : (matS *ᵥ uT) 1 = (12 * (elS 0).E * (elS 0).I + 3120 / 7) * headT := by
    unfold matS soilStiffness
    simp [assemble, place, baseMatrix, mulVec, dotProduct, Fin.sum_univ_succ, uT, elemMatrix,
      mechMatrix, beamMatrix, pyMatrix, tzMatrix, mtMatrix, mtPattern, mtCoeffs, hL, phi, kappa]
    left
    ring
  refine ⟨?_, ?_⟩
  · unfold matS soilStiffness
    simp [assemble, place, baseMatrix, mulVec, dotProduct, Fin.sum_univ_succ, uT, elemMatrix,
      mechMatrix, beamMatrix, pyMatrix, tzMatrix, mtMatrix, mtPattern, mtCoeffs, hL]
  · rw [e]
    unfold headT
    rw [mul_div_cancel₀ _ h2]

theorem soilHeldT (s : Fin 1 → SoilK ℝ) (q : ℝ) (hs : ∀ i, 0 ≤ (s i).py.1 ∧ 0 ≤ (s i).py.2)
    (ht : ∀ i, (s i).tz = (0, 0) ∧ (s i).mt = (0, 0)) (hq : 0 ≤ q) (F : Fin (3 * 1 + 3) → ℝ) :
    solveEquations (soilStiffness .eulerBernoulli 1 elS s 0 0 q) F 0 fixT ≠ none := by
  obtain ⟨-, hu⟩ := Beam.C20_unique_partial .eulerBernoulli elS s 0 0 q goodS
    ⟨fun i => ⟨hs i, by rw [(ht i).1]; exact ⟨le_rfl, le_rfl⟩, by rw [(ht i).2]; exact ⟨le_rfl, le_rfl⟩, fun h => by cases h⟩,
      le_rfl, le_rfl, hq⟩ fixT (by
    rintro u ⟨a, b, θ, hu⟩ h0 - - - - - -
    obtain ⟨a0, a1, a2⟩ := hu 0
    obtain ⟨b0, b1, b2⟩ := hu 1
    have e0 : u (dof (1 : Fin 2) 0) = 0 := h0 _ rfl
    have e1 : u (dof (1 : Fin 2) 1) = 0 := h0 _ rfl
    have e2 : u (dof (1 : Fin 2) 2) = 0 := h0 _ rfl
    funext i
    obtain ⟨j, c, rfl⟩ := dof_surjective i
    have hj : j = 0 ∨ j = 1 := by
      rcases j with ⟨j, hj⟩
      interval_cases j <;> simp
    have th : θ = 0 := by rw [← b2, e2]
    rcases hj with rfl | rfl <;> fin_cases c
    · show u (dof 0 0) = 0
      rw [a0, ← b0, e0]
    · show u (dof 0 1) = 0
      rw [a1, th]
      rw [e1, th] at b1
      linarith
    · show u (dof 0 2) = 0
      rw [a2, th]
    · exact e0
    · exact e1
    · exact e2)
  obtain ⟨v, Q, h, -⟩ := hu F 0
  rw [h]
  simp

theorem supT : (fun i => fixT i || decide ((0 : Fin (3 * 1 + 3) → ℝ) i ≠ 0)) = fixT := by
  funext i
  simp

theorem solveT : solveEquations matS loadT 0 (fun i => fixT i || decide ((0 : Fin (3 * 1 + 3) → ℝ) i ≠ 0))
    = some (uT, fun i => (matS *ᵥ uT) i - loadT i) := by
  rw [supT]
  refine Solve.solve_eq_some matS loadT 0 _ ?_ uT ?_ ?_
  · exact soilHeldT _ _ (fun _ => ⟨by norm_num, by norm_num⟩) (fun _ => ⟨rfl, rfl⟩) (by norm_num) _
  · intro i hi
    obtain ⟨h0, h1⟩ := matS_rows
    fin_cases i
    · exact h0
    · exact h1
    all_goals cases hi
  · intro i hi
    fin_cases i
    · cases hi
    · cases hi
    all_goals rfl

theorem smallT : LinearRange.SmallDisplacements (springsOf switchesS arraysS 1) uT := by
  obtain ⟨z1, z2, z3, z4⟩ := NoModels.zeros_sums
  obtain ⟨r0, r1⟩ := headT_range
  have hu : ∀ i, |uT i| ≤ 1 := by
    intro i
    fin_cases i
    · simp [uT]
    · show |headT| ≤ 1
      rw [abs_of_pos r0]
      exact r1
    all_goals simp [uT]
  refine ⟨fun _ e b => .inr ⟨1, 1200, [], rfl, ?_, hu _⟩, fun _ _ _ => .inl z3, rfl, fun _ => .inl z2, fun _ => .inl z2, ?_⟩
  · simp [springsOf, arraysS, Asc]
  · refine fun _ => .inr ⟨[], 1, 10, 1, 10, [], rfl, rfl, rfl, ?_, rfl, ?_, ?_⟩
    · simp [springsOf, arraysS]
    · exact (abs_le.1 (hu _)).1
    · exact (abs_le.1 (hu _)).2

theorem readT : asVec 1 ((dofList (⟨[0, 0], [60, 0], [0, 0]⟩ : Nodal ℤ)).map (fun i : ℤ => (i : ℝ))) = some loadT ∧
    asVec 1 (dofList (⟨[0, 0], [0, 0], [0, 0]⟩ : Nodal ℝ)) = some 0 ∧
    asVec 1 (dofList (⟨[true, true], [false, true], [false, true]⟩ : Nodal Bool)) = some fixT ∧
    allSome (fun i : Fin meshS.elements.length => elemAt Real.pi pileS meshS.elements[i.1]) = some elS := by
  refine ⟨?_, ?_, ?_, ?_⟩
  · unfold asVec dofList
    rw [dif_pos (by simp)]
    congr 1
    funext i
    fin_cases i <;> simp [loadT]
  · unfold asVec dofList
    rw [dif_pos (by simp)]
    congr 1
    funext i
    fin_cases i <;> simp
  · unfold asVec dofList
    rw [dif_pos (by simp)]
    congr 1
    funext i
    fin_cases i <;> simp [fixT]
  · have : ∀ i : Fin 1, elemAt Real.pi pileS (([(1, 0)] : List (ℝ × ℝ))[i.1]) = some (elS i) := by
      intro i
      obtain rfl : i = 0 := Subsingleton.elim _ _
      simp [elemAt, parameterOf, pileS, elS, elemOf, Pile.Section.width]
    show allSome (fun i : Fin 1 => elemAt Real.pi pileS (([(1, 0)] : List (ℝ × ℝ))[i.1])) = some elS
    simp only [this]
    simp [allSome]

/-- The analysis in soil. -/
theorem solvedT : ∃ t, solveSoilOn .eulerBernoulli pileS meshS switchesS arraysS (run [] callsT) 100 = some (.numbers t) ∧
    t.disp = [(1, 0, headT, 0), (0, 0, 0, 0)] ∧ t.error = 0 := by
  obtain ⟨hF, hU, hR, hel⟩ := readT
  obtain ⟨r0, r1⟩ := headT_range
  obtain ⟨tol, hw⟩ := LinearRange.C60_linear_partial .eulerBernoulli elS (springsOf switchesS arraysS 1) loadT 0
    fixT matS uT _ initS solveT smallT ⟨1, by
      rw [matS_rows.2]
      simp [loadT]⟩ 100 (by norm_num)
  generalize (fun i => (matS *ᵥ uT) i - loadT i) = Q at hw
  obtain ⟨T, t1, t2, -⟩ := tables_exact .eulerBernoulli (le_refl 1) (![1, 0] : Fin 2 → ℝ) elS uT Q
  have hn : meshS.nodes = List.ofFn (![1, 0] : Fin 2 → ℝ) := by simp [meshS]
  have hres : ∃ t, results .eulerBernoulli meshS.nodes elS (springsOf switchesS arraysS 1) uT Q 2 tol 0 = some t ∧
      t.toTables = T ∧ t.error = 0 := by
    have hpy : pyStiffness [((0 : ℝ), (0 : ℝ)), (1, 1200)] .secant headT = some 1200 := by
      rw [LinearRange.py_first _ _ (.inr ⟨1, 1200, [], rfl, by simp [Asc], by rwa [abs_of_pos r0]⟩) .secant]
      simp [pyStiffness, curveStiffness, absQuot]
    have hrow : ∀ e : ℝ, ∃ r, mobRow e headT 0 [((0 : ℝ), (0 : ℝ)), (1, 1200)]
        (([((0 : ℝ), (0 : ℝ)), (1, 1200)].map (·.2)).zip [[(0, 0)], [(0, 0)]]) 15 = some r := by
      intro e
      have hm : mtStiffness (([((0 : ℝ), (0 : ℝ)), (1, 1200)].map (·.2)).zip [[(0, 0)], [(0, 0)]]) 15
          (headT * 1200) .secant 0 = some 0 := by
        unfold mtStiffness
        simp
      unfold mobRow
      rw [hpy]
      simp only [Option.bind_eq_bind, Option.bind_some, hm]
      simp [maxOf]
    obtain ⟨r1, hr1⟩ := hrow 1
    have hmob : ∃ rows, springsMob (List.ofFn (![1, 0] : Fin 2 → ℝ)) (component uT 1) (component uT 2)
        (flat 1 (springsOf switchesS arraysS 1).py) (flat 1 (springsOf switchesS arraysS 1).mt) 15 = some rows := by
      have c1 : component uT 1 = [headT, 0] := by simp [component, uT]
      have c2 : component uT 2 = [0, 0] := by simp [component, uT]
      have c3 : List.ofFn (![1, 0] : Fin 2 → ℝ) = [1, 0] := by simp
      have f1 : flat 1 (springsOf switchesS arraysS 1).py = [[(0, 0), (1, 1200)], [(0, 0), (1, 1200)]] := by
        simp [flat, springsOf, arraysS]
      have f2 : flat 1 (springsOf switchesS arraysS 1).mt
          = [(([((0 : ℝ), (0 : ℝ)), (1, 1200)].map (·.2)).zip [[(0, 0)], [(0, 0)]]),
            (([((0 : ℝ), (0 : ℝ)), (1, 1200)].map (·.2)).zip [[(0, 0)], [(0, 0)]])] := by
        simp [flat, springsOf, arraysS]
      unfold springsMob
      rw [c1, c2, c3, f1, f2, two_nodes, two_nodes, two_nodes]
      simp only [Option.bind_eq_bind, Option.bind_some]
      refine ⟨[r1, r1], ?_⟩
      have hrange : List.range ([(1 : ℝ), 1].length) = [0, 1] := by decide
      rw [hrange]
      simp only [List.mapM_cons, List.mapM_nil, List.getElem?_cons_zero, List.getElem?_cons_succ, Option.bind_some, hr1,
        Option.bind_eq_bind, Option.pure_def]
    obtain ⟨rows, hmob⟩ := hmob
    have e1 : (springsOf switchesS arraysS 1).hb = zeros := rfl
    have e2 : (springsOf switchesS arraysS 1).mb = zeros := rfl
    have e3 : (springsOf switchesS arraysS 1).ncol = 15 := rfl
    unfold results
    rw [hn, t1]
    refine ⟨⟨T, rows, (0, 0), (0, 0), 2, Real.sqrt 0, Real.sqrt tol⟩, ?_, rfl, Real.sqrt_zero⟩
    simp only [e3, hmob, e1, e2, NoModels.baseMob_zero, Option.bind_eq_bind, Option.bind_some]
    rfl
  obtain ⟨t, ht, e, e0⟩ := hres
  refine ⟨t, ?_, ?_, e0⟩
  · exact solveSoilOn_of (C := meshS) forcesT dispT heldT hF hU hR hel hw ht
  · rw [show t.disp = T.disp by rw [← e], t2]
    simp [uT, dof]

theorem solveOn_of {ty : ElementType} {p : Pile.Pile ℝ} {C : Coordinates ℝ}
    {bcs : List (Cond ℝ)} {g : Nodal ℤ} {gU : Nodal ℝ} {gR : Nodal Bool} {F U : Fin (3 * C.elements.length + 3) → ℝ}
    {R : Fin (3 * C.elements.length + 3) → Bool} {el : Fin C.elements.length → Elem ℝ}
    {r : (Fin (3 * C.elements.length + 3) → ℝ) × (Fin (3 * C.elements.length + 3) → ℝ)
      × (Fin C.elements.length → (ℝ × ℝ × ℝ) × (ℝ × ℝ × ℝ))} {T : Tables ℝ}
    (h1 : globalForces C.nodes bcs = .ok g) (h2 : globalDisp C.nodes bcs = .ok gU)
    (h3 : globalRestrained C.nodes bcs = .ok gR)
    (h4 : asVec C.elements.length ((dofList g).map (fun i : ℤ => (i : ℝ))) = some F)
    (h5 : asVec C.elements.length (dofList gU) = some U) (h6 : asVec C.elements.length (dofList gR) = some R)
    (h7 : allSome (fun i : Fin C.elements.length => elemAt Real.pi p C.elements[i.1]) = some el)
    (h8 : beam ty el F U R = some r) (h9 : tables ty C.nodes el r.1 r.2.1 = some T) :
    solveOn Real.pi ty p C bcs = some T := by
  unfold solveOn
  rw [h1, h2, h3, h7]
  simp only [Except.toOption, Option.bind_eq_bind, Option.bind_some, h4, h5, h6, h8, h9]

/-- The analysis without soil. -/
theorem bareT : ∃ T, solveOn Real.pi .eulerBernoulli pileS meshS (run [] callsT) = some T := by
  obtain ⟨hF, hU, hR, hel⟩ := readT
  have hne : solveEquations (beamStiffness .eulerBernoulli 1 elS) loadT 0
      (fun i => fixT i || decide ((0 : Fin (3 * 1 + 3) → ℝ) i ≠ 0)) ≠ none := by
    rw [supT]
    exact (C20_beam_supports .eulerBernoulli elS goodS loadT 0 fixT).2 ⟨⟨1, rfl⟩, 1, rfl, .inl ⟨1, rfl⟩⟩
  obtain ⟨⟨u, Q⟩, hs⟩ := Option.ne_none_iff_exists'.1 hne
  obtain ⟨T, t1, -⟩ := tables_exact .eulerBernoulli (le_refl 1) (![1, 0] : Fin 2 → ℝ) elS u Q
  have hn : meshS.nodes = List.ofFn (![1, 0] : Fin 2 → ℝ) := by simp [meshS]
  have hb : beam .eulerBernoulli elS loadT 0 fixT
      = some (u, Q, fun i => sectionForces (elS i).L (internalForces .eulerBernoulli elS u i)) := by
    unfold beam
    rw [hs]
    rfl
  refine ⟨T, ?_⟩
  rw [← hn] at t1
  exact solveOn_of (C := meshS) forcesT dispT heldT hF hU hR hel hb t1

theorem acceptedT : Accepted .eulerBernoulli pileS 1 0 := by
  refine ⟨⟨78, 210000000, 3 / 10, ?_⟩, (fun h => by cases h), stackS, ?_⟩
  · unfold Pile.mkMaterial
    norm_num [Pile.steel, pileS]
  · intro s hs
    simp only [pileS, List.mem_cons, List.not_mem_nil, or_false] at hs
    subst hs
    refine ⟨?_, by norm_num⟩
    rw [Pile.built_iff]
    norm_num

/-- The hypotheses of C84 are met. -/
example : ∃ T t, solveOn Real.pi .eulerBernoulli pileS meshS (run [] callsT) = some T ∧
    solveSoilOn .eulerBernoulli pileS meshS switchesS arraysS (run [] callsT) 100 = some (.numbers t) ∧
    Accepted .eulerBernoulli pileS 1 0 ∧ MeshOn pileS 1 0 meshS ∧ (∀ k ∈ callsT, Spec.BC.kind k ≠ .displacement) ∧
    switchesS.distributedMoment = false ∧ OneLoad meshS.nodes.length ⟨[0, 0], [60, 0], [0, 0]⟩ 0 60 := by
  obtain ⟨t, ht, -⟩ := solvedT
  obtain ⟨T, hT⟩ := bareT
  refine ⟨T, t, hT, ht, acceptedT, meshOnS, ?_, rfl, ?_⟩
  · intro k hk
    simp only [callsT, List.mem_cons, List.not_mem_nil, or_false] at hk
    rcases hk with rfl | rfl | rfl <;> simp [Spec.BC.kind]
  · refine ⟨by simp [meshS], by simp [meshS], by simp [meshS], by simp [meshS]⟩

end OpenPile.Props.SoilSupport

/-
Property C82: a stiffer pile, a more rigid material or a further support never increases the work of the loads.
-/
import Verif.Props.Cantilever

namespace OpenPile.Props.Compliance
open OpenPile.Kernel OpenPile.Winkler OpenPile.Spec.Kernel OpenPile.Props.Beam OpenPile.Props.Element
  OpenPile.Props.Solve Matrix
open OpenPile.Props.Refine (Regular compliance compliance_phi)

variable {K : Type} [Field K] [LinearOrder K] [IsStrictOrderedRing K]

/-! ### in the solver -/

section solver
variable {ι : Type} [Fintype ι] [DecidableEq ι]

omit [LinearOrder K] [IsStrictOrderedRing K] [DecidableEq ι] in
theorem energy_sub (A : Matrix ι ι K) (hA : Aᵀ = A) (u v : ι → K) :
    energy A (v - u) = energy A v - 2 * work A v u + energy A u := by
  have hc := work_comm A hA u v
  unfold energy work at *
  rw [mulVec_sub, dotProduct_sub, sub_dotProduct, sub_dotProduct, hc]
  ring

/-- The loads do no more work if the matrix is stiffer and more displacements are held. -/
theorem work_mono (A A' : Matrix ι ι K) (hA : Aᵀ = A) (hpos : ∀ v, 0 ≤ energy A v)
    (hle : ∀ v, energy A v ≤ energy A' v) (F : ι → K) (R R' : ι → Bool) (hR : ∀ i, R i = true → R' i = true)
    (u Q u' Q' : ι → K) (h : solveEquations A F 0 R = some (u, Q)) (h' : solveEquations A' F 0 R' = some (u', Q')) :
    0 ≤ ∑ i, F i * u' i ∧ ∑ i, F i * u' i ≤ ∑ i, F i * u i := by
  obtain ⟨a1, a2, -, -⟩ := C15_solution A F 0 R u Q h
  obtain ⟨b1, b2, -, -⟩ := C15_solution A' F 0 R' u' Q' h'
  have e1 : ∀ (B : Matrix ι ι K) (S : ι → Bool) (w v : ι → K), (∀ i, S i = false → (B *ᵥ w) i = F i) →
      (∀ i, S i = true → v i = 0) → work B v w = ∑ i, F i * v i := by
    intro B S w v hw hv
    unfold work dotProduct
    refine Finset.sum_congr rfl (fun i _ => ?_)
    by_cases hi : S i = true
    · rw [hv i hi, zero_mul, mul_zero]
    · rw [hw i (by simpa using hi), mul_comm]
  have s1 := e1 A R u u (fun i hi => (a1 i hi).1) (fun i hi => a2 i hi)
  have s2 := e1 A R u u' (fun i hi => (a1 i hi).1) (fun i hi => b2 i (hR i hi))
  have s3 := e1 A' R' u' u' (fun i hi => (b1 i hi).1) (fun i hi => b2 i hi)
  have h1 := hpos (u' - u)
  rw [energy_sub A hA, s2] at h1
  have h2 := hle u'
  have h3 := hpos u'
  unfold energy at h1 h2 h3
  rw [s1] at h1
  rw [s3] at h2
  constructor <;> linarith

end solver

/-! ### in one element -/

/-- The second element is at least as stiff: along, in bending, and in shear. -/
structure Stiffer (ty ty' : ElementType) (e e' : Elem K) : Prop where
  axial : e.E * e.A ≤ e'.E * e'.A
  bending : e.E * e.I ≤ e'.E * e'.I
  shear : compliance ty' e' ≤ compliance ty e

/-- Its energy is at least as large under any displacements. -/
theorem element_mono (ty ty' : ElementType) (e e' : Elem K) (he : GoodElem e) (he' : GoodElem e')
    (hnu : ty = .timoshenko → -(3 / 4) ≤ e.nu) (hnu' : ty' = .timoshenko → -(3 / 4) ≤ e'.nu) (hL : e'.L = e.L)
    (h : Stiffer ty ty' e e') (u : Fin 6 → K) : energy (mechMatrix ty e) u ≤ energy (mechMatrix ty' e') u := by
  have hp := phi_nonneg ty e he hnu
  have hp' := phi_nonneg ty' e' he' hnu'
  have h1 : 0 < 1 + phi ty e := by positivity
  have h1' : 0 < 1 + phi ty' e' := by positivity
  have L0 := he.L
  have B0 : 0 < e.E * e.I := mul_pos he.E he.I
  have B0' : 0 < e'.E * e'.I := mul_pos he'.E he'.I
  rw [C16_energy ty e L0.ne' h1.ne', C16_energy ty' e' he'.L.ne' h1'.ne', hL]
  have c := compliance_phi ty e ⟨L0.ne', he.E.ne', he.A.ne', he.I.ne', h1.ne'⟩
  have c' := compliance_phi ty' e' ⟨he'.L.ne', he'.E.ne', he'.A.ne', he'.I.ne', h1'.ne'⟩
  have hsh := h.shear
  rw [c, c', hL] at hsh
  -- bending with shear
  have hk : e.E * e.I / (1 + phi ty e) ≤ e'.E * e'.I / (1 + phi ty' e') := by
    rw [div_le_div_iff₀ h1 h1']
    rw [div_le_div_iff₀ (by positivity) (by positivity)] at hsh
    have hsh' : phi ty' e' * (e.E * e.I) ≤ phi ty e * (e'.E * e'.I) := by
      have hL2 : 0 < e.L ^ 2 * 12 := by positivity
      refine le_of_mul_le_mul_left ?_ hL2
      calc e.L ^ 2 * 12 * (phi ty' e' * (e.E * e.I)) = phi ty' e' * e.L ^ 2 * (12 * (e.E * e.I)) := by ring
        _ ≤ phi ty e * e.L ^ 2 * (12 * (e'.E * e'.I)) := hsh
        _ = _ := by ring
    linarith [h.bending]
  have hA : e.E * e.A / e.L ≤ e'.E * e'.A / e.L := div_le_div_of_nonneg_right h.axial L0.le
  have hB : e.E * e.I / e.L ≤ e'.E * e'.I / e.L := div_le_div_of_nonneg_right h.bending L0.le
  have hS : e.E * e.I / e.L * (3 / (1 + phi ty e)) ≤ e'.E * e'.I / e.L * (3 / (1 + phi ty' e')) := by
    calc e.E * e.I / e.L * (3 / (1 + phi ty e)) = 3 / e.L * (e.E * e.I / (1 + phi ty e)) := by ring
      _ ≤ 3 / e.L * (e'.E * e'.I / (1 + phi ty' e')) := mul_le_mul_of_nonneg_left hk (by positivity)
      _ = _ := by ring
  have q1 := mul_le_mul_of_nonneg_right hA (sq_nonneg (u 0 - u 3))
  have q2 := mul_le_mul_of_nonneg_right hB (sq_nonneg (u 2 - u 5))
  have q3 := mul_le_mul_of_nonneg_right hS (sq_nonneg (u 2 + u 5 - 2 * ((u 4 - u 1) / e.L)))
  rw [mul_add, mul_add, ← mul_assoc, ← mul_assoc]
  linarith

/-- The energy of a pile whose elements are at least as stiff. -/
theorem pile_mono {n : ℕ} (ty ty' : ElementType) (el el' : Fin n → Elem K) (hel : GoodElems ty el)
    (hel' : GoodElems ty' el') (hL : ∀ i, (el' i).L = (el i).L) (h : ∀ i, Stiffer ty ty' (el i) (el' i))
    (u : Fin (3 * n + 3) → K) : energy (beamStiffness ty n el) u ≤ energy (beamStiffness ty' n el') u := by
  unfold energy beamStiffness
  rw [assemble_work, assemble_work]
  exact Finset.sum_le_sum (fun i _ => element_mono ty ty' (el i) (el' i) (hel i).1 (hel' i).1 (hel i).2 (hel' i).2 (hL i)
    (h i) (stacked u i))

/-! ### in the tables -/

section tables
open OpenPile.BC OpenPile.Mesh OpenPile.Analysis OpenPile.Result OpenPile.Props.Analysis OpenPile.Props.Reported
variable [FloorRing K]

/-- Where the two piles have a stretch of the shaft in common, the second is at least as stiff: axial stiffness, bending
stiffness, shear stiffness as the code has it. -/
def StifferPile (pi : K) (ty ty' : ElementType) (p p' : Pile.Pile K) : Prop :=
  ∀ s ∈ p.sections, ∀ s' ∈ p'.sections, max s.bottom s'.bottom < min s.top s'.top →
    Stiffer ty ty' (elemOf pi p.material s 1) (elemOf pi p'.material s' 1)

/-- What is needed of a pile: accepted material and sections. -/
structure Accepted (ty : ElementType) (p : Pile.Pile K) (top tip : K) : Prop where
  material : ∃ uw E nu, Pile.mkMaterial uw E nu = some p.material
  poisson : ty = .timoshenko → -(3 / 4) ≤ p.material.nu
  stack : Stack p top tip
  built : ∀ s ∈ p.sections, Spec.Pile.Built s ∧ s.thickness < s.diameter

theorem good_of_accepted {pi : K} (hpi : 0 < pi) {ty : ElementType} {p : Pile.Pile K} {top tip : K} (h : Accepted ty p top tip)
    {n : ℕ} {z : Fin (n + 1) → K} (hz : StrictAnti z) {el : Fin n → Elem K} (hel : ElementsOn pi p z el) :
    GoodElems ty el := by
  obtain ⟨uw, E, nu, hm⟩ := h.material
  intro i
  obtain ⟨s, hsf, e⟩ := hel i
  have hmem : s ∈ p.sections.filter (fun s => decide (z i.castSucc ≤ s.top ∧ z i.succ ≥ s.bottom)) := by
    rw [hsf]; simp
  obtain ⟨⟨t, b, d, th, hbs⟩, ht⟩ := h.built s (List.mem_filter.1 hmem).1
  have hg := goodElem_of_built pi hpi uw E nu p.material hm t b d th s hbs ht |z i.castSucc - z i.succ|
    (abs_pos.2 (sub_ne_zero.2 (hz Fin.castSucc_lt_succ).ne'))
  rw [← e] at hg
  refine ⟨hg, fun hty => ?_⟩
  rw [e]
  exact h.poisson hty

/-- The loads of one analysis are those of the other, and what it holds the other holds too; no displacement is
prescribed. -/
structure MoreHeld (nodes : List K) (bcs bcs' : List (Cond K)) : Prop where
  loads : globalForces nodes bcs = globalForces nodes bcs'
  supports : ∀ (g g' : Nodal Bool) (a : Axis) (i : ℕ), globalRestrained nodes bcs = .ok g → globalRestrained nodes bcs' = .ok g' →
    (g.get a)[i]? = some true → (g'.get a)[i]? = some true
  still : ∀ c ∈ bcs ++ bcs', c.cls ≠ .displacement

theorem still_zero {nodes : List K} {bcs : List (Cond K)} (hno : ∀ c ∈ bcs, c.cls ≠ .displacement) {w : Nodal K}
    (hw : globalDisp nodes bcs = .ok w) {n : ℕ} {U : Fin (3 * n + 3) → K}
    (cw : ∀ d, w.get (axisOf d) = List.ofFn (fun j => U (dof j d))) : U = 0 := by
  have gen : ∀ (l : List (Cond K)) (g : Nodal K), (∀ c ∈ l, c.cls ≠ .displacement) →
      l.foldl (applyOne storeFloat nodes .displacement) g = g := by
    intro l
    induction l with
    | nil => intro g _; rfl
    | cons c l ih =>
      intro g hl
      have : applyOne storeFloat nodes .displacement g c = g := by
        unfold applyOne
        rw [if_neg (hl c (by simp))]
      rw [List.foldl_cons, this]
      exact ih g (fun c hc => hl c (List.mem_cons_of_mem _ hc))
  have hw' : w = ⟨nodes.map (fun _ => (0 : K)), nodes.map (fun _ => (0 : K)), nodes.map (fun _ => (0 : K))⟩ := by
    unfold globalDisp at hw
    cases hv : validateBc bcs .displacement with
    | error f => rw [hv] at hw; cases hw
    | ok q =>
      rw [hv] at hw
      have : w = applyBc storeFloat nodes ⟨nodes.map (fun _ => (0 : K)), nodes.map (fun _ => (0 : K)),
          nodes.map (fun _ => (0 : K))⟩ bcs .displacement := by
        cases hw
        rfl
      rw [this]
      exact gen bcs _ hno
  funext r
  obtain ⟨j, d, rfl⟩ := dof_surjective r
  have := congrArg (·[j.1]?) (cw d)
  rw [hw'] at this
  simp only [List.getElem?_ofFn, dif_pos j.2] at this
  have hm : ∀ a : Axis, ((⟨nodes.map (fun _ => (0 : K)), nodes.map (fun _ => (0 : K)),
      nodes.map (fun _ => (0 : K))⟩ : Nodal K).get a) = nodes.map (fun _ => (0 : K)) := by
    intro a
    cases a <;> rfl
  rw [hm, List.getElem?_map, Option.map_eq_some_iff] at this
  obtain ⟨_, _, h0⟩ := this
  exact h0.symm

/-- **C82, from the tables.** Two analyses without soil on the same mesh with the same loads.  If the second pile is nowhere
less stiff and at least as much of it is held, then its loads do at most the work of the loads of the first, and this work is
not negative. -/
theorem C82_tables (pi : K) (hpi : 0 < pi) (ty ty' : ElementType) (p p' : Pile.Pile K) (top tip : K)
    (hp : Accepted ty p top tip) (hp' : Accepted ty' p' top tip) (hst : StifferPile pi ty ty' p p') (C : Coordinates K)
    (h : MeshOn p top tip C) (h' : MeshOn p' top tip C) (bcs bcs' : List (Cond K)) (hb : MoreHeld C.nodes bcs bcs')
    (T T' : Tables K) (hT : solveOn pi ty p C bcs = some T) (hT' : solveOn pi ty' p' C bcs' = some T') :
    ∃ g, globalForces C.nodes bcs = .ok g ∧ 0 ≤ virtualWork g T'.disp ∧
      virtualWork g T'.disp ≤ virtualWork g T.disp := by
  obtain ⟨z, el, F, U, R, g, gU, gR, n1, hz, anti, hel, gF, hU, hR, cF, cU, cR, s⟩ :=
    solveOn_read pi ty hp.stack h bcs (valid_of_some pi ty bcs T hT)
  obtain ⟨z', el', F', U', R', g', gU', gR', -, hz', -, hel', gF', hU', hR', cF', cU', cR', s'⟩ :=
    solveOn_read pi ty' hp'.stack h' bcs' (valid_of_some pi ty' bcs' T' hT')
  obtain rfl : z = z' := List.ofFn_injective (hz ▸ hz')
  rw [s] at hT
  rw [s'] at hT'
  obtain ⟨u, Q, f, b, d, -⟩ := tables_of_beam ty n1 z el F U R T hT
  obtain ⟨u', Q', f', b', d', -⟩ := tables_of_beam ty' n1 z el' F' U' R' T' hT'
  generalize C.elements.length = n at *
  have zU := still_zero (fun c hc => hb.still c (List.mem_append_left _ hc)) hU cU
  have zU' := still_zero (fun c hc => hb.still c (List.mem_append_right _ hc)) hU' cU'
  have hgg : g = g' := by
    have := hb.loads
    rw [gF, gF'] at this
    exact Except.ok.inj this
  have hFF : F = F' := by
    funext r
    obtain ⟨j, c, rfl⟩ := dof_surjective r
    have := (cF c).symm.trans (hgg ▸ cF' c)
    exact congrFun (List.ofFn_injective this) j
  subst zU zU' hFF hgg
  unfold beam at b b'
  simp only [Option.map_eq_some_iff, Prod.mk.injEq] at b b'
  obtain ⟨⟨u₁, Q₁⟩, x₁, rfl, rfl, rfl⟩ := b
  obtain ⟨⟨u₂, Q₂⟩, x₂, rfl, rfl, rfl⟩ := b'
  refine ⟨g, gF, ?_⟩
  rw [d, d', virtualWork_eq z g F u₁ cF, virtualWork_eq z g F u₂ cF]
  have good := good_of_accepted hpi hp anti hel
  have good' := good_of_accepted hpi hp' anti hel'
  have hsub : ∀ i, (R i || decide ((0 : Fin (3 * n + 3) → K) i ≠ 0)) = true →
      (R' i || decide ((0 : Fin (3 * n + 3) → K) i ≠ 0)) = true := by
    intro r hr
    obtain ⟨j, c, rfl⟩ := dof_surjective r
    simp only [Pi.zero_apply, ne_eq, not_true_eq_false, decide_false, Bool.or_false] at hr ⊢
    have e1 : (gR.get (axisOf c))[j.1]? = some true := by
      rw [cR, List.getElem?_ofFn, dif_pos j.2, ← hr]
    have e2 := hb.supports gR gR' _ _ hR hR' e1
    rw [cR', List.getElem?_ofFn, dif_pos j.2] at e2
    exact Option.some.inj e2
  have hstiff : ∀ i, Stiffer ty ty' (el i) (el' i) ∧ (el' i).L = (el i).L := by
    intro i
    have hi := anti (Fin.castSucc_lt_succ (i := i))
    obtain ⟨a, ha, ea⟩ := hel i
    obtain ⟨a', ha', ea'⟩ := hel' i
    have ma : a ∈ p.sections.filter (fun s => decide (z i.castSucc ≤ s.top ∧ z i.succ ≥ s.bottom)) := by rw [ha]; simp
    have ma' : a' ∈ p'.sections.filter (fun s => decide (z i.castSucc ≤ s.top ∧ z i.succ ≥ s.bottom)) := by
      rw [ha']; simp
    rw [List.mem_filter, decide_eq_true_eq] at ma ma'
    have := hst a ma.1 a' ma'.1 (lt_of_le_of_lt (max_le ma.2.2 ma'.2.2) (lt_of_lt_of_le hi (le_min ma.2.1 ma'.2.1)))
    rw [ea, ea']
    exact ⟨⟨this.axial, this.bending, this.shear⟩, rfl⟩
  refine work_mono _ _ (C19_symmetric ty el (fun _ => ⟨(0, 0), (0, 0), (0, 0)⟩) 0 0 0).2 ?_
    (pile_mono ty ty' el el' good good' (fun i => (hstiff i).2) (fun i => (hstiff i).1)) F _ _ hsub u₁ Q₁ u₂ Q₂ x₁ x₂
  intro v
  unfold energy beamStiffness
  rw [assemble_work]
  exact Finset.sum_nonneg (fun i _ => C16_nonneg_partial ty (el i) (good i).1 (good i).2 (stacked v i))

end tables

/-! ### which piles are stiffer -/

section sections

/-- Shear flexibility of the code for a ring with squared radii `X` and `Y`, up to the factor `12 (1 + nu)³ / (E pi)`. -/
def ringFlex (p q X Y : K) : K := (X + Y) ^ 2 / ((p * X ^ 2 + q * (X * Y) + p * Y ^ 2) * (X - Y))

omit [LinearOrder K] [IsStrictOrderedRing K] in
theorem ringFlex_eq (pi E nu D t : K) (hE : E ≠ 0) (hpi : pi ≠ 0) (h2 : (2 : K) ≠ 0) :
    Cantilever.codeFlex pi .timoshenko E nu D t = 12 * (1 + nu) ^ 3 / (E * pi)
      * ringFlex (7 + 12 * nu + 4 * nu ^ 2) (34 + 48 * nu + 16 * nu ^ 2) ((D / 2) ^ 2) (((D - 2 * t) / 2) ^ 2) := by
  unfold Cantilever.codeFlex hutchinson Cantilever.ringArea ringFlex
  dsimp only
  have e1 : 7 * (D / 2) ^ 4 + 34 * (D / 2) ^ 2 * ((D - 2 * t) / 2) ^ 2 + 7 * ((D - 2 * t) / 2) ^ 4
      + nu * (12 * (D / 2) ^ 4 + 48 * (D / 2) ^ 2 * ((D - 2 * t) / 2) ^ 2 + 12 * ((D - 2 * t) / 2) ^ 4)
      + nu ^ 2 * (4 * (D / 2) ^ 4 + 16 * (D / 2) ^ 2 * ((D - 2 * t) / 2) ^ 2 + 4 * ((D - 2 * t) / 2) ^ 4)
      = (7 + 12 * nu + 4 * nu ^ 2) * ((D / 2) ^ 2) ^ 2
        + (34 + 48 * nu + 16 * nu ^ 2) * ((D / 2) ^ 2 * ((D - 2 * t) / 2) ^ 2)
        + (7 + 12 * nu + 4 * nu ^ 2) * (((D - 2 * t) / 2) ^ 2) ^ 2 := by ring
  have e2 : pi / 4 * (D ^ 2 - (D - 2 * t) ^ 2) = pi * ((D / 2) ^ 2 - ((D - 2 * t) / 2) ^ 2) := by
    have : (4 : K) ≠ 0 := by
      rw [show (4 : K) = 2 * 2 by norm_num]
      exact mul_ne_zero h2 h2
    field_simp
    ring
  rw [e1, e2]
  generalize (7 + 12 * nu + 4 * nu ^ 2) * ((D / 2) ^ 2) ^ 2
    + (34 + 48 * nu + 16 * nu ^ 2) * ((D / 2) ^ 2 * ((D - 2 * t) / 2) ^ 2)
    + (7 + 12 * nu + 4 * nu ^ 2) * (((D - 2 * t) / 2) ^ 2) ^ 2 = den
  generalize (D / 2) ^ 2 - ((D - 2 * t) / 2) ^ 2 = w
  rw [div_mul_eq_mul_div, div_div, div_mul_div_comm]
  congr 1 <;> ring

/-- A larger ring with the same wall: less flexible. -/
theorem ringFlex_diameter (p q X Y X' Y' : K) (hp : 0 < p) (hq : 2 * p ≤ q) (hY : 0 ≤ Y) (hYX : Y < X) (hY' : 0 ≤ Y')
    (hYX' : Y' < X') (hr : Y * X' ≤ Y' * X) (hA : X - Y ≤ X' - Y') : ringFlex p q X' Y' ≤ ringFlex p q X Y := by
  have hX : 0 < X := lt_of_le_of_lt hY hYX
  have hX' : 0 < X' := lt_of_le_of_lt hY' hYX'
  have q0 : 0 < q := by linarith
  have d0 : 0 < p * X ^ 2 + q * (X * Y) + p * Y ^ 2 := by positivity
  have d0' : 0 < p * X' ^ 2 + q * (X' * Y') + p * Y' ^ 2 := by positivity
  have hw : 0 < X - Y := sub_pos.2 hYX
  have hw' : 0 < X' - Y' := sub_pos.2 hYX'
  unfold ringFlex
  have key : (X' + Y') ^ 2 * (p * X ^ 2 + q * (X * Y) + p * Y ^ 2)
      ≤ (X + Y) ^ 2 * (p * X' ^ 2 + q * (X' * Y') + p * Y' ^ 2) := by
    have e : (X + Y) ^ 2 * (p * X' ^ 2 + q * (X' * Y') + p * Y' ^ 2)
        - (X' + Y') ^ 2 * (p * X ^ 2 + q * (X * Y) + p * Y ^ 2)
        = (q - 2 * p) * ((Y' * X - Y * X') * (X * X' - Y * Y')) := by ring
    have h1 : 0 ≤ X * X' - Y * Y' := by nlinarith
    have h2 : 0 ≤ (q - 2 * p) * ((Y' * X - Y * X') * (X * X' - Y * Y')) :=
      mul_nonneg (by linarith) (mul_nonneg (by linarith) h1)
    linarith
  rw [div_le_div_iff₀ (mul_pos d0' hw') (mul_pos d0 hw)]
  calc (X' + Y') ^ 2 * ((p * X ^ 2 + q * (X * Y) + p * Y ^ 2) * (X - Y))
      = (X' + Y') ^ 2 * (p * X ^ 2 + q * (X * Y) + p * Y ^ 2) * (X - Y) := by ring
    _ ≤ (X + Y) ^ 2 * (p * X' ^ 2 + q * (X' * Y') + p * Y' ^ 2) * (X' - Y') :=
        mul_le_mul key hA hw.le (by positivity)
    _ = _ := by ring

/-- A thicker wall, up to about a fifth of the diameter: less flexible. -/
theorem ringFlex_wall (p q X Y Y' : K) (hp : 0 < p) (hq : 2 * p ≤ q) (hX : 0 < X) (hY : X ≤ 3 * Y') (hYY : Y' ≤ Y)
    (hYX : Y < X) : ringFlex p q X Y' ≤ ringFlex p q X Y := by
  have hY' : 0 < Y' := by linarith
  have hY0 : 0 < Y := by linarith
  have q0 : 0 < q := by linarith
  have d0 : 0 < p * X ^ 2 + q * (X * Y) + p * Y ^ 2 := by positivity
  have d0' : 0 < p * X ^ 2 + q * (X * Y') + p * Y' ^ 2 := by positivity
  have hw : 0 < X - Y := sub_pos.2 hYX
  have hw' : 0 < X - Y' := by linarith
  unfold ringFlex
  rw [div_le_div_iff₀ (mul_pos d0' hw') (mul_pos d0 hw)]
  have e : (X + Y) ^ 2 * ((p * X ^ 2 + q * (X * Y') + p * Y' ^ 2) * (X - Y'))
      - (X + Y') ^ 2 * ((p * X ^ 2 + q * (X * Y) + p * Y ^ 2) * (X - Y))
      = (Y - Y') * (p * (X + Y) ^ 2 * (X + Y') ^ 2
        + (q - 2 * p) * X * (X * (3 * Y * Y' + X * Y + X * Y' - X ^ 2))) := by ring
  have h1 : 0 ≤ 3 * Y * Y' + X * Y + X * Y' - X ^ 2 := by nlinarith
  have h2 : 0 ≤ (q - 2 * p) * X * (X * (3 * Y * Y' + X * Y + X * Y' - X ^ 2)) :=
    mul_nonneg (mul_nonneg (by linarith) hX.le) (mul_nonneg hX.le h1)
  have h3 : 0 ≤ (Y - Y') * (p * (X + Y) ^ 2 * (X + Y') ^ 2
        + (q - 2 * p) * X * (X * (3 * Y * Y' + X * Y + X * Y' - X ^ 2))) :=
    mul_nonneg (by linarith) (by positivity)
  linarith

end sections

/-! ### further supports -/

section supports
open OpenPile.BC OpenPile.Spec.BC OpenPile.Props.BC
variable [FloorRing K]

/-- A call of `set_support` that releases nothing. -/
def Holds (k : Call K) : Prop :=
  kind k = .fixation ∧ ∀ a : Axis, arg k a ≠ some (.flag false)

omit [LinearOrder K] [IsStrictOrderedRing K] [FloorRing K] in
theorem arg_of_holds {k : Call K} (h : Holds k) (a : Axis) (v : Val K) (hv : arg k a = some v) : Effective v := by
  obtain ⟨h1, h2⟩ := h
  cases k with
  | pointload => simp [kind] at h1
  | pointdisplacement => simp [kind] at h1
  | support e ty tz rx =>
    have := h2 a
    cases a <;> simp only [arg, Option.map_eq_some_iff] at hv this <;> obtain ⟨b, hb, rfl⟩ := hv <;>
      cases b <;> simp_all [Effective]

/-- Whether an axis of a node is held. -/
theorem held_iff (nodes : List K) (bcs : List (Cond K)) (g : Nodal Bool) (hg : globalRestrained nodes bcs = .ok g)
    (a : Axis) (i : ℕ) : (g.get a)[i]? = some true ↔
      ∃ c ∈ bcs, c.cls = .fixation ∧ ActsAt nodes c.elevation i ∧ ∃ v, c.get a = some v ∧ Effective v := by
  have hg' : g = applyBc storeBool nodes ⟨nodes.map (fun _ => false), nodes.map (fun _ => false),
      nodes.map (fun _ => false)⟩ bcs .fixation := by
    unfold globalRestrained at hg
    cases hv : validateBc bcs .fixation with
    | error f => rw [hv] at hg; cases hg
    | ok q =>
      rw [hv] at hg
      cases hg
      rfl
  have hget : ∀ a : Axis, ((⟨nodes.map (fun _ => false), nodes.map (fun _ => false),
      nodes.map (fun _ => false)⟩ : Nodal Bool).get a) = nodes.map (fun _ => false) := by
    intro a
    cases a <;> rfl
  by_cases hex : ∃ c ∈ bcs, c.cls = .fixation ∧ ActsAt nodes c.elevation i ∧ ∃ v, c.get a = some v ∧ Effective v
  · refine ⟨fun _ => hex, fun _ => ?_⟩
    have hex' := hex
    obtain ⟨c0, -, -, ⟨⟨n, hn, -⟩, -⟩, -⟩ := hex'
    have hi : i < nodes.length := (List.getElem?_eq_some_iff.1 hn).1
    have hval := C14_nodal_value storeBool nodes ⟨nodes.map (fun _ => false), nodes.map (fun _ => false),
      nodes.map (fun _ => false)⟩ bcs .fixation a i (by rw [hget, List.length_map]; exact hi)
    -- the last of them
    have last : ∀ l : List (Cond K), (∃ c ∈ l, c.cls = .fixation ∧ ActsAt nodes c.elevation i ∧
        ∃ v, c.get a = some v ∧ Effective v) → ∃ c v l₁ l₂, l = l₁ ++ c :: l₂ ∧ c.cls = .fixation ∧
        ActsAt nodes c.elevation i ∧ c.get a = some v ∧ Effective v ∧
        ∀ d ∈ l₂, d.cls = .fixation → ActsAt nodes d.elevation i → ∀ w, d.get a = some w → ¬ Effective w := by
      intro l
      induction l with
      | nil => rintro ⟨c, hc, -⟩; cases hc
      | cons b l ih =>
        intro hb
        by_cases hl : ∃ c ∈ l, c.cls = .fixation ∧ ActsAt nodes c.elevation i ∧ ∃ v, c.get a = some v ∧ Effective v
        · obtain ⟨c, v, l₁, l₂, rfl, r⟩ := ih hl
          exact ⟨c, v, b :: l₁, l₂, rfl, r⟩
        · obtain ⟨c, hc, h1, h2, v, h3, h4⟩ := hb
          rcases List.mem_cons.1 hc with rfl | hc
          · refine ⟨c, v, [], l, rfl, h1, h2, h3, h4, fun d hd e1 e2 w e3 e4 => hl ⟨d, hd, e1, e2, w, e3, e4⟩⟩
          · exact absurd ⟨c, hc, h1, h2, v, h3, h4⟩ hl
    obtain ⟨c, v, l₁, l₂, e, h1, h2, h3, h4, h5⟩ := last bcs hex
    rw [hg', hval.1 c v l₁ l₂ e h1 h2 h3 h4 h5]
    cases v with
    | flag b => simpa [storeBool, Val.truthy, Effective] using h4
    | num q => simpa [storeBool, Val.truthy, Effective] using h4
  · refine ⟨fun ht => ?_, fun h => absurd h hex⟩
    exfalso
    by_cases hi : i < nodes.length
    · have hval := C14_nodal_value storeBool nodes ⟨nodes.map (fun _ => false), nodes.map (fun _ => false),
        nodes.map (fun _ => false)⟩ bcs .fixation a i (by rw [hget, List.length_map]; exact hi)
      rw [hg', hval.2 (fun d hd e1 e2 w e3 e4 => hex ⟨d, hd, e1, e2, w, e3, e4⟩), hget, List.getElem?_map] at ht
      rw [List.getElem?_eq_getElem hi] at ht
      simp at ht
    · have hlen : (g.get a).length = nodes.length := by
        rw [hg', applyBc_length, hget, List.length_map]
      rw [List.getElem?_eq_none (by omega)] at ht
      cases ht

omit [IsStrictOrderedRing K] in
/-- One more support leaves the conditions of another kind alone. -/
theorem step_filter (bcs : List (Cond K)) (k : Call K) (cls : Cls) (hk : kind k ≠ cls) :
    (step bcs k).filter (fun c => decide (c.cls = cls)) = bcs.filter (fun c => decide (c.cls = cls)) := by
  rw [step_eq]
  unfold updateBc
  split
  · rw [List.filter_map]
    have e1 : bcs.filter ((fun c => decide (c.cls = cls)) ∘ fun c => if c.isAt (kind k) (elev k) = true then
        c.overwrite (arg k .x) (arg k .y) (arg k .z) else c) = bcs.filter (fun c => decide (c.cls = cls)) := by
      refine List.filter_congr (fun c _ => ?_)
      simp only [Function.comp]
      split <;> rfl
    rw [e1]
    conv_rhs => rw [← List.map_id (bcs.filter (fun c => decide (c.cls = cls)))]
    refine List.map_congr_left (fun c hc => ?_)
    have hc' := (List.mem_filter.1 hc).2
    rw [decide_eq_true_eq] at hc'
    rw [if_neg]
    · rfl
    · unfold Cond.isAt
      rw [Bool.and_eq_true, decide_eq_true_eq, decide_eq_true_eq]
      rintro ⟨-, h2⟩
      exact hk (h2.symm.trans hc')
  · rw [List.filter_append]
    simp [hk]

omit [IsStrictOrderedRing K] in
theorem run_filter (cls : Cls) (h : List (Call K)) (hh : ∀ k ∈ h, kind k ≠ cls) (bcs : List (Cond K)) :
    (run bcs h).filter (fun c => decide (c.cls = cls)) = bcs.filter (fun c => decide (c.cls = cls)) := by
  induction h generalizing bcs with
  | nil => rfl
  | cons k h ih =>
    have : run bcs (k :: h) = run (step bcs k) h := rfl
    rw [this, ih (fun k' hk' => hh k' (List.mem_cons_of_mem _ hk')), step_filter _ _ _ (hh k (by simp))]

omit [IsStrictOrderedRing K] in
theorem forces_filter (nodes : List K) (bcs bcs' : List (Cond K))
    (h : bcs.filter (fun c => decide (c.cls = .force)) = bcs'.filter (fun c => decide (c.cls = .force))) :
    globalForces nodes bcs = globalForces nodes bcs' := by
  have ha : ∀ (l : List (Cond K)) (g : Nodal ℤ), applyBc storeInt nodes g l .force =
      applyBc storeInt nodes g (l.filter (fun c => decide (c.cls = .force))) .force := by
    intro l
    induction l with
    | nil => intro g; rfl
    | cons c l ih =>
      intro g
      by_cases hc : c.cls = .force
      · rw [List.filter_cons_of_pos (by simpa using hc)]
        exact ih _
      · rw [List.filter_cons_of_neg (by simpa using hc)]
        have : applyOne storeInt nodes .force g c = g := by
          unfold applyOne
          rw [if_neg hc]
        show applyBc storeInt nodes (applyOne storeInt nodes .force g c) l .force = _
        rw [this]
        exact ih g
  have hv : validateBc bcs .force = validateBc bcs' .force := by
    unfold validateBc axisConflict
    rw [h]
  unfold globalForces
  rw [hv]
  dsimp only
  rw [ha bcs, ha bcs', h]

/-- What one more support keeps. -/
theorem step_keeps (nodes : List K) (bcs : List (Cond K)) (k : Call K) (hk : Holds k) (a : Axis) (i : ℕ)
    (h : ∃ c ∈ bcs, c.cls = .fixation ∧ ActsAt nodes c.elevation i ∧ ∃ v, c.get a = some v ∧ Effective v) :
    ∃ c ∈ step bcs k, c.cls = .fixation ∧ ActsAt nodes c.elevation i ∧ ∃ v, c.get a = some v ∧ Effective v := by
  obtain ⟨c, hc, h1, h2, v, h3, h4⟩ := h
  rw [step_eq]
  unfold updateBc
  split
  · by_cases hat : c.isAt (kind k) (elev k) = true
    · refine ⟨c.overwrite (arg k .x) (arg k .y) (arg k .z), List.mem_map.2 ⟨c, hc, by rw [if_pos hat]⟩, h1, h2, ?_⟩
      rw [overwrite_get]
      cases ha : arg k a with
      | none => exact ⟨v, by simpa [lastWrite] using h3, h4⟩
      | some w => exact ⟨w, by simp [lastWrite], arg_of_holds hk a w ha⟩
    · exact ⟨c, List.mem_map.2 ⟨c, hc, by rw [if_neg hat]⟩, h1, h2, v, h3, h4⟩
  · exact ⟨c, List.mem_append_left _ hc, h1, h2, v, h3, h4⟩

/-- **Further calls of `set_support` that release nothing.** -/
theorem moreHeld_calls (nodes : List K) (h more : List (Call K)) (hh : ∀ k ∈ h, kind k ≠ .displacement)
    (hm : ∀ k ∈ more, Holds k) : MoreHeld nodes (run [] h) (run [] (h ++ more)) := by
  have happ : run [] (h ++ more) = run (run [] h) more := by
    unfold run
    rw [List.foldl_append]
  refine ⟨?_, ?_, ?_⟩
  · refine forces_filter nodes _ _ ?_
    rw [happ, run_filter .force more (fun k hk => by rw [(hm k hk).1]; decide)]
  · intro g g' a i hg hg' ht
    rw [held_iff nodes _ g hg] at ht
    rw [held_iff nodes _ g' hg', happ]
    clear hg hg' happ
    induction more generalizing h with
    | nil => exact ht
    | cons k more ih =>
      have e : run (run [] h) (k :: more) = run (run [] (h ++ [k])) more := by
        unfold run
        simp [List.foldl_append]
      rw [e]
      refine ih (h ++ [k]) ?_ (fun k' hk' => hm k' (List.mem_cons_of_mem _ hk')) ?_
      · intro k' hk'
        rcases List.mem_append.1 hk' with h1 | h1
        · exact hh k' h1
        · rw [List.mem_singleton.1 h1, (hm k (by simp)).1]
          decide
      · have : run [] (h ++ [k]) = step (run [] h) k := by
          unfold run
          simp [List.foldl_append]
        rw [this]
        exact step_keeps nodes _ k (hm k (by simp)) a i ht
  · have none' : ∀ l : List (Call K), (∀ k ∈ l, kind k ≠ .displacement) → ∀ c ∈ run [] l, c.cls ≠ .displacement := by
      intro l hl c hc he
      have := run_filter .displacement l hl []
      rw [List.filter_nil, List.filter_eq_nil_iff] at this
      exact this c hc (by simpa using he)
    intro c hc
    rcases List.mem_append.1 hc with h1 | h1
    · exact none' h hh c h1
    · refine none' (h ++ more) (fun k hk => ?_) c h1
      rcases List.mem_append.1 hk with h2 | h2
      · exact hh k h2
      · rw [(hm k h2).1]
        decide

omit [IsStrictOrderedRing K] in
/-- The same calls on both piles. -/
theorem moreHeld_same (nodes : List K) (bcs : List (Cond K)) (h : ∀ c ∈ bcs, c.cls ≠ .displacement) :
    MoreHeld nodes bcs bcs := by
  refine ⟨rfl, fun g g' a i hg hg' ht => ?_, fun c hc => ?_⟩
  · rw [hg] at hg'
    cases hg'
    exact ht
  · rcases List.mem_append.1 hc with h1 | h1 <;> exact h c h1

end supports

section piles
open OpenPile.BC OpenPile.Mesh OpenPile.Analysis OpenPile.Result OpenPile.Props.Analysis OpenPile.Props.Reported
open OpenPile.Props.Cantilever (ringArea ringInertia codeFlex)

omit [LinearOrder K] [IsStrictOrderedRing K] in
theorem area_ring (pi : K) (s : Pile.Section K) : s.area pi = ringArea pi s.diameter s.thickness := by
  unfold Pile.Section.area ringArea
  ring

omit [LinearOrder K] [IsStrictOrderedRing K] in
theorem inertia_ring (pi : K) (s : Pile.Section K) : s.inertia pi = ringInertia pi s.diameter s.thickness := by
  unfold Pile.Section.inertia ringInertia
  ring

theorem compliance_ring (pi : K) (ty : ElementType) (m : Pile.Material K) (s : Pile.Section K) (L : K) :
    compliance ty (elemOf pi m s L) = codeFlex pi ty m.E m.nu s.diameter s.thickness := by
  unfold compliance codeFlex
  cases ty with
  | eulerBernoulli => simp [kappa]
  | timoshenko =>
    rw [kappa_eq]
    unfold shearMod elemOf
    have : (2 : K) + 2 * m.nu = 2 * (1 + m.nu) := by ring
    dsimp only
    rw [this, area_ring, mul_comm (ringArea pi s.diameter s.thickness), div_mul_eq_mul_div, div_div_eq_mul_div]

theorem area_mono (pi D t D' t' : K) (hpi : 0 < pi) (ht : 0 < t) (hD : D ≤ D') (htt : t ≤ t') (h' : 2 * t' ≤ D') :
    ringArea pi D t ≤ ringArea pi D' t' := by
  unfold ringArea
  refine mul_le_mul_of_nonneg_left ?_ (by positivity)
  have e : D' ^ 2 - (D' - 2 * t') ^ 2 - (D ^ 2 - (D - 2 * t) ^ 2) = 4 * (t * (D' - D) + (t' - t) * (D' - t - t')) := by ring
  have h1 : 0 ≤ t * (D' - D) := mul_nonneg ht.le (by linarith)
  have h2 : 0 ≤ (t' - t) * (D' - t - t') := mul_nonneg (by linarith) (by linarith)
  linarith

theorem inertia_mono (pi D t D' t' : K) (hpi : 0 < pi) (ht : 0 < t) (h : 2 * t ≤ D) (hD : D ≤ D') (htt : t ≤ t')
    (h' : 2 * t' ≤ D') : ringInertia pi D t ≤ ringInertia pi D' t' := by
  unfold ringInertia
  refine mul_le_mul_of_nonneg_left ?_ (by positivity)
  have e : ∀ D t : K, D ^ 4 - (D - 2 * t) ^ 4 = (D ^ 2 - (D - 2 * t) ^ 2) * (D ^ 2 + (D - 2 * t) ^ 2) := by
    intro D t
    ring
  -- with the same wall
  have s1 : D ^ 4 - (D - 2 * t) ^ 4 ≤ D' ^ 4 - (D' - 2 * t) ^ 4 := by
    rw [e, e]
    have a0 : 0 ≤ D - 2 * t := by linarith
    have a1 : D - 2 * t ≤ D' - 2 * t := by linarith
    have d0 : 0 ≤ D := by linarith
    have a2 : (D - 2 * t) ^ 2 ≤ (D' - 2 * t) ^ 2 := pow_le_pow_left₀ a0 a1 2
    have a3 : D ^ 2 ≤ D' ^ 2 := pow_le_pow_left₀ d0 hD 2
    have a4 : D ^ 2 - (D - 2 * t) ^ 2 ≤ D' ^ 2 - (D' - 2 * t) ^ 2 := by nlinarith
    have a5 : 0 ≤ D ^ 2 - (D - 2 * t) ^ 2 := by nlinarith
    exact mul_le_mul a4 (by linarith) (by positivity) (by linarith)
  -- with the same diameter
  have s2 : (D' - 2 * t') ^ 4 ≤ (D' - 2 * t) ^ 4 := pow_le_pow_left₀ (by linarith) (by linarith) 4
  linarith

/-- The same tube, or one that is at least as wide with at least as thick a wall; neither wall closes the bore.  With
Timoshenko elements the thicker wall is at most a fifth of the diameter. -/
def Larger (ty : ElementType) (s s' : Pile.Section K) : Prop :=
  (s.diameter = s'.diameter ∧ s.thickness = s'.thickness) ∨
  (s.diameter ≤ s'.diameter ∧ s.thickness ≤ s'.thickness ∧ 2 * s.thickness ≤ s.diameter ∧
    2 * s'.thickness ≤ s'.diameter ∧ (ty = .timoshenko → 5 * s'.thickness ≤ s'.diameter))

theorem poly_pos (nu : K) (h : -(3 / 4) ≤ nu) :
    0 < 7 + 12 * nu + 4 * nu ^ 2 ∧ 2 * (7 + 12 * nu + 4 * nu ^ 2) ≤ 34 + 48 * nu + 16 * nu ^ 2 := by
  constructor
  · nlinarith [mul_nonneg (by linarith : (0 : K) ≤ nu + 3 / 4) (by linarith : (0 : K) ≤ nu + 3 / 4)]
  · nlinarith [sq_nonneg (nu + 3 / 2)]

theorem codeFlex_nonneg (pi : K) (hpi : 0 < pi) (ty : ElementType) (E nu D t : K) (hE : 0 < E) (ht : 0 < t) (htD : t < D)
    (hnu : ty = .timoshenko → -(3 / 4) ≤ nu) : 0 ≤ codeFlex pi ty E nu D t := by
  unfold codeFlex
  cases ty with
  | eulerBernoulli => exact le_rfl
  | timoshenko =>
    have hn := hnu rfl
    have hk := hutchinson_pos (D / 2) ((D - 2 * t) / 2) nu (by linarith) hn
    have hA : 0 < ringArea pi D t := by
      unfold ringArea
      have : 0 < D ^ 2 - (D - 2 * t) ^ 2 := by
        have e : D ^ 2 - (D - 2 * t) ^ 2 = 4 * (t * (D - t)) := by ring
        have := mul_pos ht (sub_pos.2 htD)
        linarith
      positivity
    have h1 : 0 < 1 + nu := by linarith
    dsimp only
    positivity

theorem codeFlex_mono (pi : K) (hpi : 0 < pi) (E nu D t D' t' : K) (hE : 0 < E) (hnu : -(3 / 4) ≤ nu) (ht : 0 < t)
    (hD : D ≤ D') (htt : t ≤ t') (h : 2 * t ≤ D) (h' : 5 * t' ≤ D') :
    codeFlex pi .timoshenko E nu D' t' ≤ codeFlex pi .timoshenko E nu D t := by
  rw [ringFlex_eq pi E nu D' t' hE.ne' hpi.ne' two_ne_zero, ringFlex_eq pi E nu D t hE.ne' hpi.ne' two_ne_zero]
  obtain ⟨hp, hq⟩ := poly_pos nu hnu
  have h1 : 0 < 1 + nu := by linarith
  refine mul_le_mul_of_nonneg_left ?_ (by positivity)
  have hD0 : 0 < D := by linarith
  have hD0' : 0 < D' := by linarith
  refine le_trans (ringFlex_wall _ _ ((D' / 2) ^ 2) (((D' - 2 * t) / 2) ^ 2) (((D' - 2 * t') / 2) ^ 2) hp hq (by positivity)
    ?_ ?_ ?_) (ringFlex_diameter _ _ ((D / 2) ^ 2) (((D - 2 * t) / 2) ^ 2) ((D' / 2) ^ 2) (((D' - 2 * t) / 2) ^ 2) hp hq
      (by positivity) ?_ (by positivity) ?_ ?_ ?_)
  · nlinarith
  · exact pow_le_pow_left₀ (by linarith) (by linarith) 2
  · exact pow_lt_pow_left₀ (by linarith) (by linarith) two_ne_zero
  · exact pow_lt_pow_left₀ (by linarith) (by linarith) two_ne_zero
  · exact pow_lt_pow_left₀ (by linarith) (by linarith) two_ne_zero
  · rw [← mul_pow, ← mul_pow]
    refine pow_le_pow_left₀ (mul_nonneg (by linarith) (by linarith)) ?_ 2
    nlinarith
  · have e : ∀ D t : K, (D / 2) ^ 2 - ((D - 2 * t) / 2) ^ 2 = t * (D - t) := by
      intro D t
      ring
    rw [e, e]
    exact mul_le_mul_of_nonneg_left (by linarith) ht.le

/-- A larger tube of a material that is no softer, with the same elements or with Euler-Bernoulli elements. -/
theorem stiffer_of_larger (pi : K) (hpi : 0 < pi) (ty ty' : ElementType) (hty : ty' = ty ∨ ty' = .eulerBernoulli)
    (m m' : Pile.Material K) (hE : 0 < m.E) (hEE : m.E ≤ m'.E) (hn : m'.nu = m.nu)
    (hnu : ty = .timoshenko → -(3 / 4) ≤ m.nu) (s s' : Pile.Section K) (ht : 0 < s.thickness)
    (htD : s.thickness < s.diameter) (h : Larger ty' s s') :
    Stiffer ty ty' (elemOf pi m s 1) (elemOf pi m' s' 1) := by
  have hE' : 0 < m'.E := lt_of_lt_of_le hE hEE
  have pos : 0 < s.area pi ∧ 0 < s.inertia pi := by
    have h1 := mul_pos ht (sub_pos.2 htD)
    have hsq : (s.diameter - 2 * s.thickness) ^ 2 < s.diameter ^ 2 := by nlinarith
    constructor
    · rw [area_ring]
      unfold ringArea
      have := sub_pos.2 hsq
      positivity
    · rw [inertia_ring]
      unfold ringInertia
      have : (s.diameter - 2 * s.thickness) ^ 4 < s.diameter ^ 4 := by
        have := pow_lt_pow_left₀ hsq (sq_nonneg _) two_ne_zero
        calc (s.diameter - 2 * s.thickness) ^ 4 = ((s.diameter - 2 * s.thickness) ^ 2) ^ 2 := by ring
          _ < (s.diameter ^ 2) ^ 2 := this
          _ = _ := by ring
      have := sub_pos.2 this
      positivity
  have mono : s.area pi ≤ s'.area pi ∧ s.inertia pi ≤ s'.inertia pi := by
    rw [area_ring, area_ring, inertia_ring, inertia_ring]
    rcases h with ⟨h1, h2⟩ | ⟨h1, h2, h3, h4, -⟩
    · rw [h1, h2]
      exact ⟨le_rfl, le_rfl⟩
    · exact ⟨area_mono pi _ _ _ _ hpi ht h1 h2 h4, inertia_mono pi _ _ _ _ hpi ht h3 h1 h2 h4⟩
  refine ⟨?_, ?_, ?_⟩
  · exact mul_le_mul hEE mono.1 pos.1.le hE'.le
  · exact mul_le_mul hEE mono.2 pos.2.le hE'.le
  · rw [compliance_ring, compliance_ring, hn]
    rcases hty with rfl | rfl
    · cases ty' with
      | eulerBernoulli => exact le_rfl
      | timoshenko =>
        have hk := hnu rfl
        have step : codeFlex pi .timoshenko m'.E m.nu s.diameter s.thickness
            ≤ codeFlex pi .timoshenko m.E m.nu s.diameter s.thickness := by
          have hh := hutchinson_pos (s.diameter / 2) ((s.diameter - 2 * s.thickness) / 2) m.nu (by linarith) hk
          have h1 : 0 < 1 + m.nu := by linarith
          have hA := pos.1
          rw [area_ring] at hA
          unfold codeFlex
          dsimp only
          exact div_le_div_of_nonneg_left (by positivity) (mul_pos hE hA) (mul_le_mul_of_nonneg_right hEE hA.le)
        refine le_trans ?_ step
        rcases h with ⟨h1, h2⟩ | ⟨h1, h2, h3, h4, h5⟩
        · rw [h1, h2]
        · exact codeFlex_mono pi hpi _ _ _ _ _ _ hE' hk ht h1 h2 h3 (h5 rfl)
    · exact codeFlex_nonneg pi hpi ty m.E m.nu s.diameter s.thickness hE ht htD hnu

/-- Wherever the two piles have a stretch of the shaft in common, the second has the same or a larger tube; its material
has the same Poisson's ratio and at least the same Young's modulus. -/
structure LargerPile (ty' : ElementType) (p p' : Pile.Pile K) : Prop where
  young : p.material.E ≤ p'.material.E
  poisson : p'.material.nu = p.material.nu
  tubes : ∀ s ∈ p.sections, ∀ s' ∈ p'.sections, max s.bottom s'.bottom < min s.top s'.top → Larger ty' s s'

theorem stifferPile_of_larger (pi : K) (hpi : 0 < pi) (ty ty' : ElementType) (hty : ty' = ty ∨ ty' = .eulerBernoulli)
    (p p' : Pile.Pile K) (top tip : K) (hp : Accepted ty p top tip) (h : LargerPile ty' p p') :
    StifferPile pi ty ty' p p' := by
  intro s hs s' hs' ho
  obtain ⟨uw, E, nu, hm⟩ := hp.material
  obtain ⟨hb, hlt⟩ := hp.built s hs
  have hE : 0 < p.material.E := by
    unfold Pile.mkMaterial at hm
    split_ifs at hm with hc
    rw [← Option.some.inj hm]
    exact hc.2.1
  exact stiffer_of_larger pi hpi ty ty' hty p.material p'.material hE h.young h.poisson hp.poisson s s'
    ((Pile.built_iff s).1 hb).2.2 hlt (h.tubes s hs s' hs' ho)

variable [FloorRing K]

/-- **C82, for the tubes, materials and supports of the calls (partial).**  The second pile has nowhere a smaller tube or a
softer material, and its history of calls is that of the first with further supports.  Then the loads do at most the same
work.  Partial: with Timoshenko elements a thicker wall is at most a fifth of the diameter. -/
theorem C82_larger_partial (pi : K) (hpi : 0 < pi) (ty ty' : ElementType) (hty : ty' = ty ∨ ty' = .eulerBernoulli)
    (p p' : Pile.Pile K) (top tip : K) (hp : Accepted ty p top tip) (hp' : Accepted ty' p' top tip)
    (hl : LargerPile ty' p p') (C : Coordinates K) (h : MeshOn p top tip C) (h' : MeshOn p' top tip C)
    (calls more : List (Call K)) (hc : ∀ k ∈ calls, Spec.BC.kind k ≠ .displacement) (hm : ∀ k ∈ more, Holds k)
    (T T' : Tables K) (hT : solveOn pi ty p C (run [] calls) = some T)
    (hT' : solveOn pi ty' p' C (run [] (calls ++ more)) = some T') :
    ∃ g, globalForces C.nodes (run [] calls) = .ok g ∧ 0 ≤ virtualWork g T'.disp ∧
      virtualWork g T'.disp ≤ virtualWork g T.disp :=
  C82_tables pi hpi ty ty' p p' top tip hp hp' (stifferPile_of_larger pi hpi ty ty' hty p p' top tip hp hl) C h h' _ _
    (moreHeld_calls C.nodes calls more hc hm) T T' hT hT'

end piles

/-! ### one load: the displacement where it acts -/

section deflection
open OpenPile.BC OpenPile.Mesh OpenPile.Analysis OpenPile.Result OpenPile.Props.Analysis OpenPile.Props.Reported
variable [FloorRing K]

/-- The only load is a lateral force `H` at node `i` of `N`. -/
def OneLoad (N : ℕ) (g : Nodal ℤ) (i : ℕ) (H : ℤ) : Prop :=
  i < N ∧ g.z = List.replicate N 0 ∧ g.y = (List.replicate N 0).set i H ∧ g.x = List.replicate N 0

omit [LinearOrder K] [IsStrictOrderedRing K] [FloorRing K] in
theorem virtualWork_one (N : ℕ) (g : Nodal ℤ) (i : ℕ) (H : ℤ) (h : OneLoad N g i H) (d : List (K × K × K × K))
    (hd : d.length = N) : ∃ r, d[i]? = some r ∧ virtualWork g d = H * r.2.2.1 := by
  obtain ⟨hi, hz, hy, hx⟩ := h
  unfold virtualWork
  rw [hz, hy, hx]
  clear hz hy hx
  have zero : ∀ (d : List (K × K × K × K)), ((((List.replicate d.length (0 : ℤ)).zip
      ((List.replicate d.length (0 : ℤ)).zip (List.replicate d.length (0 : ℤ)))).zip d).map
      (fun r => (r.1.1 : K) * r.2.2.1 + (r.1.2.1 : K) * r.2.2.2.1 + (r.1.2.2 : K) * r.2.2.2.2)).sum = 0 := by
    intro d
    induction d with
    | nil => rfl
    | cons r d ih =>
      simp only [List.length_cons, List.replicate_succ, List.zip_cons_cons, List.map_cons, List.sum_cons, Int.cast_zero,
        zero_mul, add_zero, zero_add]
      exact ih
  subst hd
  induction d generalizing i with
  | nil => exact absurd hi (Nat.not_lt_zero _)
  | cons r d ih =>
    cases i with
    | zero =>
      refine ⟨r, rfl, ?_⟩
      simp only [List.length_cons, List.replicate_succ, List.set_cons_zero, List.zip_cons_cons, List.map_cons, List.sum_cons,
        Int.cast_zero, zero_mul, add_zero, zero_add]
      rw [zero d, add_zero]
    | succ i =>
      obtain ⟨r', h1, h2⟩ := ih i (by simpa using hi)
      refine ⟨r', by simpa using h1, ?_⟩
      simp only [List.length_cons, List.replicate_succ, List.set_cons_succ, List.zip_cons_cons, List.map_cons, List.sum_cons,
        Int.cast_zero, zero_mul, add_zero, zero_add]
      exact h2

/-- **C82, for a single lateral load.** The listed displacement of the loaded node is towards the load, and not larger for
the stiffer or better supported pile. -/
theorem C82_deflection (pi : K) (hpi : 0 < pi) (ty ty' : ElementType) (p p' : Pile.Pile K) (top tip : K)
    (hp : Accepted ty p top tip) (hp' : Accepted ty' p' top tip) (hst : StifferPile pi ty ty' p p') (C : Coordinates K)
    (h : MeshOn p top tip C) (h' : MeshOn p' top tip C) (bcs bcs' : List (Cond K)) (hb : MoreHeld C.nodes bcs bcs')
    (T T' : Tables K) (hT : solveOn pi ty p C bcs = some T) (hT' : solveOn pi ty' p' C bcs' = some T')
    (g : Nodal ℤ) (hg : globalForces C.nodes bcs = .ok g) (i : ℕ) (H : ℤ) (hH : 0 < H)
    (hone : OneLoad C.nodes.length g i H) :
    ∃ x u u', C.nodes[i]? = some x ∧ (∃ a b, T.disp[i]? = some (x, a, u, b)) ∧ (∃ a b, T'.disp[i]? = some (x, a, u', b)) ∧
      0 ≤ u' ∧ u' ≤ u := by
  obtain ⟨g', hg', w0, w1⟩ := C82_tables pi hpi ty ty' p p' top tip hp hp' hst C h h' bcs bcs' hb T T' hT hT'
  rw [hg] at hg'
  obtain rfl : g = g' := Except.ok.inj hg'
  have nodes : ∀ (ty : ElementType) (p : Pile.Pile K) (hp : Stack p top tip) (h : MeshOn p top tip C) (bcs : List (Cond K))
      (T : Tables K) (hT : solveOn pi ty p C bcs = some T), T.disp.map (·.1) = C.nodes := by
    intro ty p hp h bcs T hT
    obtain ⟨z, el, F, U, R, g, gU, gR, n1, hz, anti, hel, gF, hU, hR, cF, cU, cR, s⟩ :=
      solveOn_read pi ty hp h bcs (valid_of_some pi ty bcs T hT)
    rw [s] at hT
    obtain ⟨u, Q, f, b, d, -⟩ := tables_of_beam ty n1 z el F U R T hT
    rw [d, hz, List.map_ofFn]
    rfl
  have n1 := nodes ty p hp.stack h bcs T hT
  have n2 := nodes ty' p' hp'.stack h' bcs' T' hT'
  obtain ⟨r, hr, e⟩ := virtualWork_one C.nodes.length g i H hone T.disp (by rw [← n1, List.length_map])
  obtain ⟨r', hr', e'⟩ := virtualWork_one C.nodes.length g i H hone T'.disp (by rw [← n2, List.length_map])
  rw [e'] at w0
  rw [e, e'] at w1
  have hH' : (0 : K) < H := by exact_mod_cast hH
  have x1 : C.nodes[i]? = some r.1 := by rw [← n1, List.getElem?_map, hr]; rfl
  have x2 : C.nodes[i]? = some r'.1 := by rw [← n2, List.getElem?_map, hr']; rfl
  have hx : r'.1 = r.1 := by
    rw [x1] at x2
    exact (Option.some.inj x2).symm
  refine ⟨r.1, r.2.2.1, r'.2.2.1, x1, ⟨r.2.1, r.2.2.2, hr⟩, ⟨r'.2.1, r'.2.2.2, by rw [hr', ← hx]⟩, ?_, ?_⟩
  · exact nonneg_of_mul_nonneg_right w0 hH'
  · exact le_of_mul_le_mul_left w1 hH'

end deflection

/-! ### where the code does not follow -/

section violated
open OpenPile.BC OpenPile.Spec.BC OpenPile.Mesh OpenPile.Analysis OpenPile.Result OpenPile.Props.Analysis OpenPile.Props.Reported
open OpenPile.Props.Cantilever (ringArea ringInertia codeFlex beamDisp C81_tables_partial Theory)
variable [FloorRing K]

/-- A pile of one tube. -/
def onePile (m : Pile.Material K) (top tip D t : K) : Pile.Pile K := ⟨[⟨top, tip, D, t⟩], m⟩

omit [FloorRing K] in
theorem hollow_exists (a b p q : K) (ha : 0 < a) (hb : 0 < b) (hp : 0 < p) (hq : 3 * p < q) :
    ∃ m, 0 < m ∧ m < 1 ∧ a / (1 - (m ^ 2) ^ 2)
      + b * ((1 + m ^ 2) ^ 2 / ((p + q * m ^ 2 + p * (m ^ 2) ^ 2) * (1 - m ^ 2))) < a + b * (1 / p) := by
  have hq0 : 0 < q := by linarith
  have hd : 0 < q - 3 * p := by linarith
  set k := b * (q - 3 * p) / (2 * p * (2 * p + q)) with hk
  have hk0 : 0 < k := by positivity
  set m := min (1 / 2) (min ((q - 3 * p) / (2 * (p + q))) (k / (4 * a))) with hm
  have m0 : 0 < m := by
    rw [hm]
    refine lt_min (by norm_num) (lt_min (by positivity) (by positivity))
  have m1 : m ≤ 1 / 2 := min_le_left _ _
  have m2 : m ≤ (q - 3 * p) / (2 * (p + q)) := (min_le_right _ _).trans (min_le_left _ _)
  have m3 : m ≤ k / (4 * a) := (min_le_right _ _).trans (min_le_right _ _)
  refine ⟨m, m0, by linarith, ?_⟩
  have x0 : 0 < m ^ 2 := by positivity
  have xm : m ^ 2 ≤ m / 2 := by nlinarith
  generalize m ^ 2 = x at x0 xm
  have x1 : x ≤ 1 / 4 := by linarith
  rw [le_div_iff₀ (by positivity)] at m2 m3
  have den : 0 < p + q * x + p * x ^ 2 := by positivity
  have hx : 0 < 1 - x := by linarith
  have hx2 : 0 < 1 - x ^ 2 := by nlinarith
  have t1 : a / (1 - x ^ 2) ≤ a + 2 * a * x ^ 2 := by
    rw [div_le_iff₀ hx2]
    have : (a + 2 * a * x ^ 2) * (1 - x ^ 2) - a = a * x ^ 2 * (1 - 2 * x ^ 2) := by ring
    have h2 : 0 ≤ a * x ^ 2 * (1 - 2 * x ^ 2) := mul_nonneg (by positivity) (by nlinarith)
    linarith
  have t2 : (1 + x) ^ 2 / ((p + q * x + p * x ^ 2) * (1 - x)) ≤ 1 / p - x * ((q - 3 * p) / (2 * p * (2 * p + q))) := by
    have e : 1 / p - (1 + x) ^ 2 / ((p + q * x + p * x ^ 2) * (1 - x))
        = x * (((q - 3 * p) - q * x - p * x ^ 2) / (p * ((p + q * x + p * x ^ 2) * (1 - x)))) := by
      field_simp
      ring
    have n1 : (q - 3 * p) / 2 ≤ (q - 3 * p) - q * x - p * x ^ 2 := by
      have xx : p * x ^ 2 ≤ p * x := mul_le_mul_of_nonneg_left (by nlinarith) hp.le
      have := mul_le_mul_of_nonneg_right xm (by positivity : 0 ≤ 2 * (p + q))
      linarith
    have n2 : p * ((p + q * x + p * x ^ 2) * (1 - x)) ≤ p * (2 * p + q) := by
      refine mul_le_mul_of_nonneg_left ?_ hp.le
      have : (p + q * x + p * x ^ 2) * (1 - x) ≤ (p + q * x + p * x ^ 2) * 1 :=
        mul_le_mul_of_nonneg_left (by linarith) den.le
      nlinarith
    have n3 : (q - 3 * p) / (2 * p * (2 * p + q))
        ≤ ((q - 3 * p) - q * x - p * x ^ 2) / (p * ((p + q * x + p * x ^ 2) * (1 - x))) := by
      calc (q - 3 * p) / (2 * p * (2 * p + q)) = ((q - 3 * p) / 2) / (p * (2 * p + q)) := by
            field_simp
        _ ≤ _ := div_le_div₀ (by linarith) n1 (by positivity) n2
    have := mul_le_mul_of_nonneg_left n3 x0.le
    linarith
  have t3 : b * ((1 + x) ^ 2 / ((p + q * x + p * x ^ 2) * (1 - x))) ≤ b * (1 / p) - x * k := by
    have := mul_le_mul_of_nonneg_left t2 hb.le
    have e : b * (1 / p - x * ((q - 3 * p) / (2 * p * (2 * p + q)))) = b * (1 / p) - x * k := by
      rw [hk]
      ring
    linarith
  have t4 : 2 * a * x ^ 2 < x * k := by
    have h1 := mul_le_mul_of_nonneg_right xm (by positivity : 0 ≤ 4 * a)
    have h2 : 2 * a * x < k := by linarith
    calc 2 * a * x ^ 2 = x * (2 * a * x) := by ring
      _ < x * k := mul_lt_mul_of_pos_left h2 x0
  linarith

/-- **C82, violated.** With Timoshenko elements, for every accepted material with a Poisson's ratio that is not negative,
every diameter and every length there is a wall with which a hollow cantilever deflects less under a lateral load at its head
than the solid one of the same diameter, on every mesh. -/
theorem C82_violated_timoshenko (pi : K) (hpi : 0 < pi) (uw E nu : K) (m : Pile.Material K)
    (hm : Pile.mkMaterial uw E nu = some m) (hnu : 0 ≤ nu) (D top tip : K) (hD : 0 < D) (htt : tip < top) :
    ∃ t, 0 < t ∧ 2 * t < D ∧ ∀ C : Coordinates K, MeshOn (onePile m top tip D t) top tip C →
      (∀ x ∈ C.nodes, Near x tip → x = tip) → ∀ H : ℤ, 0 < H →
      ∃ T T' x u u', solveOn pi .timoshenko (onePile m top tip D t) C (run [] (Cantilever.calls top tip 0 H 0)) = some T ∧
        solveOn pi .timoshenko (onePile m top tip D (D / 2)) C (run [] (Cantilever.calls top tip 0 H 0)) = some T' ∧
        T.disp[0]? = some (top, 0, u, x) ∧ (∃ x', T'.disp[0]? = some (top, 0, u', x')) ∧ 0 < u ∧ u < u' := by
  have hmat : m = ⟨uw, E, nu⟩ ∧ 0 < E := by
    unfold Pile.mkMaterial at hm
    split_ifs at hm with hc
    exact ⟨(Option.some.inj hm).symm, hc.2.1⟩
  obtain ⟨-, hE⟩ := hmat
  have hℓ : 0 < top - tip := sub_pos.2 htt
  obtain ⟨hp, -⟩ := poly_pos nu (by linarith)
  have hq : 3 * (7 + 12 * nu + 4 * nu ^ 2) < 34 + 48 * nu + 16 * nu ^ 2 := by nlinarith
  have h1 : 0 < 1 + nu := by linarith
  obtain ⟨r, r0, r1, hr⟩ := hollow_exists ((top - tip) ^ 3 / (3 * (E * (pi / 64 * D ^ 4))))
    (12 * (1 + nu) ^ 3 / (E * pi) * (top - tip) / (D / 2) ^ 2) _ _ (by positivity) (by positivity) hp hq
  refine ⟨D * (1 - r) / 2, by have := sub_pos.2 r1; positivity, by nlinarith, ?_⟩
  intro C hC htip H hH
  have hH' : (0 : K) < H := by exact_mod_cast hH
  have table : ∀ t, 0 < t → t < D → ∃ T, solveOn pi .timoshenko (onePile m top tip D t) C
      (run [] (Cantilever.calls top tip 0 H 0)) = some T ∧ ∃ x, T.disp[0]? = some (top, 0,
        H * ((top - tip) ^ 3 / (3 * (E * ringInertia pi D t)) + codeFlex pi .timoshenko E nu D t * (top - tip)), x) := by
    intro t ht htD
    obtain ⟨T, hT, hd, -⟩ := C81_tables_partial pi hpi .timoshenko uw E nu (onePile m top tip D t) hm
      (fun _ => by linarith) top tip ⟨by simp [onePile], by simp [onePile, htt], rfl, rfl⟩
      (by
        intro s hs
        rw [onePile] at hs
        rw [List.mem_singleton.1 hs]
        exact ⟨(Pile.built_iff _).2 ⟨htt, hD, ht⟩, htD⟩)
      D t (by simp [onePile]) C ⟨hC.elements, hC.dec, hC.first, hC.last, by
        intro s hs
        rw [onePile] at hs
        rw [List.mem_singleton.1 hs]
        exact hC.sections ⟨top, tip, D, D * (1 - r) / 2⟩ (by simp [onePile])⟩ htip 0 H 0
    have h0 : C.nodes[0]? = some top := by rw [← List.head?_eq_getElem?]; exact hC.first
    refine ⟨T, hT, Cantilever.beamRot (E * ringInertia pi D t) (H : K) ((0 : ℤ) : K) (top - tip) (top - top), ?_⟩
    rw [hd, List.getElem?_map, h0, Option.map_some]
    congr 1
    refine Prod.ext rfl (Prod.ext ?_ (Prod.ext ?_ rfl))
    · simp [Cantilever.barDisp]
    · simp only [beamDisp, sub_self, Int.cast_zero]
      have : ringInertia pi D t ≠ 0 ∨ ringInertia pi D t = 0 := ne_or_eq _ _
      rcases this with hI | hI
      · field_simp
        ring
      · rw [hI]
        simp
        ring
  obtain ⟨T, hT, x, hx⟩ := table (D * (1 - r) / 2) (by have := sub_pos.2 r1; positivity) (by nlinarith)
  obtain ⟨T', hT', x', hx'⟩ := table (D / 2) (by positivity) (by linarith)
  refine ⟨T, T', x, _, _, hT, hT', hx, ⟨x', hx'⟩, ?_, ?_⟩
  · refine mul_pos hH' ?_
    have hI : 0 < ringInertia pi D (D * (1 - r) / 2) := by
      unfold ringInertia
      have e : D ^ 4 - (D - 2 * (D * (1 - r) / 2)) ^ 4 = D ^ 4 * (1 - r ^ 4) := by ring
      rw [e]
      have : 0 < 1 - r ^ 4 := sub_pos.2 (pow_lt_one₀ r0.le r1 (by norm_num))
      positivity
    have := codeFlex_nonneg pi hpi .timoshenko E nu D (D * (1 - r) / 2) hE (by have := sub_pos.2 r1; positivity) (by nlinarith)
      (fun _ => by linarith)
    positivity
  · refine mul_lt_mul_of_pos_left ?_ hH'
    rw [ringFlex_eq pi E nu D _ hE.ne' hpi.ne' two_ne_zero, ringFlex_eq pi E nu D _ hE.ne' hpi.ne' two_ne_zero]
    have i1 : ringInertia pi D (D * (1 - r) / 2) = pi / 64 * D ^ 4 * (1 - (r ^ 2) ^ 2) := by
      unfold ringInertia
      ring
    have i2 : ringInertia pi D (D / 2) = pi / 64 * D ^ 4 := by
      unfold ringInertia
      ring
    have e1 : (top - tip) ^ 3 / (3 * (E * (pi / 64 * D ^ 4 * (1 - (r ^ 2) ^ 2))))
        = (top - tip) ^ 3 / (3 * (E * (pi / 64 * D ^ 4))) / (1 - (r ^ 2) ^ 2) := by
      rw [div_div]
      congr 1
      ring
    have f : ∀ x p q : K, x = r ^ 2 → ringFlex p q ((D / 2) ^ 2) (x * (D / 2) ^ 2)
        = (1 + x) ^ 2 / ((p + q * x + p * x ^ 2) * (1 - x)) / (D / 2) ^ 2 := by
      intro x p q _
      unfold ringFlex
      have hX : (D / 2) ^ 2 ≠ 0 := by positivity
      generalize (D / 2) ^ 2 = X at hX
      have e : (X + x * X) ^ 2 = X ^ 2 * (1 + x) ^ 2 := by ring
      have e' : (p * X ^ 2 + q * (X * (x * X)) + p * (x * X) ^ 2) * (X - x * X)
          = X ^ 2 * ((p + q * x + p * x ^ 2) * (1 - x) * X) := by ring
      rw [e, e', mul_div_mul_left _ _ (pow_ne_zero 2 hX), div_div]
    have y1 : ((D - 2 * (D * (1 - r) / 2)) / 2) ^ 2 = r ^ 2 * (D / 2) ^ 2 := by ring
    have y2 : ((D - 2 * (D / 2)) / 2) ^ 2 = 0 := by ring
    rw [i1, i2, e1, y1, y2, f (r ^ 2) _ _ rfl]
    have s0 : ∀ p q : K, ringFlex p q ((D / 2) ^ 2) 0 = 1 / p / (D / 2) ^ 2 := by
      intro p q
      unfold ringFlex
      have hX : (D / 2) ^ 2 ≠ 0 := by positivity
      generalize (D / 2) ^ 2 = X at hX
      have e' : (p * X ^ 2 + q * (X * 0) + p * 0 ^ 2) * (X - 0) = X ^ 2 * (p * X) := by ring
      rw [e', add_zero, ← mul_one (X ^ 2), mul_assoc, mul_div_mul_left _ _ (pow_ne_zero 2 hX), one_mul, div_div]
    rw [s0]
    have z1 : ∀ k w : K, 12 * (1 + nu) ^ 3 / (E * pi) * (k / (D / 2) ^ 2) * w
        = 12 * (1 + nu) ^ 3 / (E * pi) * w / (D / 2) ^ 2 * k := by
      intro k w
      ring
    rw [z1, z1]
    exact hr

/-- **C82, violated for a wall thicker than the radius.** The code accepts it; every further thickening makes the pile softer,
with Euler-Bernoulli elements too. -/
theorem C82_violated_thick_wall (pi : K) (hpi : 0 < pi) (uw E nu : K) (m : Pile.Material K)
    (hm : Pile.mkMaterial uw E nu = some m) (D top tip : K) (htt : tip < top) (t t' : K) (ht : D ≤ 2 * t)
    (h : t < t') (htD : t' < D) (C : Coordinates K) (hC : MeshOn (onePile m top tip D t) top tip C)
    (htip : ∀ x ∈ C.nodes, Near x tip → x = tip) (H : ℤ) (hH : 0 < H) :
    ∃ T T' x u u', solveOn pi .eulerBernoulli (onePile m top tip D t) C (run [] (Cantilever.calls top tip 0 H 0)) = some T ∧
      solveOn pi .eulerBernoulli (onePile m top tip D t') C (run [] (Cantilever.calls top tip 0 H 0)) = some T' ∧
      T.disp[0]? = some (top, 0, u, x) ∧ (∃ x', T'.disp[0]? = some (top, 0, u', x')) ∧ 0 < u ∧ u < u' := by
  have hE : 0 < E := by
    unfold Pile.mkMaterial at hm
    split_ifs at hm with hc
    exact hc.2.1
  have hD : 0 < D := by linarith
  have hH' : (0 : K) < H := by exact_mod_cast hH
  have hℓ : 0 < top - tip := sub_pos.2 htt
  have table : ∀ t, 0 < t → t < D → ∃ T, solveOn pi .eulerBernoulli (onePile m top tip D t) C
      (run [] (Cantilever.calls top tip 0 H 0)) = some T ∧ ∃ x, T.disp[0]? = some (top, 0,
        H * ((top - tip) ^ 3 / (3 * (E * ringInertia pi D t))), x) := by
    intro t'' ht'' htD
    obtain ⟨T, hT, hd, -⟩ := C81_tables_partial pi hpi .eulerBernoulli uw E nu (onePile m top tip D t'') hm
      (fun h => by cases h) top tip ⟨by simp [onePile], by simp [onePile, htt], rfl, rfl⟩
      (by
        intro s hs
        rw [onePile] at hs
        rw [List.mem_singleton.1 hs]
        exact ⟨(Pile.built_iff _).2 ⟨htt, hD, ht''⟩, htD⟩)
      D t'' (by simp [onePile]) C ⟨hC.elements, hC.dec, hC.first, hC.last, by
        intro s hs
        rw [onePile] at hs
        rw [List.mem_singleton.1 hs]
        exact hC.sections ⟨top, tip, D, t⟩ (by simp [onePile])⟩ htip 0 H 0
    have h0 : C.nodes[0]? = some top := by rw [← List.head?_eq_getElem?]; exact hC.first
    refine ⟨T, hT, Cantilever.beamRot (E * ringInertia pi D t'') (H : K) ((0 : ℤ) : K) (top - tip) (top - top), ?_⟩
    rw [hd, List.getElem?_map, h0, Option.map_some]
    congr 1
    refine Prod.ext rfl (Prod.ext ?_ (Prod.ext ?_ rfl))
    · simp [Cantilever.barDisp]
    · simp only [beamDisp, codeFlex, sub_self, Int.cast_zero, zero_mul, add_zero]
      have : ringInertia pi D t'' ≠ 0 ∨ ringInertia pi D t'' = 0 := ne_or_eq _ _
      rcases this with hI | hI
      · field_simp
        ring
      · rw [hI]
        simp
  obtain ⟨T, hT, x, hx⟩ := table t (by linarith) (by linarith)
  obtain ⟨T', hT', x', hx'⟩ := table t' (by linarith) htD
  have inertia : ∀ s : K, D ≤ 2 * s → s < D → 0 < ringInertia pi D s := by
    intro s h1 h2
    unfold ringInertia
    have : (D - 2 * s) ^ 4 < D ^ 4 := by
      have : (2 * s - D) ^ 4 < D ^ 4 := pow_lt_pow_left₀ (by linarith) (by linarith) (by norm_num)
      calc (D - 2 * s) ^ 4 = (2 * s - D) ^ 4 := by ring
        _ < _ := this
    have := sub_pos.2 this
    positivity
  have i1 := inertia t ht (by linarith)
  have i2 := inertia t' (by linarith) htD
  have lt : ringInertia pi D t' < ringInertia pi D t := by
    unfold ringInertia
    refine mul_lt_mul_of_pos_left ?_ (by positivity)
    have : (2 * t - D) ^ 4 < (2 * t' - D) ^ 4 := pow_lt_pow_left₀ (by linarith) (by linarith) (by norm_num)
    have e : ∀ s : K, (D - 2 * s) ^ 4 = (2 * s - D) ^ 4 := by
      intro s
      ring
    rw [e, e]
    linarith
  refine ⟨T, T', x, _, _, hT, hT', hx, ⟨x', hx'⟩, by positivity, ?_⟩
  refine mul_lt_mul_of_pos_left ?_ hH'
  exact div_lt_div_of_pos_left (by positivity) (by positivity) (mul_lt_mul_of_pos_left (mul_lt_mul_of_pos_left lt hE) (by norm_num))

end violated

/-! ### cases that meet the hypotheses -/

section cases
open OpenPile.BC OpenPile.Spec.BC OpenPile.Mesh OpenPile.Analysis OpenPile.Result OpenPile.Props.Analysis OpenPile.Props.Reported
open OpenPile.Props.Cantilever (pileU stackU meshU builtU nearU)

/-- A wider tube over the first six metres of the pile `pileU`, of a stiffer material. -/
def pileW : Pile.Pile ℚ := ⟨[⟨0, -6, 6 / 5, 1 / 10⟩, ⟨-6, -10, 1, 1 / 20⟩], ⟨78, 220000000, 3 / 10⟩⟩

theorem stackW : Stack pileW 0 (-10) := ⟨by simp [pileW], by simp [pileW]; norm_num, rfl, rfl⟩

theorem meshW : MeshOn pileW 0 (-10) nodesE := ⟨by decide +kernel, by decide +kernel, rfl, rfl, by decide +kernel⟩

theorem builtW : ∀ s ∈ pileW.sections, Spec.Pile.Built s ∧ s.thickness < s.diameter := by
  simp only [Pile.built_iff, pileW]
  norm_num

theorem acceptedU (ty : ElementType) : Accepted ty pileU 0 (-10) :=
  ⟨⟨78, 210000000, 3 / 10, by decide +kernel⟩, fun _ => by norm_num [pileU, Pile.steel], stackU, builtU⟩

theorem acceptedW (ty : ElementType) : Accepted ty pileW 0 (-10) :=
  ⟨⟨78, 220000000, 3 / 10, by decide +kernel⟩, fun _ => by norm_num [pileW], stackW, builtW⟩

theorem largerUW (ty : ElementType) : LargerPile ty pileU pileW := by
  refine ⟨by norm_num [pileU, pileW, Pile.steel], by norm_num [pileU, pileW, Pile.steel], ?_⟩
  intro s hs s' hs' _
  simp only [pileU, pileW, List.mem_cons, List.not_mem_nil, or_false] at hs hs'
  rcases hs with rfl | rfl <;> rcases hs' with rfl | rfl
  · exact Or.inr (by norm_num)
  · exact Or.inl (by norm_num)
  · exact Or.inr (by norm_num)
  · exact Or.inl (by norm_num)

/-- A lateral load at the head, a fixed tip. -/
def callsU : List (Call ℚ) := [.pointload 0 (some 100) none none, .support (-10) (some true) (some true) (some true)]

/-- A lateral support four metres down. -/
def moreU : List (Call ℚ) := [.support (-4) (some true) none none]

theorem solvedU (ty : ElementType) : ∃ T, solveOn (22 / 7) ty pileU nodesE (run [] callsU) = some T := by
  rw [← Option.ne_none_iff_exists']
  refine (C20_tables (22 / 7) (by norm_num) ty 78 210000000 (3 / 10) pileU (by decide +kernel)
    (fun _ => by norm_num) 0 (-10) stackU builtU nodesE meshU _).2 ⟨?_, ?_, ?_⟩
  · intro cls
    cases cls <;> decide +kernel
  · exact ⟨5, by decide, Or.inl (by decide +kernel)⟩
  · exact ⟨5, by decide, Or.inl (by decide +kernel), Or.inl ⟨5, by decide, Or.inl (by decide +kernel)⟩⟩

theorem solvedW (ty : ElementType) : ∃ T, solveOn (22 / 7) ty pileW nodesE (run [] (callsU ++ moreU)) = some T := by
  rw [← Option.ne_none_iff_exists']
  refine (C20_tables (22 / 7) (by norm_num) ty 78 220000000 (3 / 10) pileW (by decide +kernel)
    (fun _ => by norm_num) 0 (-10) stackW builtW nodesE meshW _).2 ⟨?_, ?_, ?_⟩
  · intro cls
    cases cls <;> decide +kernel
  · exact ⟨5, by decide, Or.inl (by decide +kernel)⟩
  · exact ⟨5, by decide, Or.inl (by decide +kernel), Or.inl ⟨5, by decide, Or.inl (by decide +kernel)⟩⟩

theorem holdsU : ∀ k ∈ moreU, Holds k := by
  intro k hk
  simp only [moreU, List.mem_singleton] at hk
  subst hk
  refine ⟨rfl, fun a => ?_⟩
  cases a <;> simp [arg]

theorem kindsU : ∀ k ∈ callsU, kind k ≠ .displacement := by
  simp [callsU, kind]

example (ty : ElementType) : ∃ T T' g, solveOn (22 / 7) ty pileU nodesE (run [] callsU) = some T ∧
    solveOn (22 / 7) ty pileW nodesE (run [] (callsU ++ moreU)) = some T' ∧
    globalForces nodesE.nodes (run [] callsU) = .ok g ∧ 0 ≤ virtualWork g T'.disp ∧
    virtualWork g T'.disp ≤ virtualWork g T.disp := by
  obtain ⟨T, hT⟩ := solvedU ty
  obtain ⟨T', hT'⟩ := solvedW ty
  obtain ⟨g, hg, h⟩ := C82_larger_partial (22 / 7) (by norm_num) ty ty (Or.inl rfl) pileU pileW 0 (-10) (acceptedU ty)
    (acceptedW ty) (largerUW ty) nodesE meshU meshW callsU moreU kindsU holdsU T T' hT hT'
  exact ⟨T, T', g, hT, hT', hg, h⟩

example (ty : ElementType) : ∃ T T' u u', solveOn (22 / 7) ty pileU nodesE (run [] callsU) = some T ∧
    solveOn (22 / 7) ty pileW nodesE (run [] (callsU ++ moreU)) = some T' ∧
    (∃ a b, T.disp[0]? = some (0, a, u, b)) ∧ (∃ a b, T'.disp[0]? = some (0, a, u', b)) ∧ 0 ≤ u' ∧ u' ≤ u := by
  obtain ⟨T, hT⟩ := solvedU ty
  obtain ⟨T', hT'⟩ := solvedW ty
  obtain ⟨x, u, u', h0, h1, h2, h3⟩ := C82_deflection (22 / 7) (by norm_num) ty ty pileU pileW 0 (-10) (acceptedU ty)
    (acceptedW ty) (stifferPile_of_larger _ (by norm_num) ty ty (Or.inl rfl) _ _ 0 (-10) (acceptedU ty) (largerUW ty)) nodesE
    meshU meshW _ _ (moreHeld_calls nodesE.nodes callsU moreU kindsU holdsU) T T' hT hT'
    ⟨[0, 0, 0, 0, 0, 0], [100, 0, 0, 0, 0, 0], [0, 0, 0, 0, 0, 0]⟩ (by decide +kernel) 0 100 (by norm_num)
    ⟨by decide, rfl, rfl, rfl⟩
  obtain rfl : (0 : ℚ) = x := Option.some.inj h0
  exact ⟨T, T', u, u', hT, hT', h1, h2, h3⟩

/-- For a concrete pile the wall and a mesh exist. -/
example : ∃ t : ℚ, 0 < t ∧ 2 * t < 1 ∧ ∃ T T' x u u',
    solveOn (22 / 7) .timoshenko (onePile Pile.steel 0 (-10) 1 t) nodesE (run [] (Cantilever.calls 0 (-10) 0 100 0)) = some T ∧
    solveOn (22 / 7) .timoshenko (onePile Pile.steel 0 (-10) 1 (1 / 2)) nodesE (run [] (Cantilever.calls 0 (-10) 0 100 0))
      = some T' ∧ T.disp[0]? = some (0, 0, u, x) ∧ (∃ x', T'.disp[0]? = some (0, 0, u', x')) ∧ 0 < u ∧ u < u' := by
  obtain ⟨t, h0, h1, h⟩ := C82_violated_timoshenko (22 / 7) (by norm_num) 78 210000000 (3 / 10) (Pile.steel : Pile.Material ℚ)
    (by decide +kernel) (by norm_num) 1 0 (-10) (by norm_num) (by norm_num)
  exact ⟨t, h0, h1, h nodesE ⟨meshU.elements, meshU.dec, rfl, rfl, by simp [onePile, nodesE]⟩ nearU 100 (by norm_num)⟩

example : ∃ T T' x u u', solveOn (22 / 7) .eulerBernoulli (onePile (Pile.steel : Pile.Material ℚ) 0 (-10) 1 (1 / 2)) nodesE
      (run [] (Cantilever.calls 0 (-10) 0 100 0)) = some T ∧
    solveOn (22 / 7) .eulerBernoulli (onePile Pile.steel 0 (-10) 1 (3 / 4)) nodesE (run [] (Cantilever.calls 0 (-10) 0 100 0))
      = some T' ∧ T.disp[0]? = some (0, 0, u, x) ∧ (∃ x', T'.disp[0]? = some (0, 0, u', x')) ∧ 0 < u ∧ u < u' :=
  C82_violated_thick_wall (22 / 7) (by norm_num) 78 210000000 (3 / 10) (Pile.steel : Pile.Material ℚ) (by decide +kernel) 1 0
    (-10) (by norm_num) (1 / 2) (3 / 4) (by norm_num) (by norm_num) (by norm_num) nodesE
    ⟨meshU.elements, meshU.dec, rfl, rfl, by simp [onePile, nodesE]⟩ nearU 100 (by norm_num)

end cases

end OpenPile.Props.Compliance

/-
C101: moving all supports together by a rigid motion.
-/
import Verif.Props.Reported
import Verif.Props.Cantilever

namespace OpenPile.Props.RigidMotion
open OpenPile.Analysis OpenPile.BC OpenPile.Spec.BC OpenPile.Mesh OpenPile.Spec.Mesh OpenPile.Kernel
  OpenPile.Spec.Kernel OpenPile.Winkler OpenPile.Result OpenPile.Props.Analysis OpenPile.Props.Refine
  OpenPile.Props.Element OpenPile.Props.Solve OpenPile.Props.Beam OpenPile.Props.Mesh OpenPile.Props.Reported
open Matrix

/-! ### specification -/

/-- A rigid motion of the pile: axial translation `a`, lateral translation `t` at elevation `z0`, rotation `θ`. The
entry is the value in direction `ax` at elevation `e`. -/
def motion {K : Type} [Field K] (a t θ z0 : K) (ax : Axis) (e : K) : K :=
  match ax with
  | .x => θ
  | .y => t + θ * (z0 - e)
  | .z => a

/-! ### one matrix -/

section vector
variable {K : Type} [Field K] [LinearOrder K] [IsStrictOrderedRing K] {n : ℕ}

omit [LinearOrder K] [IsStrictOrderedRing K] in
/-- An element moved rigidly has no end forces. -/
theorem elem_rigid (ty : ElementType) (e : Elem K) (hL : e.L ≠ 0) (a b θ : K) :
    mechMatrix ty e *ᵥ ![a, b, θ, a, b + e.L * θ, θ] = 0 := by
  unfold mechMatrix
  rw [beam_mulVec]
  generalize phi ty e = ph
  by_cases hp : 1 + ph = 0
  · funext c
    fin_cases c <;> simp [hp]
  · funext c
    fin_cases c <;> simp <;> field_simp <;> ring

omit [LinearOrder K] [IsStrictOrderedRing K] in
/-- The ends of an element under a rigid motion of the pile. -/
theorem stacked_rigid (L : Fin n → K) (a b θ x0 : K) (i : Fin n) :
    ∃ b', stacked (rigidVec L a b θ x0) i = ![a, b', θ, a, b' + L i * θ, θ] := by
  obtain ⟨s0, s1, s2, s3, s4, s5⟩ := stacked_top (rigidVec L a b θ x0) i
  obtain ⟨t0, t1, t2⟩ := rigidVec_dof L a b θ x0 i.castSucc
  obtain ⟨r0, r1, r2⟩ := rigidVec_dof L a b θ x0 i.succ
  refine ⟨b + (nodeDepth L i.castSucc - x0) * θ, ?_⟩
  funext c
  fin_cases c
  · exact s0.trans t0
  · exact s1.trans t1
  · exact s2.trans t2
  · exact s3.trans r0
  · refine (s4.trans r1).trans ?_
    show _ = b + (nodeDepth L i.castSucc - x0) * θ + L i * θ
    rw [nodeDepth_succ]
    ring
  · exact s5.trans r2

omit [LinearOrder K] [IsStrictOrderedRing K] in
/-- A rigid motion meets no resistance of the pile, and stresses no element. -/
theorem beam_rigid (ty : ElementType) (el : Fin n → Elem K) (hL : ∀ i, (el i).L ≠ 0) (a b θ x0 : K) :
    beamStiffness ty n el *ᵥ rigidVec (fun i => (el i).L) a b θ x0 = 0 ∧
    ∀ i, mechMatrix ty (el i) *ᵥ stacked (rigidVec (fun i => (el i).L) a b θ x0) i = 0 := by
  have he : ∀ i, mechMatrix ty (el i) *ᵥ stacked (rigidVec (fun i => (el i).L) a b θ x0) i = 0 := by
    intro i
    obtain ⟨b', hb⟩ := stacked_rigid (fun i => (el i).L) a b θ x0 i
    rw [hb]
    exact elem_rigid ty (el i) (hL i) a b' θ
  refine ⟨?_, he⟩
  have key : ∀ v, work (beamStiffness ty n el) v (rigidVec (fun i => (el i).L) a b θ x0) = 0 := by
    intro v
    unfold beamStiffness
    rw [assemble_work, Finset.sum_eq_zero]
    intro i _
    unfold work
    rw [he i, dotProduct_zero]
  funext r
  have := key (Pi.single r 1)
  unfold work at this
  rw [single_dotProduct, one_mul] at this
  exact this

omit [LinearOrder K] [IsStrictOrderedRing K] in
/-- Adding a motion without resistance to the held values adds it to the solution. -/
theorem solve_shift [DecidableEq K] {ι : Type} [Fintype ι] [DecidableEq ι] (A : Matrix ι ι K) (F U U' ρ : ι → K) (restr : ι → Bool)
    (hρ : A *ᵥ ρ = 0) (hU : ∀ i, restr i = true → U' i = U i + ρ i) (u Q : ι → K)
    (h : solveEquations A F U restr = some (u, Q)) : solveEquations A F U' restr = some (u + ρ, Q) := by
  obtain ⟨e1, f1, q1⟩ := solve_some A F U restr u Q h
  have hn : solveEquations A F U' restr ≠ none := by
    intro hn
    rw [C15_fails_iff] at hn
    have := (C15_fails_iff A F U restr).2 hn
    rw [this] at h
    cases h
  rw [solve_eq_some A _ _ restr hn (u + ρ)]
  · congr 2
    funext i
    rw [mulVec_add, hρ, add_zero, q1]
  · intro i hi
    rw [mulVec_add, hρ, add_zero, e1 i hi]
  · intro i hi
    rw [Pi.add_apply, f1 i hi, hU i hi]

end vector

/-! ### the tables -/

section tables
variable {K : Type} [Field K] [LinearOrder K] [IsStrictOrderedRing K] [FloorRing K]

/-- A row of the displacement table with a rigid motion added. -/
def moved (a t θ z0 : K) (row : K × K × K × K) : K × K × K × K :=
  (row.1, row.2.1 + motion a t θ z0 .z row.1, row.2.2.1 + motion a t θ z0 .y row.1, row.2.2.2 + motion a t θ z0 .x row.1)

/-- The rigid motion of the mesh with nodes at elevations `z`. -/
theorem rigid_at {n : ℕ} (z : Fin (n + 1) → K) (hz : StrictAnti z) (L : Fin n → K)
    (hL : ∀ i, L i = |z i.castSucc - z i.succ|) (a t θ z0 : K) (j : Fin (n + 1)) (d : Fin 3) :
    rigidVec L a t θ (z 0 - z0) (dof j d) = motion a t θ z0 (axisOf d) (z j) := by
  obtain rfl : L = fun i : Fin n => |z i.castSucc - z i.succ| := funext hL
  obtain ⟨r0, r1, r2⟩ := rigidVec_dof (fun i : Fin n => |z i.castSucc - z i.succ|) a t θ (z 0 - z0) j
  fin_cases d
  · exact r0
  · refine r1.trans ?_
    rw [depth_of_elevations z hz]
    show _ = t + θ * (z0 - z j)
    ring
  · exact r2

omit [IsStrictOrderedRing K] [FloorRing K] in
theorem free_iff {C : Coordinates K} {n : ℕ} (bcs : List (Cond K)) (w : Nodal K) (r : Nodal Bool) (U : Fin (3 * n + 3) → K)
    (R : Fin (3 * n + 3) → Bool) (hw : globalDisp C.nodes bcs = .ok w) (hr : globalRestrained C.nodes bcs = .ok r)
    (cw : ∀ d, w.get (axisOf d) = List.ofFn (fun j => U (dof j d)))
    (cr : ∀ d, r.get (axisOf d) = List.ofFn (fun j => R (dof j d))) (j : Fin (n + 1)) (d : Fin 3) :
    Free C.nodes bcs (axisOf d) j.1 ↔ (R (dof j d) || decide (U (dof j d) ≠ 0)) = false := by
  unfold Free
  rw [hw, hr]
  have e1 : (r.get (axisOf d))[j.1]? = some (R (dof j d)) := by rw [cr, List.getElem?_ofFn, dif_pos j.2]
  have e2 : (w.get (axisOf d))[j.1]? = some (U (dof j d)) := by rw [cw, List.getElem?_ofFn, dif_pos j.2]
  rw [Bool.or_eq_false_iff, decide_eq_false_iff_not, not_not]
  constructor
  · rintro ⟨⟨g, hg, h1⟩, g', hg', h2⟩
    cases hg
    cases hg'
    rw [e1] at h1
    rw [e2] at h2
    exact ⟨Option.some.inj h1, Option.some.inj h2⟩
  · rintro ⟨h1, h2⟩
    exact ⟨⟨r, rfl, by rw [e1, h1]⟩, w, rfl, by rw [e2, h2]⟩

theorem len_ne {pi : K} {p : Pile.Pile K} {n : ℕ} {z : Fin (n + 1) → K} {el : Fin n → Elem K} (hz : StrictAnti z)
    (h : ElementsOn pi p z el) (i : Fin n) : (el i).L ≠ 0 := by
  rw [length_of_elementsOn h]
  have : z i.succ < z i.castSucc := hz Fin.castSucc_lt_succ
  exact abs_ne_zero.2 (by linarith)

/-- **C101, supports moved together.** Two analyses without soil on the same mesh of the same pile, with the same loads
and the same held degrees of freedom. If at every held degree of freedom the prescribed values differ by one rigid
motion of the whole pile, the second analysis succeeds when the first does, its displacements are those of the first
plus the rigid motion, and section forces and reactions are the same. -/
theorem C101_tables (pi : K) (ty : ElementType) (p : Pile.Pile K) (top tip : K) (hp : Stack p top tip)
    (C : Coordinates K) (h : MeshOn p top tip C) (bcs₁ bcs₂ : List (Cond K)) (a t θ z0 : K)
    (hv : ∀ cls, validateBc bcs₂ cls = .ok ())
    (hload : globalForces C.nodes bcs₂ = globalForces C.nodes bcs₁)
    (hheld : ∀ ax i, Free C.nodes bcs₁ ax i ↔ Free C.nodes bcs₂ ax i)
    (hdisp : ∀ w₁ w₂, globalDisp C.nodes bcs₁ = .ok w₁ → globalDisp C.nodes bcs₂ = .ok w₂ →
      ∀ ax i e (v₁ v₂ : K), C.nodes[i]? = some e → ¬ Free C.nodes bcs₁ ax i → At w₁ ax i v₁ → At w₂ ax i v₂ →
        v₂ = v₁ + motion a t θ z0 ax e)
    (T₁ : Tables K) (h₁ : solveOn pi ty p C bcs₁ = some T₁) :
    ∃ T₂, solveOn pi ty p C bcs₂ = some T₂ ∧ T₂.disp = T₁.disp.map (moved a t θ z0) ∧
      T₂.forces = T₁.forces ∧ T₂.reactions = T₁.reactions := by
  obtain ⟨z, el, F₁, U₁, R₁, g₁, w₁, r₁, n1, hz, anti, hel, gF₁, gU₁, gR₁, cF₁, cU₁, cR₁, s₁⟩ :=
    solveOn_read pi ty hp h bcs₁ (valid_of_some pi ty bcs₁ T₁ h₁)
  obtain ⟨z', el', F₂, U₂, R₂, g₂, w₂, r₂, -, hz', -, hel', gF₂, gU₂, gR₂, cF₂, cU₂, cR₂, s₂⟩ :=
    solveOn_read pi ty hp h bcs₂ hv
  obtain rfl : z = z' := List.ofFn_injective (hz ▸ hz')
  obtain rfl := elementsOn_unique hel hel'
  rw [s₁] at h₁
  obtain ⟨u₁, Q₁, f₁, b₁, d₁, l₁, t₁, q₁⟩ := tables_of_beam ty n1 z el F₁ U₁ R₁ T₁ h₁
  rw [gF₁, gF₂, Except.ok.injEq] at hload
  subst hload
  have eF : F₂ = F₁ := by
    funext r
    obtain ⟨j, d, rfl⟩ := dof_surjective r
    have := (cF₂ d).symm.trans (cF₁ d)
    exact congrFun (List.ofFn_injective this) j
  have eR : (fun r => R₁ r || decide (U₁ r ≠ 0)) = fun r => R₂ r || decide (U₂ r ≠ 0) := by
    funext r
    obtain ⟨j, d, rfl⟩ := dof_surjective r
    have := (free_iff bcs₁ w₁ r₁ U₁ R₁ gU₁ gR₁ cU₁ cR₁ j d).symm.trans
      ((hheld (axisOf d) j.1).trans (free_iff bcs₂ w₂ r₂ U₂ R₂ gU₂ gR₂ cU₂ cR₂ j d))
    exact Bool.eq_iff_iff.2 (by rw [← not_iff_not, Bool.not_eq_true, Bool.not_eq_true]; exact this)
  set ρ := rigidVec (fun i => (el i).L) a t θ (z 0 - z0) with hρ
  have rho : ∀ j d, ρ (dof j d) = motion a t θ z0 (axisOf d) (z j) := fun j d =>
    rigid_at z anti _ (fun i => length_of_elementsOn hel i) a t θ z0 j d
  obtain ⟨k1, k2⟩ := beam_rigid ty el (len_ne anti hel) a t θ (z 0 - z0)
  unfold beam at b₁
  simp only [Option.map_eq_some_iff, Prod.mk.injEq] at b₁
  obtain ⟨⟨u₁', Q₁'⟩, x₁, rfl, rfl, rfl⟩ := b₁
  have hsol := solve_shift _ F₁ U₁ U₂ ρ _ k1 (by
    intro r hr
    obtain ⟨j, d, rfl⟩ := dof_surjective r
    rw [rho]
    refine hdisp w₁ w₂ gU₁ gU₂ (axisOf d) j.1 (z j) _ _ ?_ ?_ ?_ ?_
    · rw [hz, List.getElem?_ofFn, dif_pos j.2]
    · rw [free_iff bcs₁ w₁ r₁ U₁ R₁ gU₁ gR₁ cU₁ cR₁ j d, Bool.not_eq_false]
      exact hr
    · unfold At
      rw [cU₁, List.getElem?_ofFn, dif_pos j.2]
    · unfold At
      rw [cU₂, List.getElem?_ofFn, dif_pos j.2]) u₁' Q₁' x₁
  have hint : ∀ i, internalForces ty el (u₁' + ρ) i = internalForces ty el u₁' i := by
    intro i
    have hst : stacked (u₁' + ρ) i = stacked u₁' i + stacked ρ i := by
      funext c
      fin_cases c <;> rfl
    funext c
    unfold internalForces
    rw [hst, Matrix.mulVec_add, k2 i, add_zero]
  have hbeam : beam ty el F₂ U₂ R₂ = some (u₁' + ρ, Q₁', fun i => sectionForces (el i).L (internalForces ty el (u₁' + ρ) i)) := by
    unfold beam
    rw [← eR, eF, hsol]
    rfl
  obtain ⟨T₂, hT₂, d₂, l₂, t₂, q₂⟩ := tables_exact ty n1 z el (u₁' + ρ) Q₁'
  refine ⟨T₂, by rw [s₂, hbeam, Option.bind_some]; exact hT₂, ?_, ?_, by rw [q₁, q₂]⟩
  · rw [d₁, d₂, List.map_ofFn]
    congr 1
    funext j
    simp only [Function.comp, moved, Pi.add_apply, rho]
    rfl
  · apply List.ext_getElem?
    intro k
    by_cases hk : k < 2 * C.elements.length
    · rcases Nat.even_or_odd' k with ⟨i, rfl | rfl⟩
      · have hi : i < C.elements.length := by omega
        rw [(t₁ ⟨i, hi⟩).1, (t₂ ⟨i, hi⟩).1]
        unfold ends
        rw [hint]
      · have hi : i < C.elements.length := by omega
        rw [(t₁ ⟨i, hi⟩).2, (t₂ ⟨i, hi⟩).2]
        unfold ends
        rw [hint]
    · rw [List.getElem?_eq_none (by omega), List.getElem?_eq_none (by omega)]

/-- **C101, an unloaded pile follows its supports.** Without loads, when every held degree of freedom has the value of
one rigid motion, a successful analysis lists this motion at every node, no section forces and no reactions. -/
theorem C101_unloaded (pi : K) (ty : ElementType) (p : Pile.Pile K) (top tip : K) (hp : Stack p top tip)
    (C : Coordinates K) (h : MeshOn p top tip C) (bcs : List (Cond K)) (a t θ z0 : K)
    (hload : ∀ g, globalForces C.nodes bcs = .ok g → ∀ ax, ∀ v ∈ g.get ax, v = 0)
    (hdisp : ∀ w, globalDisp C.nodes bcs = .ok w → ∀ ax i e (v : K), C.nodes[i]? = some e → ¬ Free C.nodes bcs ax i →
      At w ax i v → v = motion a t θ z0 ax e)
    (T : Tables K) (hT : solveOn pi ty p C bcs = some T) :
    T.disp = C.nodes.map (fun e => (e, motion a t θ z0 .z e, motion a t θ z0 .y e, motion a t θ z0 .x e)) ∧
      (∀ row ∈ T.forces, row.2 = (0, 0, 0)) ∧ T.reactions = [] := by
  obtain ⟨z, el, F, U, R, g, w, r, n1, hz, anti, hel, gF, gU, gR, cF, cU, cR, s⟩ :=
    solveOn_read pi ty hp h bcs (valid_of_some pi ty bcs T hT)
  rw [s] at hT
  obtain ⟨u, Q, f, b, d, l, tt, q⟩ := tables_of_beam ty n1 z el F U R T hT
  have eF : F = 0 := by
    funext r
    obtain ⟨j, d, rfl⟩ := dof_surjective r
    have h1 : F (dof j d) ∈ List.ofFn (fun j => F (dof j d)) := by
      rw [List.mem_ofFn']
      exact ⟨j, rfl⟩
    rw [← cF d, List.mem_map] at h1
    obtain ⟨v, hv, he⟩ := h1
    rw [← he, hload g gF _ v hv, Int.cast_zero]
    rfl
  set ρ := rigidVec (fun i => (el i).L) a t θ (z 0 - z0) with hρ
  have rho : ∀ j d, ρ (dof j d) = motion a t θ z0 (axisOf d) (z j) := fun j d =>
    rigid_at z anti _ (fun i => length_of_elementsOn hel i) a t θ z0 j d
  obtain ⟨k1, k2⟩ := beam_rigid ty el (len_ne anti hel) a t θ (z 0 - z0)
  unfold beam at b
  simp only [Option.map_eq_some_iff, Prod.mk.injEq] at b
  obtain ⟨⟨u', Q'⟩, x, rfl, rfl, rfl⟩ := b
  obtain ⟨-, -, c3, c4⟩ := C15_solution _ F U _ u' Q' x
  have hu : ρ = u' := by
    apply c4
    · intro i _
      rw [k1, eF]
    · intro r' hr
      obtain ⟨j, d, rfl⟩ := dof_surjective r'
      rw [rho]
      refine (hdisp w gU (axisOf d) j.1 (z j) _ ?_ ?_ ?_).symm
      · rw [hz, List.getElem?_ofFn, dif_pos j.2]
      · rw [free_iff bcs w r U R gU gR cU cR j d, Bool.not_eq_false]
        exact hr
      · unfold At
        rw [cU, List.getElem?_ofFn, dif_pos j.2]
  subst hu
  have hQ : Q' = 0 := by
    funext i
    have := c3 i
    rw [k1, eF, Pi.zero_apply, zero_add] at this
    exact this
  have hint : ∀ i, internalForces ty el ρ i = 0 := by
    intro i
    funext c
    unfold internalForces
    rw [k2 i, Pi.zero_apply, neg_zero]
  refine ⟨?_, ?_, ?_⟩
  · rw [d, hz, List.map_ofFn]
    congr 1
    funext j
    simp only [Function.comp, rho]
    rfl
  · intro row hrow
    obtain ⟨k, hk, hrow⟩ := List.mem_iff_getElem.1 hrow
    have hrow : T.forces[k]? = some row := by rw [List.getElem?_eq_getElem hk, hrow]
    rw [l] at hk
    have hz0 : ∀ i, sectionForces (el i).L (internalForces ty el ρ i) = ((0, 0, 0), (0, 0, 0)) := by
      intro i
      rw [hint]
      simp [sectionForces]
    simp only [hz0] at tt
    rcases Nat.even_or_odd' k with ⟨i, rfl | rfl⟩
    · have hi : i < C.elements.length := by omega
      rw [(tt ⟨i, hi⟩).1] at hrow
      cases hrow
      rfl
    · have hi : i < C.elements.length := by omega
      rw [(tt ⟨i, hi⟩).2] at hrow
      cases hrow
      rfl
  · rw [q, List.filter_eq_nil_iff, hQ]
    intro row hrow
    rw [List.mem_ofFn'] at hrow
    obtain ⟨j, rfl⟩ := hrow
    simp [shown, maskSmall]

/-- **C101, from the public calls.** -/
theorem C101_model (pi : K) (hpi : 0 < pi) (ty : ElementType) (uw E nu : K) (mat : Pile.Material K)
    (hm : Pile.mkMaterial uw E nu = some mat) (hnu : ty = .timoshenko → -(3 / 4) ≤ nu)
    (sections : List (Pile.Section K)) (hb : ∀ s ∈ sections, Spec.Pile.Built s ∧ s.thickness < s.diameter)
    (p : Pile.Pile K) (hp : Pile.mkPile sections mat = .ok p) (top tip : K) (htop : p.topElevation = some top)
    (htip : p.bottomElevation = some tip) (x2 : List K) (c : K) (hc : 1 / 100 ≤ c)
    (hgrid : ∀ r, Required p tip none x2 r → OnGrid r) (hin : ∀ x ∈ x2, tip ≤ x ∧ x ≤ top) :
    ∃ C, getCoordinates p none x2 c = some C ∧ ∀ (bcs₁ bcs₂ : List (Cond K)) (a t θ z0 : K),
      (∀ cls, validateBc bcs₂ cls = .ok ()) → globalForces C.nodes bcs₂ = globalForces C.nodes bcs₁ →
      (∀ ax i, Free C.nodes bcs₁ ax i ↔ Free C.nodes bcs₂ ax i) →
      (∀ w₁ w₂, globalDisp C.nodes bcs₁ = .ok w₁ → globalDisp C.nodes bcs₂ = .ok w₂ →
        ∀ ax i e (v₁ v₂ : K), C.nodes[i]? = some e → ¬ Free C.nodes bcs₁ ax i → At w₁ ax i v₁ → At w₂ ax i v₂ →
          v₂ = v₁ + motion a t θ z0 ax e) →
      ∀ T₁, solveModel pi ty p x2 c bcs₁ = some T₁ →
        ∃ T₂, solveModel pi ty p x2 c bcs₂ = some T₂ ∧ T₂.disp = T₁.disp.map (moved a t θ z0) ∧
          T₂.forces = T₁.forces ∧ T₂.reactions = T₁.reactions := by
  obtain ⟨hst, -, C, hC, hmesh, hs⟩ := ready pi hpi ty uw E nu mat hm hnu sections hb p hp top tip htop htip x2 c hc
    hgrid hin
  refine ⟨C, hC, ?_⟩
  intro bcs₁ bcs₂ a t θ z0 hv hload hheld hdisp T₁ h₁
  rw [hs] at h₁ ⊢
  exact C101_tables pi ty p top tip hst C hmesh bcs₁ bcs₂ a t θ z0 hv hload hheld hdisp T₁ h₁

end tables

/-! ### cases that meet the hypotheses -/

/-- A clamped tip and a load at the head. -/
def clamped : List (Cond ℚ) := [⟨.force, 0, none, some (.num 100), some (.num (-500))⟩,
  ⟨.fixation, -10, some (.flag true), some (.flag true), some (.flag true)⟩]

/-- The clamp settles by 2 cm, moves by 10 cm and turns by 1/1000. -/
def settled : List (Cond ℚ) := clamped ++
  [⟨.displacement, -10, some (.num (1 / 1000)), some (.num (1 / 10)), some (.num (-1 / 50))⟩]

theorem free_clamped (ax : Axis) (i : ℕ) :
    (Free nodesE.nodes clamped ax i ↔ i < 5) ∧ (Free nodesE.nodes settled ax i ↔ i < 5) := by
  have r1 : globalRestrained nodesE.nodes clamped = .ok ⟨[false, false, false, false, false, true],
    [false, false, false, false, false, true], [false, false, false, false, false, true]⟩ := by decide +kernel
  have r2 : globalRestrained nodesE.nodes settled = .ok ⟨[false, false, false, false, false, true],
    [false, false, false, false, false, true], [false, false, false, false, false, true]⟩ := by decide +kernel
  have w1 : globalDisp nodesE.nodes clamped = .ok ⟨[0, 0, 0, 0, 0, 0], [0, 0, 0, 0, 0, 0], [0, 0, 0, 0, 0, 0]⟩ := by
    decide +kernel
  have w2 : globalDisp nodesE.nodes settled = .ok ⟨[0, 0, 0, 0, 0, 1 / 1000], [0, 0, 0, 0, 0, 1 / 10],
    [0, 0, 0, 0, 0, -1 / 50]⟩ := by decide +kernel
  unfold Free
  rw [r1, r2, w1, w2]
  simp only [Except.ok.injEq, exists_eq_left']
  rcases i with _ | _ | _ | _ | _ | _ | i <;> cases ax <;> simp [Nodal.get]

/-- The pile settles, moves and turns with its clamp; the head moves by `1/10 - 10/1000` more. -/
example : ∃ T₁ T₂, solveOn (22 / 7) .timoshenko pileE nodesE clamped = some T₁ ∧
    solveOn (22 / 7) .timoshenko pileE nodesE settled = some T₂ ∧
    T₂.disp = T₁.disp.map (fun r => (r.1, r.2.1 - 1 / 50, r.2.2.1 + (1 / 10 + 1 / 1000 * (-10 - r.1)), r.2.2.2 + 1 / 1000)) ∧
    T₂.forces = T₁.forces ∧ T₂.reactions = T₁.reactions := by
  have hs : solveOn (22 / 7) .timoshenko pileE nodesE clamped ≠ none := by
    refine (C20_tables (22 / 7) (by norm_num) .timoshenko 78 210000000 (3 / 10) pileE (by decide +kernel)
      (fun _ => by norm_num) 0 (-10) stackE builtE nodesE meshE _).2 ⟨?_, ?_, ?_⟩
    · intro cls
      cases cls <;> rfl
    · exact ⟨5, by decide, Or.inl (by decide +kernel)⟩
    · exact ⟨5, by decide, Or.inl (by decide +kernel), Or.inl ⟨5, by decide, Or.inl (by decide +kernel)⟩⟩
  obtain ⟨T₁, h₁⟩ := Option.ne_none_iff_exists'.1 hs
  obtain ⟨T₂, h₂, e1, e2, e3⟩ := C101_tables (22 / 7) .timoshenko pileE 0 (-10) stackE nodesE meshE clamped settled
    (-1 / 50) (1 / 10) (1 / 1000) (-10) (by intro cls; cases cls <;> rfl) (by decide +kernel)
    (fun ax i => (free_clamped ax i).1.trans (free_clamped ax i).2.symm) (by
      intro w₁ w₂ hw₁ hw₂ ax i e v₁ v₂ he hf a₁ a₂
      rw [(free_clamped ax i).1] at hf
      have w1 : globalDisp nodesE.nodes clamped = .ok ⟨[0, 0, 0, 0, 0, 0], [0, 0, 0, 0, 0, 0], [0, 0, 0, 0, 0, 0]⟩ := by
        decide +kernel
      have w2 : globalDisp nodesE.nodes settled = .ok ⟨[0, 0, 0, 0, 0, 1 / 1000], [0, 0, 0, 0, 0, 1 / 10],
        [0, 0, 0, 0, 0, -1 / 50]⟩ := by decide +kernel
      rw [w1] at hw₁
      rw [w2] at hw₂
      cases hw₁
      cases hw₂
      rcases i with _ | _ | _ | _ | _ | _ | i
      · omega
      · omega
      · omega
      · omega
      · omega
      · cases he
        cases ax <;> cases a₁ <;> cases a₂ <;> norm_num [motion]
      · simp [nodesE] at he) T₁ h₁
  refine ⟨T₁, T₂, h₁, h₂, ?_, e2, e3⟩
  rw [e1]
  congr 1
  funext r
  simp only [moved, motion]
  ring_nf

/-- Without loads the pile just follows. -/
example : ∃ T, solveOn (22 / 7) .timoshenko pileE nodesE settled.tail = some T ∧
    T.disp = nodesE.nodes.map (fun e => (e, -1 / 50, 1 / 10 + 1 / 1000 * (-10 - e), 1 / 1000)) ∧
    (∀ row ∈ T.forces, row.2 = (0, 0, 0)) ∧ T.reactions = [] := by
  have hs : solveOn (22 / 7) .timoshenko pileE nodesE settled.tail ≠ none := by
    refine (C20_tables (22 / 7) (by norm_num) .timoshenko 78 210000000 (3 / 10) pileE (by decide +kernel)
      (fun _ => by norm_num) 0 (-10) stackE builtE nodesE meshE _).2 ⟨?_, ?_, ?_⟩
    · intro cls
      cases cls <;> rfl
    · exact ⟨5, by decide, Or.inl (by decide +kernel)⟩
    · exact ⟨5, by decide, Or.inl (by decide +kernel), Or.inl ⟨5, by decide, Or.inl (by decide +kernel)⟩⟩
  obtain ⟨T, h⟩ := Option.ne_none_iff_exists'.1 hs
  refine ⟨T, h, C101_unloaded (22 / 7) .timoshenko pileE 0 (-10) stackE nodesE meshE settled.tail (-1 / 50) (1 / 10) (1 / 1000)
    (-10) ?_ ?_ T h⟩
  · intro g hg
    have : globalForces nodesE.nodes settled.tail = .ok ⟨[0, 0, 0, 0, 0, 0], [0, 0, 0, 0, 0, 0], [0, 0, 0, 0, 0, 0]⟩ := by
      decide +kernel
    rw [this] at hg
    cases hg
    intro ax
    cases ax <;> decide
  · intro w hw ax i e v he hf hv
    have w2 : globalDisp nodesE.nodes settled.tail = .ok ⟨[0, 0, 0, 0, 0, 1 / 1000], [0, 0, 0, 0, 0, 1 / 10],
      [0, 0, 0, 0, 0, -1 / 50]⟩ := by decide +kernel
    have r2 : globalRestrained nodesE.nodes settled.tail = .ok ⟨[false, false, false, false, false, true],
      [false, false, false, false, false, true], [false, false, false, false, false, true]⟩ := by decide +kernel
    have hi : ¬ i < 5 := by
      intro hi
      apply hf
      refine ⟨⟨_, r2, ?_⟩, _, w2, ?_⟩ <;> rcases i with _ | _ | _ | _ | _ | i <;> first | omega | (cases ax <;> rfl)
    rw [w2] at hw
    cases hw
    rcases i with _ | _ | _ | _ | _ | _ | i
    · omega
    · omega
    · omega
    · omega
    · omega
    · cases he
      cases ax <;> cases hv <;> norm_num [motion]
    · simp [nodesE] at he

end OpenPile.Props.RigidMotion

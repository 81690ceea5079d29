/-
Property C62: a soil profile without soil models changes nothing.  An analysis with such a profile gives the result
of the analysis without soil.
-/
import Verif.Props.SoilAnalysis
import Verif.Props.LinearRange
import Verif.Props.Assemble

namespace OpenPile.Props.NoModels
open OpenPile.SoilAnalysis OpenPile.Analysis OpenPile.BC OpenPile.Mesh OpenPile.Spec.Mesh OpenPile.Kernel
  OpenPile.Winkler OpenPile.Result OpenPile.Assemble OpenPile.Spring OpenPile.Props.Winkler OpenPile.Props.LinearRange
  OpenPile.Props.Analysis OpenPile.Props.SoilStiffness OpenPile.Spec.BC
  OpenPile.Spec.Kernel

/-! ### springs of a profile without soil models -/

theorem zeros_sums : (zeros.map (·.1)).sum = 0 ∧ (zeros.map (·.2)).sum = 0 ∧
    (zeros.map (fun q => |q.1|)).sum = 0 ∧ (zeros.map (fun q => |q.2|)).sum = 0 := by
  simp [zeros]

theorem negate_zeros : negate zeros = zeros := by simp [negate, zeros]

/-- Without soil models all springs are zero. -/
theorem create_none {S : Input} {env : Draws} (h : ∀ l ∈ S.layers, l.lateral = none ∧ l.axial = none) :
    createSprings S env = some Arrays.zero := by
  have step0 : ∀ l ∈ S.layers, ∀ x A, Assemble.step S env l A x = some A := by
    intro l hl x A
    obtain ⟨h1, h2⟩ := h l hl
    unfold Assemble.step axialStep lateralStep
    rw [h1, h2]
    rfl
  have inner : ∀ l ∈ S.layers, ∀ xs : List (Row × ℕ), ∀ A, xs.foldlM (Assemble.step S env l) A = some A := by
    intro l hl xs
    induction xs with
    | nil => intro A; rfl
    | cons x xs ih => intro A; rw [List.foldlM_cons, step0 l hl]; exact ih A
  have outer : ∀ ls : List SoilLayer, (∀ l ∈ ls, l ∈ S.layers) → ∀ A,
      ls.foldlM (fun A l => (selected S l).foldlM (Assemble.step S env l) A) A = some A := by
    intro ls
    induction ls with
    | nil => intro _ A; rfl
    | cons l ls ih =>
      intro hl A
      rw [List.foldlM_cons, inner l (hl l (by simp))]
      exact ih (fun l h => hl l (List.mem_cons_of_mem _ h)) A
  unfold createSprings fillArrays
  rw [outer S.layers (fun _ h => h)]
  simp [Arrays.zero, negate_zeros]

/-- The stiffness of a pile with zero springs is that of the beam. -/
theorem build_zero (ty : ElementType) {n : ℕ} (el : Fin n → Elem ℝ) (w : Switches)
    (hw : w.distributedMoment = true → w.distributedLateral = true) (kind : Kind) (u : Fin (3 * n + 3) → ℝ) :
    buildStiffness ty el (springsOf w Arrays.zero n) kind u = some (beamStiffness ty n el) := by
  obtain ⟨z1, z2, z3, z4⟩ := zeros_sums
  have hpy : ∀ x, pyStiffness zeros kind x = some 0 := fun x => by unfold pyStiffness; rw [if_pos z1]
  have hpys : ∀ x, pyStiffness zeros .secant x = some 0 := fun x => by unfold pyStiffness; rw [if_pos z1]
  have htz : ∀ x, tzStiffness zeros kind x = some 0 := fun x => by unfold tzStiffness; rw [if_pos z3]
  have hb : ∀ x, baseStiffness zeros kind x = some 0 := fun x => by unfold baseStiffness; rw [if_pos z2]
  have hq : ∀ x, baseAxialStiffness zeros kind x = some 0 := fun x => by unfold baseAxialStiffness; rw [if_pos z4]
  have hmt : ∀ (p x : ℝ), mtStiffness ((zeros.map (·.2)).zip (List.replicate 15 zeros)) 15 p kind x = some 0 := by
    intro p x
    unfold mtStiffness
    simp [zeros]
  have hs : allSome (soilAt (springsOf w Arrays.zero n) kind u) = some (fun _ => ⟨(0, 0), (0, 0), (0, 0)⟩) := by
    rw [allSome_iff]
    intro e
    have hdisp : ∀ (s : Fin 3) (b : Bool), ∃ x, springDisp u s e b = some x := by
      intro s b
      exact ⟨_, springDisp_seen u s e b⟩
    have ppy : ∀ b, pyAt (springsOf w Arrays.zero n) kind u e b = some 0 := by
      intro b
      obtain ⟨x, hx⟩ := hdisp 1 b
      unfold pyAt
      rw [hx]
      show (if w.distributedLateral = true then (do pyStiffness zeros kind (← some x)) else some 0) = _
      split_ifs
      · exact hpy x
      · rfl
    have ptz : ∀ b, tzAt (springsOf w Arrays.zero n) kind u e b = some 0 := by
      intro b
      obtain ⟨x, hx⟩ := hdisp 0 b
      unfold tzAt
      rw [hx]
      show (if w.distributedAxial = true then (do tzStiffness zeros kind (← some x)) else some 0) = _
      split_ifs
      · exact htz x
      · rfl
    have pmt : ∀ b, mtAt (springsOf w Arrays.zero n) kind u e b = some 0 := by
      intro b
      obtain ⟨x, hx⟩ := hdisp 1 b
      obtain ⟨y, hy⟩ := hdisp 2 b
      unfold mtAt
      rw [hx, hy]
      cases hm : w.distributedMoment with
      | false =>
        simp [springsOf, hm]
      | true =>
        have hl := hw hm
        have e1 : (springsOf w Arrays.zero n).distributedMoment = true := hm
        have e2 : (springsOf w Arrays.zero n).distributedLateral = true := hl
        rw [if_pos e1, if_pos e2]
        have e3 : (springsOf w Arrays.zero n).py e b = zeros := rfl
        have e4 : (springsOf w Arrays.zero n).mt e b = (zeros.map (·.2)).zip (List.replicate 15 zeros) := rfl
        have e5 : (springsOf w Arrays.zero n).ncol = 15 := rfl
        rw [e3, e4, e5]
        simp only [Option.bind_eq_bind, Option.bind_some, hpys]
        exact hmt _ _
    unfold soilAt
    rw [ppy, ppy, ptz, ptz, pmt, pmt]
    rfl
  unfold buildStiffness
  rw [hs]
  have hbm : baseMatrix n (0 : ℝ) 0 0 = 0 := by
    ext a b; simp [baseMatrix]
  have f1 : (springsOf w Arrays.zero n).hb = zeros := rfl
  have f2 : (springsOf w Arrays.zero n).mb = zeros := rfl
  have f3 : (springsOf w Arrays.zero n).qz = zeros := rfl
  rw [f1, f2, f3]
  cases h1 : (springsOf w Arrays.zero n).baseShear <;> cases h2 : (springsOf w Arrays.zero n).baseMoment <;>
    cases h3 : (springsOf w Arrays.zero n).baseAxial <;>
    simp [hb, hq, soilStiffness, elem_noSoil, hbm, beamStiffness]

/-! ### the result of zero springs -/

theorem maxOf_zero (n : ℕ) (hn : n ≠ 0) : maxOf (List.replicate n (0 : ℝ)) = some 0 := by
  unfold maxOf
  rw [List.max?_eq_some_iff]
  simp [hn]

theorem mobRow_zero (e u r : ℝ) :
    mobRow e u r zeros ((zeros.map (·.2)).zip (List.replicate 15 zeros)) 15 = some ⟨e, 0, 0, 0, 0⟩ := by
  obtain ⟨z1, z2, z3, z4⟩ := zeros_sums
  have hp : pyStiffness zeros .secant u = some 0 := by unfold pyStiffness; rw [if_pos z1]
  have h1 : maxOf (zeros.map (·.2)) = some (0 : ℝ) := by
    have : zeros.map (·.2) = List.replicate 15 (0 : ℝ) := by simp [zeros]
    rw [this]
    exact maxOf_zero 15 (by norm_num)
  have hm : mtStiffness ((zeros.map (·.2)).zip (List.replicate 15 zeros)) 15 (u * 0) .secant r = some 0 := by
    unfold mtStiffness
    simp [zeros]
  have hl : ((zeros.map (·.2)).zip (List.replicate 15 zeros)).getLast? = some (0, zeros) := by
    simp [zeros]
  unfold mobRow
  simp only [hp, h1, Option.bind_eq_bind, Option.bind_some, hm, hl]
  simp

theorem flat_get {α : Type} (n : ℕ) (f : Fin n → Bool → α) : (flat n f).length = 2 * n ∧
    ∀ a ∈ flat n f, ∃ e b, a = f e b := by
  unfold flat
  constructor
  · rw [List.length_flatten, List.map_ofFn]
    simp [List.sum_ofFn, Function.comp_def]
    ring
  · intro a ha
    rw [List.mem_flatten] at ha
    obtain ⟨l, hl, ha⟩ := ha
    rw [List.mem_ofFn'] at hl
    obtain ⟨e, rfl⟩ := hl
    simp only [List.mem_cons, List.not_mem_nil, or_false] at ha
    rcases ha with rfl | rfl
    · exact ⟨e, false, rfl⟩
    · exact ⟨e, true, rfl⟩

theorem mob_zero (w : Switches) (n : ℕ) (hn : 1 ≤ n) (z uy ur : List ℝ) (h1 : z.length = n + 1)
    (h2 : uy.length = n + 1) (h3 : ur.length = n + 1) :
    ∃ rows, springsMob z uy ur (flat n (springsOf w Arrays.zero n).py) (flat n (springsOf w Arrays.zero n).mt) 15
      = some rows ∧ rows.length = 2 * n ∧ ∀ r ∈ rows, r.pMob = 0 ∧ r.pMax = 0 ∧ r.mMob = 0 ∧ r.mMax = 0 := by
  obtain ⟨x, x1, x2, -⟩ := Props.Result.C43_double_inner_partial z n hn h1
  obtain ⟨y, y1, y2, -⟩ := Props.Result.C43_double_inner_partial uy n hn h2
  obtain ⟨v, v1, v2, -⟩ := Props.Result.C43_double_inner_partial ur n hn h3
  obtain ⟨p1, p2⟩ := flat_get n (springsOf w Arrays.zero n).py
  obtain ⟨m1, m2⟩ := flat_get n (springsOf w Arrays.zero n).mt
  have hpy : ∀ i, i < 2 * n → (flat n (springsOf w Arrays.zero n).py)[i]? = some zeros := by
    intro i hi
    rw [List.getElem?_eq_getElem (by omega)]
    obtain ⟨e, b, h⟩ := p2 _ (List.getElem_mem (by omega : i < (flat n (springsOf w Arrays.zero n).py).length))
    rw [h]
    rfl
  have hmt : ∀ i, i < 2 * n → (flat n (springsOf w Arrays.zero n).mt)[i]?
      = some ((zeros.map (·.2)).zip (List.replicate 15 zeros)) := by
    intro i hi
    rw [List.getElem?_eq_getElem (by omega)]
    obtain ⟨e, b, h⟩ := m2 _ (List.getElem_mem (by omega : i < (flat n (springsOf w Arrays.zero n).mt).length))
    rw [h]
    rfl
  refine ⟨(List.range x.length).map (fun i : ℕ => ⟨x.getD i 0, 0, 0, 0, 0⟩), ?_, by simp [x2], ?_⟩
  · unfold springsMob
    rw [x1, y1, v1]
    simp only [Option.bind_eq_bind, Option.bind_some]
    apply Props.Weight.mapM_some
    intro i hi
    rw [List.mem_range, x2] at hi
    rw [hpy i hi, hmt i hi, List.getElem?_eq_getElem (by omega), List.getElem?_eq_getElem (by omega),
      List.getElem?_eq_getElem (by omega)]
    simp only [Option.bind_some, mobRow_zero]
    rw [List.getD_eq_getElem?_getD, List.getElem?_eq_getElem (by omega)]
    rfl
  · intro r hr
    obtain ⟨i, -, rfl⟩ := List.mem_map.1 hr
    exact ⟨rfl, rfl, rfl, rfl⟩

theorem baseMob_zero (d : ℝ) : baseMob zeros d = some (0, 0) := by
  obtain ⟨z1, z2, z3, z4⟩ := zeros_sums
  have hb : baseStiffness zeros .secant d = some 0 := by unfold baseStiffness; rw [if_pos z2]
  have h1 : maxOf (zeros.map (·.2) ++ zeros.map (·.1)) = some (0 : ℝ) := by
    have : zeros.map (·.2) ++ zeros.map (·.1) = List.replicate 30 (0 : ℝ) := by simp [zeros]
    rw [this]
    exact maxOf_zero 30 (by norm_num)
  unfold baseMob
  simp only [hb, h1, Option.bind_eq_bind, Option.bind_some]
  simp

/-- A node direction that is held by a fixation or a prescribed displacement. -/
def HeldAt (C : Coordinates ℝ) (bcs : List (Cond ℝ)) (a : Axis) (i : ℕ) : Prop :=
  left storeBool false C.nodes bcs .fixation a i = true ∨ left storeFloat 0 C.nodes bcs .displacement a i ≠ 0

/-- Some load acts in a direction in which its node is free. -/
def LoadedFree (C : Coordinates ℝ) (bcs : List (Cond ℝ)) : Prop :=
  ∃ a, ∃ i < C.nodes.length, left storeInt 0 C.nodes bcs .force a i ≠ 0 ∧ ¬ HeldAt C bcs a i

theorem axisOf_surj (a : Axis) : ∃ d, axisOf d = a := by
  cases a
  · exact ⟨2, rfl⟩
  · exact ⟨1, rfl⟩
  · exact ⟨0, rfl⟩

/-- An analysis with zero springs on a mesh of the pile. -/
theorem solveSoilOn_zero (ty : ElementType) {p : Pile.Pile ℝ} {top tip : ℝ} (hp : Stack p top tip)
    {C : Coordinates ℝ} (h : MeshOn p top tip C) (bcs : List (Cond ℝ)) (w : Switches)
    (hw : w.distributedMoment = true → w.distributedLateral = true) :
    ((¬ ∀ cls, validateBc bcs cls = .ok ()) → solveSoilOn ty p C w Arrays.zero bcs 100 = none) ∧
    ((∀ cls, validateBc bcs cls = .ok ()) → solveOn Real.pi ty p C bcs = none →
      solveSoilOn ty p C w Arrays.zero bcs 100 = some .nan) ∧
    ∀ T, solveOn Real.pi ty p C bcs = some T → LoadedFree C bcs →
      ∃ t, solveSoilOn ty p C w Arrays.zero bcs 100 = some (.numbers t) ∧ t.toTables = T ∧ t.iterations = 2 ∧
        t.error = 0 ∧ (∀ r ∈ t.mob, r.pMob = 0 ∧ r.pMax = 0 ∧ r.mMob = 0 ∧ r.mMax = 0) ∧
        t.hbMob = (0, 0) ∧ t.mbMob = (0, 0) := by
  by_cases hv : ∀ cls, validateBc bcs cls = .ok ()
  swap
  · refine ⟨fun _ => ?_, fun h => absurd h hv, fun T hT => ?_⟩
    · have := solveOn_raises Real.pi ty p C bcs hv
      by_contra hne
      apply hv
      have key : ∀ cls, (∃ f, validateBc bcs cls = .error f) ∨ validateBc bcs cls = .ok () := by
        intro cls
        cases h : validateBc bcs cls with
        | error f => exact Or.inl ⟨f, rfl⟩
        | ok u => exact Or.inr rfl
      unfold solveSoilOn globalForces globalDisp globalRestrained at hne
      rcases key .force with ⟨f, hf⟩ | hf
      · rw [hf] at hne
        exact absurd rfl hne
      rcases key .displacement with ⟨f, hd⟩ | hd
      · rw [hf, hd] at hne
        exact absurd rfl hne
      rcases key .fixation with ⟨f, hx⟩ | hx
      · rw [hf, hd, hx] at hne
        exact absurd rfl hne
      intro cls
      cases cls
      · exact hx
      · exact hd
      · exact hf
    · rw [solveOn_raises Real.pi ty p C bcs hv] at hT
      cases hT
  refine ⟨fun h => absurd hv h, ?_⟩
  obtain ⟨z, el, F, U, R, a1, a2, a3, a4, a5, a6, a7, a8, a9, h1, ⟨gF, F0, F1⟩, ⟨gU, U0, U1⟩, ⟨gR, R0, R1⟩, hel⟩ :=
    read_eq Real.pi hp h bcs hv
  have hsolve : solveOn Real.pi ty p C bcs = (beam ty el F U R).bind (fun r => tables ty C.nodes el r.1 r.2.1) := by
    unfold solveOn
    rw [F0, U0, R0]
    simp only [bind, Except.toOption, Option.bind_some]
    rw [F1, U1, R1]
    simp only [Option.bind_some]
    rw [hel]
    rfl
  have hsoil : solveSoilOn ty p C w Arrays.zero bcs 100 =
      match winkler (buildStiffness ty el (springsOf w Arrays.zero C.elements.length)) F U R 100 with
      | .raised => none
      | .nan _ => some .nan
      | .converged d Q it tolSq resSq =>
        (results ty C.nodes el (springsOf w Arrays.zero C.elements.length) d Q it tolSq resSq).map .numbers
      | .exhausted d Q it tolSq resSq =>
        (results ty C.nodes el (springsOf w Arrays.zero C.elements.length) d Q it tolSq resSq).map .numbers := by
    unfold solveSoilOn
    rw [F0, U0, R0]
    simp only [bind, Except.toOption, Option.bind_some]
    rw [F1, U1, R1]
    simp only [Option.bind_some]
    rw [hel]
    rfl
  obtain ⟨b1, b2⟩ := winkler_beam ty el (buildStiffness ty el (springsOf w Arrays.zero C.elements.length)) (by
    funext kind u
    exact build_zero ty el w hw kind u) F U R 100 (by norm_num)
  rw [hsolve, hsoil]
  have htab : ∀ u Q : Fin (3 * C.elements.length + 3) → ℝ, ∃ T, tables ty C.nodes el u Q = some T := by
    intro u Q
    obtain ⟨T, hT, -⟩ := tables_spec ty a1 z a2 el u Q
    rw [h1]
    exact ⟨T, hT⟩
  rcases hb : beam ty el F U R with _ | ⟨u, Q, f⟩
  · refine ⟨fun _ _ => ?_, fun T hT => by cases hT⟩
    rw [b1.1 hb]
  · refine ⟨fun _ hn => ?_, fun T hT hload => ?_⟩
    · obtain ⟨T, hT⟩ := htab u Q
      simp only [Option.bind_some, hT] at hn
      cases hn
    · simp only [Option.bind_some] at hT
      obtain ⟨a, i, hi, hF, hfree⟩ := hload
      obtain ⟨d, rfl⟩ := axisOf_surj a
      have hlen : C.nodes.length = C.elements.length + 1 := by rw [h1]; simp
      have hbeam := hb
      unfold beam at hbeam
      simp only [Option.map_eq_some_iff, Prod.mk.injEq] at hbeam
      obtain ⟨⟨u', Q'⟩, hs, rfl, rfl, -⟩ := hbeam
      obtain ⟨t, ht⟩ := b2 u' Q' f hb ⟨dof ⟨i, by omega⟩ d, by
        have hQ : Q' (dof ⟨i, by omega⟩ d) = 0 := by
          refine ((Props.Solve.C15_solution _ F U _ u' Q' hs).1 _ ?_).2
          rw [Bool.or_eq_false_iff, decide_eq_false_iff_not]
          unfold HeldAt at hfree
          rw [h1] at hfree
          push Not at hfree
          rw [a9, a8]
          exact ⟨by simpa using hfree.1, by simpa using hfree.2⟩
        rw [hQ, a7, mul_zero]
        rw [h1] at hF
        exact_mod_cast hF⟩
      rw [ht]
      obtain ⟨rows, r1, -, r3⟩ := mob_zero w C.elements.length a1 C.nodes (component u' 1) (component u' 2) hlen
        (by simp [component]) (by simp [component])
      refine ⟨⟨T, rows, (0, 0), (0, 0), 2, Real.sqrt 0, Real.sqrt t⟩, ?_, rfl, rfl, Real.sqrt_zero, r3, rfl, rfl⟩
      have e1 : (springsOf w Arrays.zero C.elements.length).hb = zeros := rfl
      have e2 : (springsOf w Arrays.zero C.elements.length).mb = zeros := rfl
      have e3 : (springsOf w Arrays.zero C.elements.length).ncol = 15 := rfl
      simp only [results, hT, e3, r1, e1, e2, baseMob_zero, Option.bind_eq_bind, Option.bind_some]
      rfl

/-! ### from the public calls -/

/-- The published coordinates of a model with soil fit its pile. -/
theorem meshOn_setup {p : Pile.Pile ℝ} {sp : Soil.Profile ℝ} {x2mesh : List ℝ} {c top tip : ℝ}
    (h : Weight.Setup p sp x2mesh c top tip) :
    ∃ C, getCoordinates p (some sp) x2mesh c = some C ∧ MeshOn p top tip C := by
  obtain ⟨C, hC, hm⟩ := Weight.mesh_facts h
  refine ⟨C, hC, hm.pairs, hm.sorted, hm.head, hm.last, ?_⟩
  obtain ⟨C', hC', -, -, h3⟩ := Props.Mesh.C05_published_nodes p (some sp) x2mesh c tip
    (lt_of_lt_of_le (by norm_num) h.coarse) h.tip_eq
  rw [hC] at hC'
  cases hC'
  intro s hs
  have a : Required p tip (some sp) x2mesh s.top := Or.inl ⟨s, hs, Or.inl rfl⟩
  have b : Required p tip (some sp) x2mesh s.bottom := Or.inl ⟨s, hs, Or.inr rfl⟩
  exact ⟨h3 _ a (h.grid _ a), h3 _ b (h.grid _ b)⟩

theorem stack_setup {p : Pile.Pile ℝ} {sp : Soil.Profile ℝ} {x2mesh : List ℝ} {c top tip : ℝ}
    (h : Weight.Setup p sp x2mesh c top tip) : Stack p top tip := by
  obtain ⟨sections, mat, hp, hsb⟩ := h.pile
  obtain ⟨hch, hmem⟩ := Mesh.mkPile_sections sections mat p hp
  exact ⟨hch, fun s hs => ((Pile.built_iff s).1 (hsb s ((hmem s).1 hs))).1, h.head, h.tip_eq⟩

/-- **C62, same mesh.** A Model with a soil profile none of whose layers has a soil model, on the mesh `C` it
publishes: rejected boundary conditions raise; if the pile alone cannot be solved the result is NaN; otherwise,
provided some load acts in a direction in which its node is free, the displacement, force and reaction tables are
those of the pile alone on the same mesh, found after two passes with zero error, and no spring is mobilised. -/
theorem C62_same_mesh_partial (ty : ElementType) {p : Pile.Pile ℝ} {sp : SoilProfile} {x2mesh : List ℝ}
    {c top tip : ℝ} (h : Weight.Setup p sp.geometry x2mesh c top tip)
    (hno : ∀ l ∈ sp.layers, l.lateral = none ∧ l.axial = none) (w : Switches)
    (hw : w.distributedMoment = true → w.distributedLateral = true) (table : List (ℝ × Pile.Section ℝ))
    (env : Draws) (bcs : List (Cond ℝ)) :
    ∃ C, getCoordinates p (some sp.geometry) x2mesh c = some C ∧
    ((¬ ∀ cls, validateBc bcs cls = .ok ()) → solveSoil ty p sp x2mesh c w table env bcs = none) ∧
    ((∀ cls, validateBc bcs cls = .ok ()) → solveOn Real.pi ty p C bcs = none →
      solveSoil ty p sp x2mesh c w table env bcs = some .nan) ∧
    ∀ T, solveOn Real.pi ty p C bcs = some T → LoadedFree C bcs →
      ∃ t, solveSoil ty p sp x2mesh c w table env bcs = some (.numbers t) ∧ t.toTables = T ∧ t.iterations = 2 ∧
        t.error = 0 ∧ (∀ r ∈ t.mob, r.pMob = 0 ∧ r.pMax = 0 ∧ r.mMob = 0 ∧ r.mMax = 0) ∧
        t.hbMob = (0, 0) ∧ t.mbMob = (0, 0) := by
  obtain ⟨C, S, water, hC, hS, -, -, hlay, -⟩ := Assemble.C54_mesh h w table
  obtain ⟨C', hC', hm⟩ := meshOn_setup h
  rw [hC] at hC'
  cases hC'
  have hA : modelSprings p sp x2mesh c w table env = some Arrays.zero := by
    unfold modelSprings
    rw [hS]
    exact create_none (by rw [hlay]; exact hno)
  have e : solveSoil ty p sp x2mesh c w table env bcs = solveSoilOn ty p C w Arrays.zero bcs 100 := by
    unfold solveSoil
    rw [hC, hA]
    rfl
  rw [e]
  exact ⟨C, hC, solveSoilOn_zero ty (stack_setup h) hm bcs w hw⟩

/-- **C62.** The same compared with the Model of the same pile without soil profile, whatever its coarseness and extra
elevations, when the boundary conditions act at elevations that both meshes were asked to contain: rejected by
both, unsolvable for both (NaN with the profile), or the same reactions and the same displacements and section
forces at all nodes common to both meshes. -/
theorem C62_model_partial (ty : ElementType) (uw E nu : ℝ) {p : Pile.Pile ℝ} {sp : SoilProfile}
    (hmat : Pile.mkMaterial uw E nu = some p.material) (hnu : ty = .timoshenko → -(3 / 4) ≤ nu)
    (hb : ∀ s ∈ p.sections, Spec.Pile.Built s ∧ s.thickness < s.diameter)
    {x₁ x₂ : List ℝ} {c₁ c₂ top tip : ℝ} (h : Weight.Setup p sp.geometry x₁ c₁ top tip)
    (hno : ∀ l ∈ sp.layers, l.lateral = none ∧ l.axial = none) (w : Switches)
    (hw : w.distributedMoment = true → w.distributedLateral = true) (table : List (ℝ × Pile.Section ℝ))
    (env : Draws) (hc₂ : 1 / 100 ≤ c₂) (g₂ : ∀ r, Required p tip none x₂ r → OnGrid r)
    (i₂ : ∀ x ∈ x₂, tip ≤ x ∧ x ≤ top) (bcs : List (Cond ℝ))
    (hbc : ∀ b ∈ bcs, |b.elevation| ≤ 300 ∧ Clear p tip (some sp.geometry) x₁ b.elevation ∧
      Clear p tip none x₂ b.elevation) :
    ∃ C₁ C₂, getCoordinates p (some sp.geometry) x₁ c₁ = some C₁ ∧ getCoordinates p none x₂ c₂ = some C₂ ∧
    (((¬ ∀ cls, validateBc bcs cls = .ok ()) ∧ solveSoil ty p sp x₁ c₁ w table env bcs = none ∧
        solveModel Real.pi ty p x₂ c₂ bcs = none) ∨
      ((∀ cls, validateBc bcs cls = .ok ()) ∧ solveSoil ty p sp x₁ c₁ w table env bcs = some .nan ∧
        solveModel Real.pi ty p x₂ c₂ bcs = none) ∨
      ∃ T, solveModel Real.pi ty p x₂ c₂ bcs = some T ∧ (LoadedFree C₁ bcs →
        ∃ t, solveSoil ty p sp x₁ c₁ w table env bcs = some (.numbers t) ∧ t.reactions = T.reactions ∧
          ∀ x, x ∈ C₁.nodes → x ∈ C₂.nodes → ∀ r, ((x, r) ∈ t.disp ↔ (x, r) ∈ T.disp) ∧
            ((x, r) ∈ t.forces ↔ (x, r) ∈ T.forces))) := by
  obtain ⟨sections, mat, hp, hsb⟩ := h.pile
  obtain ⟨C₁, e₁, m₁⟩ := meshOn_setup h
  obtain ⟨C₂, e₂, m₂⟩ := meshOn_model sections mat p hp hsb x₂ c₂ top tip hc₂ h.head h.tip_eq g₂ i₂
  have hreg : ∀ s ∈ p.sections, ∀ L : ℝ, 0 < L → Props.Refine.Regular ty (elemOf Real.pi p.material s L) := by
    intro s hs L hL
    obtain ⟨h1, h2⟩ := hb s hs
    exact regular_of_built Real.pi Real.pi_pos ty uw E nu p.material hmat hnu s h1 h2 L hL
  have node : ∀ (soil : Option (Soil.Profile ℝ)) (x2 : List ℝ) (c : ℝ) (C : Coordinates ℝ), 1 / 100 ≤ c →
      (∀ r, Required p tip soil x2 r → OnGrid r) → getCoordinates p soil x2 c = some C →
      ∀ e, Required p tip soil x2 e → e ∈ C.nodes := by
    intro soil x2 c C hc g hC e he
    obtain ⟨C', hC', -, -, h⟩ := Props.Mesh.C05_published_nodes p soil x2 c tip (lt_of_lt_of_le (by norm_num) hc)
      h.tip_eq
    rw [hC] at hC'
    cases hC'
    exact h e he (g e he)
  have h12 : ∀ b ∈ bcs, ∀ x ∈ C₁.nodes, Near x b.elevation → x ∈ C₂.nodes := by
    intro b hb' x hx hn
    obtain ⟨h1, h2, h3⟩ := hbc b hb'
    rw [near_node p _ x₁ c₁ tip h.coarse h.tip_eq h.grid _ h1 h2 C₁ e₁ x hx hn]
    exact node none x₂ c₂ C₂ hc₂ g₂ e₂ _ h3.mem
  have h21 : ∀ b ∈ bcs, ∀ x ∈ C₂.nodes, Near x b.elevation → x ∈ C₁.nodes := by
    intro b hb' x hx hn
    obtain ⟨h1, h2, h3⟩ := hbc b hb'
    rw [near_node p none x₂ c₂ tip hc₂ h.tip_eq g₂ _ h1 h3 C₂ e₂ x hx hn]
    exact node _ x₁ c₁ C₁ h.coarse h.grid e₁ _ h2.mem
  have s₂ : solveModel Real.pi ty p x₂ c₂ bcs = solveOn Real.pi ty p C₂ bcs := by
    unfold solveModel; rw [e₂]; rfl
  obtain ⟨C, hC, k1, k2, k3⟩ := C62_same_mesh_partial ty h hno w hw table env bcs
  rw [e₁] at hC
  cases hC
  refine ⟨C₁, C₂, e₁, e₂, ?_⟩
  rw [s₂]
  by_cases hv : ∀ cls, validateBc bcs cls = .ok ()
  swap
  · exact Or.inl ⟨hv, k1 hv, solveOn_raises _ _ _ _ _ hv⟩
  right
  rcases C55_tables Real.pi ty p top tip (stack_setup h) hreg C₁ C₂ m₁ m₂ bcs h12 h21 with ⟨n1, n2⟩ | ⟨T₁, T₂, t1, t2, t3, t4⟩
  · exact Or.inl ⟨hv, k2 hv n1, n2⟩
  · right
    refine ⟨T₂, t2, fun hl => ?_⟩
    obtain ⟨t, ht, rfl, -⟩ := k3 T₁ t1 hl
    exact ⟨t, ht, t3, t4⟩

/-- After an analysis with numbers the tables have rows. -/
theorem tables_nonempty {ty : ElementType} {p : Pile.Pile ℝ} {sp : SoilProfile} {x2mesh : List ℝ} {c top tip : ℝ}
    (h : Weight.Setup p sp.geometry x2mesh c top tip) {w : Switches} {table : List (ℝ × Pile.Section ℝ)} {env : Draws}
    {bcs : List (Cond ℝ)} {t : SoilTables} (ht : solveSoil ty p sp x2mesh c w table env bcs = some (.numbers t)) :
    t.disp ≠ [] ∧ t.forces ≠ [] := by
  obtain ⟨C, hC, hm⟩ := meshOn_setup h
  unfold solveSoil at ht
  simp only [hC, Option.bind_eq_bind, Option.bind_some, Option.bind_eq_some_iff] at ht
  obtain ⟨A, -, ht⟩ := ht
  obtain ⟨F, U, R, el, d, Q, _, _, -, -, -, -, -, htab, -⟩ := SoilAnalysis.solveSoilOn_numbers (by norm_num) ht
  obtain ⟨z, hz, hdec, -, h0, hl, -⟩ := mesh_fn hm
  have hn : 1 ≤ C.elements.length := by
    by_contra hlt
    have e : Fin.last C.elements.length = 0 := Fin.ext (by simp only [Fin.val_last, Fin.val_zero]; omega)
    rw [e, h0] at hl
    have := h.ground.trans_le h.below
    linarith
  obtain ⟨T, hT, h1, h2, -⟩ := tables_spec ty hn z hdec el d Q
  rw [hz, hT] at htab
  have e := Option.some.inj htab
  constructor
  · rw [← e]
    exact List.ne_nil_of_mem ((h1 _).2 ⟨0, rfl⟩)
  · rw [← e]
    exact List.ne_nil_of_mem ((h2 _).2 ⟨⟨0, hn⟩, Or.inl rfl⟩)

/-- `details()` can then be evaluated. -/
theorem details_some {ty : ElementType} {p : Pile.Pile ℝ} {sp : SoilProfile} {x2mesh : List ℝ} {c top tip : ℝ}
    (h : Weight.Setup p sp.geometry x2mesh c top tip) {w : Switches} {table : List (ℝ × Pile.Section ℝ)} {env : Draws}
    {bcs : List (Cond ℝ)} {t : SoilTables} (ht : solveSoil ty p sp x2mesh c w table env bcs = some (.numbers t)) :
    ∃ D, details t = some D := by
  obtain ⟨h1, h2⟩ := tables_nonempty h ht
  obtain ⟨a1, e1⟩ := SoilAnalysis.extremes_some 2 (l := t.forces.map (·.2.1)) (by simpa using h2)
  obtain ⟨a2, e2⟩ := SoilAnalysis.extremes_some 2 (l := t.forces.map (·.2.2.1)) (by simpa using h2)
  obtain ⟨a3, e3⟩ := SoilAnalysis.extremes_some 2 (l := t.forces.map (·.2.2.2)) (by simpa using h2)
  obtain ⟨a4, e4⟩ := SoilAnalysis.extremes_some 3 (l := t.disp.map (·.2.1)) (by simpa using h1)
  obtain ⟨a5, e5⟩ := SoilAnalysis.extremes_some 3 (l := t.disp.map (·.2.2.1)) (by simpa using h1)
  obtain ⟨a6, e6⟩ := SoilAnalysis.extremes_some 3 (l := t.disp.map (·.2.2.2)) (by simpa using h1)
  unfold details
  rw [e1, e2, e3, e4, e5, e6]
  exact ⟨_, rfl⟩

/-! ### a case that meets the hypotheses -/

/-- A pile through one layer without soil models, loaded at its head and fixed at its tip. -/
noncomputable def pileN : Pile.Pile ℝ := ⟨[⟨1, -10, 2, 1 / 20⟩], Pile.steel⟩

noncomputable def soilN : SoilProfile := ⟨0, -1, [⟨⟨0, -20, 18⟩, none, none⟩]⟩

noncomputable def bcsN : List (Cond ℝ) :=
  [⟨.force, 1, none, some (.num 100), none⟩, ⟨.fixation, -10, some (.flag true), some (.flag true), some (.flag true)⟩]

theorem clearN (e : ℝ) (he : e = 1 ∨ e = -10) : Clear pileN (-10) (some soilN.geometry) [] e := by
  have hreq : ∀ r, Required pileN (-10) (some soilN.geometry) [] r → r = 1 ∨ r = -10 ∨ r = 0 := by
    rintro r (⟨s, hs, h⟩ | ⟨sp', hsp, l, hl, h, h'⟩ | h)
    · simp only [pileN, List.mem_cons, List.not_mem_nil, or_false] at hs
      subst hs
      rcases h with rfl | rfl
      · exact Or.inl rfl
      · exact Or.inr (Or.inl rfl)
    · cases hsp
      simp only [soilN, SoilProfile.geometry, List.map_cons, List.map_nil, List.mem_cons, List.not_mem_nil,
        or_false] at hl
      subst hl
      rcases h with rfl | rfl
      · exact Or.inr (Or.inr rfl)
      · norm_num at h'
    · cases h
  constructor
  · rcases he with rfl | rfl
    · exact Or.inl ⟨_, List.mem_singleton.2 rfl, Or.inl rfl⟩
    · exact Or.inl ⟨_, List.mem_singleton.2 rfl, Or.inr rfl⟩
  · intro r hr hn
    unfold Near at hn
    rcases he with rfl | rfl <;> rcases hreq r hr with rfl | rfl | rfl <;>
      first | rfl | (exfalso; revert hn; norm_num [abs_le])

/-- The analysis of this case gives numbers, whatever the switches. -/
theorem solvedN (w : Switches) (hw : w.distributedMoment = true → w.distributedLateral = true)
    (table : List (ℝ × Pile.Section ℝ)) (env : Draws) :
    ∃ t, solveSoil .timoshenko pileN soilN [] 1 w table env bcsN = some (.numbers t) ∧ t.iterations = 2 ∧
      t.disp ≠ [] ∧ t.forces ≠ [] := by
  have hset : Weight.Setup pileN soilN.geometry [] 1 1 (-10) := Assemble.setup_example none none
  obtain ⟨C, hC, hm⟩ := meshOn_setup hset
  obtain ⟨C', hC', k1, k2, k3⟩ := C62_same_mesh_partial .timoshenko hset (by simp [soilN]) w hw table env bcsN
  rw [hC] at hC'
  cases hC'
  have near : ∀ e : ℝ, e = 1 ∨ e = -10 → ∀ x ∈ C.nodes, Near x e → x = e := by
    intro e he
    refine near_node pileN _ [] 1 (-10) (by norm_num) rfl hset.grid e ?_ (clearN e he) C hC
    rcases he with rfl | rfl <;> norm_num [abs_le]
  have hself : ∀ e : ℝ, Near e e := by
    intro e
    unfold Near
    rw [sub_self, abs_zero]
    positivity
  obtain ⟨z, hz, hdec, hmem, h0, hl, -⟩ := mesh_fn hm
  have hat : ∀ (e : ℝ) (j : Fin (C.elements.length + 1)), (e = 1 ∨ e = -10) → z j = e → ActsAt C.nodes e j.1 := by
    intro e j he hj
    refine ⟨⟨e, by rw [hz, List.getElem?_ofFn, dif_pos j.2, ← hj], hself e⟩, ?_⟩
    intro i hi x hx hnear
    have hxm := List.mem_of_getElem? hx
    have := near e he x hxm hnear
    rw [hz, List.getElem?_ofFn, dif_pos (by omega), Option.some.injEq] at hx
    have hlt := hdec (show (⟨i, by omega⟩ : Fin (C.elements.length + 1)) < j from hi)
    rw [hx, this, hj] at hlt
    exact lt_irrefl _ hlt
  have hlen : C.nodes.length = C.elements.length + 1 := by rw [hz]; simp
  have hfix : ∀ a, left storeBool false C.nodes bcsN .fixation a C.elements.length = true := by
    intro a
    have h1 : writeTo C.nodes .fixation C.elements.length a ⟨.force, 1, none, some (.num 100), none⟩ = none := by
      unfold writeTo
      rw [if_neg (by simp)]
    have h2 : writeTo C.nodes .fixation C.elements.length a
        ⟨.fixation, -10, some (.flag true), some (.flag true), some (.flag true)⟩ = some (.flag true) := by
      rw [Props.BC.writeTo_eq_some]
      refine ⟨rfl, hat (-10) (Fin.last C.elements.length) (Or.inr rfl) hl, by cases a <;> rfl, rfl⟩
    unfold left bcsN
    rw [List.map_cons, List.map_cons, List.map_nil, h1, h2]
    rfl
  have hload : LoadedFree C bcsN := by
    refine ⟨.y, 0, by omega, ?_, ?_⟩
    · have h1 : writeTo C.nodes .force 0 .y ⟨.force, 1, none, some (.num 100), none⟩ = some (.num (100 : ℝ)) := by
        rw [Props.BC.writeTo_eq_some]
        exact ⟨rfl, hat 1 0 (Or.inl rfl) h0, rfl, by norm_num [Effective]⟩
      have h2 : writeTo C.nodes .force 0 .y
          ⟨.fixation, -10, some (.flag true), some (.flag true), some (.flag true)⟩ = none := by
        unfold writeTo
        rw [if_neg (by simp)]
      unfold left bcsN
      rw [List.map_cons, List.map_cons, List.map_nil, h1, h2]
      show storeInt (.num (100 : ℝ)) ≠ 0
      show (if (0 : ℝ) ≤ 100 then ⌊(100 : ℝ)⌋ else ⌈(100 : ℝ)⌉) ≠ 0
      rw [if_pos (by norm_num)]
      norm_num
    · have h1 : ∀ cls, cls ≠ Cls.force → writeTo C.nodes cls 0 .y ⟨.force, 1, none, some (.num 100), none⟩ = none := by
        intro cls hc
        unfold writeTo
        rw [if_neg (by simp [hc.symm])]
      have h2 : ∀ cls, writeTo C.nodes cls 0 .y
          ⟨.fixation, -10, some (.flag true), some (.flag true), some (.flag true)⟩ = none := by
        intro cls
        cases hw : writeTo C.nodes cls 0 .y
          ⟨.fixation, -10, some (.flag true), some (.flag true), some (.flag true)⟩ with
        | none => rfl
        | some v =>
          obtain ⟨-, ⟨⟨x, hx, hnear⟩, -⟩, -⟩ := (Props.BC.writeTo_eq_some _ _ _ _ _ _).1 hw
          rw [hz, List.getElem?_ofFn, dif_pos (by omega), Option.some.injEq] at hx
          have : z ⟨0, by omega⟩ = 1 := h0
          rw [← hx, this] at hnear
          unfold Near at hnear
          revert hnear
          norm_num [abs_le]
      unfold HeldAt left bcsN
      rw [List.map_cons, List.map_cons, List.map_nil, h1 _ (by simp), h2, List.map_cons, List.map_cons, List.map_nil,
        h1 _ (by simp), h2]
      simp [OpenPile.Spec.BC.lastWrite]
  have hmat : Pile.mkMaterial (78 : ℝ) 210000000 (3 / 10) = some pileN.material := by
    unfold Pile.mkMaterial
    norm_num [pileN, Pile.steel]
  have hsolve : solveOn Real.pi .timoshenko pileN C bcsN ≠ none := by
    refine (C20_tables Real.pi Real.pi_pos .timoshenko 78 210000000 (3 / 10) pileN hmat (fun _ => by norm_num) 1 (-10)
      (stack_setup hset) ?_ C hm bcsN).2 ⟨?_, ?_, ?_⟩
    · intro s hs
      simp only [pileN, List.mem_cons, List.not_mem_nil, or_false] at hs
      subst hs
      rw [Pile.built_iff]
      norm_num
    · intro cls
      cases cls <;> simp [validateBc, axisConflict, bcsN]
    · exact ⟨C.elements.length, by omega, Or.inl (hfix _)⟩
    · exact ⟨C.elements.length, by omega, Or.inl (hfix _), Or.inl ⟨C.elements.length, by omega, Or.inl (hfix _)⟩⟩
  obtain ⟨T, hT⟩ := Option.ne_none_iff_exists'.1 hsolve
  obtain ⟨t, ht, e, hi, -⟩ := k3 T hT hload
  exact ⟨t, ht, hi, tables_nonempty hset ht⟩

/-- The hypotheses of `C61_details` are met. -/
example : ∃ t D, solveSoil .timoshenko pileN soilN [] 1 ⟨true, true, true, true, true, true⟩ [] Assemble.drawsExample
    bcsN = some (.numbers t) ∧ details t = some D := by
  obtain ⟨t, ht, -⟩ := solvedN ⟨true, true, true, true, true, true⟩ (fun _ => rfl) [] Assemble.drawsExample
  have hset : Weight.Setup pileN soilN.geometry [] 1 1 (-10) := Assemble.setup_example none none
  exact ⟨t, _, ht, (details_some hset ht).choose_spec⟩

end OpenPile.Props.NoModels

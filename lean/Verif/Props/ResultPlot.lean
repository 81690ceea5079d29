/-
Property C96: the plots of a result show the result.
-/
import Verif.Model.ResultPlot
import Verif.Props.Plot
import Verif.Props.FreeBody

namespace OpenPile.Props.ResultPlot
open OpenPile.ResultPlot OpenPile.BC OpenPile.Mesh OpenPile.Analysis OpenPile.Kernel OpenPile.Props.Analysis
open OpenPile.Props.Reported OpenPile.Props.FreeBody OpenPile.Props.Refine OpenPile.Props.Beam

variable {K : Type} [Field K] [LinearOrder K] [IsStrictOrderedRing K]

/-! ### what a line shows -/

/-- The point `q` is drawn by the piece of the line from its `k`-th point to the next. -/
def DrawnBy (pts : List (K × K)) (k : ℕ) (q : K × K) : Prop :=
  ∃ a b, pts[k]? = some a ∧ pts[k + 1]? = some b ∧ ∃ t : K, 0 ≤ t ∧ t ≤ 1 ∧
    q = (a.1 + t * (b.1 - a.1), a.2 + t * (b.2 - a.2))

/-- The panels of a plot by their labels. -/
def panel (ps : List (Panel K)) (label : String) : Option (Panel K) := ps.find? (fun p => p.label == label)

omit [IsStrictOrderedRing K] in
theorem zip_get {α β γ : Type} (f : α → β) (g : α → γ) (l : List α) (k : ℕ) :
    ((l.map f).zip (l.map g))[k]? = (l[k]?).map (fun r => (f r, g r)) := by
  rw [List.zip_map', List.getElem?_map]

omit [IsStrictOrderedRing K] in
/-- The points of the force panels. -/
theorem force_point (f : Force) (T : Tables K) (k : ℕ) :
    (forcePanel f T).curve[k]? = (T.forces[k]?).map (fun r => (f.of r, r.1)) := zip_get _ _ _ _

/-! ### C96 -/

/-- **C96, limits of the axes.** In every panel of section forces the whole diagram and the line at zero are within the
limits of the axis, which are not equal. -/
theorem C96_range (f : Force) (T : Tables K) (h : T.forces ≠ []) :
    ∃ a b, (forcePanel f T).range = some (a, b) ∧ a < b ∧
      (∀ q ∈ (forcePanel f T).curve, a ≤ q.1 ∧ q.1 ≤ b) ∧ ∀ q ∈ (forcePanel f T).zero, a ≤ q.1 ∧ q.1 ≤ b := by
  obtain ⟨a, b, h1, h2, h3, h4, h5⟩ := OpenPile.Props.Plot.C77_limits (T.forces.map f.of) (by simpa using h)
  refine ⟨a, b, h1, h2, ?_, ?_⟩
  · rintro ⟨x, y⟩ hq
    exact h5 x (List.of_mem_zip hq).1
  · rintro q hq
    obtain ⟨r, -, rfl⟩ := List.mem_map.1 hq
    exact ⟨h3, h4⟩

omit [IsStrictOrderedRing K] in
/-- **C96, layout.** The panels from left to right, and in each of them a line at zero with one point beside every point of
the diagram. -/
theorem C96_layout (T : Tables K) :
    (plotDeflection T).map Panel.label = ["Deflection [mm]"] ∧
    (plotSettlement T).map Panel.label = ["Settlement [mm]", "N [kN]"] ∧
    (plotForces T).map Panel.label = ["N [kN]", "V [kN]", "M [kNm]"] ∧
    (plotResults T).map Panel.label = ["Deflection [mm]", "N [kN]", "V [kN]", "M [kNm]"] ∧
    ∀ P ∈ plotDeflection T ++ plotSettlement T ++ plotForces T ++ plotResults T,
      P.zero.map Prod.snd = P.curve.map Prod.snd ∧ ∀ q ∈ P.zero, q.1 = 0 := by
  refine ⟨rfl, rfl, rfl, rfl, ?_⟩
  have hd : (deflectionPanel T).zero.map Prod.snd = (deflectionPanel T).curve.map Prod.snd ∧
      ∀ q ∈ (deflectionPanel T).zero, q.1 = 0 := by
    simp [deflectionPanel, List.zip_map', Function.comp_def]
    intro a b _ _ _ _ _ h _
    exact h.symm
  have hs : (settlementPanel T).zero.map Prod.snd = (settlementPanel T).curve.map Prod.snd ∧
      ∀ q ∈ (settlementPanel T).zero, q.1 = 0 := by
    simp [settlementPanel, List.zip_map', Function.comp_def]
    intro a b _ _ _ _ _ h _
    exact h.symm
  have hf : ∀ f, (forcePanel f T).zero.map Prod.snd = (forcePanel f T).curve.map Prod.snd ∧
      ∀ q ∈ (forcePanel f T).zero, q.1 = 0 := by
    intro f
    simp [forcePanel, List.zip_map', Function.comp_def]
    intro a b _ _ _ _ _ h _
    exact h.symm
  intro P hP
  simp only [plotDeflection, plotSettlement, plotForces, plotResults, List.mem_append, List.mem_cons, List.not_mem_nil, or_false] at hP
  rcases hP with ((rfl | rfl | rfl) | rfl | rfl | rfl) | rfl | rfl | rfl | rfl
  all_goals first | exact hd | exact hs | exact hf _

/-- **C96, displacements.** Of an analysis without soil: the lines of deflection and settlement have one point for every
node, from the head to the tip, at its elevation; it shows 1000 times the listed displacement. -/
theorem C96_nodes [FloorRing K] (pi : K) (ty : ElementType) (p : Pile.Pile K) (top tip : K) (hp : Stack p top tip)
    (C : Coordinates K) (h : MeshOn p top tip C) (bcs : List (Cond K)) (T : Tables K) (hT : solveOn pi ty p C bcs = some T) :
    (∀ ps ∈ [plotDeflection T, plotResults T], ∃ P, panel ps "Deflection [mm]" = some P ∧ P.curve.map Prod.snd = C.nodes ∧
      ∀ (j : ℕ) (r : K × K × K × K), T.disp[j]? = some r → P.curve[j]? = some (1000 * r.2.2.1, r.1)) ∧
    (∃ P, panel (plotSettlement T) "Settlement [mm]" = some P ∧ P.curve.map Prod.snd = C.nodes ∧
      ∀ (j : ℕ) (r : K × K × K × K), T.disp[j]? = some r → P.curve[j]? = some (1000 * r.2.1, r.1)) := by
  obtain ⟨n, z, el, F, U, R, u, Q, f, g, gU, gR, n1, hz, hanti, hel, hg, hU, hR, cF, cU, cR, hb, hd, -⟩ :=
    solveOn_some pi ty hp h bcs T hT
  have hzn : T.disp.map (fun r => r.1) = C.nodes := by
    rw [hd, hz, List.map_ofFn]
    rfl
  have d1 : (deflectionPanel T).curve.map Prod.snd = C.nodes := by
    show ((T.disp.map _).zip (T.disp.map _)).map Prod.snd = _
    rw [List.zip_map', List.map_map]
    exact hzn
  have s1 : (settlementPanel T).curve.map Prod.snd = C.nodes := by
    show ((T.disp.map _).zip (T.disp.map _)).map Prod.snd = _
    rw [List.zip_map', List.map_map]
    exact hzn
  have d2 : ∀ (j : ℕ) r, T.disp[j]? = some r → (deflectionPanel T).curve[j]? = some (1000 * r.2.2.1, r.1) := by
    intro j r hr
    refine (zip_get _ _ _ _).trans ?_
    rw [hr, Option.map_some, mul_comm]
  have s2 : ∀ (j : ℕ) r, T.disp[j]? = some r → (settlementPanel T).curve[j]? = some (1000 * r.2.1, r.1) := by
    intro j r hr
    refine (zip_get _ _ _ _).trans ?_
    rw [hr, Option.map_some, mul_comm]
  refine ⟨?_, settlementPanel T, rfl, s1, s2⟩
  intro ps hps
  simp only [List.mem_cons, List.not_mem_nil, or_false] at hps
  rcases hps with rfl | rfl
  · exact ⟨deflectionPanel T, rfl, d1, d2⟩
  · exact ⟨deflectionPanel T, rfl, d1, d2⟩

/-- **C96, section forces.** Of an analysis without soil: the diagrams of normal force, shear force and bending moment show at
every elevation `s` of element `i` the resultants of the loads above `s` and their moment about `s`, provided that no node
above is held; between the elements they show the jump at the node. -/
theorem C96_between [FloorRing K] (pi : K) (ty : ElementType) (p : Pile.Pile K) (top tip : K) (hp : Stack p top tip)
    (hreg : ∀ s ∈ p.sections, ∀ L : K, 0 < L → Regular ty (elemOf pi p.material s L)) (C : Coordinates K)
    (h : MeshOn p top tip C) (bcs : List (Cond K)) (T : Tables K) (hT : solveOn pi ty p C bcs = some T) :
    ∃ g, globalForces C.nodes bcs = .ok g ∧ ∀ ps ∈ [plotForces T, plotResults T],
      ∃ PN PV PM, panel ps "N [kN]" = some PN ∧ panel ps "V [kN]" = some PV ∧ panel ps "M [kNm]" = some PM ∧
        panel (plotSettlement T) "N [kN]" = some PN ∧
        ∀ i e e', C.nodes[i]? = some e → C.nodes[i + 1]? = some e' →
          (∀ s, e' ≤ s → s ≤ e → ∃ x y w, DrawnBy PN.curve (2 * i) (x, s) ∧ DrawnBy PV.curve (2 * i) (y, s) ∧
            DrawnBy PM.curve (2 * i) (w, s)) ∧
          (∀ x s, DrawnBy PN.curve (2 * i + 1) (x, s) → s = e') ∧ (∀ x s, DrawnBy PV.curve (2 * i + 1) (x, s) → s = e') ∧
          (∀ x s, DrawnBy PM.curve (2 * i + 1) (x, s) → s = e') ∧
          ((∀ k ≤ i, ∀ a, Free C.nodes bcs a k) → ∀ x s,
            (DrawnBy PN.curve (2 * i) (x, s) → x = (loadsAbove C g i s).1) ∧
            (DrawnBy PV.curve (2 * i) (x, s) → x = (loadsAbove C g i s).2.1) ∧
            (DrawnBy PM.curve (2 * i) (x, s) → x = (loadsAbove C g i s).2.2)) := by
  obtain ⟨g, hg, ht⟩ := C80_tables pi ty p top tip hp hreg C h bcs T hT
  obtain ⟨hlen, -⟩ := C22_tables pi ty p top tip hp hreg C h bcs T hT
  have hgt : ∀ i e e', C.nodes[i]? = some e → C.nodes[i + 1]? = some e' → e' < e := by
    obtain ⟨n, z, el, F, U, R, u, Q, f, g', gU, gR, n1, hz, hanti, -⟩ := solveOn_some pi ty hp h bcs T hT
    intro i e e' he he'
    rw [hz, List.getElem?_ofFn] at he he'
    split at he
    · split at he'
      · cases he
        cases he'
        exact hanti (Fin.mk_lt_mk.2 (Nat.lt_succ_self i))
      · cases he'
    · cases he
  refine ⟨g, hg, ?_⟩
  intro ps hps
  refine ⟨forcePanel .normal T, forcePanel .shear T, forcePanel .moment T, ?_, ?_, ?_, rfl, ?_⟩
  · simp only [List.mem_cons, List.not_mem_nil, or_false] at hps
    rcases hps with rfl | rfl <;> rfl
  · simp only [List.mem_cons, List.not_mem_nil, or_false] at hps
    rcases hps with rfl | rfl <;> rfl
  · simp only [List.mem_cons, List.not_mem_nil, or_false] at hps
    rcases hps with rfl | rfl <;> rfl
  intro i e e' he he'
  obtain ⟨N, V, M, M', a1, a2, -, -, -, -, a3⟩ := ht i e e' he he'
  have hlt := hgt i e e' he he'
  have c1 : ∀ f : Force, (forcePanel f T).curve[2 * i]? = some (f.of (e, N, V, M), e) := by
    intro f
    rw [force_point, a1]
    rfl
  have c2 : ∀ f : Force, (forcePanel f T).curve[2 * i + 1]? = some (f.of (e', N, V, M'), e') := by
    intro f
    rw [force_point, a2]
    rfl
  have next : ∀ (f : Force) x s, DrawnBy (forcePanel f T).curve (2 * i + 1) (x, s) → s = e' := by
    rintro f x s ⟨a, b, ha, hb, t, -, -, hq⟩
    rw [c2] at ha
    cases ha
    rw [force_point] at hb
    obtain ⟨r, hr, rfl⟩ := Option.map_eq_some_iff.1 hb
    have hi : C.nodes.length = i + 2 ∨ i + 2 < C.nodes.length := by
      have := (List.getElem?_eq_some_iff.1 he').1
      omega
    rcases hi with hi | hi
    · have := (List.getElem?_eq_some_iff.1 hr).1
      omega
    · obtain ⟨N₂, V₂, M₂, M₂', b1, -⟩ := ht (i + 1) e' _ he' (List.getElem?_eq_getElem hi)
      rw [show 2 * i + 1 + 1 = 2 * (i + 1) by ring, b1] at hr
      cases hr
      have := congrArg Prod.snd hq
      simp only at this
      rw [this]
      ring
  refine ⟨?_, next .normal, next .shear, next .moment, ?_⟩
  · intro s h1 h2
    have hd : 0 < e - e' := sub_pos.2 hlt
    have key : ∀ f : Force, ∃ x, DrawnBy (forcePanel f T).curve (2 * i) (x, s) := by
      intro f
      refine ⟨_, _, _, c1 f, c2 f, (e - s) / (e - e'), div_nonneg (by linarith) hd.le, (div_le_one hd).2 (by linarith),
        Prod.ext rfl ?_⟩
      simp only
      field_simp
      ring
    obtain ⟨x, hx⟩ := key .normal
    obtain ⟨y, hy⟩ := key .shear
    obtain ⟨w, hw⟩ := key .moment
    exact ⟨x, y, w, hx, hy, hw⟩
  · intro hfree x s
    obtain ⟨e1, e2⟩ := a3 hfree
    simp only [loadsAbove, Prod.mk.injEq] at e1 e2
    obtain ⟨hN, hV, hM⟩ := e1
    obtain ⟨-, -, hM'⟩ := e2
    refine ⟨?_, ?_, ?_⟩
    · rintro ⟨a, b, ha, hb, t, -, -, hq⟩
      rw [c1] at ha
      rw [c2] at hb
      cases ha
      cases hb
      have := congrArg Prod.fst hq
      simp only [Force.of] at this
      simp only [loadsAbove]
      rw [this, ← hN]
      ring
    · rintro ⟨a, b, ha, hb, t, -, -, hq⟩
      rw [c1] at ha
      rw [c2] at hb
      cases ha
      cases hb
      have := congrArg Prod.fst hq
      simp only [Force.of] at this
      simp only [loadsAbove]
      rw [this, ← hV]
      ring
    · rintro ⟨a, b, ha, hb, t, -, -, hq⟩
      rw [c1] at ha
      rw [c2] at hb
      cases ha
      cases hb
      have q1 := congrArg Prod.fst hq
      have q2 := congrArg Prod.snd hq
      simp only [Force.of] at q1 q2
      simp only [loadsAbove]
      rw [q1, q2, hM, hM', ← Finset.sum_sub_distrib, Finset.mul_sum, ← Finset.sum_add_distrib]
      refine Finset.sum_congr rfl (fun k _ => ?_)
      ring

/-! ### a concrete case -/

section cases

/-- A pile clamped at the tip with a load at the head: halfway down its lowest element, 9 m below the head, the diagrams show
the bending moment -9 * 100 of the lateral load 100. -/
example : ∃ T, solveOn (22 / 7) .eulerBernoulli pileE nodesE bcsF = some T ∧ T.forces ≠ [] ∧
    ∃ P, panel (plotResults T) "M [kNm]" = some P ∧ ∃ w, DrawnBy P.curve 8 (w, -9) ∧ w = -900 := by
  obtain ⟨T, hT⟩ := solvedF .eulerBernoulli
  obtain ⟨g, hg, h⟩ := C96_between (22 / 7) .eulerBernoulli pileE 0 (-10) stackE (regularF _) nodesE meshE bcsF T hT
  obtain ⟨PN, PV, PM, -, -, p3, -, h⟩ := h (plotResults T) (by simp)
  obtain ⟨h1, -, -, -, h2⟩ := h 4 (-8) (-10) rfl rfl
  obtain ⟨x, y, w, -, -, hw⟩ := h1 (-9) (by norm_num) (by norm_num)
  have hgv : globalForces nodesE.nodes bcsF
      = .ok ⟨[0, 0, 0, 0, 0, 0], [100, 0, 0, 0, 0, 0], [-500, 0, 0, 0, 0, 0]⟩ := by decide +kernel
  rw [hgv] at hg
  cases hg
  refine ⟨T, hT, ?_, PM, p3, w, hw, ?_⟩
  · intro h0
    obtain ⟨g', -, ht⟩ := C80_tables (22 / 7) .eulerBernoulli pileE 0 (-10) stackE (regularF _) nodesE meshE bcsF T hT
    obtain ⟨N, V, M, M', a1, -⟩ := ht 4 (-8) (-10) rfl rfl
    rw [h0] at a1
    cases a1
  · rw [(h2 (fun k hk => freeF k (by simp [nodesE]; omega)) w (-9)).2.2 hw]
    simp [loadsAbove, load, elev, nodesE, Finset.sum_range_succ]
    norm_num

end cases

end OpenPile.Props.ResultPlot

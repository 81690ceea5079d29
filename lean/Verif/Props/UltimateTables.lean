/-
C74 and C111 from the tables of a result: the axial loads a pile can carry, and the pull it can hold.
-/
import Verif.Props.Ultimate
import Verif.Props.Uplift

namespace OpenPile.Props.Ultimate
open OpenPile.Kernel OpenPile.Winkler OpenPile.Spring OpenPile.Result OpenPile.BC OpenPile.Mesh OpenPile.Analysis
open OpenPile.Spec.Spring OpenPile.Assemble OpenPile.SoilAnalysis OpenPile.Axial OpenPile.SoilModel
open OpenPile.Props.Spring OpenPile.Props.SoilTables
open OpenPile.Props.SoilStiffness (seenNode)
open OpenPile.Props.Refine (Regular)
open OpenPile.Spec.Kernel OpenPile.Props.Beam OpenPile.Props.Analysis OpenPile.Props.Reported Matrix
open OpenPile.Props.Uplift (TipShape)

/-- The listed settlements of the two ends of an element are at most `ρ` times each of those at which its t-z springs
are read (the end itself, except that the lower springs of the last element are read at its upper end). -/
def EvenRows {n : ℕ} (s : Fin (n + 1) → ℝ) (ρ : ℝ) : Prop :=
  ∀ (e : Fin n) (b : Bool), |s e.castSucc| ≤ ρ * |s (seenNode e b)| ∧ |s e.succ| ≤ ρ * |s (seenNode e b)|

/-- The strength of the shaft: of every element the mean of the greatest resistances of its two t-z tables, times its length. -/
noncomputable def shaft {n : ℕ} (z : Fin (n + 1) → ℝ) (T : ℕ → Bool → ℝ) : ℝ :=
  ∑ e : Fin n, (z e.castSucc - z e.succ) * (T e.1 false + T e.1 true) / 2

theorem axial_bound {n : ℕ} {z s y r : Fin (n + 1) → ℝ} {tz : Fin n → Bool → ℝ} (hz : StrictAnti z) {T : ℕ → Bool → ℝ} {e : Fin n}
    (key : ∀ b, 0 ≤ tz e b ∧ tz e b * |s (seenNode e b)| ≤ T e.1 b) {ρ : ℝ} (hρ : 0 ≤ ρ) (hev : EvenRows s ρ) :
    |axialOf z s y r tz e| ≤ ρ * ((z e.castSucc - z e.succ) * (T e.1 false + T e.1 true) / 2) := by
  have hL : 0 < z e.castSucc - z e.succ := sub_pos.2 (hz (Fin.castSucc_lt_succ))
  have field : ∀ b x, 0 ≤ x → x ≤ z e.castSucc - z e.succ →
      |axialField (z e.castSucc - z e.succ) (ends s y r e) x| ≤ ρ * |s (seenNode e b)| := by
    intro b x hx0 hxL
    obtain ⟨h1, h2⟩ := hev e b
    have t0 : 0 ≤ x / (z e.castSucc - z e.succ) := div_nonneg hx0 hL.le
    have t1 : 0 ≤ 1 - x / (z e.castSucc - z e.succ) := by
      rw [sub_nonneg, div_le_one hL]; exact hxL
    have e1 : axialField (z e.castSucc - z e.succ) (ends s y r e) x
        = (1 - x / (z e.castSucc - z e.succ)) * s e.castSucc + x / (z e.castSucc - z e.succ) * s e.succ := rfl
    rw [e1]
    refine (abs_add_le _ _).trans ?_
    rw [abs_mul, abs_mul, abs_of_nonneg t0, abs_of_nonneg t1]
    nlinarith [mul_le_mul_of_nonneg_left h1 t1, mul_le_mul_of_nonneg_left h2 t0]
  unfold axialOf
  refine element_bound _ _ _ (s (seenNode e false)) (s (seenNode e true)) _ _ ρ _ hL ?_ (key false).1 (key true).1
    (key false).2 (key true).2 hρ (field false) (field true)
  unfold axialField
  fun_prop

theorem axial_element {n : ℕ} {z s y r : Fin (n + 1) → ℝ} {w : Switches} {A : Arrays} {tz : Fin n → Bool → ℝ}
    (hz : StrictAnti z) (hr : ∀ e b, if w.distributedAxial then tzStiffness (A.tz e.1 b) .secant (s (seenNode e b)) = some (tz e b)
      else tz e b = 0) {T : ℕ → Bool → ℝ} (hT : ∀ e b, TwoSided (A.tz e b) ∧ Within (A.tz e b) (T e b)) {ρ : ℝ} (hρ : 0 ≤ ρ)
    (hev : EvenRows s ρ) (e : Fin n) :
    |axialOf z s y r tz e| ≤ ρ * ((z e.castSucc - z e.succ) * (T e.1 false + T e.1 true) / 2) := by
  refine axial_bound hz (fun b => ?_) hρ hev
  have := hr e b
  split_ifs at this
  · exact ⟨C24_nonneg _ _ _ _ (Or.inr (Or.inr (Or.inl this))), tz_within _ _ _ _ (hT e.1 b).2 (hT e.1 b).1 this⟩
  · rw [this, zero_mul]
    obtain ⟨⟨up, down, g, -⟩, hw⟩ := hT e.1 b
    exact ⟨le_rfl, hw.nonneg (by rw [g]; simp)⟩

/-- **C74, axial, from the tables (partial).** Any accepted analysis of a pile without axial supports: the axial loads add up
to no more than the strength of the shaft times the factor `ρ` by which the listed settlements vary within an element, plus
the strength of the tip, plus the reported error times the square root of the number of nodes. -/
theorem C74_tables_axial_partial {ty : ElementType} {p : Pile.Pile ℝ} {top tip : ℝ} (hp : Analysis.Stack p top tip)
    (hreg : ∀ s ∈ p.sections, ∀ L : ℝ, 0 < L → Regular ty (elemOf Real.pi p.material s L)) {C : Coordinates ℝ}
    (hm : MeshOn p top tip C) {w : Switches} {A : Arrays} {bcs : List (Cond ℝ)} {t : SoilTables}
    (ht : solveSoilOn ty p C w A bcs 100 = some (.numbers t)) (hu : Unheld C.nodes bcs .z) {T : ℕ → Bool → ℝ}
    (hT : ∀ e b, TwoSided (A.tz e b) ∧ Within (A.tz e b) (T e b)) {q : ℝ} (hq : TwoSided A.qz ∧ Within A.qz q) {ρ : ℝ}
    (hρ : 0 ≤ ρ) (hev : ∀ {n : ℕ} (z s y r : Fin (n + 1) → ℝ), Listed t.toTables z s y r → EvenRows s ρ) :
    ∃ (n : ℕ) (z : Fin (n + 1) → ℝ) (g : Nodal ℤ), C.nodes = List.ofFn z ∧ globalForces C.nodes bcs = .ok g ∧
      |(g.z.map (fun i : ℤ => (i : ℝ))).sum| ≤ ρ * shaft z T + q + Real.sqrt C.nodes.length * t.error := by
  obtain ⟨n, z, s, y, r, py, tz, mt, hh, m, k, g, h1, h2, h3, h4, h5⟩ := C59_tables_axial hp hreg hm ht hu
  have anti : StrictAnti z := by
    obtain ⟨n', z', -, -, -, -, -, -, -, -, -, -, -, e1, e2, -⟩ := soil_balance hp hreg hm ht
    have hn : n' = n := by
      have := congrArg List.length (e1.symm.trans h1)
      simpa using this
    subst hn
    rwa [← List.ofFn_injective (e1.symm.trans h1)]
  refine ⟨n, z, g, h1, h4, ?_⟩
  have htip : |k * s (Fin.last n)| ≤ q := by
    have := h3.baseAxial
    split_ifs at this
    · have k0 : 0 ≤ k := C24_nonneg _ _ _ _ (Or.inr (Or.inr (Or.inr this)))
      rw [abs_mul, abs_of_nonneg k0]
      exact qz_within _ _ _ _ hq.2 hq.1 this
    · rw [this, zero_mul, abs_zero]
      obtain ⟨⟨up, down, e, -⟩, hw⟩ := hq
      exact hw.nonneg (by rw [e]; simp)
  have hsum : |∑ e, axialOf z s y r tz e| ≤ ρ * shaft z T := by
    refine (Finset.abs_sum_le_sum_abs _ _).trans ?_
    unfold shaft
    rw [Finset.mul_sum]
    exact Finset.sum_le_sum (fun e _ => axial_element anti h3.axial hT hρ (hev z s y r h2) e)
  have a1 := abs_le.1 h5
  have a2 := abs_le.1 hsum
  have a3 := abs_le.1 htip
  rw [abs_le]
  constructor <;> linarith

/-- **C74 and C111, the pull (partial).** If moreover the result lists a tip that is not pushed down, the soil under the tip does
not count, whatever its strength: a pull is bounded by the strength of the shaft alone. -/
theorem C74_pull_partial {ty : ElementType} {p : Pile.Pile ℝ} {top tip : ℝ} (hp : Analysis.Stack p top tip)
    (hreg : ∀ s ∈ p.sections, ∀ L : ℝ, 0 < L → Regular ty (elemOf Real.pi p.material s L)) {C : Coordinates ℝ}
    (hm : MeshOn p top tip C) {w : Switches} {A : Arrays} (hA : ∃ c, A.qz = negate c ∧ TipShape c) {bcs : List (Cond ℝ)}
    {t : SoilTables} (ht : solveSoilOn ty p C w A bcs 100 = some (.numbers t)) (hu : Unheld C.nodes bcs .z)
    (hlift : ∀ row, t.disp.getLast? = some row → 0 ≤ row.2.1) {T : ℕ → Bool → ℝ}
    (hT : ∀ e b, TwoSided (A.tz e b) ∧ Within (A.tz e b) (T e b)) {ρ : ℝ}
    (hρ : 0 ≤ ρ) (hev : ∀ {n : ℕ} (z s y r : Fin (n + 1) → ℝ), Listed t.toTables z s y r → EvenRows s ρ) :
    ∃ (n : ℕ) (z : Fin (n + 1) → ℝ) (g : Nodal ℤ), C.nodes = List.ofFn z ∧ globalForces C.nodes bcs = .ok g ∧
      |(g.z.map (fun i : ℤ => (i : ℝ))).sum| ≤ ρ * shaft z T + Real.sqrt C.nodes.length * t.error := by
  obtain ⟨n, z, s, y, r, tz, g, h1, h2, h3, h4, h5⟩ := Uplift.C111_balance hp hreg hm hA ht hu hlift
  have anti : StrictAnti z := by
    obtain ⟨n', z', -, -, -, -, -, -, -, -, -, -, -, e1, e2, -⟩ := soil_balance hp hreg hm ht
    have hn : n' = n := by
      have := congrArg List.length (e1.symm.trans h1)
      simpa using this
    subst hn
    rwa [← List.ofFn_injective (e1.symm.trans h1)]
  refine ⟨n, z, g, h1, h4, ?_⟩
  have hsum : |∑ e, axialOf z s y r tz e| ≤ ρ * shaft z T := by
    refine (Finset.abs_sum_le_sum_abs _ _).trans ?_
    unfold shaft
    rw [Finset.mul_sum]
    exact Finset.sum_le_sum (fun e _ => axial_element anti h3 hT hρ (hev z s y r h2) e)
  have a1 := abs_le.1 h5
  have a2 := abs_le.1 hsum
  rw [abs_le]
  constructor <;> linarith

/-- The deflection of an element, the cubic through the listed deflections and rotations of its ends, is at most `ρ` times
each of the listed deflections at which its p-y springs are read. -/
def EvenCubic {n : ℕ} (z s y r : Fin (n + 1) → ℝ) (ρ : ℝ) : Prop :=
  ∀ (e : Fin n) (b : Bool) x, 0 ≤ x → x ≤ z e.castSucc - z e.succ →
    |hermite (z e.castSucc - z e.succ) (ends s y r e) x| ≤ ρ * |y (seenNode e b)|

/-- **C74, lateral, from the tables (partial).** Likewise for the lateral loads, the p-y springs and the base shear. -/
theorem C74_tables_lateral_partial {ty : ElementType} {p : Pile.Pile ℝ} {top tip : ℝ} (hp : Analysis.Stack p top tip)
    (hreg : ∀ s ∈ p.sections, ∀ L : ℝ, 0 < L → Regular ty (elemOf Real.pi p.material s L)) {C : Coordinates ℝ}
    (hm : MeshOn p top tip C) {w : Switches} {A : Arrays} {bcs : List (Cond ℝ)} {t : SoilTables}
    (ht : solveSoilOn ty p C w A bcs 100 = some (.numbers t)) (hu : Unheld C.nodes bcs .y) {P : ℕ → Bool → ℝ}
    (hP : ∀ e b, A.py e b ≠ [] ∧ StartsAtRest (A.py e b) ∧ Within (A.py e b) (P e b)) {H : ℝ}
    (hH : A.hb ≠ [] ∧ StartsAtRest A.hb ∧ Within A.hb H) {ρ : ℝ} (hρ : 0 ≤ ρ)
    (hev : ∀ {n : ℕ} (z s y r : Fin (n + 1) → ℝ), Listed t.toTables z s y r → EvenCubic z s y r ρ) :
    ∃ (n : ℕ) (z : Fin (n + 1) → ℝ) (g : Nodal ℤ), C.nodes = List.ofFn z ∧ globalForces C.nodes bcs = .ok g ∧
      |(g.y.map (fun i : ℤ => (i : ℝ))).sum| ≤ ρ * shaft z P + H + Real.sqrt C.nodes.length * t.error := by
  obtain ⟨n, z, s, y, r, py, tz, mt, k, m, q, g, h1, h2, h3, h4, h5⟩ := C59_tables_lateral hp hreg hm ht hu
  have anti : StrictAnti z := by
    obtain ⟨n', z', -, -, -, -, -, -, -, -, -, -, -, e1, e2, -⟩ := soil_balance hp hreg hm ht
    have hn : n' = n := by
      have := congrArg List.length (e1.symm.trans h1)
      simpa using this
    subst hn
    rwa [← List.ofFn_injective (e1.symm.trans h1)]
  refine ⟨n, z, g, h1, h4, ?_⟩
  have htip : |k * y (Fin.last n)| ≤ H := by
    have := h3.baseShear
    split_ifs at this
    · have k0 : 0 ≤ k := C24_nonneg _ _ _ _ (Or.inr (Or.inl this))
      rw [abs_mul, abs_of_nonneg k0]
      exact base_within _ _ _ _ hH.1 hH.2.2 hH.2.1 this
    · rw [this, zero_mul, abs_zero]
      exact hH.2.2.nonneg hH.1
  have hel : ∀ e, |lateralOf z s y r py e| ≤ ρ * ((z e.castSucc - z e.succ) * (P e.1 false + P e.1 true) / 2) := by
    intro e
    have hL : 0 < z e.castSucc - z e.succ := sub_pos.2 (anti Fin.castSucc_lt_succ)
    have key : ∀ b, 0 ≤ py e b ∧ py e b * |y (seenNode e b)| ≤ P e.1 b := by
      intro b
      obtain ⟨p1, p2, p3⟩ := hP e.1 b
      have := h3.lateral e b
      split_ifs at this
      · exact ⟨C24_nonneg _ _ _ _ (Or.inl this), py_within _ _ _ _ p1 p3 p2 this⟩
      · rw [this, zero_mul]
        exact ⟨le_rfl, p3.nonneg p1⟩
    have hev' := hev z s y r h2 e
    unfold lateralOf
    refine element_bound _ _ _ (y (seenNode e false)) (y (seenNode e true)) _ _ ρ _ hL ?_ (key false).1 (key true).1
      (key false).2 (key true).2 hρ (hev' false) (hev' true)
    unfold hermite
    fun_prop
  have hsum : |∑ e, lateralOf z s y r py e| ≤ ρ * shaft z P := by
    refine (Finset.abs_sum_le_sum_abs _ _).trans ?_
    unfold shaft
    rw [Finset.mul_sum]
    exact Finset.sum_le_sum (fun e _ => hel e)
  have a1 := abs_le.1 h5
  have a2 := abs_le.1 hsum
  have a3 := abs_le.1 htip
  rw [abs_le]
  constructor <;> linarith

/-- **The pull, from the calls to the tables (partial).** A pile in soil with any supports but axial ones, with API axial soil models or
none. -/
theorem C74_pull_model_partial {ty : ElementType} {p : Pile.Pile ℝ} {sp : SoilProfile} {x2mesh : List ℝ} {c top tip : ℝ}
    (h : Weight.Setup p sp.geometry x2mesh c top tip) (hb : ∀ s ∈ p.sections, Spec.Pile.Built s)
    (hreg : ∀ s ∈ p.sections, ∀ L : ℝ, 0 < L → Regular ty (elemOf Real.pi p.material s L)) {w : Switches}
    {table : List (ℝ × Pile.Section ℝ)} (htab : Model.SortedRows p table) {env : Draws} (henv : Capacity.GoodTip env)
    (hpos : Uplift.WPos sp) {bcs : List (Cond ℝ)} {t : SoilTables}
    (ht : solveSoil ty p sp x2mesh c w table env bcs = some (.numbers t))
    (hu : ∀ C, getCoordinates p (some sp.geometry) x2mesh c = some C → Unheld C.nodes bcs .z)
    (hlift : ∀ row, t.disp.getLast? = some row → 0 ≤ row.2.1) {T : ℕ → Bool → ℝ}
    (hT : ∀ A, modelSprings p sp x2mesh c w table env = some A → ∀ e b, TwoSided (A.tz e b) ∧ Within (A.tz e b) (T e b)) {ρ : ℝ}
    (hρ : 0 ≤ ρ) (hev : ∀ {n : ℕ} (z s y r : Fin (n + 1) → ℝ), Listed t.toTables z s y r → EvenRows s ρ) :
    ∃ (C : Coordinates ℝ) (n : ℕ) (z : Fin (n + 1) → ℝ) (g : Nodal ℤ),
      getCoordinates p (some sp.geometry) x2mesh c = some C ∧ C.nodes = List.ofFn z ∧ globalForces C.nodes bcs = .ok g ∧
      |(g.z.map (fun i : ℤ => (i : ℝ))).sum| ≤ ρ * shaft z T + Real.sqrt C.nodes.length * t.error := by
  unfold solveSoil at ht
  simp only [Option.bind_eq_bind, Option.bind_eq_some_iff] at ht
  obtain ⟨C, hC, A, hA, ht⟩ := ht
  obtain ⟨C', hC', hm⟩ := NoModels.meshOn_setup h
  rw [hC] at hC'
  cases hC'
  obtain ⟨n, z, g, h1⟩ := C74_pull_partial (NoModels.stack_setup h) hreg hm (Uplift.modelSprings_shape hb htab henv hpos hA) ht
    (hu C hC) hlift (hT A hA) hρ hev
  exact ⟨C, n, z, g, hC, h1⟩

/-! ### a pile that is pulled -/

theorem listedV {t : SoilTables} (h : t.disp = [(1, 1 / 10, 1 / 10, 0), (0, 1 / 10, 1 / 10, 0)]) {n : ℕ}
    {z s y r : Fin (n + 1) → ℝ} (hl : Listed t.toTables z s y r) : ∀ j, s j = 1 / 10 ∧ y j = 1 / 10 ∧ r j = 0 := by
  intro j
  have hmem : (z j, s j, y j, r j) ∈ t.disp := by
    rw [show t.disp = _ from hl, List.mem_ofFn]
    exact ⟨j, rfl⟩
  rw [h] at hmem
  simp only [List.mem_cons, Prod.mk.injEq, List.not_mem_nil, or_false] at hmem
  rcases hmem with ⟨-, a, b, c⟩ | ⟨-, a, b, c⟩ <;> exact ⟨a, b, c⟩

theorem unheldV (a : BC.Axis) : Unheld meshS.nodes Uplift.bcsV a := by
  refine ⟨fun gU h => ?_, fun gR h => ?_⟩
  · rw [Uplift.dispV] at h
    cases h
    cases a <;> simp [Nodal.get]
  · rw [Uplift.heldV] at h
    cases h
    cases a <;> simp [Nodal.get]

/-- The pile of `Uplift` under a pull of 120 kN, which the shaft with its 1200 kN can hold; all nodes move alike. -/
example : ∃ t, solveSoilOn .eulerBernoulli pileS meshS switchesS Uplift.arraysV Uplift.bcsV 100 = some (.numbers t) ∧
    ∃ (n : ℕ) (z : Fin (n + 1) → ℝ) (g : Nodal ℤ), meshS.nodes = List.ofFn z ∧ globalForces meshS.nodes Uplift.bcsV = .ok g ∧
      |(g.z.map (fun i : ℤ => (i : ℝ))).sum| ≤ 1 * shaft z (fun _ _ => 1200) + Real.sqrt meshS.nodes.length * t.error := by
  obtain ⟨t, ht, hd⟩ := Uplift.solvedV
  refine ⟨t, ht, C74_pull_partial stackS regularS meshOnS ⟨zeros, ?_, .inl rfl⟩ ht ?_ ?_ (fun e b => ⟨⟨[(1, 1200)], [(-1, -1200)], rfl, rfl, rfl⟩, ?_⟩)
    zero_le_one ?_⟩
  · simp [Uplift.arraysV, negate, zeros]
  · exact unheldV .z
  · intro row hrow
    rw [hd] at hrow
    simp at hrow
    subst hrow
    norm_num
  · intro q hq
    simp only [Uplift.arraysV, List.mem_cons, List.not_mem_nil, or_false] at hq
    rcases hq with rfl | rfl | rfl <;> norm_num
  · intro n z s y r hl e b
    have := listedV hd hl
    rw [(this _).1, (this _).1, (this _).1]
    norm_num

/-- The same pile is pushed aside by 120 kN, all nodes alike, which its p-y springs with their 1200 kN can hold. -/
example : ∃ t, solveSoilOn .eulerBernoulli pileS meshS switchesS Uplift.arraysV Uplift.bcsV 100 = some (.numbers t) ∧
    ∃ (n : ℕ) (z : Fin (n + 1) → ℝ) (g : Nodal ℤ), meshS.nodes = List.ofFn z ∧ globalForces meshS.nodes Uplift.bcsV = .ok g ∧
      |(g.y.map (fun i : ℤ => (i : ℝ))).sum| ≤ 1 * shaft z (fun _ _ => 1200) + 0 + Real.sqrt meshS.nodes.length * t.error := by
  obtain ⟨t, ht, hd⟩ := Uplift.solvedV
  refine ⟨t, ht, C74_tables_lateral_partial stackS regularS meshOnS ht (unheldV .y) (fun e b => ⟨?_, ?_, ?_⟩)
    ⟨?_, ?_, ?_⟩ zero_le_one ?_⟩
  · simp [Uplift.arraysV, arraysS]
  · simp [StartsAtRest, Uplift.arraysV, arraysS]
  · intro q hq
    simp only [Uplift.arraysV, arraysS, List.mem_cons, List.not_mem_nil, or_false] at hq
    rcases hq with rfl | rfl <;> norm_num
  · simp [Uplift.arraysV, arraysS, zeros]
  · simp [StartsAtRest, Uplift.arraysV, arraysS, zeros]
  · intro q hq
    simp only [Uplift.arraysV, arraysS, zeros] at hq
    obtain rfl := List.eq_of_mem_replicate hq
    simp
  · intro n z s y r hl e b x _ _
    have := listedV hd hl
    have e1 : hermite (z e.castSucc - z e.succ) (ends s y r e) x = 1 / 10 := by
      have e2 : SoilTables.ends s y r e = ![1 / 10, 1 / 10, 0, 1 / 10, 1 / 10, 0] := by
        unfold SoilTables.ends
        simp only [(this _).1, (this _).2.1, (this _).2.2]
      rw [e2]
      simp [hermite]
      ring
    rw [e1, (this _).2.1]
    norm_num

end OpenPile.Props.Ultimate

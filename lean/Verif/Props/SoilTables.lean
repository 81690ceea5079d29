/-
Property C59 from the tables: what `solve()` lists for a pile in soil balances with the springs of the model.
-/
import Verif.Props.SoilAnalysis
import Verif.Props.Balance
import Verif.Props.Reported
import Verif.Props.LinearRange
import Verif.Props.NoModels

namespace OpenPile.Props.SoilTables
open OpenPile.SoilAnalysis OpenPile.Analysis OpenPile.BC OpenPile.Mesh OpenPile.Kernel OpenPile.Winkler OpenPile.Spring
  OpenPile.Result OpenPile.Assemble OpenPile.Props.SoilAnalysis OpenPile.Props.Analysis OpenPile.Props.Reported
  OpenPile.Spec.Kernel OpenPile.Props.Beam OpenPile.Props.Balance
open OpenPile.Props.SoilStiffness (seenNode Distributed side)
open OpenPile.Props.Refine (Regular)
open Matrix

/-! ### what an analysis reads and lists -/

/-- The reading of an analysis with soil that gave numbers. -/
theorem soil_read {ty : ElementType} {p : Pile.Pile ℝ} {top tip : ℝ} (hp : Stack p top tip) {C : Coordinates ℝ}
    (h : MeshOn p top tip C) {w : Switches} {A : Arrays} {bcs : List (Cond ℝ)} {t : SoilTables}
    (ht : solveSoilOn ty p C w A bcs 100 = some (.numbers t)) :
    ∃ (n : ℕ) (z : Fin (n + 1) → ℝ) (el : Fin n → Elem ℝ) (F U : Fin (3 * n + 3) → ℝ) (R : Fin (3 * n + 3) → Bool)
      (g : Nodal ℤ) (gU : Nodal ℝ) (gR : Nodal Bool) (d Q : Fin (3 * n + 3) → ℝ) (tolSq resSq : ℝ),
      1 ≤ n ∧ C.nodes = List.ofFn z ∧ StrictAnti z ∧ ElementsOn Real.pi p z el ∧
      globalForces C.nodes bcs = .ok g ∧ globalDisp C.nodes bcs = .ok gU ∧ globalRestrained C.nodes bcs = .ok gR ∧
      (∀ c, (g.get (axisOf c)).map (fun i : ℤ => (i : ℝ)) = List.ofFn (fun j => F (dof j c))) ∧
      (∀ c, gU.get (axisOf c) = List.ofFn (fun j => U (dof j c))) ∧
      (∀ c, gR.get (axisOf c) = List.ofFn (fun j => R (dof j c))) ∧
      winkler (buildStiffness ty el (springsOf w A n)) F U R 100 = .converged d Q t.iterations tolSq resSq ∧
      tables ty C.nodes el d Q = some t.toTables ∧
      t.disp = List.ofFn (fun j => (z j, d (dof j 0), d (dof j 1), d (dof j 2))) ∧
      t.error = Real.sqrt resSq ∧ t.tolerance = Real.sqrt tolSq := by
  obtain ⟨F, U, R, el, d, Q, tolSq, resSq, ⟨g, hg, vF⟩, ⟨gU, hgU, vU⟩, ⟨gR, hgR, vR⟩, hel, hw, htab, -, -, -, e1, e2⟩ :=
    solveSoilOn_numbers (by norm_num) ht
  have ok : ∀ {β : Type} {x : Except (List Axis) Unit} {y : Nodal β} {v : Nodal β},
      (x.bind fun _ => Except.ok v) = .ok y → x = .ok () := by
    intro β x y v hx
    cases x with
    | error e => cases hx
    | ok u => rfl
  have hv : ∀ cls, validateBc bcs cls = .ok () := by
    intro cls
    cases cls
    · unfold globalRestrained at hgR; exact ok hgR
    · unfold globalDisp at hgU; exact ok hgU
    · unfold globalForces at hg; exact ok hg
  obtain ⟨z, el', F', U', R', n1, anti, -, -, -, hel', lF, lU, lR, hz, ⟨g1, hg1, vF'⟩, ⟨gU1, hgU1, vU'⟩, ⟨gR1, hgR1, vR'⟩,
    hall⟩ := read_eq Real.pi hp h bcs hv
  rw [hg] at hg1
  rw [hgU] at hgU1
  rw [hgR] at hgR1
  cases hg1
  cases hgU1
  cases hgR1
  rw [vF] at vF'
  rw [vU] at vU'
  rw [vR] at vR'
  cases vF'
  cases vU'
  cases vR'
  obtain rfl : el = el' := by
    unfold allSome at hall
    split_ifs at hall with hs
    funext i
    have := congrFun (Option.some.inj hall) i
    rw [← this]
    simp [hel i]
  obtain ⟨T, t1, t2, -⟩ := tables_exact ty n1 z el d Q
  refine ⟨C.elements.length, z, el, F, U, R, g, gU, gR, d, Q, tolSq, resSq, n1, hz, anti, hel', hg, hgU, hgR, ?_, ?_, ?_, hw,
    htab, ?_, e1, e2⟩
  · intro c
    unfold globalForces at hg
    rw [hv] at hg
    rw [← Except.ok.inj hg, hz, column_ofFn, List.map_ofFn]
    congr 1
    funext j
    rw [lF]
    rfl
  · intro c
    unfold globalDisp at hgU
    rw [hv] at hgU
    rw [← Except.ok.inj hgU, hz, column_ofFn]
    congr 1
    funext j
    rw [lU]
  · intro c
    unfold globalRestrained at hgR
    rw [hv] at hgR
    rw [← Except.ok.inj hgR, hz, column_ofFn]
    congr 1
    funext j
    rw [lR]
  · rw [hz, t1, Option.some.injEq] at htab
    rw [← htab, t2]

/-! ### the springs of the model at the listed displacements -/

/-- Secant stiffnesses of all springs of a model, read from its arrays at listed settlements `s`, deflections `y` and
rotations `r`: `py e b`, `tz e b`, `mt e b` at the top (`b = false`) and bottom (`b = true`) of element `e`, base shear `h`,
base moment `m` and tip resistance `q`.  The springs at the bottom of the last element are read at the node above the tip
(C52). -/
structure ReadSprings (w : Switches) (A : Arrays) {n : ℕ} (s y r : Fin (n + 1) → ℝ) (py tz mt : Fin n → Bool → ℝ)
    (h m q : ℝ) : Prop where
  lateral : ∀ e b, if w.distributedLateral then pyStiffness (A.py e.1 b) .secant (y (seenNode e b)) = some (py e b)
    else py e b = 0
  axial : ∀ e b, if w.distributedAxial then tzStiffness (A.tz e.1 b) .secant (s (seenNode e b)) = some (tz e b)
    else tz e b = 0
  moment : ∀ e b, if w.distributedMoment then ∃ k, pyStiffness (A.py e.1 b) .secant (y (seenNode e b)) = some k ∧
      mtStiffness (((A.py e.1 b).map (·.2)).zip (A.mt e.1 b)) 15 (k * y (seenNode e b)) .secant (r (seenNode e b))
        = some (mt e b)
    else mt e b = 0
  baseShear : if w.baseShear then baseStiffness A.hb .secant (y (Fin.last n)) = some h else h = 0
  baseMoment : if w.baseMoment then baseStiffness A.mb .secant (r (Fin.last n)) = some m else m = 0
  baseAxial : if w.baseAxial then baseAxialStiffness A.qz .secant (s (Fin.last n)) = some q else q = 0

theorem readSprings {w : Switches} {A : Arrays} {n : ℕ} {d : Fin (3 * n + 3) → ℝ} {s : Fin n → SoilK ℝ} {h m q : ℝ}
    (hs : SecantSprings (springsOf w A n) d s h m q) :
    ReadSprings w A (fun j => d (dof j 0)) (fun j => d (dof j 1)) (fun j => d (dof j 2)) (fun e b => side (s e).py b)
      (fun e b => side (s e).tz b) (fun e b => side (s e).mt b) h m q := by
  refine ⟨fun e b => ?_, fun e b => ?_, fun e b => ?_, ?_, ?_, ?_⟩
  · by_cases hw : w.distributedLateral = true
    · rw [if_pos hw]
      exact (hs.shaft e).lateral b hw
    · rw [if_neg hw]
      exact (hs.shaft e).noLateral b (by simpa [springsOf] using hw)
  · by_cases hw : w.distributedAxial = true
    · rw [if_pos hw]
      exact (hs.shaft e).axial b hw
    · rw [if_neg hw]
      exact (hs.shaft e).noAxial b (by simpa [springsOf] using hw)
  · by_cases hw : w.distributedMoment = true
    · rw [if_pos hw]
      exact (hs.shaft e).moment b hw
    · rw [if_neg hw]
      exact (hs.shaft e).noMoment b (by simpa [springsOf] using hw)
  · have := hs.baseShear
    by_cases hw : w.baseShear = true
    · rw [if_pos hw]
      simpa [springsOf, hw] using this
    · rw [if_neg hw]
      have e : (0 : ℝ) = h := by simpa [springsOf, hw] using this
      exact e.symm
  · have := hs.baseMoment
    by_cases hw : w.baseMoment = true
    · rw [if_pos hw]
      simpa [springsOf, hw] using this
    · rw [if_neg hw]
      have e : (0 : ℝ) = m := by simpa [springsOf, hw] using this
      exact e.symm
  · have := hs.baseAxial
    by_cases hw : w.baseAxial = true
    · rw [if_pos hw]
      simpa [springsOf, hw] using this
    · rw [if_neg hw]
      have e : (0 : ℝ) = q := by simpa [springsOf, hw] using this
      exact e.symm

/-! ### the balances -/

/-- The listed displacements of the two ends of an element. -/
def ends {n : ℕ} (s y r : Fin (n + 1) → ℝ) (i : Fin n) : Fin 6 → ℝ :=
  ![s i.castSucc, y i.castSucc, r i.castSucc, s i.succ, y i.succ, r i.succ]

/-- Lateral soil reaction: the springs of element `i`, integrated over the cubic through the listed deflections and
rotations. -/
noncomputable def lateralOf {n : ℕ} (z s y r : Fin (n + 1) → ℝ) (k : Fin n → Bool → ℝ) (i : Fin n) : ℝ :=
  ∫ x in (0 : ℝ)..(z i.castSucc - z i.succ), linearStiffness (z i.castSucc - z i.succ) (k i false) (k i true) x
    * hermite (z i.castSucc - z i.succ) (ends s y r i) x

/-- Moment of the lateral soil reaction of element `i` about the elevation `z0`. -/
noncomputable def lateralMomentOf {n : ℕ} (z s y r : Fin (n + 1) → ℝ) (k : Fin n → Bool → ℝ) (z0 : ℝ) (i : Fin n) : ℝ :=
  ∫ x in (0 : ℝ)..(z i.castSucc - z i.succ), (z0 - (z i.castSucc - x))
    * hermite (z i.castSucc - z i.succ) (ends s y r i) x
    * linearStiffness (z i.castSucc - z i.succ) (k i false) (k i true) x

/-- Axial soil reaction of element `i`, over the linear course of the listed settlements. -/
noncomputable def axialOf {n : ℕ} (z s y r : Fin (n + 1) → ℝ) (k : Fin n → Bool → ℝ) (i : Fin n) : ℝ :=
  ∫ x in (0 : ℝ)..(z i.castSucc - z i.succ), linearStiffness (z i.castSucc - z i.succ) (k i false) (k i true) x
    * axialField (z i.castSucc - z i.succ) (ends s y r i) x

theorem stacked_ends {n : ℕ} (d : Fin (3 * n + 3) → ℝ) (i : Fin n) :
    stacked d i = ends (fun j => d (dof j 0)) (fun j => d (dof j 1)) (fun j => d (dof j 2)) i := by
  obtain ⟨h0, h1, h2, h3, h4, h5⟩ := stacked_top d i
  funext c
  fin_cases c
  · exact h0
  · exact h1
  · exact h2
  · exact h3
  · exact h4
  · exact h5

/-- Nothing in this direction is held or displaced. -/
def Unheld (nodes : List ℝ) (bcs : List (Cond ℝ)) (a : Axis) : Prop :=
  (∀ gU : Nodal ℝ, globalDisp nodes bcs = .ok gU → ∀ v ∈ gU.get a, v = 0) ∧
  (∀ gR : Nodal Bool, globalRestrained nodes bcs = .ok gR → ∀ v ∈ gR.get a, v = false)

theorem freeIn_of_unheld {nodes : List ℝ} {bcs : List (Cond ℝ)} {c : Fin 3} (h : Unheld nodes bcs (axisOf c)) {n : ℕ}
    {U : Fin (3 * n + 3) → ℝ} {R : Fin (3 * n + 3) → Bool} {gU : Nodal ℝ} {gR : Nodal Bool}
    (hU : globalDisp nodes bcs = .ok gU) (hR : globalRestrained nodes bcs = .ok gR)
    (cU : ∀ c, gU.get (axisOf c) = List.ofFn (fun j => U (dof j c)))
    (cR : ∀ c, gR.get (axisOf c) = List.ofFn (fun j => R (dof j c))) : FreeIn R U c := by
  intro j
  refine ⟨h.2 gR hR _ ?_, h.1 gU hU _ ?_⟩
  · rw [cR]
    exact List.mem_ofFn.2 ⟨j, rfl⟩
  · rw [cU]
    exact List.mem_ofFn.2 ⟨j, rfl⟩

theorem sum_column {g : Nodal ℤ} {n : ℕ} {F : Fin (3 * n + 3) → ℝ} {c : Fin 3}
    (h : (g.get (axisOf c)).map (fun i : ℤ => (i : ℝ)) = List.ofFn (fun j => F (dof j c))) :
    ∑ j : Fin (n + 1), F (dof j c) = ((g.get (axisOf c)).map (fun i : ℤ => (i : ℝ))).sum := by
  rw [h, List.sum_ofFn]

/-- Listed displacements. -/
def Listed (t : Tables ℝ) {n : ℕ} (z s y r : Fin (n + 1) → ℝ) : Prop :=
  t.disp = List.ofFn (fun j => (z j, s j, y j, r j))

/-- What all balances share. -/
theorem soil_balance {ty : ElementType} {p : Pile.Pile ℝ} {top tip : ℝ} (hp : Stack p top tip)
    (hreg : ∀ s ∈ p.sections, ∀ L : ℝ, 0 < L → Regular ty (elemOf Real.pi p.material s L)) {C : Coordinates ℝ}
    (h : MeshOn p top tip C) {w : Switches} {A : Arrays} {bcs : List (Cond ℝ)} {t : SoilTables}
    (ht : solveSoilOn ty p C w A bcs 100 = some (.numbers t)) :
    ∃ (n : ℕ) (z : Fin (n + 1) → ℝ) (el : Fin n → Elem ℝ) (F U : Fin (3 * n + 3) → ℝ) (R : Fin (3 * n + 3) → Bool)
      (g : Nodal ℤ) (gU : Nodal ℝ) (gR : Nodal Bool) (d Q : Fin (3 * n + 3) → ℝ) (tolSq resSq : ℝ),
      C.nodes = List.ofFn z ∧ StrictAnti z ∧ (∀ i, (el i).L = z i.castSucc - z i.succ) ∧
      (∀ i, (el i).L ≠ 0) ∧ (∀ i, 1 + phi ty (el i) ≠ 0) ∧
      globalForces C.nodes bcs = .ok g ∧ globalDisp C.nodes bcs = .ok gU ∧ globalRestrained C.nodes bcs = .ok gR ∧
      (∀ c, (g.get (axisOf c)).map (fun i : ℤ => (i : ℝ)) = List.ofFn (fun j => F (dof j c))) ∧
      (∀ c, gU.get (axisOf c) = List.ofFn (fun j => U (dof j c))) ∧
      (∀ c, gR.get (axisOf c) = List.ofFn (fun j => R (dof j c))) ∧
      winkler (buildStiffness ty el (springsOf w A n)) F U R 100 = .converged d Q t.iterations tolSq resSq ∧
      Listed t.toTables z (fun j => d (dof j 0)) (fun j => d (dof j 1)) (fun j => d (dof j 2)) ∧
      t.error = Real.sqrt resSq := by
  obtain ⟨n, z, el, F, U, R, g, gU, gR, d, Q, tolSq, resSq, n1, hz, anti, hel, hg, hgU, hgR, cF, cU, cR, hw, -, hd, e1, -⟩ :=
    soil_read hp h ht
  have reg := regular_of_elements hreg anti hel
  refine ⟨n, z, el, F, U, R, g, gU, gR, d, Q, tolSq, resSq, hz, anti, fun i => ?_, fun i => (reg i).L, fun i => (reg i).p, hg,
    hgU, hgR, cF, cU, cR, hw, hd, e1⟩
  rw [length_of_elementsOn hel, abs_of_pos (sub_pos.2 (anti Fin.castSucc_lt_succ))]

/-- **C59, lateral balance from the tables.** -/
theorem C59_tables_lateral {ty : ElementType} {p : Pile.Pile ℝ} {top tip : ℝ} (hp : Stack p top tip)
    (hreg : ∀ s ∈ p.sections, ∀ L : ℝ, 0 < L → Regular ty (elemOf Real.pi p.material s L)) {C : Coordinates ℝ}
    (h : MeshOn p top tip C) {w : Switches} {A : Arrays} {bcs : List (Cond ℝ)} {t : SoilTables}
    (ht : solveSoilOn ty p C w A bcs 100 = some (.numbers t)) (hu : Unheld C.nodes bcs .y) :
    ∃ (n : ℕ) (z s y r : Fin (n + 1) → ℝ) (py tz mt : Fin n → Bool → ℝ) (hh m q : ℝ) (g : Nodal ℤ),
      C.nodes = List.ofFn z ∧ Listed t.toTables z s y r ∧ ReadSprings w A s y r py tz mt hh m q ∧
      globalForces C.nodes bcs = .ok g ∧
      |(g.y.map (fun i : ℤ => (i : ℝ))).sum - (∑ i, lateralOf z s y r py i + hh * y (Fin.last n))|
        ≤ Real.sqrt C.nodes.length * t.error := by
  obtain ⟨n, z, el, F, U, R, g, gU, gR, d, Q, tolSq, resSq, hz, anti, hL, hL0, hphi, hg, hgU, hgR, cF, cU, cR, hw, hd, he⟩ :=
    soil_balance hp hreg h ht
  have hf : FreeIn R U 1 := freeIn_of_unheld (c := 1) hu hgU hgR cU cR
  obtain ⟨-, s, hh, m, q, hs, hb⟩ := C59_lateral ty el hL0 hphi _ F U R 100 d Q _ tolSq resSq hw hf
  refine ⟨n, z, _, _, _, _, _, _, hh, m, q, g, hz, hd, readSprings hs, hg, ?_⟩
  have hsum := sum_column (cF 1)
  rw [hsum] at hb
  have hi : ∀ i, (∫ x in (0 : ℝ)..(el i).L, linearStiffness (el i).L (s i).py.1 (s i).py.2 x * deflection el d i x)
      = lateralOf z (fun j => d (dof j 0)) (fun j => d (dof j 1)) (fun j => d (dof j 2)) (fun e b => side (s e).py b) i := by
    intro i
    unfold lateralOf deflection
    rw [hL i, stacked_ends]
    rfl
  simp only [hi] at hb
  rw [he]
  have hlen : ((C.nodes.length : ℕ) : ℝ) = n + 1 := by rw [hz]; simp
  rw [hlen, ← Real.sqrt_mul (by positivity)]
  exact Real.abs_le_sqrt hb

/-- **C59, axial balance from the tables.** -/
theorem C59_tables_axial {ty : ElementType} {p : Pile.Pile ℝ} {top tip : ℝ} (hp : Stack p top tip)
    (hreg : ∀ s ∈ p.sections, ∀ L : ℝ, 0 < L → Regular ty (elemOf Real.pi p.material s L)) {C : Coordinates ℝ}
    (h : MeshOn p top tip C) {w : Switches} {A : Arrays} {bcs : List (Cond ℝ)} {t : SoilTables}
    (ht : solveSoilOn ty p C w A bcs 100 = some (.numbers t)) (hu : Unheld C.nodes bcs .z) :
    ∃ (n : ℕ) (z s y r : Fin (n + 1) → ℝ) (py tz mt : Fin n → Bool → ℝ) (hh m q : ℝ) (g : Nodal ℤ),
      C.nodes = List.ofFn z ∧ Listed t.toTables z s y r ∧ ReadSprings w A s y r py tz mt hh m q ∧
      globalForces C.nodes bcs = .ok g ∧
      |(g.z.map (fun i : ℤ => (i : ℝ))).sum - (∑ i, axialOf z s y r tz i + q * s (Fin.last n))|
        ≤ Real.sqrt C.nodes.length * t.error := by
  obtain ⟨n, z, el, F, U, R, g, gU, gR, d, Q, tolSq, resSq, hz, anti, hL, hL0, hphi, hg, hgU, hgR, cF, cU, cR, hw, hd, he⟩ :=
    soil_balance hp hreg h ht
  have hf : FreeIn R U 0 := freeIn_of_unheld (c := 0) hu hgU hgR cU cR
  obtain ⟨-, s, hh, m, q, hs, hb⟩ := C59_axial ty el hL0 hphi _ F U R 100 d Q _ tolSq resSq hw hf
  refine ⟨n, z, _, _, _, _, _, _, hh, m, q, g, hz, hd, readSprings hs, hg, ?_⟩
  have hsum := sum_column (cF 0)
  rw [hsum] at hb
  have hi : ∀ i, (∫ x in (0 : ℝ)..(el i).L, linearStiffness (el i).L (s i).tz.1 (s i).tz.2 x * settlement el d i x)
      = axialOf z (fun j => d (dof j 0)) (fun j => d (dof j 1)) (fun j => d (dof j 2)) (fun e b => side (s e).tz b) i := by
    intro i
    unfold axialOf settlement
    rw [hL i, stacked_ends]
    rfl
  simp only [hi] at hb
  rw [he]
  have hlen : ((C.nodes.length : ℕ) : ℝ) = n + 1 := by rw [hz]; simp
  rw [hlen, ← Real.sqrt_mul (by positivity)]
  exact Real.abs_le_sqrt hb

/-- **C59, balance of moments from the tables** about any elevation `z0`, with Euler-Bernoulli elements or without
rotational springs along the shaft. -/
theorem C59_tables_moment_partial {ty : ElementType} {p : Pile.Pile ℝ} {top tip : ℝ} (hp : Stack p top tip)
    (hreg : ∀ s ∈ p.sections, ∀ L : ℝ, 0 < L → Regular ty (elemOf Real.pi p.material s L)) {C : Coordinates ℝ}
    (h : MeshOn p top tip C) {w : Switches} (hty : ty = .eulerBernoulli ∨ w.distributedMoment = false) {A : Arrays}
    {bcs : List (Cond ℝ)} {t : SoilTables}
    (ht : solveSoilOn ty p C w A bcs 100 = some (.numbers t)) (hu : Unheld C.nodes bcs .y) (hx : Unheld C.nodes bcs .x) :
    ∃ (n : ℕ) (z s y r : Fin (n + 1) → ℝ) (py tz mt : Fin n → Bool → ℝ) (hh m q : ℝ) (g : Nodal ℤ) (H M : Fin (n + 1) → ℝ),
      C.nodes = List.ofFn z ∧ Listed t.toTables z s y r ∧ ReadSprings w A s y r py tz mt hh m q ∧
      globalForces C.nodes bcs = .ok g ∧ g.y.map (fun i : ℤ => (i : ℝ)) = List.ofFn H ∧
      g.x.map (fun i : ℤ => (i : ℝ)) = List.ofFn M ∧ ∀ z0 : ℝ,
      |∑ j, (M j + (z0 - z j) * H j)
        - (∑ i, (lateralMomentOf z s y r py z0 i + (mt i false + mt i true) / 2 * (y i.succ - y i.castSucc))
          + hh * (z0 - z (Fin.last n)) * y (Fin.last n) + m * r (Fin.last n))|
        ≤ Real.sqrt (∑ j, ((z0 - z j) ^ 2 + 1)) * t.error := by
  obtain ⟨n, z, el, F, U, R, g, gU, gR, d, Q, tolSq, resSq, hz, anti, hL, hL0, hphi, hg, hgU, hgR, cF, cU, cR, hw, hd, he⟩ :=
    soil_balance hp hreg h ht
  have hf : FreeIn R U 1 := freeIn_of_unheld (c := 1) hu hgU hgR cU cR
  have hf2 : FreeIn R U 2 := freeIn_of_unheld (c := 2) hx hgU hgR cU cR
  obtain ⟨-, s, hh, m, q, hs, hb⟩ := C59_moment_partial ty el hL0 hphi _ hty F U R 100 d Q _ tolSq resSq hw hf hf2
  refine ⟨n, z, _, _, _, _, _, _, hh, m, q, g, _, _, hz, hd, readSprings hs, hg, cF 1, cF 2, fun z0 => ?_⟩
  have hdep : ∀ j, nodeDepth (fun i => (el i).L) j = z 0 - z j := by
    intro j
    have : (fun i => (el i).L) = fun i : Fin n => |z i.castSucc - z i.succ| := by
      funext i
      rw [hL i, abs_of_pos (sub_pos.2 (anti Fin.castSucc_lt_succ))]
    rw [this, depth_of_elevations z anti]
  have hb := hb (z 0 - z0)
  have hi : ∀ i, (∫ x in (0 : ℝ)..(el i).L, (nodeDepth (fun i => (el i).L) i.castSucc + x - (z 0 - z0))
        * deflection el d i x * linearStiffness (el i).L (s i).py.1 (s i).py.2 x)
      = lateralMomentOf z (fun j => d (dof j 0)) (fun j => d (dof j 1)) (fun j => d (dof j 2)) (fun e b => side (s e).py b)
          z0 i := by
    intro i
    unfold lateralMomentOf deflection
    rw [hL i, stacked_ends, hdep]
    refine intervalIntegral.integral_congr (fun x _ => ?_)
    have e : z 0 - z i.castSucc + x - (z 0 - z0) = z0 - (z i.castSucc - x) := by ring
    simp only [e]
    rfl
  simp only [hi] at hb
  simp only [hdep] at hb
  have e2 : ∀ j, z 0 - z j - (z 0 - z0) = z0 - z j := by
    intro j
    ring
  simp only [e2] at hb
  rw [he, ← Real.sqrt_mul (Finset.sum_nonneg (fun j _ => by positivity))]
  refine Real.abs_le_sqrt ?_
  rw [add_assoc]
  exact hb

/-- The lateral springs of the listed pile lie on the curves the model holds for the top and the bottom of each element. -/
theorem ReadSprings.on_curve {w : Switches} {A : Arrays} {n : ℕ} {s y r : Fin (n + 1) → ℝ} {py tz mt : Fin n → Bool → ℝ}
    {h m q : ℝ} (hs : ReadSprings w A s y r py tz mt h m q) (hw : w.distributedLateral = true) (e : Fin n) (b : Bool)
    {p0 : ℝ} {rest : List (ℝ × ℝ)} (ht : A.py e.1 b = (0, p0) :: rest) (hr : rest ≠ [])
    (ha : Asc (A.py e.1 b)) (hy : y (seenNode e b) ≠ 0) :
    ∃ p, OpenPile.Spec.Spring.OnCurve (A.py e.1 b) |y (seenNode e b)| p ∧ py e b * |y (seenNode e b)| = |p - p0| := by
  have hl := hs.lateral e b
  rw [if_pos hw, ht] at hl
  rw [ht] at ha
  obtain ⟨k, p, h1, h2, h3⟩ := Props.Spring.C24_secant p0 rest hr _ ha hy
  rw [h1] at hl
  obtain rfl := Option.some.inj hl
  exact ⟨p, by rw [ht]; exact h2, h3⟩

/-! ### from the public calls -/

/-- **C59 from the public calls.** After `Model.solve()` of a pile in soil without lateral supports and prescribed lateral
displacements, the sum of the lateral loads of the Model and the reaction of its springs at the listed displacements
differ by no more than the reported error times the square root of the number of nodes. -/
theorem C59_model_lateral {ty : ElementType} {p : Pile.Pile ℝ} {sp : SoilProfile} {x2mesh : List ℝ} {c top tip : ℝ}
    (h : Weight.Setup p sp.geometry x2mesh c top tip)
    (hreg : ∀ s ∈ p.sections, ∀ L : ℝ, 0 < L → Regular ty (elemOf Real.pi p.material s L)) {w : Switches}
    {table : List (ℝ × Pile.Section ℝ)} {env : Draws} {bcs : List (Cond ℝ)} {t : SoilTables}
    (ht : solveSoil ty p sp x2mesh c w table env bcs = some (.numbers t))
    (hu : ∀ C, getCoordinates p (some sp.geometry) x2mesh c = some C → Unheld C.nodes bcs .y) :
    ∃ (A : Arrays) (C : Coordinates ℝ) (n : ℕ) (z s y r : Fin (n + 1) → ℝ) (py tz mt : Fin n → Bool → ℝ) (hh m q : ℝ)
      (g : Nodal ℤ),
      modelSprings p sp x2mesh c w table env = some A ∧ getCoordinates p (some sp.geometry) x2mesh c = some C ∧
      C.nodes = List.ofFn z ∧ Listed t.toTables z s y r ∧ ReadSprings w A s y r py tz mt hh m q ∧
      globalForces C.nodes bcs = .ok g ∧
      |(g.y.map (fun i : ℤ => (i : ℝ))).sum - (∑ i, lateralOf z s y r py i + hh * y (Fin.last n))|
        ≤ Real.sqrt C.nodes.length * t.error := by
  unfold solveSoil at ht
  simp only [Option.bind_eq_bind, Option.bind_eq_some_iff] at ht
  obtain ⟨C, hC, A, hA, ht⟩ := ht
  obtain ⟨C', hC', hm⟩ := NoModels.meshOn_setup h
  rw [hC] at hC'
  cases hC'
  obtain ⟨n, z, s, y, r, py, tz, mt, hh, m, q, g, h1⟩ :=
    C59_tables_lateral (NoModels.stack_setup h) hreg hm ht (hu C hC)
  exact ⟨A, C, n, z, s, y, r, py, tz, mt, hh, m, q, g, hA, hC, h1⟩

/-! ### a pile in soil that meets the hypotheses -/

/-- A steel tube of 1 m in one element. -/
noncomputable def pileS : Pile.Pile ℝ := ⟨[⟨1, 0, 2, 1 / 20⟩], Pile.steel⟩

noncomputable def meshS : Coordinates ℝ := ⟨[1, 0], [(1, 0)]⟩

/-- Lateral springs of 1200 kN/m per metre, a tip spring of 10 kN/m. -/
noncomputable def arraysS : Arrays where
  py := fun _ _ => [(0, 0), (1, 1200)]
  mt := fun _ _ => [[(0, 0)], [(0, 0)]]
  tz := fun _ _ => zeros
  hb := zeros
  mb := zeros
  qz := [(1, 10), (0, 0), (-1, -10)]

def switchesS : Switches := ⟨true, false, true, true, true, true⟩

/-- Two forces and two moments that together translate the pile by 0.1 m. -/
noncomputable def bcsS : List (Cond ℝ) :=
  [⟨.force, 1, some (.num 10), some (.num 60), none⟩, ⟨.force, 0, some (.num (-10)), some (.num 60), none⟩]

theorem stackS : Stack pileS 1 0 := by
  refine ⟨by simp [pileS], ?_, by simp [pileS, Pile.Pile.topElevation], by simp [pileS, Pile.Pile.bottomElevation]⟩
  intro s hs
  simp only [pileS, List.mem_cons, List.not_mem_nil, or_false] at hs
  subst hs
  norm_num

theorem meshOnS : MeshOn pileS 1 0 meshS := by
  refine ⟨rfl, by simp [meshS], rfl, rfl, ?_⟩
  intro s hs
  simp only [pileS, List.mem_cons, List.not_mem_nil, or_false] at hs
  subst hs
  simp [meshS]

theorem forcesS : globalForces meshS.nodes bcsS = .ok ⟨[10, -10], [60, 60], [0, 0]⟩ := by
  have h1 : nodeIdx [(1 : ℝ), 0] 1 = some 0 := by
    simp [nodeIdx, isClose, List.findIdx?_cons]
    norm_num
  have h2 : nodeIdx [(1 : ℝ), 0] 0 = some 1 := by
    simp [nodeIdx, isClose, List.findIdx?_cons]
    norm_num
  have h3 : validateBc bcsS .force = .ok () := by
    simp [validateBc, axisConflict, bcsS]
  have h6 : ⌈(-10 : ℝ)⌉ = -10 := by norm_num
  unfold globalForces
  rw [h3]
  simp [bcsS, meshS, applyBc, applyOne, h1, h2, writeAxis, Val.truthy, storeInt]
  rw [if_neg (by norm_num), h6]

theorem dispS : globalDisp meshS.nodes bcsS = .ok ⟨[0, 0], [0, 0], [0, 0]⟩ := by
  simp [globalDisp, bcsS, meshS, validateBc, axisConflict, applyBc, applyOne]

theorem heldS : globalRestrained meshS.nodes bcsS = .ok ⟨[false, false], [false, false], [false, false]⟩ := by
  simp [globalRestrained, bcsS, meshS, validateBc, axisConflict, applyBc, applyOne]

/-- The one element. -/
noncomputable def elS : Fin 1 → Elem ℝ := fun _ => elemOf Real.pi Pile.steel ⟨1, 0, 2, 1 / 20⟩ 1

noncomputable def matS : Matrix (Fin (3 * 1 + 3)) (Fin (3 * 1 + 3)) ℝ :=
  soilStiffness .eulerBernoulli 1 elS (fun _ => ⟨(1200, 1200), (0, 0), (0, 0)⟩) 0 0 10

/-- Translation by 0.1 m. -/
noncomputable def uS : Fin (3 * 1 + 3) → ℝ := fun r => if r.1 % 3 = 1 then 1 / 10 else 0

noncomputable def loadS : Fin (3 * 1 + 3) → ℝ := ![0, 60, 10, 0, 60, -10]

theorem goodS : GoodElems .eulerBernoulli elS := by
  intro i
  refine ⟨?_, fun h => by cases h⟩
  have hm : Pile.mkMaterial (78 : ℝ) 210000000 (3 / 10) = some Pile.steel := by
    unfold Pile.mkMaterial
    norm_num [Pile.steel]
  have hs : Spec.Pile.Built (⟨1, 0, 2, 1 / 20⟩ : Pile.Section ℝ) := by
    rw [Pile.built_iff]
    norm_num
  obtain ⟨top, bottom, d, t, hs⟩ := hs
  exact Props.Element.goodElem_of_built Real.pi Real.pi_pos 78 210000000 (3 / 10) _ hm top bottom d t _ hs (by norm_num) 1 (by norm_num)

theorem matS_load : matS *ᵥ uS = loadS := by
  have hL : ∀ i, (elS i).L = 1 := fun i => rfl
  funext i
  unfold matS soilStiffness
  fin_cases i <;>
  simp [assemble, place, baseMatrix, mulVec, dotProduct, Fin.sum_univ_succ, uS, elemMatrix,
    mechMatrix, beamMatrix, pyMatrix, tzMatrix, mtMatrix, mtPattern, mtCoeffs, loadS, hL] <;> ring_nf

theorem initS : buildStiffness .eulerBernoulli elS (springsOf switchesS arraysS 1) .initial 0 = some matS := by
  obtain ⟨z1, z2, z3, z4⟩ := NoModels.zeros_sums
  have h1 : soilAt (springsOf switchesS arraysS 1) .initial 0 = fun _ => some ⟨(1200, 1200), (0, 0), (0, 0)⟩ := by
    funext e
    have hp : ∀ b, pyAt (springsOf switchesS arraysS 1) .initial 0 e b = some 1200 := by
      intro b
      unfold pyAt
      rw [SoilStiffness.springDisp_seen]
      simp [springsOf, switchesS, arraysS, pyStiffness, curveStiffness, absQuot]
    have ht : ∀ b, tzAt (springsOf switchesS arraysS 1) .initial 0 e b = some 0 := by
      intro b
      unfold tzAt
      rw [SoilStiffness.springDisp_seen]
      simp [springsOf, switchesS, arraysS, tzStiffness, z3]
    unfold soilAt
    simp only [hp, ht]
    simp [springsOf, switchesS, mtAt]
  have h2 : allSome (soilAt (springsOf switchesS arraysS 1) .initial 0)
      = some (fun _ => ⟨(1200, 1200), (0, 0), (0, 0)⟩) := by
    rw [h1]
    simp [allSome]
  have h3 : zeroIndex 3 = 1 := by decide
  have h4 : baseAxialStiffness (K := ℝ) [(1, 10), (0, 0), (-1, -10)] .initial 0 = some 10 := by
    simp [baseAxialStiffness, axialCurveStiffness, absQuot, h3]
  have h5 : baseStiffness zeros .initial (0 : ℝ) = some 0 := by
    unfold baseStiffness
    rw [if_pos z2]
  unfold buildStiffness
  rw [h2]
  simp [springsOf, switchesS, arraysS, matS, h4, h5]

theorem smallS : LinearRange.SmallDisplacements (springsOf switchesS arraysS 1) uS := by
  obtain ⟨z1, z2, z3, z4⟩ := NoModels.zeros_sums
  refine ⟨fun _ e b => .inr ⟨1, 1200, [], rfl, ?_, ?_⟩, fun _ _ _ => .inl z3, rfl, fun _ => .inl z2, fun _ => .inl z2, ?_⟩
  · simp [springsOf, arraysS, Asc]
  · unfold uS
    split <;> norm_num
  · refine fun _ => .inr ⟨[], 1, 10, 1, 10, [], rfl, rfl, rfl, ?_, rfl, ?_, ?_⟩
    · simp [springsOf, arraysS]
    · simp [uS, dof]
    · simp [uS, dof]

theorem solveS : solveEquations matS loadS 0 (fun i => false || decide ((0 : Fin (3 * 1 + 3) → ℝ) i ≠ 0)) = some (uS, 0) := by
  have hsup : (fun i => false || decide ((0 : Fin (3 * 1 + 3) → ℝ) i ≠ 0)) = fun _ => false := by
    funext i
    simp
  rw [hsup]
  have hn : solveEquations matS loadS 0 (fun _ => false) ≠ none := by
    obtain ⟨-, hu⟩ := Beam.C20_unique_partial .eulerBernoulli elS
      (fun _ => ⟨(1200, 1200), (0, 0), (0, 0)⟩) 0 0 10 goodS
      ⟨fun _ => ⟨⟨by norm_num, by norm_num⟩, ⟨le_rfl, le_rfl⟩, ⟨le_rfl, le_rfl⟩, fun h => by cases h⟩,
        le_rfl, le_rfl, by norm_num⟩ (fun _ => false) (by
      rintro u ⟨a, b, θ, hu⟩ h0 h1 - - - - h2
      obtain ⟨g1, g2, g3⟩ := h1 0 (.inl (by norm_num))
      obtain ⟨a0, a1, a2⟩ := hu 0
      obtain ⟨b0, b1, b2⟩ := hu 1
      have hb : u (dof (1 : Fin 2) 0) = 0 := h2 (by norm_num)
      funext i
      obtain ⟨j, c, rfl⟩ := dof_surjective i
      have hj : j = 0 ∨ j = 1 := by
        rcases j with ⟨j, hj⟩
        interval_cases j <;> simp
      have e1 : u (dof (0 : Fin 2) 1) = 0 := g1
      have e2 : u (dof (1 : Fin 2) 1) = 0 := g2
      have e3 : u (dof (0 : Fin 2) 2) = 0 := g3
      rcases hj with rfl | rfl <;> fin_cases c
      · show u (dof 0 0) = 0
        rw [a0, ← b0, hb]
      · exact e1
      · exact e3
      · exact hb
      · exact e2
      · show u (dof 1 2) = 0
        rw [b2, ← a2, e3])
    obtain ⟨v, Q, h, -⟩ := hu loadS 0
    unfold matS
    rw [h]
    simp
  rw [Solve.solve_eq_some matS loadS 0 _ hn uS (fun i _ => by rw [matS_load])]
  · congr 2
    funext i
    rw [matS_load]
    simp
  · intro i hi
    cases hi

theorem two_nodes (a b : ℝ) : doubleInner [a, b] = some [a, a] := by
  obtain ⟨out, h1, h2, h3, -, h5⟩ := Props.Result.C43_double_inner_partial [a, b] 1 le_rfl rfl
  have h3 := h3 0 (by norm_num)
  rw [h1]
  match out, h2 with
  | [x, y], _ =>
    simp only [List.getElem?_cons_zero, Option.some.injEq, mul_zero, Nat.sub_self, zero_add,
      List.getElem?_cons_succ] at h3 h5
    rw [h3, h5]

/-- The analysis from its parts. -/
theorem solveSoilOn_of {ty : ElementType} {p : Pile.Pile ℝ} {C : Coordinates ℝ} {w : Switches} {A : Arrays}
    {bcs : List (Cond ℝ)} {g : Nodal ℤ} {gU : Nodal ℝ} {gR : Nodal Bool} {F U : Fin (3 * C.elements.length + 3) → ℝ}
    {R : Fin (3 * C.elements.length + 3) → Bool} {el : Fin C.elements.length → Elem ℝ}
    {d Q : Fin (3 * C.elements.length + 3) → ℝ} {it : ℕ} {tolSq resSq : ℝ} {t : SoilTables} {k : ℕ}
    (h1 : globalForces C.nodes bcs = .ok g) (h2 : globalDisp C.nodes bcs = .ok gU)
    (h3 : globalRestrained C.nodes bcs = .ok gR)
    (h4 : asVec C.elements.length ((dofList g).map (fun i : ℤ => (i : ℝ))) = some F)
    (h5 : asVec C.elements.length (dofList gU) = some U) (h6 : asVec C.elements.length (dofList gR) = some R)
    (h7 : allSome (fun i : Fin C.elements.length => elemAt Real.pi p C.elements[i.1]) = some el)
    (h8 : winkler (buildStiffness ty el (springsOf w A C.elements.length)) F U R k = .converged d Q it tolSq resSq)
    (h9 : results ty C.nodes el (springsOf w A C.elements.length) d Q it tolSq resSq = some t) :
    solveSoilOn ty p C w A bcs k = some (.numbers t) := by
  unfold solveSoilOn
  rw [h1, h2, h3, h7]
  simp only [Except.toOption, Option.bind_eq_bind, Option.bind_some, h4, h5, h6, h8, h9, Option.map_some]

/-- The analysis translates the pile by 0.1 m. -/
theorem solvedS : ∃ t, solveSoilOn .eulerBernoulli pileS meshS switchesS arraysS bcsS 100 = some (.numbers t) ∧
    t.disp = [(1, 0, 1 / 10, 0), (0, 0, 1 / 10, 0)] ∧ t.error = 0 := by
  obtain ⟨z1, z2, z3, z4⟩ := NoModels.zeros_sums
  obtain ⟨tol, hw⟩ := LinearRange.C60_linear_partial .eulerBernoulli elS (springsOf switchesS arraysS 1) loadS 0
    (fun _ => false) matS uS 0 initS solveS smallS ⟨1, by simp [loadS]⟩ 100 (by norm_num)
  have hF : asVec 1 ((dofList (⟨[10, -10], [60, 60], [0, 0]⟩ : Nodal ℤ)).map (fun i : ℤ => (i : ℝ))) = some loadS := by
    unfold asVec dofList
    rw [dif_pos (by simp)]
    congr 1
    funext i
    fin_cases i <;> simp [loadS]
  have hU : asVec 1 (dofList (⟨[0, 0], [0, 0], [0, 0]⟩ : Nodal ℝ)) = some 0 := by
    unfold asVec dofList
    rw [dif_pos (by simp)]
    congr 1
    funext i
    fin_cases i <;> simp
  have hR : asVec 1 (dofList (⟨[false, false], [false, false], [false, false]⟩ : Nodal Bool)) = some (fun _ => false) := by
    unfold asVec dofList
    rw [dif_pos (by simp)]
    congr 1
    funext i
    fin_cases i <;> simp
  have hel : allSome (fun i : Fin meshS.elements.length => elemAt Real.pi pileS meshS.elements[i.1]) = some elS := by
    have : ∀ i : Fin 1, elemAt Real.pi pileS (([(1, 0)] : List (ℝ × ℝ))[i.1]) = some (elS i) := by
      intro i
      obtain rfl : i = 0 := Subsingleton.elim _ _
      simp [elemAt, parameterOf, pileS, elS, elemOf, Pile.Section.width]
    show allSome (fun i : Fin 1 => elemAt Real.pi pileS (([(1, 0)] : List (ℝ × ℝ))[i.1])) = some elS
    simp only [this]
    simp [allSome]
  obtain ⟨T, t1, t2, -⟩ := tables_exact .eulerBernoulli (le_refl 1) (![1, 0] : Fin 2 → ℝ) elS uS 0
  have hn : meshS.nodes = List.ofFn (![1, 0] : Fin 2 → ℝ) := by simp [meshS]
  have hres : ∃ t, results .eulerBernoulli meshS.nodes elS (springsOf switchesS arraysS 1) uS 0 2 tol 0 = some t ∧
      t.toTables = T ∧ t.error = 0 := by
    have hpy : pyStiffness [((0 : ℝ), (0 : ℝ)), (1, 1200)] .secant (1 / 10) = some 1200 := by
      rw [LinearRange.py_first _ _ (.inr ⟨1, 1200, [], rfl, by simp [Asc], by norm_num [abs_le]⟩) .secant]
      simp [pyStiffness, curveStiffness, absQuot]
    have hrow : ∀ e : ℝ, ∃ r, mobRow e (1 / 10) 0 [((0 : ℝ), (0 : ℝ)), (1, 1200)]
        (([((0 : ℝ), (0 : ℝ)), (1, 1200)].map (·.2)).zip [[(0, 0)], [(0, 0)]]) 15 = some r := by
      intro e
      have hm : mtStiffness (([((0 : ℝ), (0 : ℝ)), (1, 1200)].map (·.2)).zip [[(0, 0)], [(0, 0)]]) 15
          (1 / 10 * 1200) .secant 0 = some 0 := by
        unfold mtStiffness
        simp
      unfold mobRow
      rw [hpy]
      simp only [Option.bind_eq_bind, Option.bind_some, hm]
      simp [maxOf]
    obtain ⟨r1, hr1⟩ := hrow 1
    have hmob : ∃ rows, springsMob (List.ofFn (![1, 0] : Fin 2 → ℝ)) (component uS 1) (component uS 2)
        (flat 1 (springsOf switchesS arraysS 1).py) (flat 1 (springsOf switchesS arraysS 1).mt) 15 = some rows := by
      have c1 : component uS 1 = [1 / 10, 1 / 10] := by simp [component, uS]
      have c2 : component uS 2 = [0, 0] := by simp [component, uS]
      have c3 : List.ofFn (![1, 0] : Fin 2 → ℝ) = [1, 0] := by simp
      have f1 : flat 1 (springsOf switchesS arraysS 1).py = [[(0, 0), (1, 1200)], [(0, 0), (1, 1200)]] := by
        simp [flat, springsOf, arraysS]
      have f2 : flat 1 (springsOf switchesS arraysS 1).mt
          = [(([((0 : ℝ), (0 : ℝ)), (1, 1200)].map (·.2)).zip [[(0, 0)], [(0, 0)]]),
            (([((0 : ℝ), (0 : ℝ)), (1, 1200)].map (·.2)).zip [[(0, 0)], [(0, 0)]])] := by
        simp [flat, springsOf, arraysS]
      unfold springsMob
      rw [c1, c2, c3, f1, f2, two_nodes, two_nodes, two_nodes]
      simp only [Option.bind_eq_bind, Option.bind_some]
      refine ⟨[r1, r1], ?_⟩
      have hrange : List.range ([(1 : ℝ), 1].length) = [0, 1] := by decide
      rw [hrange]
      simp only [List.mapM_cons, List.mapM_nil, List.getElem?_cons_zero, List.getElem?_cons_succ, Option.bind_some, hr1,
        Option.bind_eq_bind, Option.pure_def]
    obtain ⟨rows, hmob⟩ := hmob
    have e1 : (springsOf switchesS arraysS 1).hb = zeros := rfl
    have e2 : (springsOf switchesS arraysS 1).mb = zeros := rfl
    have e3 : (springsOf switchesS arraysS 1).ncol = 15 := rfl
    unfold results
    rw [hn, t1]
    refine ⟨⟨T, rows, (0, 0), (0, 0), 2, Real.sqrt 0, Real.sqrt tol⟩, ?_, rfl, Real.sqrt_zero⟩
    simp only [e3, hmob, e1, e2, NoModels.baseMob_zero, Option.bind_eq_bind, Option.bind_some]
    rfl
  obtain ⟨t, ht, e, e0⟩ := hres
  refine ⟨t, ?_, ?_, e0⟩
  · exact solveSoilOn_of (C := meshS) forcesS dispS heldS hF hU hR hel hw ht
  · rw [show t.disp = T.disp by rw [← e], t2]
    simp [uS, dof]

theorem regularS : ∀ s ∈ pileS.sections, ∀ L : ℝ, 0 < L →
    Regular .eulerBernoulli (elemOf Real.pi pileS.material s L) := by
  intro s hs L hL
  simp only [pileS, List.mem_cons, List.not_mem_nil, or_false] at hs
  subst hs
  have hm : Pile.mkMaterial (78 : ℝ) 210000000 (3 / 10) = some Pile.steel := by
    unfold Pile.mkMaterial
    norm_num [Pile.steel]
  refine regular_of_built Real.pi Real.pi_pos .eulerBernoulli 78 210000000 (3 / 10) _ hm (fun h => by cases h) _ ?_ ?_ L hL
  · rw [Pile.built_iff]
    norm_num
  · norm_num

theorem unheldS (a : Axis) : Unheld meshS.nodes bcsS a := by
  refine ⟨fun gU h => ?_, fun gR h => ?_⟩
  · rw [dispS] at h
    cases h
    cases a <;> simp [Nodal.get]
  · rw [heldS] at h
    cases h
    cases a <;> simp [Nodal.get]

/-- The hypotheses of all three balances are met by an analysis in which the springs carry 120 kN. -/
example : ∃ t, solveSoilOn .eulerBernoulli pileS meshS switchesS arraysS bcsS 100 = some (.numbers t) ∧
    Stack pileS 1 0 ∧ MeshOn pileS 1 0 meshS ∧ (∀ a, Unheld meshS.nodes bcsS a) ∧
    (∀ s ∈ pileS.sections, ∀ L : ℝ, 0 < L → Regular .eulerBernoulli (elemOf Real.pi pileS.material s L)) ∧
    globalForces meshS.nodes bcsS = .ok ⟨[10, -10], [60, 60], [0, 0]⟩ := by
  obtain ⟨t, ht, -⟩ := solvedS
  exact ⟨t, ht, stackS, meshOnS, unheldS, regularS, forcesS⟩

end OpenPile.Props.SoilTables

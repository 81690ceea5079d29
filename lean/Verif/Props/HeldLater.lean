/-
Property C72, later passes: when the analysis of a pile in soil ends with NaN.
-/
import Verif.Props.HeldSoil
import Verif.Props.SoilTables

namespace OpenPile.Props.Held
open OpenPile.Kernel OpenPile.Winkler OpenPile.Spring OpenPile.Spec.Kernel OpenPile.Props.SoilStiffness
open OpenPile.Props.Spring OpenPile.Props.Winkler OpenPile.Props.Beam OpenPile.Props.Element OpenPile.Props.Solve Matrix

variable {K : Type} [Field K] [LinearOrder K] [IsStrictOrderedRing K] {n : ℕ}

/-- A lateral spring displaced by `y` still picks up resistance: the resistance of its table changed over the last half millimetre of
the way, or, at rest, changes between the first two points. -/
def StillResists (tab : List (K × K)) (y : K) : Prop :=
  if y = 0 then Resists tab else resistance tab (|y| - min (1 / 2000) |y|) ≠ resistance tab |y|

/-- The same for an axial spring. -/
def StillResistsAxially (tab : List (K × K)) (y : K) : Prop :=
  if y = 0 then ResistsAxially tab
  else interp (if 0 < y then y - min (1 / 2000) |y| else y + min (1 / 2000) |y|) tab.reverse ≠ interp y tab.reverse

theorem curve_still {tab : List (K × K)} {y k : K} (h : curveStiffness tab .tangent y = some k) :
    0 < k ↔ StillResists tab y := by
  unfold StillResists
  by_cases hy : y = 0
  · subst hy
    rw [if_pos rfl]
    refine curve_pos (k := k) ?_
    rcases tab with _ | ⟨⟨x0, p0⟩, _ | ⟨⟨x1, p1⟩, rest⟩⟩
    · simp [curveStiffness] at h
    · simp [curveStiffness] at h
    · simpa [curveStiffness] using h
  · rw [if_neg hy]
    rcases tab with _ | ⟨⟨x0, p0⟩, _ | ⟨⟨x1, p1⟩, rest⟩⟩
    · simp [curveStiffness] at h
    · simp [curveStiffness] at h
    · simp only [curveStiffness, abs_eq_zero, hy, reduceCtorEq, or_self, if_false, Option.bind_eq_bind,
        Option.bind_eq_some_iff] at h
      obtain ⟨r0, h0, r1, h1, h⟩ := h
      rw [show (5 / 10000 : K) = 1 / 2000 by norm_num] at h0
      rw [absQuot_pos h, sub_ne_zero, h0, h1, Ne, Ne, Option.some.injEq]
      exact ne_comm

theorem axial_still {tab : List (K × K)} {y k : K} (h : axialCurveStiffness tab .tangent y = some k) :
    0 < k ↔ StillResistsAxially tab y := by
  unfold StillResistsAxially
  by_cases hy : y = 0
  · subst hy
    rw [if_pos rfl]
    refine axial_pos (k := k) ?_
    simpa [axialCurveStiffness] using h
  · rw [if_neg hy]
    simp only [axialCurveStiffness, hy, reduceCtorEq, or_self, if_false, Option.bind_eq_bind, Option.bind_eq_some_iff] at h
    obtain ⟨-, -, -, -, r0, h0, r1, h1, h⟩ := h
    rw [show (5 / 10000 : K) = 1 / 2000 by norm_num] at h0
    rw [absQuot_pos h, sub_ne_zero, h1]
    have : interp (if 0 < y then y - min (1 / 2000) |y| else y + min (1 / 2000) |y|) tab.reverse = some r0 := h0
    rw [this, Ne, Ne, Option.some.injEq]
    exact ne_comm

/-- The p-y spring of element `e`, top or bottom, picks up resistance at the displacements `d`. -/
def PyActsAt (sp : Springs K n) (d : Fin (3 * n + 3) → K) (e : Fin n) (b : Bool) : Prop :=
  sp.distributedLateral = true ∧ ((sp.py e b).map (·.1)).sum ≠ 0 ∧ StillResists (sp.py e b) (d (dof (seenNode e b) 1))

def TzActsAt (sp : Springs K n) (d : Fin (3 * n + 3) → K) (e : Fin n) (b : Bool) : Prop :=
  sp.distributedAxial = true ∧ ((sp.tz e b).map (fun q => |q.1|)).sum ≠ 0 ∧
    StillResistsAxially (sp.tz e b) (d (dof (seenNode e b) 0))

def HbActsAt (sp : Springs K n) (d : Fin (3 * n + 3) → K) : Prop :=
  sp.baseShear = true ∧ (sp.hb.map (·.2)).sum ≠ 0 ∧ StillResists sp.hb (d (dof (Fin.last n) 1))

def MbActsAt (sp : Springs K n) (d : Fin (3 * n + 3) → K) : Prop :=
  sp.baseMoment = true ∧ (sp.mb.map (·.2)).sum ≠ 0 ∧ StillResists sp.mb (d (dof (Fin.last n) 2))

def QzActsAt (sp : Springs K n) (d : Fin (3 * n + 3) → K) : Prop :=
  sp.baseAxial = true ∧ (sp.qz.map (fun q => |q.2|)).sum ≠ 0 ∧ StillResistsAxially sp.qz (d (dof (Fin.last n) 0))

/-- What holds the pile axially at the displacements `d`: a support, or a shaft or tip spring that still picks up resistance. -/
def AxiallyHeldAt (sp : Springs K n) (d : Fin (3 * n + 3) → K) (restr : Fin (3 * n + 3) → Bool) : Prop :=
  (∃ j : Fin (n + 1), restr (dof j 0) = true) ∨ (∃ e b, TzActsAt sp d e b) ∨ QzActsAt sp d

def NodeHeldAt (sp : Springs K n) (d : Fin (3 * n + 3) → K) (restr : Fin (3 * n + 3) → Bool) (j : Fin (n + 1)) : Prop :=
  restr (dof j 1) = true ∨ (j = Fin.last n ∧ HbActsAt sp d)

/-- What holds the pile laterally at the displacements `d`. -/
def LaterallyHeldAt (sp : Springs K n) (d : Fin (3 * n + 3) → K) (restr : Fin (3 * n + 3) → Bool) : Prop :=
  (∃ e b, PyActsAt sp d e b) ∨ ∃ j, NodeHeldAt sp d restr j ∧
    (((∃ j : Fin (n + 1), restr (dof j 2) = true) ∨ MbActsAt sp d) ∨ ∃ j', j' ≠ j ∧ NodeHeldAt sp d restr j')

/-- The stiffnesses `s`, `h`, `m`, `q`, other than those of rotational springs along the shaft, are positive exactly where springs still
pick up resistance. -/
structure Remains (sp : Springs K n) (d : Fin (3 * n + 3) → K) (s : Fin n → SoilK K) (h m q : K) : Prop where
  py : ∀ e b, 0 ≤ side (s e).py b ∧ (0 < side (s e).py b ↔ PyActsAt sp d e b)
  tz : ∀ e b, 0 ≤ side (s e).tz b ∧ (0 < side (s e).tz b ↔ TzActsAt sp d e b)
  hb : 0 ≤ h ∧ (0 < h ↔ HbActsAt sp d)
  mb : 0 ≤ m ∧ (0 < m ↔ MbActsAt sp d)
  qz : 0 ≤ q ∧ (0 < q ↔ QzActsAt sp d)

theorem tangent_parts (ty : ElementType) (el : Fin n → Elem K) (sp : Springs K n) (d : Fin (3 * n + 3) → K)
    (A : Matrix (Fin (3 * n + 3)) (Fin (3 * n + 3)) K) (hA : buildStiffness ty el sp .tangent d = some A) :
    ∃ s h m q, Remains sp d s h m q ∧ (∀ e, Distributed sp .tangent d e (s e)) ∧ soilStiffness ty n el s h m q = A := by
  obtain ⟨s, h, m, q, hd, hh, hm, hq, rfl⟩ := build_parts ty el sp .tangent d A hA
  have pyb : ∀ e b, 0 ≤ side (s e).py b ∧ (0 < side (s e).py b ↔ PyActsAt sp d e b) := by
    intro e b
    by_cases hs : sp.distributedLateral = true
    · have hk := (hd e).lateral b hs
      refine ⟨C24_nonneg _ _ _ _ (Or.inl hk), ?_⟩
      unfold pyStiffness at hk
      by_cases hz : ((sp.py e b).map (·.1)).sum = 0
      · rw [if_pos hz] at hk
        rw [← Option.some.inj hk]
        simp [PyActsAt, hz]
      · rw [if_neg hz] at hk
        rw [curve_still (tab := sp.py e b) hk]
        simp [PyActsAt, hs, hz]
    · rw [(hd e).noLateral b (by simpa using hs)]
      simp [PyActsAt, hs]
  have tzb : ∀ e b, 0 ≤ side (s e).tz b ∧ (0 < side (s e).tz b ↔ TzActsAt sp d e b) := by
    intro e b
    by_cases hs : sp.distributedAxial = true
    · have hk := (hd e).axial b hs
      refine ⟨C24_nonneg _ _ _ _ (Or.inr (Or.inr (Or.inl hk))), ?_⟩
      unfold tzStiffness at hk
      by_cases hz : ((sp.tz e b).map (fun q => |q.1|)).sum = 0
      · rw [if_pos hz] at hk
        rw [← Option.some.inj hk]
        simp [TzActsAt, hz]
      · rw [if_neg hz] at hk
        rw [axial_still (tab := sp.tz e b) hk]
        simp [TzActsAt, hs, hz]
    · rw [(hd e).noAxial b (by simpa using hs)]
      simp [TzActsAt, hs]
  have hbb : 0 ≤ h ∧ (0 < h ↔ HbActsAt sp d) := by
    by_cases hs : sp.baseShear = true
    · rw [if_pos hs] at hh
      refine ⟨C24_nonneg _ _ _ _ (Or.inr (Or.inl hh)), ?_⟩
      unfold baseStiffness at hh
      by_cases hz : (sp.hb.map (·.2)).sum = 0
      · rw [if_pos hz] at hh
        rw [← Option.some.inj hh]
        simp [HbActsAt, hz]
      · rw [if_neg hz] at hh
        rw [curve_still (tab := sp.hb) hh]
        simp [HbActsAt, hs, hz]
    · rw [if_neg hs] at hh
      rw [← Option.some.inj hh]
      simp [HbActsAt, hs]
  have mbb : 0 ≤ m ∧ (0 < m ↔ MbActsAt sp d) := by
    by_cases hs : sp.baseMoment = true
    · rw [if_pos hs] at hm
      refine ⟨C24_nonneg _ _ _ _ (Or.inr (Or.inl hm)), ?_⟩
      unfold baseStiffness at hm
      by_cases hz : (sp.mb.map (·.2)).sum = 0
      · rw [if_pos hz] at hm
        rw [← Option.some.inj hm]
        simp [MbActsAt, hz]
      · rw [if_neg hz] at hm
        rw [curve_still (tab := sp.mb) hm]
        simp [MbActsAt, hs, hz]
    · rw [if_neg hs] at hm
      rw [← Option.some.inj hm]
      simp [MbActsAt, hs]
  have qzb : 0 ≤ q ∧ (0 < q ↔ QzActsAt sp d) := by
    by_cases hs : sp.baseAxial = true
    · rw [if_pos hs] at hq
      refine ⟨C24_nonneg _ _ _ _ (Or.inr (Or.inr (Or.inr hq))), ?_⟩
      unfold baseAxialStiffness at hq
      by_cases hz : (sp.qz.map (fun q => |q.2|)).sum = 0
      · rw [if_pos hz] at hq
        rw [← Option.some.inj hq]
        simp [QzActsAt, hz]
      · rw [if_neg hz] at hq
        rw [axial_still (tab := sp.qz) hq]
        simp [QzActsAt, hs, hz]
    · rw [if_neg hs] at hq
      rw [← Option.some.inj hq]
      simp [QzActsAt, hs]
  exact ⟨s, h, m, q, ⟨pyb, tzb, hbb, mbb, qzb⟩, hd, rfl⟩

/-- A later pass fails exactly if supports and the springs that still pick up resistance leave the pile free to move. -/
theorem C72_pass_partial (ty : ElementType) (el : Fin n → Elem K) (hel : GoodElems ty el) (sp : Springs K n) (hrot : NoRot sp)
    (d : Fin (3 * n + 3) → K) (A : Matrix (Fin (3 * n + 3)) (Fin (3 * n + 3)) K) (hA : buildStiffness ty el sp .tangent d = some A)
    (F U : Fin (3 * n + 3) → K) (R : Fin (3 * n + 3) → Bool) :
    solveEquations A F U R = none ↔ ¬ (AxiallyHeldAt sp d R ∧ LaterallyHeldAt sp d R) := by
  obtain ⟨s, h, m, q, ⟨pyb, tzb, hbb, mbb, qzb⟩, hd, rfl⟩ := tangent_parts ty el sp d A hA
  have hmt : ∀ e b, side (s e).mt b = 0 := by
    intro e b
    rcases hrot with hr | hr
    · exact (hd e).noMoment b hr
    · by_cases hs : sp.distributedMoment = true
      · obtain ⟨ks, -, hk⟩ := (hd e).moment b hs
        unfold mtStiffness at hk
        simp only [Option.bind_eq_bind, Option.bind_eq_some_iff, Option.pure_def] at hk
        obtain ⟨first, hf, hk⟩ := hk
        rw [if_pos (hr e b first hf)] at hk
        exact (Option.some.inj hk).symm
      · exact (hd e).noMoment b (by simpa using hs)
  have hmt' : ∀ e, (s e).mt.1 = 0 ∧ (s e).mt.2 = 0 := fun e => ⟨hmt e false, hmt e true⟩
  have good : GoodSprings ty el s h m q := by
    refine ⟨fun i => ⟨⟨(pyb i false).1, (pyb i true).1⟩, ⟨(tzb i false).1, (tzb i true).1⟩, ?_, fun _ => Or.inl (hmt' i)⟩,
      hbb.1, mbb.1, qzb.1⟩
    rw [(hmt' i).1, (hmt' i).2]
    exact ⟨le_rfl, le_rfl⟩
  rw [soil_fails_iff ty el s h m q hel good (fun _ => hmt') F U R, held_iff ty el (fun i => (hel i).1.L) s h m q R]
  have a1 : HeldAx s q R ↔ AxiallyHeldAt sp d R := by
    unfold HeldAx AxiallyHeldAt
    simp only [side_pos, (tzb _ _).2, qzb.2]
  have a2 : ∀ j, HeldLat h R j ↔ NodeHeldAt sp d R j := by
    intro j
    unfold HeldLat NodeHeldAt
    rw [hbb.2]
  have a3 : HeldRot ty s m R ↔ ((∃ j : Fin (n + 1), R (dof j 2) = true) ∨ MbActsAt sp d) := by
    unfold HeldRot
    rw [mbb.2]
    have : ¬ (ty = ElementType.eulerBernoulli ∧ ∃ i, 0 < (s i).mt.1 ∨ 0 < (s i).mt.2) := by
      rintro ⟨-, i, hi⟩
      rw [(hmt' i).1, (hmt' i).2] at hi
      simp at hi
    rw [or_iff_left this]
  have a4 : HeldAcross ty s h m R ↔ LaterallyHeldAt sp d R := by
    unfold HeldAcross LaterallyHeldAt
    simp only [side_pos, (pyb _ _).2, a2, a3]
  rw [a1, a4]

omit [IsStrictOrderedRing K] in
/-- How the loop ends with NaN. -/
theorem loop_nan {ι : Type} [Fintype ι] [DecidableEq ι] (build : Kind → (ι → K) → Option (Matrix ι ι K)) (F U0 : ι → K)
    (sup : ι → Bool) (fuel : ℕ) : ∀ (it : ℕ) (d : ι → K) (A : Matrix ι ι K) (U Rg Q : ι → K) (t r : K) (k : ℕ),
      (∀ i, sup i = true → d i + U i = U0 i) → it < 100 → loop build F U0 sup fuel it d A U Rg Q t r = .nan k →
      (k = it ∧ solveEquations A Rg U sup = none) ∨ (k = 100 ∧ 100 ≤ it + fuel) ∨ (it < k ∧ k < 100 ∧ ∃ d' Kt Rg',
        (∀ i, sup i = true → d' i = U0 i) ∧ build .tangent d' = some Kt ∧ solveEquations Kt Rg' 0 sup = none) := by
  induction fuel with
  | zero => intro it d A U Rg Q t r k _ _ h; simp [loop] at h
  | succ fuel ih =>
    intro it d A U Rg Q t r k hU hit h
    rcases hs : solveEquations A Rg U sup with _ | ⟨uInc, Q1⟩
    · simp only [loop, hs, Outcome.nan.injEq] at h
      exact .inl ⟨h.symm, rfl⟩
    · obtain ⟨-, g2, -, -⟩ := C15_solution A Rg U sup uInc Q1 hs
      have hd : ∀ i, sup i = true → d i + uInc i = U0 i := fun i hi => by rw [g2 i hi, hU i hi]
      rcases hb : build .secant (fun i => d i + uInc i) with _ | Ks
      · simp [loop, hs, hb] at h
      · simp only [loop, hs, hb] at h
        split at h
        · split at h <;> cases h
        · split at h
          · next h100 =>
            cases h
            exact .inr (.inl ⟨h100, by omega⟩)
          · next h100 =>
            rcases ht : build .tangent (fun i => d i + uInc i) with _ | Kt
            · simp [ht] at h
            · simp only [ht] at h
              rcases ih (it + 1) _ Kt 0 _ _ _ _ k (fun i hi => by simp [hd i hi]) (by omega) h with
                ⟨e, he⟩ | ⟨e, he⟩ | ⟨e1, e2, he⟩
              · exact .inr (.inr ⟨by omega, by omega, _, Kt, _, hd, ht, he⟩)
              · exact .inr (.inl ⟨e, by omega⟩)
              · exact .inr (.inr ⟨by omega, e2, he⟩)

/-- **C72, NaN.** For a pile without rotational springs along its shaft: if the analysis ends with NaN after `k` passes, then either no
pass was solved and springs and supports leave the pile free from the outset, or 100 passes did not converge, or after some of them,
at displacements that meet those prescribed, the supports and the springs that still pick up resistance leave the pile free to move
(all others are on plateaus). -/
theorem C72_later_partial (ty : ElementType) (el : Fin n → Elem K) (hel : GoodElems ty el) (sp : Springs K n) (hrot : NoRot sp)
    (F U : Fin (3 * n + 3) → K) (fix R : Fin (3 * n + 3) → Bool) (hR : ∀ i, R i = (fix i || decide (U i ≠ 0))) (maxIter k : ℕ)
    (h : winkler (buildStiffness ty el sp) F U fix maxIter = .nan k) :
    (k = 0 ∧ ¬ (AxiallyHeld sp R ∧ LaterallyHeld sp R)) ∨ (k = 100 ∧ 99 ≤ maxIter) ∨
    (0 < k ∧ k < 100 ∧ ∃ d, (∀ i, R i = true → d i = U i) ∧ ¬ (AxiallyHeldAt sp d R ∧ LaterallyHeldAt sp d R)) := by
  obtain rfl : R = fun i => fix i || decide (U i ≠ 0) := funext hR
  rcases hA : buildStiffness ty el sp .initial 0 with _ | A
  · simp [winkler, hA] at h
  · have h' := h
    unfold winkler at h'
    simp only [hA] at h'
    rcases loop_nan _ F U _ _ 0 0 A U F 0 0 0 k (fun i _ => by simp) (by omega) h' with ⟨e, -⟩ | ⟨e, he⟩ | ⟨e1, e2, d, Kt, Rg, hd, ht, hs⟩
    · subst e
      exact .inl ⟨rfl, (C72_first_partial ty el hel sp hrot A hA F U fix maxIter).1 h⟩
    · exact .inr (.inl ⟨e, by omega⟩)
    · exact .inr (.inr ⟨e1, e2, d, hd, (C72_pass_partial ty el hel sp hrot d Kt ht _ _ _).1 hs⟩)

/-- The supports alone hold the pile. -/
def SupportsHold (R : Fin (3 * n + 3) → Bool) : Prop :=
  (∃ j : Fin (n + 1), R (dof j 0) = true) ∧ ∃ j : Fin (n + 1), R (dof j 1) = true ∧
    ((∃ j : Fin (n + 1), R (dof j 2) = true) ∨ ∃ j' : Fin (n + 1), j' ≠ j ∧ R (dof j' 1) = true)

/-- **C72, supported piles.** A pile without rotational springs along its shaft that is held by its supports ends with NaN only if 100
passes did not converge, whatever the springs; with fewer than 100 passes allowed it never does. -/
theorem C72_supported_partial (ty : ElementType) (el : Fin n → Elem K) (hel : GoodElems ty el) (sp : Springs K n) (hrot : NoRot sp)
    (F U : Fin (3 * n + 3) → K) (fix : Fin (3 * n + 3) → Bool) (hold : SupportsHold (fun i => fix i || decide (U i ≠ 0))) (maxIter k : ℕ)
    (h : winkler (buildStiffness ty el sp) F U fix maxIter = .nan k) : k = 100 ∧ 99 ≤ maxIter := by
  obtain ⟨h1, j, h2, h3⟩ := hold
  rcases C72_later_partial ty el hel sp hrot F U fix _ (fun _ => rfl) maxIter k h with ⟨-, hn⟩ | e | ⟨-, -, d, -, hn⟩
  · exact absurd ⟨.inl h1, .inr ⟨j, .inl h2, h3.imp .inl (fun ⟨j', a, b⟩ => ⟨j', a, .inl b⟩)⟩⟩ hn
  · exact e
  · exact absurd ⟨.inl h1, .inr ⟨j, .inl h2, h3.imp .inl (fun ⟨j', a, b⟩ => ⟨j', a, .inl b⟩)⟩⟩ hn

/-! ### rotational springs along the shaft -/

/-- Every rotational spring has a blank table or one whose rows go on from the origin to a positive rotation. -/
def RotPositive (sp : Springs K n) : Prop :=
  ∀ e b, (∀ r, (sp.mt e b).head? = some r → (r.2.map (·.1)).sum = 0) ∨ ∀ r ∈ sp.mt e b, ∀ z, r.2[1]? = some z → 0 < z.1

theorem rot_nonneg {sp : Springs K n} (hrot : RotPositive sp) (hn : 2 ≤ sp.ncol) {kind : Kind} {d : Fin (3 * n + 3) → K} {e : Fin n}
    {s : SoilK K} (h : Distributed sp kind d e s) (b : Bool) : 0 ≤ side s.mt b := by
  by_cases hs : sp.distributedMoment = true
  · obtain ⟨ks, -, hk⟩ := h.moment b hs
    rcases hrot e b with hz | hz
    · unfold mtStiffness at hk
      simp only [Option.bind_eq_bind, Option.bind_eq_some_iff, Option.pure_def] at hk
      obtain ⟨first, hf, hk⟩ := hk
      rw [if_pos (hz first hf)] at hk
      rw [← Option.some.inj hk]
    · exact C24_mt_nonneg _ _ hn _ _ _ _ hz hk
  · rw [h.noMoment b (by simpa using hs)]

/-- **C72, NaN, Euler-Bernoulli elements.** The same with rotational springs along the shaft, which can only help: NaN before the
hundredth pass means that supports and the other springs leave the pile free, from the outset or at displacements reached later. -/
theorem C72_later_euler (el : Fin n → Elem K) (hel : GoodElems .eulerBernoulli el) (sp : Springs K n) (hrot : RotPositive sp)
    (hn : 2 ≤ sp.ncol) (F U : Fin (3 * n + 3) → K) (fix R : Fin (3 * n + 3) → Bool) (hR : ∀ i, R i = (fix i || decide (U i ≠ 0)))
    (maxIter k : ℕ) (h : winkler (buildStiffness .eulerBernoulli el sp) F U fix maxIter = .nan k) :
    (k = 0 ∧ ¬ (AxiallyHeld sp R ∧ LaterallyHeld sp R)) ∨ (k = 100 ∧ 99 ≤ maxIter) ∨
    (0 < k ∧ k < 100 ∧ ∃ d, (∀ i, R i = true → d i = U i) ∧ ¬ (AxiallyHeldAt sp d R ∧ LaterallyHeldAt sp d R)) := by
  obtain rfl : R = fun i => fix i || decide (U i ≠ 0) := funext hR
  rcases hA : buildStiffness .eulerBernoulli el sp .initial 0 with _ | A
  · simp [winkler, hA] at h
  · unfold winkler at h
    simp only [hA] at h
    rcases loop_nan _ F U _ _ 0 0 A U F 0 0 0 k (fun i _ => by simp) (by omega) h with ⟨e, hs⟩ | ⟨e, he⟩ | ⟨e1, e2, d, Kt, Rg, hd, ht, hs⟩
    · refine .inl ⟨e, ?_⟩
      clear h
      obtain ⟨s, h, m, q, ⟨pyb, tzb, hbb, mbb, qzb⟩, hd, rfl⟩ := start_parts .eulerBernoulli el sp A hA
      have good : GoodSprings .eulerBernoulli el s h m q :=
        ⟨fun i => ⟨⟨(pyb i false).1, (pyb i true).1⟩, ⟨(tzb i false).1, (tzb i true).1⟩,
          ⟨rot_nonneg hrot hn (hd i) false, rot_nonneg hrot hn (hd i) true⟩, fun hty => by cases hty⟩, hbb.1, mbb.1, qzb.1⟩
      rw [soil_fails_iff .eulerBernoulli el s h m q hel good (fun hty => by cases hty),
        held_iff .eulerBernoulli el (fun i => (hel i).1.L) s h m q] at hs
      refine fun hh => hs ⟨?_, ?_⟩
      · have := hh.1
        unfold AxiallyHeld at this
        unfold HeldAx
        simpa only [side_pos, (tzb _ _).2, qzb.2] using this
      · rcases hh.2 with h1 | ⟨j, h1, h2⟩
        · left
          simpa only [side_pos, (pyb _ _).2] using h1
        · refine .inr ⟨j, h1.imp id (fun h => ⟨h.1, hbb.2.2 h.2⟩), h2.imp ?_ (fun ⟨j', a, b⟩ => ⟨j', a, b.imp id (fun h => ⟨h.1, hbb.2.2 h.2⟩)⟩)⟩
          rintro (h3 | h3)
          · exact .inl h3
          · exact .inr (.inl (mbb.2.2 h3))
    · exact .inr (.inl ⟨e, by omega⟩)
    · refine .inr (.inr ⟨e1, e2, d, hd, ?_⟩)
      clear hd
      obtain ⟨s, h, m, q, ⟨pyb, tzb, hbb, mbb, qzb⟩, hd, rfl⟩ := tangent_parts .eulerBernoulli el sp d Kt ht
      have good : GoodSprings .eulerBernoulli el s h m q :=
        ⟨fun i => ⟨⟨(pyb i false).1, (pyb i true).1⟩, ⟨(tzb i false).1, (tzb i true).1⟩,
          ⟨rot_nonneg hrot hn (hd i) false, rot_nonneg hrot hn (hd i) true⟩, fun hty => by cases hty⟩, hbb.1, mbb.1, qzb.1⟩
      rw [soil_fails_iff .eulerBernoulli el s h m q hel good (fun hty => by cases hty),
        held_iff .eulerBernoulli el (fun i => (hel i).1.L) s h m q] at hs
      refine fun hh => hs ⟨?_, ?_⟩
      · have := hh.1
        unfold AxiallyHeldAt at this
        unfold HeldAx
        simpa only [side_pos, (tzb _ _).2, qzb.2] using this
      · rcases hh.2 with h1 | ⟨j, h1, h2⟩
        · left
          simpa only [side_pos, (pyb _ _).2] using h1
        · refine .inr ⟨j, h1.imp id (fun h => ⟨h.1, hbb.2.2 h.2⟩), h2.imp ?_ (fun ⟨j', a, b⟩ => ⟨j', a, b.imp id (fun h => ⟨h.1, hbb.2.2 h.2⟩)⟩)⟩
          rintro (h3 | h3)
          · exact .inl h3
          · exact .inr (.inl (mbb.2.2 h3))

/-- **C72, supported piles of Euler-Bernoulli elements.** Whatever springs there are, a pile held by its supports ends with NaN only if 100
passes did not converge. -/
theorem C72_supported_euler (el : Fin n → Elem K) (hel : GoodElems .eulerBernoulli el) (sp : Springs K n) (hrot : RotPositive sp)
    (hn : 2 ≤ sp.ncol) (F U : Fin (3 * n + 3) → K) (fix : Fin (3 * n + 3) → Bool)
    (hold : SupportsHold (fun i => fix i || decide (U i ≠ 0))) (maxIter k : ℕ)
    (h : winkler (buildStiffness .eulerBernoulli el sp) F U fix maxIter = .nan k) : k = 100 ∧ 99 ≤ maxIter := by
  obtain ⟨h1, j, h2, h3⟩ := hold
  rcases C72_later_euler el hel sp hrot hn F U fix _ (fun _ => rfl) maxIter k h with ⟨-, hn⟩ | e | ⟨-, -, d, -, hn⟩
  · exact absurd ⟨.inl h1, .inr ⟨j, .inl h2, h3.imp .inl (fun ⟨j', a, b⟩ => ⟨j', a, .inl b⟩)⟩⟩ hn
  · exact e
  · exact absurd ⟨.inl h1, .inr ⟨j, .inl h2, h3.imp .inl (fun ⟨j', a, b⟩ => ⟨j', a, .inl b⟩)⟩⟩ hn

/-! ### a pile that is pushed through its plateau -/

open OpenPile.Props.SoilTables (elS goodS)

/-- Only the tip spring acts: 10 kN at 1 m, no more beyond. -/
def tipOnly : Springs ℝ 1 where
  py := fun _ _ => []
  tz := fun _ _ => []
  mt := fun _ _ => []
  ncol := 15
  hb := []
  mb := []
  qz := [(1, 10), (0, 0), (-1, -10)]
  distributedLateral := false
  distributedAxial := false
  distributedMoment := false
  baseShear := false
  baseMoment := false
  baseAxial := true

/-- Both nodes are guided. -/
def guided : Fin (3 * 1 + 3) → Bool := ![false, true, true, false, true, true]

/-- 20 kN at the tip. -/
noncomputable def pushed : Fin (3 * 1 + 3) → ℝ := ![0, 0, 0, 20, 0, 0]

theorem build_tip (kind : Kind) (u : Fin (3 * 1 + 3) → ℝ) :
    buildStiffness .eulerBernoulli elS tipOnly kind u = (baseAxialStiffness tipOnly.qz kind (u 3)).map
      (fun q => soilStiffness .eulerBernoulli 1 elS (fun _ => ⟨(0, 0), (0, 0), (0, 0)⟩) 0 0 q) := by
  have h1 : soilAt tipOnly kind u = fun _ => some ⟨(0, 0), (0, 0), (0, 0)⟩ := by
    funext e
    simp [soilAt, pyAt, tzAt, mtAt, tipOnly]
  have h2 : allSome (soilAt tipOnly kind u) = some (fun _ => ⟨(0, 0), (0, 0), (0, 0)⟩) := by
    rw [h1]
    simp [allSome]
  unfold buildStiffness
  rw [h2]
  cases h : baseAxialStiffness tipOnly.qz kind (u 3) with
  | none =>
    simp [tipOnly] at h ⊢
    intro a
    rw [h]
    simp
  | some q =>
    simp [tipOnly] at h ⊢
    rw [h]
    rfl

theorem tip_initial : baseAxialStiffness tipOnly.qz .initial 0 = some 10 := by
  simp [baseAxialStiffness, axialCurveStiffness, tipOnly, zeroIndex, roundHalf, absQuot]

theorem tip_secant : baseAxialStiffness tipOnly.qz .secant 2 = some 5 := by
  norm_num [baseAxialStiffness, axialCurveStiffness, tipOnly, zeroIndex, roundHalf, absQuot, interp, abs_of_pos, show ¬ Kind.secant = Kind.initial by decide]

theorem tip_tangent : baseAxialStiffness tipOnly.qz .tangent 2 = some 0 := by
  norm_num [baseAxialStiffness, axialCurveStiffness, tipOnly, zeroIndex, roundHalf, absQuot, interp, abs_of_pos, show ¬ Kind.tangent = Kind.initial by decide]

theorem tip_mul (q a : ℝ) : soilStiffness .eulerBernoulli 1 elS (fun _ => ⟨(0, 0), (0, 0), (0, 0)⟩) 0 0 q *ᵥ ![a, 0, 0, a, 0, 0]
    = ![0, 0, 0, q * a, 0, 0] := by
  have hL : ∀ i, (elS i).L = 1 := fun i => rfl
  funext i
  unfold soilStiffness
  fin_cases i <;>
    simp [assemble, place, baseMatrix, mulVec, dotProduct, Fin.sum_univ_succ, elemMatrix,
      mechMatrix, beamMatrix, pyMatrix, tzMatrix, mtMatrix, mtPattern, mtCoeffs, hL, phi, kappa]
  ring

theorem tip_held (q : ℝ) (hq : 0 < q) (F U : Fin (3 * 1 + 3) → ℝ) :
    solveEquations (soilStiffness .eulerBernoulli 1 elS (fun _ => ⟨(0, 0), (0, 0), (0, 0)⟩) 0 0 q) F U guided ≠ none := by
  rw [Ne, soil_fails_iff .eulerBernoulli elS _ 0 0 q goodS
    ⟨fun _ => ⟨⟨le_rfl, le_rfl⟩, ⟨le_rfl, le_rfl⟩, ⟨le_rfl, le_rfl⟩, fun h => by cases h⟩, le_rfl, le_rfl, hq.le⟩ (fun h => by cases h), not_not,
    held_iff .eulerBernoulli elS (fun i => (goodS i).1.L)]
  exact ⟨.inr (.inr hq), .inr ⟨0, .inl rfl, .inl (.inl ⟨0, rfl⟩)⟩⟩

/-- The hypotheses of `C72_later_partial` are met by an analysis that ends with NaN after one solved pass: the pile is held from the
outset, but the tip spring is on its plateau after it. -/
theorem C72_plateau : winkler (buildStiffness .eulerBernoulli elS tipOnly) pushed 0 guided 100 = .nan 1 ∧
    AxiallyHeld tipOnly guided ∧ LaterallyHeld tipOnly guided := by
  have hsup : (fun i => guided i || decide ((0 : Fin (3 * 1 + 3) → ℝ) i ≠ 0)) = guided := by
    funext i
    simp
  have e3 : (0 : Fin (3 * 1 + 3) → ℝ) 3 = 0 := rfl
  have hsol : solveEquations (soilStiffness .eulerBernoulli 1 elS (fun _ => ⟨(0, 0), (0, 0), (0, 0)⟩) 0 0 10) pushed 0 guided
      = some (![2, 0, 0, 2, 0, 0], 0) := by
    have hm := tip_mul 10 2
    rw [Solve.solve_eq_some _ pushed 0 guided (tip_held 10 (by norm_num) _ _) ![2, 0, 0, 2, 0, 0]]
    · congr 2
      funext i
      rw [hm]
      fin_cases i <;> norm_num [pushed]
    · intro i _
      rw [hm]
      fin_cases i <;> norm_num [pushed]
    · intro i hi
      fin_cases i <;> first | rfl | cases hi
  have hz : (fun i => (0 : Fin (3 * 1 + 3) → ℝ) i + (![2, 0, 0, 2, 0, 0] : Fin (3 * 1 + 3) → ℝ) i) = ![2, 0, 0, 2, 0, 0] := by
    funext i
    simp
  have h0 : ∀ Rg U, solveEquations (soilStiffness .eulerBernoulli 1 elS (fun _ => ⟨(0, 0), (0, 0), (0, 0)⟩) 0 0 0) Rg U guided = none := by
    intro Rg U
    rw [soil_fails_iff .eulerBernoulli elS _ 0 0 0 goodS
      ⟨fun _ => ⟨⟨le_rfl, le_rfl⟩, ⟨le_rfl, le_rfl⟩, ⟨le_rfl, le_rfl⟩, fun h => by cases h⟩, le_rfl, le_rfl, le_rfl⟩ (fun h => by cases h),
      held_iff .eulerBernoulli elS (fun i => (goodS i).1.L)]
    rintro ⟨⟨j, hj⟩ | ⟨i, hi⟩ | hq, -⟩
    · fin_cases j <;> cases hj
    · simp at hi
    · exact lt_irrefl _ hq
  refine ⟨?_, .inr (.inr ⟨rfl, ?_, (0, 0), (-1, -10), rfl, rfl, ?_⟩), .inr ⟨0, .inl rfl, .inl (.inl ⟨0, rfl⟩)⟩⟩
  · unfold winkler
    rw [build_tip, e3, tip_initial, Option.map_some, hsup]
    show loop _ pushed 0 guided (100 + 1) 0 0 _ 0 pushed 0 0 0 = _
    have hk : (![2, 0, 0, 2, 0, 0] : Fin (3 * 1 + 3) → ℝ) 3 = 2 := rfl
    have hb : buildStiffness .eulerBernoulli elS tipOnly .secant ![2, 0, 0, 2, 0, 0]
        = some (soilStiffness .eulerBernoulli 1 elS (fun _ => ⟨(0, 0), (0, 0), (0, 0)⟩) 0 0 5) := by
      rw [build_tip, hk, tip_secant]
      rfl
    have ht : buildStiffness .eulerBernoulli elS tipOnly .tangent ![2, 0, 0, 2, 0, 0]
        = some (soilStiffness .eulerBernoulli 1 elS (fun _ => ⟨(0, 0), (0, 0), (0, 0)⟩) 0 0 0) := by
      rw [build_tip, hk, tip_tangent]
      rfl
    rw [loop, hsol]
    simp only [hz, hb]
    rw [if_neg (by omega), if_neg (by norm_num)]
    simp only [ht]
    rw [loop, h0]
  · norm_num [tipOnly]
  · norm_num

/-- The hypotheses of `C72_supported_partial` are met. -/
example : SupportsHold (n := 1) ![true, true, true, false, false, false] ∧ NoRot tipOnly ∧ GoodElems .eulerBernoulli elS :=
  ⟨⟨⟨0, rfl⟩, 0, rfl, .inl ⟨0, rfl⟩⟩, .inl rfl, goodS⟩

/-- The hypotheses of `C72_supported_euler` are met with rotational springs that act. -/
example : RotPositive ({ tipOnly with
      distributedMoment := true
      mt := fun _ _ => [(0, [(0, 0), (1 / 100, 5)]), (100, [(0, 0), (1 / 50, 9)])]
      ncol := 2 } : Springs ℝ 1) := by
  intro e b
  right
  intro r hr z hz
  simp only [List.mem_cons, List.not_mem_nil, or_false] at hr
  rcases hr with rfl | rfl <;> cases hz <;> norm_num

end OpenPile.Props.Held

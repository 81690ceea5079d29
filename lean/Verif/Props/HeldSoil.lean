/-
Property C72, from the spring tables and the public calls.
-/
import Verif.Props.Held
import Verif.Props.Balance
import Verif.Props.NoModels
import Verif.Props.Unloaded

namespace OpenPile.Props.Held
open OpenPile.Kernel OpenPile.Winkler OpenPile.Spring OpenPile.Spec.Kernel OpenPile.Props.SoilStiffness
open OpenPile.Props.Spring OpenPile.Props.Winkler OpenPile.Props.Beam OpenPile.Props.Element OpenPile.Props.Solve Matrix

variable {K : Type} [Field K] [LinearOrder K] [IsStrictOrderedRing K] {n : ℕ}

/-- A lateral spring table resists from the outset: it is not blank and its resistance changes between the first
two points. -/
def Resists (tab : List (K × K)) : Prop :=
  ∃ q0 q1 rest, tab = q0 :: q1 :: rest ∧ q0.2 ≠ q1.2

/-- An axial spring table resists from the outset: its resistance changes between the point taken as the zero point
and the next. -/
def ResistsAxially (tab : List (K × K)) : Prop :=
  ∃ q0 q1, tab[zeroIndex tab.length]? = some q0 ∧ tab[zeroIndex tab.length + 1]? = some q1 ∧ q0.2 ≠ q1.2

omit [IsStrictOrderedRing K] in
theorem absQuot_pos {a b k : K} (h : absQuot a b = some k) [IsStrictOrderedRing K] : 0 < k ↔ a ≠ 0 := by
  unfold absQuot at h
  by_cases hb : b = 0
  · rw [if_pos hb] at h; cases h
  · rw [if_neg hb] at h
    cases h
    rw [abs_pos, Ne, div_eq_zero_iff]
    tauto

theorem curve_pos {tab : List (K × K)} {k : K} (h : curveStiffness tab .initial 0 = some k) :
    0 < k ↔ Resists tab := by
  rcases tab with _ | ⟨⟨x0, p0⟩, _ | ⟨⟨x1, p1⟩, rest⟩⟩
  · simp [curveStiffness] at h
  · simp [curveStiffness] at h
  · simp only [curveStiffness, true_or, if_true] at h
    rw [absQuot_pos h, sub_ne_zero]
    constructor
    · intro hne; exact ⟨_, _, _, rfl, hne.symm⟩
    · rintro ⟨q0, q1, r, e, hne⟩
      cases e
      exact hne.symm

theorem axial_pos {tab : List (K × K)} {k : K} (h : axialCurveStiffness tab .initial 0 = some k) :
    0 < k ↔ ResistsAxially tab := by
  unfold axialCurveStiffness at h
  simp only [Option.bind_eq_bind, Option.bind_eq_some_iff, true_or, if_true] at h
  obtain ⟨⟨x0, p0⟩, h0, ⟨x1, p1⟩, h1, h⟩ := h
  rw [absQuot_pos h, sub_ne_zero]
  constructor
  · intro hne; exact ⟨_, _, h0, h1, hne.symm⟩
  · rintro ⟨q0, q1, e0, e1, hne⟩
    rw [h0] at e0
    rw [h1] at e1
    cases e0
    cases e1
    exact hne.symm

/-- The p-y springs of the model at element `e`, top or bottom, act from the outset. -/
def PyActs (sp : Springs K n) (e : Fin n) (b : Bool) : Prop :=
  sp.distributedLateral = true ∧ ((sp.py e b).map (·.1)).sum ≠ 0 ∧ Resists (sp.py e b)

def TzActs (sp : Springs K n) (e : Fin n) (b : Bool) : Prop :=
  sp.distributedAxial = true ∧ ((sp.tz e b).map (fun q => |q.1|)).sum ≠ 0 ∧ ResistsAxially (sp.tz e b)

def HbActs (sp : Springs K n) : Prop := sp.baseShear = true ∧ (sp.hb.map (·.2)).sum ≠ 0 ∧ Resists sp.hb

def MbActs (sp : Springs K n) : Prop := sp.baseMoment = true ∧ (sp.mb.map (·.2)).sum ≠ 0 ∧ Resists sp.mb

def QzActs (sp : Springs K n) : Prop :=
  sp.baseAxial = true ∧ (sp.qz.map (fun q => |q.2|)).sum ≠ 0 ∧ ResistsAxially sp.qz

/-- No rotational springs along the pile: switched off, or blank tables (all soil models but those of PISA). -/
def NoRot (sp : Springs K n) : Prop :=
  sp.distributedMoment = false ∨ ∀ e b r, (sp.mt e b).head? = some r → (r.2.map (·.1)).sum = 0

/-- What holds the pile axially: a support, a shaft spring or the tip spring. -/
def AxiallyHeld (sp : Springs K n) (restr : Fin (3 * n + 3) → Bool) : Prop :=
  (∃ j : Fin (n + 1), restr (dof j 0) = true) ∨ (∃ e b, TzActs sp e b) ∨ QzActs sp

/-- Node `j` is held laterally: a support, or the base shear spring at the tip. -/
def NodeHeld (sp : Springs K n) (restr : Fin (3 * n + 3) → Bool) (j : Fin (n + 1)) : Prop :=
  restr (dof j 1) = true ∨ (j = Fin.last n ∧ HbActs sp)

/-- What holds the pile laterally: lateral springs along one element, or a node held laterally together with a
rotational restraint or a second such node. -/
def LaterallyHeld (sp : Springs K n) (restr : Fin (3 * n + 3) → Bool) : Prop :=
  (∃ e b, PyActs sp e b) ∨ ∃ j, NodeHeld sp restr j ∧
    (((∃ j : Fin (n + 1), restr (dof j 2) = true) ∨ MbActs sp) ∨ ∃ j', j' ≠ j ∧ NodeHeld sp restr j')

omit [Field K] [IsStrictOrderedRing K] in
theorem side_pos [Zero K] {p : K × K} : (0 < p.1 ∨ 0 < p.2) ↔ ∃ b, 0 < side p b := by
  constructor
  · rintro (h | h)
    · exact ⟨false, h⟩
    · exact ⟨true, h⟩
  · rintro ⟨_ | _, h⟩
    · exact Or.inl h
    · exact Or.inr h

/-- The first pass fails exactly if the equations with the initial stiffness have no unique solution. -/
theorem first_pass {ι : Type} [Fintype ι] [DecidableEq ι] (build : Kind → (ι → K) → Option (Matrix ι ι K))
    (A : Matrix ι ι K) (hA : build .initial 0 = some A) (F U : ι → K) (fix : ι → Bool) (maxIter : ℕ) :
    winkler build F U fix maxIter = .nan 0 ↔
      solveEquations A F U (fun i => fix i || decide (U i ≠ 0)) = none := by
  unfold winkler
  rw [hA]
  show loop _ F U _ (maxIter + 1) 0 0 _ U F 0 0 0 = _ ↔ _
  cases hsol : solveEquations A F U (fun i => fix i || decide (U i ≠ 0)) with
  | none =>
    rw [loop, hsol]
    simp
  | some r =>
    simp only [reduceCtorEq, iff_false]
    intro hl
    rw [loop, hsol] at hl
    obtain ⟨u, Q⟩ := r
    simp only at hl
    split at hl
    · cases hl
    · split at hl
      · split at hl <;> cases hl
      · split at hl
        · cases hl
        · split at hl
          · cases hl
          · have := LinearRange.loop_nan_ge _ _ _ _ _ _ _ _ _ _ _ _ _ _ hl
            omega

/-- The stiffnesses `s`, `h`, `m`, `q`, other than those of rotational springs along the shaft, are positive exactly where
springs act. -/
structure Starts (sp : Springs K n) (s : Fin n → SoilK K) (h m q : K) : Prop where
  py : ∀ e b, 0 ≤ side (s e).py b ∧ (0 < side (s e).py b ↔ PyActs sp e b)
  tz : ∀ e b, 0 ≤ side (s e).tz b ∧ (0 < side (s e).tz b ↔ TzActs sp e b)
  hb : 0 ≤ h ∧ (0 < h ↔ HbActs sp)
  mb : 0 ≤ m ∧ (0 < m ↔ MbActs sp)
  qz : 0 ≤ q ∧ (0 < q ↔ QzActs sp)

/-- The stiffnesses `s`, `h`, `m`, `q` are positive exactly where springs act, without rotational springs along the shaft. -/
structure Initial (sp : Springs K n) (s : Fin n → SoilK K) (h m q : K) : Prop extends Starts sp s h m q where
  mt : ∀ e, (s e).mt.1 = 0 ∧ (s e).mt.2 = 0

theorem start_parts (ty : ElementType) (el : Fin n → Elem K) (sp : Springs K n)
    (A : Matrix (Fin (3 * n + 3)) (Fin (3 * n + 3)) K)
    (hA : buildStiffness ty el sp .initial 0 = some A) :
    ∃ s h m q, Starts sp s h m q ∧ (∀ e, Distributed sp .initial 0 e (s e)) ∧ soilStiffness ty n el s h m q = A := by
  obtain ⟨s, h, m, q, hd, hh, hm, hq, rfl⟩ := build_parts ty el sp .initial 0 A hA
  have pyb : ∀ e b, 0 ≤ side (s e).py b ∧ (0 < side (s e).py b ↔ PyActs sp e b) := by
    intro e b
    by_cases hs : sp.distributedLateral = true
    · have hk := (hd e).lateral b hs
      refine ⟨C24_nonneg _ _ _ _ (Or.inl hk), ?_⟩
      unfold pyStiffness at hk
      by_cases hz : ((sp.py e b).map (·.1)).sum = 0
      · rw [if_pos hz] at hk
        rw [← Option.some.inj hk]
        simp [PyActs, hz]
      · rw [if_neg hz] at hk
        rw [curve_pos (tab := sp.py e b) hk]
        simp [PyActs, hs, hz]
    · rw [(hd e).noLateral b (by simpa using hs)]
      simp [PyActs, hs]
  have tzb : ∀ e b, 0 ≤ side (s e).tz b ∧ (0 < side (s e).tz b ↔ TzActs sp e b) := by
    intro e b
    by_cases hs : sp.distributedAxial = true
    · have hk := (hd e).axial b hs
      refine ⟨C24_nonneg _ _ _ _ (Or.inr (Or.inr (Or.inl hk))), ?_⟩
      unfold tzStiffness at hk
      by_cases hz : ((sp.tz e b).map (fun q => |q.1|)).sum = 0
      · rw [if_pos hz] at hk
        rw [← Option.some.inj hk]
        simp [TzActs, hz]
      · rw [if_neg hz] at hk
        rw [axial_pos (tab := sp.tz e b) hk]
        simp [TzActs, hs, hz]
    · rw [(hd e).noAxial b (by simpa using hs)]
      simp [TzActs, hs]
  have hbb : 0 ≤ h ∧ (0 < h ↔ HbActs sp) := by
    by_cases hs : sp.baseShear = true
    · rw [if_pos hs] at hh
      refine ⟨C24_nonneg _ _ _ _ (Or.inr (Or.inl hh)), ?_⟩
      unfold baseStiffness at hh
      by_cases hz : (sp.hb.map (·.2)).sum = 0
      · rw [if_pos hz] at hh
        rw [← Option.some.inj hh]
        simp [HbActs, hz]
      · rw [if_neg hz] at hh
        rw [curve_pos (tab := sp.hb) hh]
        simp [HbActs, hs, hz]
    · rw [if_neg hs] at hh
      rw [← Option.some.inj hh]
      simp [HbActs, hs]
  have mbb : 0 ≤ m ∧ (0 < m ↔ MbActs sp) := by
    by_cases hs : sp.baseMoment = true
    · rw [if_pos hs] at hm
      refine ⟨C24_nonneg _ _ _ _ (Or.inr (Or.inl hm)), ?_⟩
      unfold baseStiffness at hm
      by_cases hz : (sp.mb.map (·.2)).sum = 0
      · rw [if_pos hz] at hm
        rw [← Option.some.inj hm]
        simp [MbActs, hz]
      · rw [if_neg hz] at hm
        rw [curve_pos (tab := sp.mb) hm]
        simp [MbActs, hs, hz]
    · rw [if_neg hs] at hm
      rw [← Option.some.inj hm]
      simp [MbActs, hs]
  have qzb : 0 ≤ q ∧ (0 < q ↔ QzActs sp) := by
    by_cases hs : sp.baseAxial = true
    · rw [if_pos hs] at hq
      refine ⟨C24_nonneg _ _ _ _ (Or.inr (Or.inr (Or.inr hq))), ?_⟩
      unfold baseAxialStiffness at hq
      by_cases hz : (sp.qz.map (fun q => |q.2|)).sum = 0
      · rw [if_pos hz] at hq
        rw [← Option.some.inj hq]
        simp [QzActs, hz]
      · rw [if_neg hz] at hq
        rw [axial_pos (tab := sp.qz) hq]
        simp [QzActs, hs, hz]
    · rw [if_neg hs] at hq
      rw [← Option.some.inj hq]
      simp [QzActs, hs]
  exact ⟨s, h, m, q, ⟨pyb, tzb, hbb, mbb, qzb⟩, hd, rfl⟩

theorem initial_parts (ty : ElementType) (el : Fin n → Elem K) (sp : Springs K n)
    (hrot : NoRot sp) (A : Matrix (Fin (3 * n + 3)) (Fin (3 * n + 3)) K)
    (hA : buildStiffness ty el sp .initial 0 = some A) :
    ∃ s h m q, Initial sp s h m q ∧ soilStiffness ty n el s h m q = A := by
  obtain ⟨s, h, m, q, hs, hd, rfl⟩ := start_parts ty el sp A hA
  have hmt : ∀ e b, side (s e).mt b = 0 := by
    intro e b
    rcases hrot with hr | hr
    · exact (hd e).noMoment b hr
    · by_cases hs : sp.distributedMoment = true
      · obtain ⟨ks, -, hk⟩ := (hd e).moment b hs
        unfold mtStiffness at hk
        simp only [Option.bind_eq_bind, Option.bind_eq_some_iff, Option.pure_def] at hk
        obtain ⟨first, hf, hk⟩ := hk
        rw [if_pos (hr e b first hf)] at hk
        exact (Option.some.inj hk).symm
      · exact (hd e).noMoment b (by simpa using hs)
  have hmt' : ∀ e, (s e).mt.1 = 0 ∧ (s e).mt.2 = 0 := fun e => ⟨hmt e false, hmt e true⟩
  exact ⟨s, h, m, q, ⟨hs, hmt'⟩, rfl⟩

theorem held_springs (ty : ElementType) (el : Fin n → Elem K) (hel : GoodElems ty el) (sp : Springs K n)
    (s : Fin n → SoilK K) (h m q : K) (hi : Initial sp s h m q) (R : Fin (3 * n + 3) → Bool) :
    GoodSprings ty el s h m q ∧ (Beam.Held ty el s h m q R ↔ AxiallyHeld sp R ∧ LaterallyHeld sp R) := by
  obtain ⟨⟨pyb, tzb, hbb, mbb, qzb⟩, hmt'⟩ := hi
  refine ⟨⟨fun i => ⟨⟨(pyb i false).1, (pyb i true).1⟩, ⟨(tzb i false).1, (tzb i true).1⟩, ?_, fun _ => Or.inl (hmt' i)⟩,
      hbb.1, mbb.1, qzb.1⟩, ?_⟩
  · rw [(hmt' i).1, (hmt' i).2]
    exact ⟨le_rfl, le_rfl⟩
  · rw [held_iff ty el (fun i => (hel i).1.L) s h m q R]
    have a1 : HeldAx s q R ↔ AxiallyHeld sp R := by
      unfold HeldAx AxiallyHeld
      simp only [side_pos, (tzb _ _).2, qzb.2]
    have a2 : ∀ j, HeldLat h R j ↔ NodeHeld sp R j := by
      intro j
      unfold HeldLat NodeHeld
      rw [hbb.2]
    have a3 : HeldRot ty s m R ↔ ((∃ j : Fin (n + 1), R (dof j 2) = true) ∨ MbActs sp) := by
      unfold HeldRot
      rw [mbb.2]
      have : ¬ (ty = ElementType.eulerBernoulli ∧ ∃ i, 0 < (s i).mt.1 ∨ 0 < (s i).mt.2) := by
        rintro ⟨-, i, hi⟩
        rw [(hmt' i).1, (hmt' i).2] at hi
        simp at hi
      rw [or_iff_left this]
    have a4 : HeldAcross ty s h m R ↔ LaterallyHeld sp R := by
      unfold HeldAcross LaterallyHeld
      simp only [side_pos, (pyb _ _).2, a2, a3]
    rw [a1, a4]

/-- **C72, the start of the analysis.** For a pile without rotational springs along its shaft: the analysis ends
with NaN in its first pass exactly if the springs that are switched on and resist from the outset, together with the
supports, leave the pile free to move axially or to move or turn laterally.  Loads play no part. -/
theorem C72_first_partial (ty : ElementType) (el : Fin n → Elem K) (hel : GoodElems ty el) (sp : Springs K n)
    (hrot : NoRot sp) (A : Matrix (Fin (3 * n + 3)) (Fin (3 * n + 3)) K)
    (hA : buildStiffness ty el sp .initial 0 = some A) (F U : Fin (3 * n + 3) → K) (fix : Fin (3 * n + 3) → Bool)
    (maxIter : ℕ) :
    winkler (buildStiffness ty el sp) F U fix maxIter = .nan 0 ↔
      ¬ (AxiallyHeld sp (fun i => fix i || decide (U i ≠ 0)) ∧
        LaterallyHeld sp (fun i => fix i || decide (U i ≠ 0))) := by
  obtain ⟨s, h, m, q, hi, rfl⟩ := initial_parts ty el sp hrot A hA
  obtain ⟨good, hheld⟩ := held_springs ty el hel sp s h m q hi (fun i => fix i || decide (U i ≠ 0))
  rw [first_pass _ _ hA F U fix maxIter, ← hheld]
  exact soil_fails_iff ty el s h m q hel good (fun _ => hi.mt) F U _


/-! ### rotational springs along Euler-Bernoulli elements -/

/-- `(t, m)` is the second point of the moment-rotation curve that belongs to no lateral resistance: the row of the
table for the smallest resistance, zero. -/
def Turns (rows : MtTable K) (t m : K) : Prop :=
  ∃ p0 q0 rest more, rows = (p0, q0 :: (t, m) :: rest) :: more ∧ 0 ≤ p0 ∧ ∀ r, more.head? = some r → 0 < r.1

/-- Every rotational spring has a blank table or one that goes on from the origin to a positive rotation. -/
def RotTables (sp : Springs K n) : Prop :=
  ∀ e b, (∀ r, (sp.mt e b).head? = some r → (r.2.map (·.1)).sum = 0) ∨ ∃ t m, 0 < t ∧ Turns (sp.mt e b) t m

/-- The rotational spring acts from the outset. -/
def MtActs (sp : Springs K n) (e : Fin n) (b : Bool) : Prop :=
  sp.distributedMoment = true ∧ (∀ r, (sp.mt e b).head? = some r → (r.2.map (·.1)).sum ≠ 0) ∧
    ∃ t m, Turns (sp.mt e b) t m ∧ m ≠ 0

/-- What holds the pile laterally, counting the rotational springs along the shaft as restraint against rotation. -/
def LaterallyHeldRot (sp : Springs K n) (restr : Fin (3 * n + 3) → Bool) : Prop :=
  (∃ e b, PyActs sp e b) ∨ ∃ j, NodeHeld sp restr j ∧
    (((∃ j : Fin (n + 1), restr (dof j 2) = true) ∨ MbActs sp ∨ ∃ e b, MtActs sp e b) ∨ ∃ j', j' ≠ j ∧ NodeHeld sp restr j')

omit [IsStrictOrderedRing K] in
/-- The curve for no lateral resistance starts with the point of `Turns`. -/
theorem turns_column {rows : MtTable K} {t m : K} (h : Turns rows t m) (pick : K × K → K) {ts : List (K × K)}
    (hc : column rows 1 pick = some ts) {v : K} (hv : interp 0 ts = some v) : v = pick (t, m) := by
  obtain ⟨p0, q0, rest, more, rfl, h0, hmore⟩ := h
  unfold column at hc
  rw [List.mapM_cons] at hc
  simp only [List.getElem?_cons_succ, List.getElem?_cons_zero, Option.map_some, Option.bind_eq_bind, Option.bind_some,
    Option.bind_eq_some_iff, Option.pure_def, Option.some.injEq] at hc
  obtain ⟨tl, htl, rfl⟩ := hc
  rcases more with _ | ⟨r, more⟩
  · rw [List.mapM_nil] at htl
    cases htl
    simp only [interp, Option.some.injEq] at hv
    exact hv.symm
  · rw [List.mapM_cons] at htl
    simp only [Option.bind_eq_bind, Option.bind_eq_some_iff, Option.pure_def, Option.some.injEq, Option.map_eq_some_iff] at htl
    obtain ⟨_, ⟨z, -, rfl⟩, tl', -, rfl⟩ := htl
    have hr := hmore r rfl
    rw [interp] at hv
    by_cases hp : (0 : K) < p0
    · rw [if_pos hp] at hv
      exact (Option.some.inj hv).symm
    · rw [if_neg hp, if_pos hr] at hv
      have : p0 = 0 := le_antisymm (not_lt.1 hp) h0
      rw [this] at hv
      simpa using hv.symm

theorem turns_stiffness {rows : MtTable K} {t m : K} (h : Turns rows t m) {ncol : ℕ} {k : K}
    (hk : mtStiffness rows ncol 0 .initial 0 = some k)
    (hz : ∀ r, rows.head? = some r → (r.2.map (·.1)).sum ≠ 0) : t ≠ 0 ∧ k = |m| / t := by
  unfold mtStiffness at hk
  simp only [Option.bind_eq_bind, Option.bind_eq_some_iff, Option.pure_def] at hk
  obtain ⟨first, hf, hk⟩ := hk
  rw [if_neg (hz first hf)] at hk
  simp only [Option.bind_eq_some_iff, true_or, if_true] at hk
  obtain ⟨cur, hcur, ⟨t0, m0⟩, e0, ⟨t1, m1⟩, e1, ⟨tl, ml⟩, -, hk⟩ := hk
  obtain ⟨hlen, hc0, hc⟩ := mtCurve_get rows ncol 0 cur hcur
  rw [hc0] at e0
  cases e0
  have hn : 0 < ncol - 1 := by
    by_contra hcon
    have : cur.length = 1 := by omega
    rw [List.getElem?_eq_none (by omega)] at e1
    cases e1
  obtain ⟨t', m', ts, ms, e2, c1, c2, i1, i2⟩ := hc 0 hn
  rw [e1] at e2
  cases e2
  have a1 := turns_column h Prod.fst c1 i1
  have a2 := turns_column h Prod.snd c2 i2
  simp only at a1 a2
  subst a1 a2
  unfold quot at hk
  by_cases ht : t1 - 0 = 0
  · rw [if_pos ht] at hk
    cases hk
  · rw [if_neg ht] at hk
    simp only [sub_zero, Option.some.injEq] at hk ht
    exact ⟨ht, hk.symm⟩

/-- **C72, rotational springs.** With Euler-Bernoulli elements, whatever springs there are: the analysis ends with NaN in its
first pass exactly if the springs that are switched on and resist from the outset, together with the supports, leave the
pile free to move axially or to move or turn laterally. -/
theorem C72_first_euler (el : Fin n → Elem K) (hel : GoodElems .eulerBernoulli el) (sp : Springs K n)
    (hrot : RotTables sp) (A : Matrix (Fin (3 * n + 3)) (Fin (3 * n + 3)) K)
    (hA : buildStiffness .eulerBernoulli el sp .initial 0 = some A) (F U : Fin (3 * n + 3) → K) (fix : Fin (3 * n + 3) → Bool)
    (maxIter : ℕ) :
    winkler (buildStiffness .eulerBernoulli el sp) F U fix maxIter = .nan 0 ↔
      ¬ (AxiallyHeld sp (fun i => fix i || decide (U i ≠ 0)) ∧
        LaterallyHeldRot sp (fun i => fix i || decide (U i ≠ 0))) := by
  obtain ⟨s, h, m, q, ⟨pyb, tzb, hbb, mbb, qzb⟩, hd, rfl⟩ := start_parts .eulerBernoulli el sp A hA
  have mtb : ∀ e b, 0 ≤ side (s e).mt b ∧ (0 < side (s e).mt b ↔ MtActs sp e b) := by
    intro e b
    by_cases hs : sp.distributedMoment = true
    · obtain ⟨ks, -, hk⟩ := (hd e).moment b hs
      simp only [Pi.zero_apply, mul_zero] at hk
      rcases hrot e b with hz | ⟨t, mm, ht, hT⟩
      · have h0 : side (s e).mt b = 0 := by
          unfold mtStiffness at hk
          simp only [Option.bind_eq_bind, Option.bind_eq_some_iff, Option.pure_def] at hk
          obtain ⟨first, hf, hk⟩ := hk
          rw [if_pos (hz first hf)] at hk
          exact (Option.some.inj hk).symm
        rw [h0]
        refine ⟨le_rfl, ⟨fun h => absurd h (lt_irrefl _), ?_⟩⟩
        rintro ⟨-, hne, t, mm, ⟨p0, q0, rest, more, e1, -⟩, -⟩
        rw [e1] at hz hne
        exact absurd (hz _ rfl) (hne _ rfl)
      · by_cases hz : ∀ r, (sp.mt e b).head? = some r → (r.2.map (·.1)).sum ≠ 0
        · obtain ⟨-, e1⟩ := turns_stiffness hT hk hz
          rw [e1]
          refine ⟨by positivity, ?_⟩
          rw [div_pos_iff_of_pos_right ht, abs_pos]
          constructor
          · intro hne
            exact ⟨hs, hz, t, mm, hT, hne⟩
          · rintro ⟨-, -, t', m', hT', hne⟩
            obtain ⟨p0, q0, rest, more, e2, -⟩ := hT
            obtain ⟨p0', q0', rest', more', e3, -⟩ := hT'
            rw [e2] at e3
            simp only [List.cons.injEq, Prod.mk.injEq] at e3
            rw [e3.1.2.2.1.2]
            exact hne
        · have h0 : side (s e).mt b = 0 := by
            push Not at hz
            obtain ⟨r, hr, hz⟩ := hz
            unfold mtStiffness at hk
            simp only [Option.bind_eq_bind, Option.bind_eq_some_iff, Option.pure_def] at hk
            obtain ⟨first, hf, hk⟩ := hk
            rw [hr] at hf
            cases hf
            rw [if_pos hz] at hk
            exact (Option.some.inj hk).symm
          rw [h0]
          exact ⟨le_rfl, fun h => absurd h (lt_irrefl _), fun h => absurd h.2.1 hz⟩
    · rw [(hd e).noMoment b (by simpa using hs)]
      simp [MtActs, hs]
  have good : GoodSprings .eulerBernoulli el s h m q :=
    ⟨fun i => ⟨⟨(pyb i false).1, (pyb i true).1⟩, ⟨(tzb i false).1, (tzb i true).1⟩, ⟨(mtb i false).1, (mtb i true).1⟩,
      fun hty => by cases hty⟩, hbb.1, mbb.1, qzb.1⟩
  rw [first_pass _ _ hA F U fix maxIter, soil_fails_iff .eulerBernoulli el s h m q hel good (fun hty => by cases hty) F U _,
    held_iff .eulerBernoulli el (fun i => (hel i).1.L) s h m q]
  generalize (fun i => fix i || decide (U i ≠ 0)) = R
  have a1 : HeldAx s q R ↔ AxiallyHeld sp R := by
    unfold HeldAx AxiallyHeld
    simp only [side_pos, (tzb _ _).2, qzb.2]
  have a2 : ∀ j, HeldLat h R j ↔ NodeHeld sp R j := by
    intro j
    unfold HeldLat NodeHeld
    rw [hbb.2]
  have a3 : HeldRot .eulerBernoulli s m R ↔
      ((∃ j : Fin (n + 1), R (dof j 2) = true) ∨ MbActs sp ∨ ∃ e b, MtActs sp e b) := by
    unfold HeldRot
    simp only [mbb.2, side_pos, (mtb _ _).2, true_and]
  have a4 : HeldAcross .eulerBernoulli s h m R ↔ LaterallyHeldRot sp R := by
    unfold HeldAcross LaterallyHeldRot
    simp only [side_pos, (pyb _ _).2, a2, a3]
  rw [a1, a4]

end OpenPile.Props.Held

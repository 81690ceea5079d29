/-
C39 (soil parameters vary linearly over a layer) and C40 (multipliers).
-/
import Verif.Model.SoilModel
import Verif.Props.Axial
import Verif.Props.Sand
import Verif.Props.Pisa

namespace OpenPile.Props.Layer
open OpenPile.SoilModel OpenPile.Params OpenPile.Conic OpenPile.Axial
  OpenPile.Lateral

/-! ## C39 -/

section field
variable {K : Type} [Field K] [LinearOrder K] [IsStrictOrderedRing K]

/-- **C39, ends of the layer.** -/
theorem C39_ends (t b : K) {h : K} (hh : h ≠ 0) :
    layered (.list [t, b]) 0 h = some t ∧ layered (.list [t, b]) h h = some b := by
  simp [layered, topBottom, hh]

/-- **C39, in between.** The value lies between the two given ones, and it is linear in depth: a depth that
divides a stretch in the ratio `w` gives the value that divides the values in the same ratio. -/
theorem C39_between (t b : K) {h d : K} (hh : 0 < h) (h0 : 0 ≤ d) (h1 : d ≤ h) :
    ∃ v, layered (.list [t, b]) d h = some v ∧ min t b ≤ v ∧ v ≤ max t b := by
  refine ⟨t + (b - t) * d / h, by simp [layered, topBottom, hh.ne'], ?_, ?_⟩
  · have hq : 0 ≤ d / h := by positivity
    have hq1 : d / h ≤ 1 := (div_le_one hh).2 h1
    rw [mul_div_assoc]
    rcases le_total t b with hb | hb
    · rw [min_eq_left hb]
      nlinarith [mul_nonneg (sub_nonneg.2 hb) hq]
    · rw [min_eq_right hb]
      nlinarith [mul_nonneg (sub_nonneg.2 hb) (sub_nonneg.2 hq1)]
  · have hq : 0 ≤ d / h := by positivity
    have hq1 : d / h ≤ 1 := (div_le_one hh).2 h1
    rw [mul_div_assoc]
    rcases le_total t b with hb | hb
    · rw [max_eq_right hb]
      nlinarith [mul_nonneg (sub_nonneg.2 hb) (sub_nonneg.2 hq1)]
    · rw [max_eq_left hb]
      nlinarith [mul_nonneg (sub_nonneg.2 hb) hq]

theorem C39_linear (p : Param K) {h d d' v v' w : K} (e : layered p d h = some v)
    (e' : layered p d' h = some v') :
    layered p (d + w * (d' - d)) h = some (v + w * (v' - v)) := by
  unfold layered at *
  cases ht : topBottom p with
  | none => simp [ht] at e
  | some q =>
    simp only [ht, Option.bind_eq_bind, Option.bind_some] at e e' ⊢
    by_cases hh : h = 0
    · simp [hh] at e
    · rw [if_neg hh] at e e' ⊢
      simp only [Option.pure_def, Option.some.injEq] at e e' ⊢
      rw [← e, ← e']
      ring

/-- **C39, constant.** A number, or a list of one number, holds over the whole layer. -/
theorem C39_constant (x : K) {h d : K} (hh : h ≠ 0) :
    layered (.scalar x) d h = some x ∧ layered (.list [x]) d h = some x ∧
    layered (.list [x, x]) d h = some x := by
  simp [layered, topBottom, hh]

/-- **C39, rejected.** Anything else is an error: a callable, an empty list, more than two values. -/
theorem C39_rejected_values (f : K → Option K) (x y z : K) (l : List K) (h d : K) :
    layered (.func f) d h = none ∧ layered (.object f) d h = none ∧ layered (.list []) d h = none ∧
    layered (.list (x :: y :: z :: l)) d h = none := by
  simp [layered, topBottom]

example : layered (.list [(50 : ℚ), 100]) 5 10 = some 75 := by decide +kernel

end field

/-- The parameter `q` is the number that `p` takes at the depth of the spring. -/
def Frozen (a : Args) (p q : Param ℝ) : Prop := ∃ v, layered p a.depth a.height = some v ∧ q = .scalar v

theorem Frozen.eq {a : Args} {p q : Param ℝ} (h : Frozen a p q) :
    layered q a.depth a.height = layered p a.depth a.height := by
  obtain ⟨v, h1, rfl⟩ := h
  rw [h1]
  unfold layered
  by_cases hh : a.height = 0
  · rw [hh] at h1
    unfold layered at h1
    cases hp : topBottom p <;> simp [hp] at h1
  · simp [topBottom, hh]

/-- Two models of the same kind that only differ in how parameters are given: wherever one has two values
over the layer, the other has the value at the depth of the spring. -/
def SameSoil (a : Args) : Model → Model → Prop
  | .pisaClay s, .pisaClay s' => Frozen a s.Su s'.Su ∧ Frozen a s.G0 s'.G0 ∧
      s' = { s with Su := s'.Su, G0 := s'.G0 }
  | .dunkirk s, .dunkirk s' => Frozen a s.Dr s'.Dr ∧ Frozen a s.G0 s'.G0 ∧
      s' = { s with Dr := s'.Dr, G0 := s'.G0 }
  | .apiSand s, .apiSand s' => Frozen a s.phi s'.phi ∧
      (s.modulus = s'.modulus ∨ ∃ m m', s.modulus = some m ∧ s'.modulus = some m' ∧ Frozen a m m') ∧
      s' = { s with phi := s'.phi, modulus := s'.modulus }
  | .matlock s, .matlock s' => Frozen a s.Su s'.Su ∧ Frozen a s.eps50 s'.eps50 ∧
      s' = { s with Su := s'.Su, eps50 := s'.eps50 }
  | .rock s, .rock s' => Frozen a s.Ei s'.Ei ∧ Frozen a s.qu s'.qu ∧
      s' = { s with Ei := s'.Ei, qu := s'.qu }
  | _, _ => False

/-- **C39.** Every spring of every native model is the spring of a uniform soil with the parameter values
at its depth. -/
theorem C39_local (a : Args) (e : Env) (m m' : Model) (h : SameSoil a m m') :
    m'.py a e = m.py a e ∧ m'.hb a = m.hb a ∧ m'.mt a e = m.mt a e ∧ m'.mb a = m.mb a := by
  cases m <;> cases m' <;> simp only [SameSoil] at h
  · obtain ⟨h1, h2, h3⟩ := h
    rw [h3]
    have e1 := h1.eq
    have e2 := h2.eq
    refine ⟨?_, ?_, ?_, ?_⟩ <;>
      simp only [Model.py, Model.hb, Model.mt, Model.mb, PisaClay.py, PisaClay.hb, PisaClay.mt,
        PisaClay.mb, PisaClay.pyCurve, e1, e2]
  · obtain ⟨h1, h2, h3⟩ := h
    rw [h3]
    have e1 := h1.eq
    have e2 := h2.eq
    refine ⟨?_, ?_, ?_, ?_⟩ <;>
      simp only [Model.py, Model.hb, Model.mt, Model.mb, Dunkirk.py, Dunkirk.hb, Dunkirk.mt,
        Dunkirk.mb, e1, e2]
  · rename_i s s'
    obtain ⟨h1, h2, h3⟩ := h
    have e1 := h1.eq
    have e2 : ∀ phi, s'.subgrade a phi = s.subgrade a phi := by
      intro phi
      unfold ApiSand.subgrade
      rw [h3]
      rcases h2 with h2 | ⟨q, q', h4, h5, h6⟩
      · simp only [h2]
      · simp only [h4, h5, h6.eq]
    have e3 : s'.py a = s.py a := by
      unfold ApiSand.py
      simp only [e1, e2]
      rw [h3]
    refine ⟨e3, rfl, ?_, rfl⟩
    simp only [Model.mt, ApiSand.mt, e1, e3]
  · obtain ⟨h1, h2, h3⟩ := h
    rw [h3]
    have e1 := h1.eq
    have e2 := h2.eq
    refine ⟨?_, rfl, ?_, rfl⟩ <;>
      simp only [Model.py, Model.mt, MatlockClay.py, MatlockClay.mt, e1, e2]
  · obtain ⟨h1, h2, h3⟩ := h
    rw [h3]
    have e1 := h1.eq
    have e2 := h2.eq
    refine ⟨?_, rfl, rfl, rfl⟩
    simp only [Model.py, WeakRock.py, e1, e2]

/-- As `Frozen`, for parameters that may also be functions of the depth below ground. -/
def FrozenAt (a : Args) (p q : Param ℝ) : Prop :=
  ∃ v, valueAt p a.depth a.height a.X = some v ∧ q = .scalar v

theorem FrozenAt.eq {a : Args} {p q : Param ℝ} (hh : a.height ≠ 0) (h : FrozenAt a p q) :
    valueAt q a.depth a.height a.X = valueAt p a.depth a.height a.X := by
  obtain ⟨v, h1, rfl⟩ := h
  rw [h1]
  simp [valueAt, layered, topBottom, hh]

/-- The four coefficients of one spring. -/
def FrozenConics (a : Args) (c c' : Conics) : Prop :=
  FrozenAt a c.k c'.k ∧ FrozenAt a c.n c'.n ∧ FrozenAt a c.X c'.X ∧ FrozenAt a c.Y c'.Y

theorem FrozenConics.eq {a : Args} {c c' : Conics} (hh : a.height ≠ 0) (h : FrozenConics a c c') :
    c'.at a = c.at a := by
  obtain ⟨h1, h2, h3, h4⟩ := h
  unfold Conics.at
  rw [h1.eq hh, h2.eq hh, h3.eq hh, h4.eq hh]

/-- **C39, custom models.** Every spring of a custom model is the spring of the custom model with the numbers
its lists and functions take at the depth of the spring. -/
theorem C39_local_custom (a : Args) (s s' : Custom) (hh : a.height ≠ 0)
    (hS : s.Su = s'.Su ∨ ∃ u u', s.Su = some u ∧ s'.Su = some u' ∧ FrozenAt a u u')
    (hG : FrozenAt a s.G0 s'.G0) (hp : FrozenConics a s.pyC s'.pyC) (hm : FrozenConics a s.mtC s'.mtC)
    (hh' : FrozenConics a s.hbC s'.hbC) (hb : FrozenConics a s.mbC s'.mbC)
    (hmul : s'.p = s.p ∧ s'.y = s.y ∧ s'.m = s.m ∧ s'.t = s.t) :
    s'.py a = s.py a ∧ s'.hb a = s.hb a ∧ s'.mt a = s.mt a ∧ s'.mb a = s.mb a := by
  obtain ⟨m1, m2, m3, m4⟩ := hmul
  have eG := hG.eq hh
  have ep : s'.pyCurve a = s.pyCurve a := by
    unfold Custom.pyCurve
    rw [hp.eq hh, eG]
    rcases hS with hS | ⟨u, u', h1, h2, h3⟩
    · rw [hS]
    · simp only [h1, h2, h3.eq hh]
  refine ⟨?_, ?_, ?_, ?_⟩
  · unfold Custom.py
    rw [ep, m1, m2]
  · unfold Custom.hb
    rw [hh'.eq hh, eG]
    rcases hS with hS | ⟨u, u', h1, h2, h3⟩
    · rw [hS]
    · simp only [h1, h2, h3.eq hh]
  · unfold Custom.mt
    rw [ep, m3, m4, hm.eq hh, eG]
    rcases hS with hS | ⟨u, u', h1, h2, h3⟩
    · rw [hS]
    · simp only [h1, h2, h3.eq hh]
  · unfold Custom.mb
    rw [hb.eq hh, eG]
    rcases hS with hS | ⟨u, u', h1, h2, h3⟩
    · rw [hS]
    · simp only [h1, h2, h3.eq hh]

/-- Matching soils: a clay with strength from 50 to 100 kPa over a layer of 10 m, at mid height. -/
example (a : Args) (h1 : a.depth = 5) (h2 : a.height = 10) :
    SameSoil a
      (.pisaClay ⟨.cowden, .list [50, 100], .list [20000, 60000], .num 1, .num 1, .num 1, .num 1⟩)
      (.pisaClay ⟨.cowden, .scalar 75, .scalar 40000, .num 1, .num 1, .num 1, .num 1⟩) := by
  refine ⟨⟨75, ?_, rfl⟩, ⟨40000, ?_, rfl⟩, rfl⟩ <;>
    rw [h1, h2] <;> simp [layered, topBottom] <;> norm_num

/-- **C39, below the layer.** Every lateral spring a model offers is refused below the bottom of its
layer. -/
theorem C39_rejected (m : Model) (a : Args) (e : Env) (h : a.height < a.depth) :
    m.py a e = none ∧ (m.signature.2.1 = true → m.hb a = none) ∧
    (m.signature.2.2.1 = true → m.mt a e = none) ∧ (m.signature.2.2.2 = true → m.mb a = none) := by
  have g : ∀ (α : Type) (r : Option α), SoilModel.guard a r = none := fun α r => if_pos h
  cases m <;>
    simp [Model.py, Model.hb, Model.mt, Model.mb, Model.signature, PisaClay.py, PisaClay.hb,
      PisaClay.mt, PisaClay.mb, Dunkirk.py, Dunkirk.hb, Dunkirk.mt, Dunkirk.mb, Custom.py, Custom.hb,
      Custom.mt, Custom.mb, ApiSand.py, ApiSand.mt, MatlockClay.py, MatlockClay.mt, WeakRock.py, g]

/-- **C39 is violated by the axial models**: below the bottom of the layer they extrapolate; where strength
decreases with depth the tip resistance falls below the one of the weakest soil in the layer and, at twice
the height, can be negative. -/
theorem C39_violated_axial (m : ClayAxial) (t b depth height : ℝ) (hs : m.Su = .list [t, b])
    (hh : 0 < height) (hd : height < depth) (hb : b < t) :
    ∃ q, m.unitTipResistance depth height = some q ∧ q < 9 * b ∧
      (depth = 2 * height → 2 * b < t → q < 0) := by
  have e : layered m.Su depth height = some (t + (b - t) * depth / height) := by
    rw [hs]
    simp [layered, topBottom, hh.ne']
  refine ⟨9 * (t + (b - t) * (depth / height)), ?_, ?_, ?_⟩
  · unfold ClayAxial.unitTipResistance
    rw [e]
    simp [qmaxClay, mul_div_assoc]
  · have : 1 < depth / height := (one_lt_div hh).2 hd
    nlinarith
  · intro h1 h2
    rw [h1, mul_div_assoc, div_self hh.ne']
    linarith

/-! ## C40 -/

/-- The model with all multipliers equal to one. -/
def unit : Model → Model
  | .pisaClay s => .pisaClay { s with p := .num 1, y := .num 1, m := .num 1, t := .num 1 }
  | .dunkirk s => .dunkirk { s with p := .num 1, y := .num 1, m := .num 1, t := .num 1 }
  | .custom s => .custom { s with p := .num 1, y := .num 1, m := .num 1, t := .num 1 }
  | .apiSand s => .apiSand { s with p := .num 1, y := .num 1 }
  | .matlock s => .matlock { s with p := .num 1, y := .num 1 }
  | .rock s => .rock { s with p := .num 1, y := .num 1 }

theorem scale_one (l : List (ℝ × ℝ)) : scale 1 1 l = l := by
  simp [scale]

theorem multiply_one (X : ℝ) (l : List (ℝ × ℝ)) : multiply (.num 1) (.num 1) X l = some l := by
  simp [multiply, Mult.val, scale_one]

theorem rows_one (X : ℝ) (l : Table) : multiplyRows (.num 1) (.num 1) X l = some l := by
  simp only [multiplyRows, Mult.val, Option.bind_eq_bind, Option.bind_some, Option.pure_def,
    Option.some.injEq]
  rw [show (scale 1 1) = id from funext scale_one, List.map_id]

theorem guard_bind {α β : Type} (a : Args) (r : Option α) (f : α → Option β) :
    SoilModel.guard a (r.bind f) = (SoilModel.guard a r).bind f := by
  unfold SoilModel.guard
  split_ifs <;> rfl

/-- **C40, p-y.** For every model the p-multiplier scales the resistances and the y-multiplier the
displacements of the p-y spring. -/
theorem C40_py (m : Model) (a : Args) (e : Env) :
    m.py a e = ((unit m).py a e).bind fun l =>
      (m.multipliers.2.1.val a.X).bind fun ym => (m.multipliers.1.val a.X).bind fun pm =>
        some (l.map fun q => (q.1 * ym, q.2 * pm)) := by
  cases m <;>
    simp only [Model.py, unit, Model.multipliers, PisaClay.py, PisaClay.pyCurve, Dunkirk.py, Custom.py,
      Custom.pyCurve, ApiSand.py, ApiSand.subgrade, MatlockClay.py, WeakRock.py, multiply_one,
      ← guard_bind, Option.bind_eq_bind, Option.bind_assoc] <;>
    simp only [Option.bind_some, multiply, scale, Option.bind_eq_bind, Option.pure_def]
  rename_i s
  cases s.curve <;> simp only [Option.bind_fun_some]

/-- The p-y curve that the literature gives for the soil at the depth of the spring. -/
noncomputable def literature (a : Args) (e : Env) : Model → Option (List (ℝ × ℝ))
  | .pisaClay s => (layered s.Su a.depth a.height).bind fun u =>
      (layered s.G0 a.depth a.height).bind fun g => match s.kind with
        | .bothkennar => pyBothkennar a.X u g a.D a.len
        | .cowden => pyCowden a.X u g a.D a.len
  | .dunkirk s => (layered s.Dr a.depth a.height).bind fun d =>
      (layered s.G0 a.depth a.height).bind fun g => pyDunkirk a.sig a.X d g a.D a.L a.len
  | .custom s => s.pyCurve a
  | .apiSand s => (layered s.phi a.depth a.height).bind fun f =>
      (s.subgrade a f).bind fun k => apiSand a.sig a.X f a.D s.kind a.belowWater k a.ymax a.len
  | .matlock s => (layered s.Su a.depth a.height).bind fun u =>
      (layered s.eps50 a.depth a.height).bind fun x => match s.curve with
        | .api => apiClay a.sig a.X u x a.D s.J s.kind a.ymax a.len e.draws
        | .modified => modMatlock a.sig a.X u x a.D s.J s.kind a.ymax a.len e.draws
  | .rock s => (layered s.Ei a.depth a.height).bind fun x =>
      (layered s.qu a.depth a.height).bind fun q => reeseRock x q s.RQD (a.X + s.ztop) a.D s.k a.len

/-- **C40, neutral.** With multipliers of one, the p-y spring inside the layer is the curve of the
literature. -/
theorem C40_neutral (m : Model) (a : Args) (e : Env) (hd : a.depth ≤ a.height) :
    (unit m).py a e = literature a e m := by
  have g : ∀ (α : Type) (r : Option α), SoilModel.guard a r = r := fun α r => if_neg (not_lt.2 hd)
  cases m <;>
    simp only [Model.py, unit, literature, PisaClay.py, PisaClay.pyCurve, Dunkirk.py, Custom.py,
      ApiSand.py, MatlockClay.py, WeakRock.py, multiply_one, g, Option.bind_eq_bind,
      Option.bind_fun_some] <;> rfl

/-- **C40, m-t.** For every model but API sand, the m-multiplier scales the moments and the t-multiplier
the rotations of the m-t springs; the p- and y-multipliers do not touch them. -/
theorem C40_mt (m : Model) (a : Args) (e : Env) (h : ∀ s, m ≠ .apiSand s) :
    m.mt a e = ((unit m).mt a e).bind fun rows =>
      (m.multipliers.2.2.2.val a.X).bind fun tm => (m.multipliers.2.2.1.val a.X).bind fun mm =>
        some (rows.map fun l => l.map fun q => (q.1 * tm, q.2 * mm)) := by
  cases m <;>
    simp only [Model.mt, unit, Model.multipliers, PisaClay.mt, PisaClay.pyCurve, Dunkirk.mt, Custom.mt,
      Custom.pyCurve, rows_one, ← guard_bind, Option.bind_eq_bind, Option.bind_assoc]
  · simp only [Option.bind_some, multiplyRows, scale, Option.bind_eq_bind, Option.pure_def]
    rfl
  · simp only [Option.bind_some, multiplyRows, scale, Option.bind_eq_bind, Option.pure_def]
    rfl
  · simp only [Option.bind_some, multiplyRows, scale, Option.bind_eq_bind, Option.pure_def]
    rfl
  · exact absurd rfl (h _)
  · simp [Mult.val]
    rfl
  · simp [Mult.val]

/-- **C40, base.** No multiplier touches the base springs. -/
theorem C40_base (m : Model) (a : Args) : m.hb a = (unit m).hb a ∧ m.mb a = (unit m).mb a := by
  cases m <;> exact ⟨rfl, rfl⟩

theorem apiSand_nonneg {sig X phi D : ℝ} {kind : Loading} {w : Bool} {k ymax : ℝ} {len : ℕ}
    {l : List (ℝ × ℝ)} (hs : 0 ≤ sig) (hX : 0 ≤ X) (hD : 0 < D) (hy : 0 ≤ ymax)
    (h : apiSand sig X phi D kind w k ymax len = some l) : ∀ q ∈ l, 0 ≤ q.2 := by
  have hk : 0 ≤ k := by
    by_contra hk
    rw [C30_negative_modulus (not_le.1 hk)] at h
    exact absurd h (by simp)
  have hphi : 0 ≤ phi ∧ phi < 90 := by
    unfold apiSand at h
    by_cases hc : (D = 0 ∧ kind = .static) ∨ phi < 0 ∨ 90 ≤ phi
    · rw [if_pos hc] at h; exact absurd h (by simp)
    · push Not at hc
      exact hc.2
  obtain ⟨l', _, e, _, _, _, _, hq⟩ := C30_curve (kind := kind) (w := w) (len := len) hphi.1 hphi.2 hs hX
    hD hk hy
  rw [h, Option.some.injEq] at e
  subst e
  exact fun q hm => (hq q hm).2.1

theorem max?_map_mul (p : List ℝ) {c : ℝ} (hc : 0 ≤ c) :
    (p.map (· * c)).max? = p.max?.map (· * c) := by
  cases p with
  | nil => rfl
  | cons x xs =>
    simp only [List.map_cons, List.max?_cons', Option.map_some, Option.some.injEq]
    induction xs generalizing x with
    | nil => rfl
    | cons y ys ih =>
      simp only [List.map_cons, List.foldl_cons]
      rw [← ih, max_mul_of_nonneg _ _ hc]

theorem normalised_scale (p : List ℝ) {c : ℝ} (hc : 0 < c) (h0 : ∀ x ∈ p, 0 ≤ x) :
    ApiSand.normalised (p.map (· * c)) = ApiSand.normalised p := by
  unfold ApiSand.normalised
  rw [max?_map_mul p hc.le]
  cases hm : p.max? with
  | none =>
    rw [List.max?_eq_none_iff] at hm
    subst hm
    rfl
  | some m =>
    simp only [Option.map_some]
    by_cases h : 0 < m
    · rw [if_pos h, if_pos (by positivity), List.map_map]
      apply List.map_congr_left
      intro x _
      simp only [Function.comp]
      field_simp
    · rw [if_neg h, if_neg (by nlinarith [not_lt.1 h])]
      have hz : ∀ x ∈ p, x = 0 := by
        intro x hx
        have := (List.max?_le_iff hm).1 (not_lt.1 h) x hx
        exact le_antisymm this (h0 x hx)
      rw [← List.map_id p, List.map_map]
      apply List.map_congr_left
      intro x hx
      simp [hz x hx]

/-- The p-y spring of API sand with and without multipliers. -/
theorem api_py (s : ApiSand) (a : Args) {ym pm : ℝ} (hy : s.y.val a.X = some ym)
    (hp : s.p.val a.X = some pm) :
    s.py a = (({ s with p := .num 1, y := .num 1 } : ApiSand).py a).map
      (fun l => l.map fun q => (q.1 * ym, q.2 * pm)) := by
  have := C40_py (.apiSand s) a ⟨[], fun _ => 0, fun _ => []⟩
  simp only [Model.py, unit, Model.multipliers, hy, hp, Option.bind_some] at this
  rw [this]
  cases ({ s with p := .num 1, y := .num 1 } : ApiSand).py a <;> rfl

/-- **C40, m-t of API sand.** Positive multipliers of the p-y spring do not touch the m-t springs. -/
theorem C40_mt_api (s : ApiSand) (a : Args) (e : Env) {ym pm : ℝ} (hy : s.y.val a.X = some ym)
    (hp : s.p.val a.X = some pm) (hpm : 0 < pm) (hs : 0 ≤ a.sig) (hX : 0 ≤ a.X) (hD : 0 < a.D)
    (hym : 0 ≤ a.ymax) :
    s.mt a e = ({ s with p := .num 1, y := .num 1 } : ApiSand).mt a e := by
  unfold ApiSand.mt
  rw [api_py s a hy hp]
  cases hc : ({ s with p := .num 1, y := .num 1 } : ApiSand).py a with
  | none => rfl
  | some l =>
    have h0 : ∀ q ∈ l, 0 ≤ q.2 := by
      unfold ApiSand.py SoilModel.guard at hc
      have hc := ite_none hc
      simp only [Option.bind_eq_bind, Option.bind_eq_some_iff, multiply_one, Option.some.injEq] at hc
      obtain ⟨_, _, _, _, l', h, rfl⟩ := hc
      exact apiSand_nonneg hs hX hD hym h
    have hn : ApiSand.normalised ((l.map fun q => (q.1 * ym, q.2 * pm)).map Prod.snd)
        = ApiSand.normalised (l.map Prod.snd) := by
      rw [← normalised_scale (l.map Prod.snd) hpm, List.map_map, List.map_map]
      · rfl
      · intro x hx
        obtain ⟨q, hq, rfl⟩ := List.mem_map.1 hx
        exact h0 q hq
    simp only [Option.map_some, Option.bind_eq_bind, Option.bind_some, hn]

theorem mem_zipWith {α β γ : Type} (f : α → β → γ) (z : List α) (t : List β) {q : γ}
    (hq : q ∈ List.zipWith f z t) : ∃ zi ti, q = f zi ti := by
  induction z generalizing t with
  | nil => simp at hq
  | cons z0 zs ih =>
    cases t with
    | nil => simp at hq
    | cons t0 ts =>
      simp only [List.zipWith_cons_cons, List.mem_cons] at hq
      rcases hq with rfl | hq
      · exact ⟨z0, t0, rfl⟩
      · exact ih ts hq

/-- **C40 is violated by API sand with a p-multiplier of zero**, which the field accepts: all moments of the
rotational springs vanish as well. -/
theorem C40_violated_mt_api (s : ApiSand) (a : Args) (e : Env) (hp : s.p.val a.X = some 0) {rows : Table}
    (h : s.mt a e = some rows) : ∀ l ∈ rows, ∀ q ∈ l, q.2 = 0 := by
  unfold ApiSand.mt SoilModel.guard at h
  have h := ite_none h
  simp only [Option.bind_eq_bind, Option.bind_eq_some_iff] at h
  obtain ⟨phi, _, l, hl, c, _, hr⟩ := h
  have hz : ∀ x ∈ ApiSand.normalised (l.map Prod.snd), x = 0 := by
    have hl0 : ∀ q ∈ l, q.2 = 0 := by
      unfold ApiSand.py SoilModel.guard at hl
      have hl := ite_none hl
      simp only [Option.bind_eq_bind, Option.bind_eq_some_iff, multiply, hp, Option.pure_def,
        Option.some.injEq] at hl
      obtain ⟨_, _, _, _, l', _, ym, _, pm, rfl, rfl⟩ := hl
      intro q hq
      simp only [scale, List.mem_map] at hq
      obtain ⟨r, _, rfl⟩ := hq
      simp
    have h0 : ∀ x ∈ l.map Prod.snd, x = 0 := by
      intro x hx
      obtain ⟨q, hq, rfl⟩ := List.mem_map.1 hx
      exact hl0 q hq
    unfold ApiSand.normalised
    cases hm : (l.map Prod.snd).max? with
    | none => exact h0
    | some m =>
      simp only
      split_ifs with hlt
      · intro x hx
        obtain ⟨y, hy, rfl⟩ := List.mem_map.1 hx
        simp [h0 y hy]
      · exact h0
  unfold rotational at hr
  simp only [Option.bind_eq_bind, Option.bind_eq_some_iff] at hr
  obtain ⟨t, _, z, _, hr⟩ := hr
  by_cases hD : a.D = 0
  · rw [if_pos hD] at hr; exact absurd hr (by simp)
  · rw [if_neg hD] at hr
    simp only [Option.pure_def, Option.some.injEq] at hr
    subst hr
    intro row hrow q hq
    obtain ⟨pn, hpn, rfl⟩ := List.mem_map.1 hrow
    rw [hz pn hpn] at hq
    obtain ⟨zi, ti, rfl⟩ := mem_zipWith _ z t hq
    simp

theorem checkLoop_some (ax : Axis) (f : ℝ → Option ℝ) (hf : ∀ x, (f x).isSome) (ds : List ℝ) :
    (checkLoop ax f ds).isSome := by
  induction ds with
  | nil => rfl
  | cons d ds ih =>
    obtain ⟨r, hr⟩ := Option.isSome_iff_exists.1 (hf d)
    unfold checkLoop
    cases ax <;> simp only [hr, Option.bind_eq_bind, Option.bind_some] <;> split_ifs <;> first | rfl | exact ih

/-- A multiplier that returns a value at every depth. -/
def Total : Mult → Prop
  | .num _ => True
  | .func f => ∀ x, (f x).isSome

theorem checkMultiplier_some (ax : Axis) (m : Mult) (hm : Total m) (g t b : ℝ) :
    ∃ r, checkMultiplier ax m g t b = some r := by
  cases m with
  | num x => exact ⟨false, rfl⟩
  | func f => exact Option.isSome_iff_exists.1 (checkLoop_some ax f hm _)

/-- **C40 is violated: the validation of the SoilProfile rejects no multiplier.**  Whatever values a
multiplier function returns, negative or zero at every depth included, the profile is accepted. -/
theorem C40_violated_validation (m : Model) (g t b : ℝ) (h1 : Total m.multipliers.1)
    (h2 : Total m.multipliers.2.1) (h3 : Total m.multipliers.2.2.1) (h4 : Total m.multipliers.2.2.2) :
    checkMultipliers m g t b = some () := by
  obtain ⟨_, e1⟩ := checkMultiplier_some .resistance _ h1 g t b
  obtain ⟨_, e2⟩ := checkMultiplier_some .displacement _ h2 g t b
  obtain ⟨_, e3⟩ := checkMultiplier_some .resistance _ h3 g t b
  obtain ⟨_, e4⟩ := checkMultiplier_some .displacement _ h4 g t b
  simp [checkMultipliers, e1, e2, e3, e4]

/-- Sand with a p-multiplier of -1 and a y-multiplier of 0 at every depth. -/
noncomputable def demo : Model :=
  .dunkirk { Dr := .scalar 75, G0 := .list [50000, 80000], p := .func fun _ => some (-1),
             y := .func fun _ => some 0, m := .num 1, t := .num 1 }

example : checkMultipliers demo 0 0 (-10) = some () :=
  C40_violated_validation demo 0 0 (-10) (fun _ => rfl) (fun _ => rfl) trivial trivial

end OpenPile.Props.Layer

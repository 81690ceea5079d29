/-
C36: options of the axial soil models and the springs they produce.
-/
import Verif.Props.Axial
import Verif.Props.Friction

namespace OpenPile.Props.AxialModel
open OpenPile.Axial OpenPile.Params OpenPile.Spring OpenPile.Spec.Spring OpenPile.Props.Spring
open OpenPile.Props.Axial OpenPile.Props.Friction

theorem forces_scale (sz st y : ℝ) (c : List ℝ × List ℝ) :
    y ∈ forces (scaleCurve sz st c) ↔ ∃ t ∈ forces c, y = t * st := by
  unfold forces
  simp only [zip_scaleCurve, scaled, List.mem_map, Set.mem_setOf_eq, Prod.mk.injEq]
  constructor
  · rintro ⟨x, q, hq, rfl, rfl⟩
    exact ⟨q.2, ⟨q.1, hq⟩, rfl⟩
  · rintro ⟨t, ⟨x, h⟩, rfl⟩
    exact ⟨x * sz, (x, t), h, rfl, rfl⟩

theorem scale_peaks {lo hi : ℝ} {c : List ℝ × List ℝ} (sz st : ℝ) (hst : 0 ≤ st)
    (h1 : IsGreatest (forces c) hi) (h2 : IsLeast (forces c) lo) :
    IsGreatest (forces (scaleCurve sz st c)) (hi * st) ∧
      IsLeast (forces (scaleCurve sz st c)) (lo * st) := by
  refine ⟨⟨(forces_scale ..).2 ⟨_, h1.1, rfl⟩, ?_⟩, ⟨(forces_scale ..).2 ⟨_, h2.1, rfl⟩, ?_⟩⟩
  · intro y hy
    obtain ⟨t, ht, rfl⟩ := (forces_scale ..).1 hy
    exact mul_le_mul_of_nonneg_right (h1.2 ht) hst
  · intro y hy
    obtain ⟨t, ht, rfl⟩ := (forces_scale ..).1 hy
    exact mul_le_mul_of_nonneg_right (h2.2 ht) hst

/-- Compression and tension capacity of a clay t-z spring. -/
theorem clay_peaks (m : ClayAxial) (cin cout sig height depth D Su f ct tens : ℝ) (len : ℕ)
    (draws : ℕ → ℝ) (argsort : List ℝ → List ℕ) (hr : IsRandom draws)
    (hs : ∀ z, IsArgsort z (argsort z)) (hD : 0 < D) (hSu : layered m.Su depth height = some Su)
    (hf : fmaxClay sig Su 1 = some f) (hf0 : 0 ≤ f)
    (hc : circumference m.plugging cin cout m.tensionMul = some (ct, tens)) (hct : 0 ≤ ct)
    (ht : 0 ≤ tens) (hm : 0 ≤ m.tMul) (h0 : 0 ≤ m.tResidual) (h1 : m.tResidual ≤ 1) :
    ∃ c, m.tzSpring cin cout sig height depth D len draws argsort = some c ∧
      IsGreatest (forces c) (f * (m.tMul * ct)) ∧ IsLeast (forces c) (-(tens * f) * (m.tMul * ct)) := by
  obtain ⟨c, e, hb, -, hp, hq, -⟩ := C33_tz_clay_bounds sig Su D 1 m.tResidual tens f len draws argsort
    hr hs hD hf hf0 h0 h1 ht
  refine ⟨scaleCurve m.zMul (m.tMul * ct) c, ?_, scale_peaks _ _ (mul_nonneg hm hct) ⟨⟨_, hp⟩, ?_⟩
    ⟨⟨_, hq⟩, ?_⟩⟩
  · simp only [ClayAxial.tzSpring, hSu, hc, Option.bind_eq_bind, Option.bind_some, e]
    rfl
  · rintro y ⟨x, hx⟩
    exact (hb _ hx).2
  · rintro y ⟨x, hx⟩
    exact (hb _ hx).1

/-- Is the pile plugged in compression? -/
def PluggedC (pl : Plugging) : Prop := pl = .compression ∨ pl = .both

/-- Is the pile plugged in tension? -/
def PluggedT (pl : Plugging) : Prop := pl = .tension ∨ pl = .both

instance (pl : Plugging) : Decidable (PluggedC pl) := by unfold PluggedC; infer_instance
instance (pl : Plugging) : Decidable (PluggedT pl) := by unfold PluggedT; infer_instance

/-- The circumference in compression is as the option says; in tension the product of circumference and
tension factor is as it should be only if the option is not `tension` or `both`. -/
theorem circumference_eq (pl : Plugging) (cin cout tm : ℝ) (hi : 0 ≤ cin) (ho : 0 < cout) :
    ∃ ct tens, circumference pl cin cout tm = some (ct, tens) ∧
      ct = contact (PluggedC pl) cin cout ∧ 0 < ct ∧
      tens * ct = tm * (if PluggedT pl then cin else cout + cin) ∧ (0 ≤ tm → 0 ≤ tens) := by
  have h : 0 < cout + cin := by linarith
  cases pl
  · refine ⟨cout + cin, tm, rfl, ?_, h, ?_, id⟩ <;> simp [contact, PluggedC, PluggedT]
  · refine ⟨cout, tm * (cin + cout) / cout, by simp [circumference, ho.ne'], ?_, ho, ?_,
      fun _ => by positivity⟩
    · simp [contact, PluggedC]
    · simp only [PluggedT, reduceCtorEq, or_self, if_false]
      field_simp
      ring
  · refine ⟨cout + cin, tm * cin / (cout + cin), by simp [circumference, h.ne'], ?_, h, ?_,
      fun _ => by positivity⟩
    · simp [contact, PluggedC]
    · simp only [PluggedT, true_or, if_true]
      field_simp
  · refine ⟨cout, tm * cin / cout, by simp [circumference, ho.ne'], ?_, ho, ?_,
      fun _ => by positivity⟩
    · simp [contact, PluggedC]
    · simp only [PluggedT, or_true, if_true]
      field_simp

/-- An admissible clay model and arguments. -/
structure ClayCase (m : ClayAxial) (cin cout D : ℝ) : Prop where
  inner : 0 ≤ cin
  outer : 0 < cout
  diameter : 0 < D
  tMul : 0 ≤ m.tMul
  tension : 0 ≤ m.tensionMul
  residual : 0 ≤ m.tResidual
  residual' : m.tResidual ≤ 1

/-- Capacity of a clay t-z spring, where `alpha_limit` does not govern.  In tension the circumference is
the right one only for the options without plug in tension.  Partial: `alpha_limit` is ignored by the
spring, and the inner circumference is used for a plug in tension. -/
theorem C36_clay_partial (m : ClayAxial) (cin cout sig height depth D Su f : ℝ) (len : ℕ)
    (draws : ℕ → ℝ) (argsort : List ℝ → List ℕ) (hr : IsRandom draws)
    (hs : ∀ z, IsArgsort z (argsort z)) (hc : ClayCase m cin cout D) (hsig : 0 < sig)
    (hSu : layered m.Su depth height = some Su) (hSu0 : 0 < Su)
    (hf : m.unitShaftFriction sig depth height = some f)
    (hal : min (adhesion (Su / sig)) 1 ≤ m.alphaLimit) (hal1 : m.alphaLimit ≤ 1) :
    ∃ c, m.tzSpring cin cout sig height depth D len draws argsort = some c ∧
      IsGreatest (forces c) (f * contact (PluggedC m.plugging) cin cout * m.tMul) ∧
      (¬ PluggedT m.plugging →
        IsLeast (forces c) (-(m.tensionMul * f * (cout + cin) * m.tMul))) := by
  obtain ⟨ct, tens, e, h1, h2, h3, h4⟩ :=
    circumference_eq m.plugging cin cout m.tensionMul hc.inner hc.outer
  have hf1 : fmaxClay sig Su 1 = some f := by
    simp only [ClayAxial.unitShaftFriction, hSu, Option.bind_eq_bind, Option.bind_some] at hf
    rw [C35_clay_law _ _ _ hsig hSu0] at hf ⊢
    rw [← hf]
    congr 2
    rcases min_le_iff.1 hal with h | h
    · rw [min_eq_left h, min_eq_left (h.trans hal1)]
    · rw [le_antisymm hal1 h]
  have hf0 : 0 ≤ f := by
    obtain ⟨g, hg, hg0, -⟩ := C35_clay_bounds sig Su 1 hsig.le hSu0.le zero_le_one
    rw [hf1, Option.some.injEq] at hg
    rwa [hg]
  obtain ⟨c, e', g1, g2⟩ := clay_peaks m cin cout sig height depth D Su f ct tens len draws argsort hr hs
    hc.diameter hSu hf1 hf0 e h2.le (h4 hc.tension) hc.tMul hc.residual hc.residual'
  refine ⟨c, e', ?_, fun hp => ?_⟩
  · rw [← h1, mul_assoc, mul_comm ct]
    exact g1
  · rw [if_neg hp] at h3
    have : -(tens * f) * (m.tMul * ct) = -(m.tensionMul * f * (cout + cin) * m.tMul) := by
      linear_combination (-f * m.tMul) * h3
    rwa [this] at g2

/-- `alpha_limit` is ignored: whenever it governs the unit shaft friction, the spring is stronger than
the unit shaft friction times the circumference. -/
theorem C36_violated_alpha_limit (m : ClayAxial) (cin cout sig height depth D Su f : ℝ) (len : ℕ)
    (draws : ℕ → ℝ) (argsort : List ℝ → List ℕ) (hr : IsRandom draws)
    (hs : ∀ z, IsArgsort z (argsort z)) (hc : ClayCase m cin cout D) (hm : 0 < m.tMul)
    (hsig : 0 < sig) (hSu : layered m.Su depth height = some Su) (hSu0 : 0 < Su)
    (hf : m.unitShaftFriction sig depth height = some f)
    (hal : m.alphaLimit < adhesion (Su / sig)) (hal1 : m.alphaLimit < 1) :
    ∃ c t, m.tzSpring cin cout sig height depth D len draws argsort = some c ∧
      t ∈ forces c ∧ f * contact (PluggedC m.plugging) cin cout * m.tMul < t := by
  obtain ⟨ct, tens, e, h1, h2, h3, h4⟩ :=
    circumference_eq m.plugging cin cout m.tensionMul hc.inner hc.outer
  have hf1 := C35_clay_law sig Su 1 hsig hSu0
  have hf2 : m.alphaLimit * Su = f := by
    simp only [ClayAxial.unitShaftFriction, hSu, Option.bind_eq_bind, Option.bind_some] at hf
    rwa [C35_clay_law _ _ _ hsig hSu0, min_eq_right hal.le, Option.some.injEq] at hf
  obtain ⟨c, e', g1, -⟩ := clay_peaks m cin cout sig height depth D Su _ ct tens len draws argsort hr hs
    hc.diameter hSu hf1 (mul_nonneg (le_min (adhesion_pos (div_pos hSu0 hsig)).le zero_le_one) hSu0.le)
    e h2.le (h4 hc.tension) hc.tMul hc.residual hc.residual'
  refine ⟨c, _, e', g1.1, ?_⟩
  rw [← h1, mul_assoc, mul_comm ct, ← hf2]
  exact mul_lt_mul_of_pos_right (mul_lt_mul_of_pos_right (lt_min hal hal1) hSu0) (mul_pos hm h2)

/-- A plug in tension: the spring mobilises the inner circumference in tension, not the outer one. -/
theorem C36_violated_clay_tension (m : ClayAxial) (cin cout sig height depth D Su f : ℝ) (len : ℕ)
    (draws : ℕ → ℝ) (argsort : List ℝ → List ℕ) (hr : IsRandom draws)
    (hs : ∀ z, IsArgsort z (argsort z)) (hc : ClayCase m cin cout D) (hsig : 0 ≤ sig)
    (hSu : layered m.Su depth height = some Su) (hSu0 : 0 ≤ Su) (hal : m.alphaLimit = 1)
    (hf : m.unitShaftFriction sig depth height = some f) (hp : PluggedT m.plugging) :
    ∃ c, m.tzSpring cin cout sig height depth D len draws argsort = some c ∧
      IsLeast (forces c) (-(m.tensionMul * f * cin * m.tMul)) ∧
      (0 < m.tMul → 0 < m.tensionMul → 0 < f → cin < cout →
        ¬ IsLeast (forces c) (-(m.tensionMul * f * cout * m.tMul))) := by
  obtain ⟨ct, tens, e, h1, h2, h3, h4⟩ :=
    circumference_eq m.plugging cin cout m.tensionMul hc.inner hc.outer
  have hf1 : fmaxClay sig Su 1 = some f := by
    simpa only [ClayAxial.unitShaftFriction, hSu, Option.bind_eq_bind, Option.bind_some, hal] using hf
  have hf0 : 0 ≤ f := by
    obtain ⟨g, hg, hg0, -⟩ := C35_clay_bounds sig Su 1 hsig hSu0 zero_le_one
    rw [hf1, Option.some.injEq] at hg
    rwa [hg]
  obtain ⟨c, e', g1, g2⟩ := clay_peaks m cin cout sig height depth D Su f ct tens len draws argsort hr hs
    hc.diameter hSu hf1 hf0 e h2.le (h4 hc.tension) hc.tMul hc.residual hc.residual'
  rw [if_pos hp] at h3
  have : -(tens * f) * (m.tMul * ct) = -(m.tensionMul * f * cin * m.tMul) := by
    linear_combination (-f * m.tMul) * h3
  rw [this] at g2
  refine ⟨c, e', g2, fun a b d hlt hne => ?_⟩
  have := g2.unique hne
  have hpos : 0 < m.tensionMul * f * m.tMul := by positivity
  nlinarith

/-- End bearing spring of clay: nothing in tension, capacity `unit_tip_resistance` times the area that
the plugging option selects. -/
theorem C36_clay_tip (m : ClayAxial) (tip footprint height depth D q : ℝ) (len : ℕ)
    (draws : ℕ → ℝ) (argsort : List ℝ → List ℕ) (hr : IsRandom draws)
    (hs : ∀ z, IsArgsort z (argsort z)) (hD : 0 < D) (hw : 0 < m.wMul) (hq0 : 0 ≤ q)
    (hq : m.unitTipResistance depth height = some q) :
    ∃ c, m.qzSpring tip footprint height depth D len draws argsort = some c ∧ Curve (max 15 len) c ∧
      ∀ p ∈ c.1.zip c.2, (p.1 ≤ 0 → p.2 = 0) ∧ (0.1 * D * m.wMul ≤ p.1 →
        p.2 = q * m.qMul * if PluggedC m.plugging then footprint else tip) := by
  unfold ClayAxial.unitTipResistance at hq
  simp only [Option.bind_eq_bind, Option.bind_eq_some_iff, Option.pure_def, Option.some.injEq] at hq
  obtain ⟨Su, hSu, hq⟩ := hq
  have hq' : 9 * Su = q := hq
  obtain ⟨c, e, h1, -, h3⟩ := C33_qz_clay Su D len draws argsort hr hs hD (by linarith)
  refine ⟨scaleCurve m.wMul (m.qMul * bearingArea m.plugging tip footprint) c, ?_, h1.scale hw.le _, ?_⟩
  · simp only [ClayAxial.qzSpring, hSu, Option.bind_eq_bind, Option.bind_some, e]
    rfl
  · intro p hp
    rw [zip_scaleCurve, scaled, List.mem_map] at hp
    obtain ⟨r, hr', rfl⟩ := hp
    obtain ⟨a, b, -, -⟩ := h3 r hr'
    have harea : bearingArea m.plugging tip footprint =
        if PluggedC m.plugging then footprint else tip := by
      cases m.plugging <;> simp [bearingArea, PluggedC]
    constructor
    · intro h
      have := a (by by_contra h'; exact absurd h (not_le.2 (mul_pos (not_le.1 h') hw)))
      simp [this]
    · intro h
      simp only [harea, b (le_of_mul_le_mul_right h hw), hq']
      ring

/-- Compression and tension capacity of a sand t-z spring. -/
theorem sand_peaks (m : SandAxial) (cin cout sig height depth delta f ct tens : ℝ) (len : ℕ)
    (draws : ℕ → ℝ) (argsort : List ℝ → List ℕ) (hr : IsRandom draws)
    (hs : ∀ z, IsArgsort z (argsort z)) (hd : layered m.delta depth height = some delta)
    (hf : fmaxSand sig delta m.K = some f) (hf0 : 0 ≤ f)
    (hc : circumference m.plugging cin cout m.tensionMul = some (ct, tens)) (hct : 0 ≤ ct)
    (ht : 0 ≤ tens) (hm : 0 ≤ m.tMul) :
    ∃ c, m.tzSpring cin cout sig height depth len draws argsort = some c ∧
      IsGreatest (forces c) (f * (m.tMul * ct)) ∧ IsLeast (forces c) (-(tens * f) * (m.tMul * ct)) := by
  obtain ⟨b, h1, -, h3, h4, -⟩ := C33_backbone_sand tens len draws argsort hr hs
  have hb : IsGreatest (forces b) 1 ∧ IsLeast (forces b) (-tens) := by
    refine ⟨⟨⟨0.0254, h3 _ (by simp [sandNodes])⟩, ?_⟩, ⟨⟨-0.0254, h3 _ (by simp [sandNodes])⟩, ?_⟩⟩
    all_goals
      rintro y ⟨x, hx⟩
      rcases h4 _ hx with h | ⟨-, -, h⟩ | ⟨-, -, h⟩
      · simp only [sandNodes, List.mem_cons, Prod.mk.injEq, List.not_mem_nil, or_false] at h
        rcases h with ⟨-, rfl⟩ | ⟨-, rfl⟩ | ⟨-, rfl⟩ <;> linarith
      · simp only at h; linarith
      · simp only at h; linarith
  obtain ⟨p1, p2⟩ := scale_peaks 1 f hf0 hb.1 hb.2
  obtain ⟨q1, q2⟩ := scale_peaks m.zMul (m.tMul * ct) (mul_nonneg hm hct) p1 p2
  refine ⟨scaleCurve m.zMul (m.tMul * ct) (scaleCurve 1 f b), ?_, by rwa [one_mul] at q1,
    by rwa [neg_mul] at q2⟩
  simp only [SandAxial.tzSpring, hd, hc, tzApiSand, hf, h1, Option.bind_eq_bind, Option.bind_some]
  rfl

/-- An admissible sand model and arguments. -/
structure SandCase (m : SandAxial) (cin cout : ℝ) : Prop where
  inner : 0 ≤ cin
  outer : 0 < cout
  tMul : 0 ≤ m.tMul
  tension : 0 ≤ m.tensionMul

/-- Capacity of a sand t-z spring: the unit shaft friction times the circumference in contact, both for
compression and, without a plug in tension, for tension.  Partial: with a plug in tension the inner
circumference is used, see `C36_violated_sand_tension`. -/
theorem C36_sand_partial (m : SandAxial) (cin cout sig height depth f : ℝ) (len : ℕ)
    (draws : ℕ → ℝ) (argsort : List ℝ → List ℕ) (hr : IsRandom draws)
    (hs : ∀ z, IsArgsort z (argsort z)) (hc : SandCase m cin cout)
    (hf : m.unitShaftFriction sig depth height = some f) (hf0 : 0 ≤ f) :
    ∃ c, m.tzSpring cin cout sig height depth len draws argsort = some c ∧
      IsGreatest (forces c) (f * contact (PluggedC m.plugging) cin cout * m.tMul) ∧
      (¬ PluggedT m.plugging →
        IsLeast (forces c) (-(m.tensionMul * f * (cout + cin) * m.tMul))) := by
  unfold SandAxial.unitShaftFriction at hf
  simp only [Option.bind_eq_bind, Option.bind_eq_some_iff] at hf
  obtain ⟨delta, hd, hf⟩ := hf
  obtain ⟨ct, tens, e, h1, h2, h3, h4⟩ :=
    circumference_eq m.plugging cin cout m.tensionMul hc.inner hc.outer
  obtain ⟨c, e', g1, g2⟩ := sand_peaks m cin cout sig height depth delta f ct tens len draws argsort hr
    hs hd hf hf0 e h2.le (h4 hc.tension) hc.tMul
  refine ⟨c, e', ?_, fun hp => ?_⟩
  · rw [← h1, mul_assoc, mul_comm ct]
    exact g1
  · rw [if_neg hp] at h3
    have : -(tens * f) * (m.tMul * ct) = -(m.tensionMul * f * (cout + cin) * m.tMul) := by
      linear_combination (-f * m.tMul) * h3
    rwa [this] at g2

/-- A plug in tension in sand: the inner circumference is used in tension. -/
theorem C36_violated_sand_tension (m : SandAxial) (cin cout sig height depth f : ℝ) (len : ℕ)
    (draws : ℕ → ℝ) (argsort : List ℝ → List ℕ) (hr : IsRandom draws)
    (hs : ∀ z, IsArgsort z (argsort z)) (hc : SandCase m cin cout)
    (hf : m.unitShaftFriction sig depth height = some f) (hf0 : 0 ≤ f) (hp : PluggedT m.plugging) :
    ∃ c, m.tzSpring cin cout sig height depth len draws argsort = some c ∧
      IsLeast (forces c) (-(m.tensionMul * f * cin * m.tMul)) ∧
      (0 < m.tMul → 0 < m.tensionMul → 0 < f → cin < cout →
        ¬ IsLeast (forces c) (-(m.tensionMul * f * cout * m.tMul))) := by
  unfold SandAxial.unitShaftFriction at hf
  simp only [Option.bind_eq_bind, Option.bind_eq_some_iff] at hf
  obtain ⟨delta, hd, hf⟩ := hf
  obtain ⟨ct, tens, e, h1, h2, h3, h4⟩ :=
    circumference_eq m.plugging cin cout m.tensionMul hc.inner hc.outer
  obtain ⟨c, e', g1, g2⟩ := sand_peaks m cin cout sig height depth delta f ct tens len draws argsort hr
    hs hd hf hf0 e h2.le (h4 hc.tension) hc.tMul
  rw [if_pos hp] at h3
  have : -(tens * f) * (m.tMul * ct) = -(m.tensionMul * f * cin * m.tMul) := by
    linear_combination (-f * m.tMul) * h3
  rw [this] at g2
  refine ⟨c, e', g2, fun a b d hlt hne => ?_⟩
  have := g2.unique hne
  have hpos : 0 < m.tensionMul * f * m.tMul := by positivity
  nlinarith

/-- The spring of sand does not use `inside_friction`, the share of friction `unit_shaft_signature` announces for the
inner face of the pile. -/
theorem C36_violated_inside_friction (m : SandAxial) (x cin cout sig height depth : ℝ) (len : ℕ)
    (draws : ℕ → ℝ) (argsort : List ℝ → List ℕ) :
    ({ m with insideFriction := x } : SandAxial).tzSpring cin cout sig height depth len draws argsort =
      m.tzSpring cin cout sig height depth len draws argsort := rfl

/-- End bearing spring of sand. -/
theorem C36_sand_tip (m : SandAxial) (tip footprint sig height depth D q : ℝ) (len : ℕ)
    (draws : ℕ → ℝ) (argsort : List ℝ → List ℕ) (hr : IsRandom draws)
    (hs : ∀ z, IsArgsort z (argsort z)) (hD : 0 < D) (hw : 0 < m.wMul) (hsig : 0 ≤ sig)
    (hq : m.unitTipResistance sig depth height = some q) :
    ∃ c, m.qzSpring tip footprint sig height depth D len draws argsort = some c ∧
      Curve (max 15 len) c ∧
      ∀ p ∈ c.1.zip c.2, (p.1 ≤ 0 → p.2 = 0) ∧ (0.1 * D * m.wMul ≤ p.1 →
        p.2 = q * m.qMul * if PluggedC m.plugging then footprint else tip) := by
  unfold SandAxial.unitTipResistance at hq
  simp only [Option.bind_eq_bind, Option.bind_eq_some_iff] at hq
  obtain ⟨delta, hd, hq⟩ := hq
  obtain ⟨c, e, h1, -, h3⟩ := C33_qz_sand sig delta D q len draws argsort hr hs hD hq
    (C35_bearing_bounds sig delta q hsig hq).1
  refine ⟨scaleCurve m.wMul (m.qMul * bearingArea m.plugging tip footprint) c, ?_, h1.scale hw.le _, ?_⟩
  · simp only [SandAxial.qzSpring, hd, Option.bind_eq_bind, Option.bind_some, e]
    rfl
  · intro p hp
    rw [zip_scaleCurve, scaled, List.mem_map] at hp
    obtain ⟨r, hr', rfl⟩ := hp
    obtain ⟨a, b, -, -⟩ := h3 r hr'
    have harea : bearingArea m.plugging tip footprint =
        if PluggedC m.plugging then footprint else tip := by
      cases m.plugging <;> simp [bearingArea, PluggedC]
    constructor
    · intro h
      have := a (by by_contra h'; exact absurd h (not_le.2 (mul_pos (not_le.1 h') hw)))
      simp [this]
    · intro h
      simp only [harea, b (le_of_mul_le_mul_right h hw)]
      ring

/-- A plugged clay pile with an `alpha_limit` of 0.4 at strength ratio one. -/
noncomputable def clayExample : ClayAxial :=
  { Su := .list [40, 60], plugging := .both, alphaLimit := 0.4, tMul := 1, zMul := 1, qMul := 1,
    wMul := 1, tResidual := 0.9, tensionMul := 1 }

example : ClayCase clayExample 9 10 3 ∧ layered clayExample.Su 5 10 = some 50 ∧
    clayExample.unitShaftFriction 50 5 10 = some 20 ∧ clayExample.alphaLimit < adhesion (50 / 50) ∧
    PluggedT clayExample.plugging := by
  have h : layered clayExample.Su 5 10 = some 50 := by
    norm_num [layered, topBottom, clayExample]
  have ha : clayExample.alphaLimit = 0.4 := rfl
  refine ⟨by constructor <;> norm_num [clayExample], h, ?_, ?_, Or.inr rfl⟩
  · simp only [ClayAxial.unitShaftFriction, h, Option.bind_eq_bind, Option.bind_some]
    rw [C35_clay_law _ _ _ (by norm_num) (by norm_num), ha]
    norm_num [adhesion]
  · rw [ha]; norm_num [adhesion]

end OpenPile.Props.AxialModel

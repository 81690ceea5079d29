/-
C63 completed: accepted parameters of the API models, Dunkirk sand at every depth along the pile, custom PISA models.
-/
import Verif.Props.Warnings
import Verif.Props.PisaShape

namespace OpenPile.Props.Rotational
open OpenPile OpenPile.Params OpenPile.SoilModel OpenPile.Axial OpenPile.Spec.Rotational OpenPile.Spring
open OpenPile.Spec.Sound (Between Nonneg)
open OpenPile.Spec.Usual (Multiplier)
open OpenPile.Props.Defined (Inside)
open OpenPile.Conic (FollowsConic Published.dunkirkM)

/-- **C63, sand, for all accepted parameters**: friction angles between 15 and 45 degrees (the bounds of the field),
multipliers and modulus that are not negative. At every place within the layer where there is a lateral spring there are
rotational ones, one for every point of it. -/
theorem C63_sand_accepted (s : ApiSand) {a : Args} (ha : Inside a) (e : Env) (hr : IsRandom e.tzDraws)
    (hs : ∀ z, IsArgsort z (e.argsort z)) (hphi : Between s.phi 15 45) (hk : ∀ m, s.modulus = some m → Nonneg m)
    (hp : Multiplier s.p) (hy : Multiplier s.y) {l : List (ℝ × ℝ)} (hl : s.py a = some l) (hne : l ≠ []) :
    ∃ phi f m rows, layered s.phi a.depth a.height = some phi ∧ fmaxSand a.sig (phi - 5) 0.8 = some f ∧ 0 ≤ f ∧ m ∈ l ∧
      (∀ q ∈ l, 0 ≤ q.2 ∧ q.2 ≤ m.2) ∧ s.mt a e = some rows ∧
      List.Forall₂ (fun q r => r.length = a.len ∧ MomentCurve a.D (q.2 / m.2) (scaled 1 f (sandNodes 1)) r) l rows := by
  obtain ⟨phi, e1, b1, b2⟩ := Defined.between_value hphi ha.height ha.depth ha.bound
  obtain ⟨f, hf⟩ := Friction.C35_sand_total a.sig (phi - 5) 0.8
  have hf0 := (Friction.C35_sand_bounds_partial a.sig (phi - 5) 0.8 f ha.sig (by norm_num) (by linarith) (by linarith)
    hf).1
  have hnn : ∀ q ∈ l, 0 ≤ q.1 ∧ 0 ≤ q.2 := by
    refine Warnings.sand_py_nonneg (D := 1) (L := 1) ⟨⟨45, by norm_num, ?_⟩, hk, hp, hy⟩ ha hl
    obtain ⟨t, b, h, h1, h2, h3, h4⟩ := hphi
    exact ⟨t, b, h, by linarith, h2, by linarith, h4⟩
  obtain ⟨v, hv⟩ : ∃ v, (l.map Prod.snd).max? = some v := by
    cases h : (l.map Prod.snd).max? with
    | none => exact absurd (List.map_eq_nil_iff.1 (List.max?_eq_none_iff.1 h)) hne
    | some v => exact ⟨v, rfl⟩
  rw [List.max?_eq_some_iff] at hv
  obtain ⟨m, hm, hmv⟩ := List.mem_map.1 hv.1
  subst hmv
  have hmax : ∀ q ∈ l, q.2 ≤ m.2 := fun q hq => hv.2 _ (List.mem_map_of_mem hq)
  obtain ⟨rows, h1, h2⟩ := C63_sand s a e hr hs ha.bound ha.D ha.len.ge e1 hf hf0 hl hm hmax
  refine ⟨phi, f, m, rows, e1, hf, hf0, hm, fun q hq => ⟨(hnn q hq).2, hmax q hq⟩, h1, ?_⟩
  rw [List.forall₂_iff_get] at h2 ⊢
  refine ⟨h2.1, fun i k1 k2 => ?_⟩
  exact ⟨(h2.2 i k1 k2).1, (h2.2 i k1 k2).2 (hnn _ (List.get_mem _ _)).2⟩

/-- **C63, clay, for all strengths that are not negative.** -/
theorem C63_clay_accepted (s : MatlockClay) {a : Args} (ha : Inside a) (e : Env) (hr : IsRandom e.tzDraws)
    (hs : ∀ z, IsArgsort z (e.argsort z)) (hSu : Nonneg s.Su) :
    ∃ Su f rows, layered s.Su a.depth a.height = some Su ∧ fmaxClay a.sig Su 1 = some f ∧ 0 ≤ f ∧ s.mt a e = some rows ∧
      rows.length = a.len ∧ ∀ r ∈ rows, r.length = a.len ∧ MomentCurve a.D 1 (scaled a.D f (clayNodes 1 1)) r := by
  obtain ⟨Su, e1, b1⟩ := Defined.nonneg_value hSu ha.height ha.depth ha.bound
  obtain ⟨f, hf, hf0, -⟩ := Friction.C35_clay_bounds a.sig Su 1 ha.sig b1 zero_le_one
  obtain ⟨rows, h1, h2, h3⟩ := C63_clay s a e hr hs ha.bound ha.D ha.len.ge e1 hf hf0
  exact ⟨Su, f, rows, e1, hf, hf0, h1, h2, h3⟩

/-- **C63, Dunkirk sand, at every depth along the pile.** One rotational spring for each point `(y, p)` of the lateral
spring before its multipliers: the published conic with rotations in units of `σ / G0` and moments in units of `|p| D`,
with the multipliers applied; in particular its last moment is the normalised ultimate moment times `|p| D`. -/
theorem C63_dunkirk (s : Dunkirk) (a : Args) (hX : 0 ≤ a.X) (hL : 0 < a.L) (hXL : a.X ≤ a.L) {rows : Table}
    (h : s.mt a = some rows) :
    ∃ Dr G0 tm mm l, layered s.Dr a.depth a.height = some Dr ∧ layered s.G0 a.depth a.height = some G0 ∧
      s.t.val a.X = some tm ∧ s.m.val a.X = some mm ∧ Conic.pyDunkirk a.sig a.X Dr G0 a.D a.L a.len = some l ∧
      l.length = a.len ∧ (0 ≤ Dr →
        List.Forall₂ (fun q r => ∃ c, c.length = a.len ∧
          FollowsConic (Published.dunkirkM (Dr / 100) (a.X / a.L)) (a.sig / G0) (|q.2| * a.D) c ∧
          r = c.map (fun q => (q.1 * tm, q.2 * mm)) ∧
          r.getLast?.map Prod.snd = some ((0.2605 + (-0.1989 + 0.2019 * (Dr / 100)) * (a.X / a.L)) * (|q.2| * a.D) * mm))
          l rows) := by
  unfold Dunkirk.mt SoilModel.guard at h
  have h := Conic.ite_none h
  simp only [Option.bind_eq_bind, Option.bind_eq_some_iff, multiplyRows, Option.pure_def, Option.some.injEq] at h
  obtain ⟨Dr, h1, G0, h2, p, hp, rws, hr, full, hf, tm, ht, mm, hm, rfl⟩ := h
  have hl := pyDunkirk_length hp
  obtain ⟨hl', hall⟩ := fill_full (by omega) hr hf
  refine ⟨Dr, G0, tm, mm, p, h1, h2, ht, hm, hp, hl', fun h0 => ?_⟩
  rw [List.forall₂_map_right_iff]
  refine hall.imp ?_
  intro q r hqr
  have hF := Conic.C29_shape_mt_dunkirk hX hL hXL h0 hqr
  refine ⟨r, ?_, hF, rfl, ?_⟩
  · unfold Conic.mtDunkirk at hqr
    simp only at hqr
    split_ifs at hqr
    exact scaledConic_length hqr
  · rw [Conic.scale, List.getLast?_map, hF.2.1]
    rfl

theorem custom_length {s : Custom} {a : Args} {l : List (ℝ × ℝ)} (h : s.pyCurve a = some l) : l.length = a.len := by
  unfold Custom.pyCurve at h
  simp only [Option.bind_eq_bind, Option.bind_eq_some_iff] at h
  obtain ⟨⟨xu, n, k, yu⟩, -, G0, -, h⟩ := h
  cases hS : s.Su with
  | none =>
    rw [hS] at h
    exact scaledConic_length (Conic.ite_none h)
  | some p =>
    rw [hS] at h
    obtain ⟨Su, -, h⟩ := Option.bind_eq_some_iff.1 h
    exact scaledConic_length (Conic.ite_none h)

/-- **C63, custom sand.** One rotational spring for each point `(y, p)` of the lateral spring before its multipliers: the
conic with the parameters of the layer, moments in units of `p D`. -/
theorem C63_custom_sand (s : Custom) (hs : s.Su = none) (a : Args) {rows : Table} (h : s.mt a = some rows) :
    ∃ xu n k yu G0 tm mm l, s.mtC.at a = some (xu, n, k, yu) ∧ valueAt s.G0 a.depth a.height a.X = some G0 ∧
      s.t.val a.X = some tm ∧ s.m.val a.X = some mm ∧ s.pyCurve a = some l ∧ l.length = a.len ∧ (0 < xu → 0 < yu → 0 ≤ n →
        n < 1 → List.Forall₂ (fun q r => ∃ c, c.length = a.len ∧ FollowsConic ⟨xu, n, k, yu⟩ (a.sig / G0) (q.2 * a.D) c ∧
          r = c.map (fun q => (q.1 * tm, q.2 * mm))) l rows) := by
  unfold Custom.mt SoilModel.guard at h
  have h := Conic.ite_none h
  simp only [Option.bind_eq_bind, Option.bind_eq_some_iff, multiplyRows, Option.pure_def, Option.some.injEq] at h
  obtain ⟨p, hp, rws, hr, full, hf, tm, ht, mm, hm, rfl⟩ := h
  have hl := custom_length hp
  obtain ⟨-, hall⟩ := fill_full hl.ge hr hf
  have hpos : 0 < a.len := by
    have : 5 ≤ a.len := by
      have hp' := hp
      unfold Custom.pyCurve at hp'
      simp only [Option.bind_eq_bind, Option.bind_eq_some_iff, hs] at hp'
      obtain ⟨⟨xu, n, k, yu⟩, -, G0, -, h⟩ := hp'
      have h := Conic.ite_none h
      unfold Conic.scaledConic Conic.conic at h
      by_contra hlt
      rw [if_pos (Or.inr (not_le.1 hlt))] at h
      cases h
    omega
  have hfl : full.length = a.len := by rw [← hall.length_eq, hl]
  have first := (List.forall₂_iff_get.1 hall).2 0 (by omega) (by omega)
  simp only [Option.bind_eq_some_iff] at first
  obtain ⟨⟨xu, n, k, yu⟩, e1, G0, e2, -⟩ := first
  refine ⟨xu, n, k, yu, G0, tm, mm, p, e1, e2, ht, hm, hp, hl, fun hx hy hn hn1 => ?_⟩
  rw [List.forall₂_map_right_iff]
  refine hall.imp ?_
  intro q r hqr
  simp only [e1, e2, Option.bind_some, hs] at hqr
  exact ⟨r, scaledConic_length (Conic.ite_none hqr),
    (Conic.C29_shape_custom (c := ⟨xu, n, k, yu⟩) (s := a.sig) (G0 := G0) (p := q.2) (D := a.D) hx hy hn hn1).2.2.1 hqr, rfl⟩

/-- **C63, custom clay.** One rotational spring for each point of the lateral spring, all equal: the conic with the
parameters of the layer, moments in units of `Su D²`. -/
theorem C63_custom_clay (s : Custom) {ps : Param ℝ} (hs : s.Su = some ps) (a : Args) {rows : Table} (h : s.mt a = some rows) :
    ∃ xu n k yu G0 Su tm mm c, s.mtC.at a = some (xu, n, k, yu) ∧ valueAt s.G0 a.depth a.height a.X = some G0 ∧
      valueAt ps a.depth a.height a.X = some Su ∧ s.t.val a.X = some tm ∧ s.m.val a.X = some mm ∧ c.length = a.len ∧
      (0 < xu → 0 < yu → 0 ≤ n → n < 1 → FollowsConic ⟨xu, n, k, yu⟩ (Su / G0) (Su * a.D ^ 2) c) ∧
      rows = List.replicate a.len (c.map (fun q => (q.1 * tm, q.2 * mm))) := by
  unfold Custom.mt SoilModel.guard at h
  have h := Conic.ite_none h
  simp only [Option.bind_eq_bind, Option.bind_eq_some_iff, multiplyRows, Option.pure_def, Option.some.injEq] at h
  obtain ⟨p, hp, rws, hr, full, hf, tm, ht, mm, hm, rfl⟩ := h
  have hl := custom_length hp
  obtain ⟨-, hall⟩ := fill_full hl.ge hr hf
  have hpos : 0 < a.len := by
    have : 5 ≤ a.len := by
      have hp' := hp
      unfold Custom.pyCurve at hp'
      simp only [Option.bind_eq_bind, Option.bind_eq_some_iff, hs] at hp'
      obtain ⟨⟨xu, n, k, yu⟩, -, G0, -, Su, -, h⟩ := hp'
      have h := Conic.ite_none h
      unfold Conic.scaledConic Conic.conic at h
      by_contra hlt
      rw [if_pos (Or.inr (not_le.1 hlt))] at h
      cases h
    omega
  have hfl : full.length = a.len := by rw [← hall.length_eq, hl]
  have hrow : ∀ r ∈ full, ∃ q, ((s.mtC.at a).bind fun v => (valueAt s.G0 a.depth a.height a.X).bind fun G0 =>
      match s.Su with
      | none => Conic.mtCustomSand a.sig G0 q a.D v.1 v.2.1 v.2.2.1 v.2.2.2 a.len
      | some p => (valueAt p a.depth a.height a.X).bind fun Su =>
        Conic.mtCustomClay Su G0 a.D v.1 v.2.1 v.2.2.1 v.2.2.2 a.len) = some r := by
    intro r hr'
    obtain ⟨i, hi, rfl⟩ := List.getElem_of_mem hr'
    exact ⟨_, (List.forall₂_iff_get.1 hall).2 i (by rw [hall.length_eq]; exact hi) hi⟩
  obtain ⟨q, h0⟩ := hrow (full[0]'(by omega)) (List.getElem_mem _)
  simp only [Option.bind_eq_some_iff, hs] at h0
  obtain ⟨⟨xu, n, k, yu⟩, e1, G0, e2, Su, e3, e4⟩ := h0
  refine ⟨xu, n, k, yu, G0, Su, tm, mm, full[0]'(by omega), e1, e2, e3, ht, hm, scaledConic_length (Conic.ite_none e4),
    fun hx hy hn hn1 => (Conic.C29_shape_custom (c := ⟨xu, n, k, yu⟩) (s := Su) (G0 := G0) (p := 0) (D := a.D) hx hy hn
      hn1).2.2.2.1 e4, ?_⟩
  rw [List.eq_replicate_iff]
  refine ⟨by simpa using hfl, fun r hr' => ?_⟩
  obtain ⟨r', hr'', rfl⟩ := List.mem_map.1 hr'
  obtain ⟨q', h1⟩ := hrow r' hr''
  simp only [e1, e2, e3, Option.bind_some, hs] at h1
  rw [Option.some.inj (h1.symm.trans e4)]
  rfl

/-! ### cases -/

/-- At ground level in sand there is no friction, and the springs are flat. -/
example (phi : ℝ) (h0 : 15 ≤ phi) (h1 : phi ≤ 45) : fmaxSand 0 (phi - 5) 0.8 = some 0 := by
  obtain ⟨f, hf⟩ := Friction.C35_sand_total 0 (phi - 5) 0.8
  rw [hf, (Friction.C35_sand_bounds_partial 0 (phi - 5) 0.8 f le_rfl (by norm_num) (by linarith) (by linarith) hf).2.2.1 rfl]

/-- The lateral spring of sand at ground level. -/
example (phi : ℝ) (h0 : 15 ≤ phi) (h1 : phi ≤ 45) : ∃ l,
    (⟨.scalar phi, .static, none, none, .num 1, .num 1, true⟩ : ApiSand).py ⟨0, 0, 5, 0, 2, 20, true, 0, 15⟩ = some l ∧ l ≠ [] := by
  obtain ⟨l, h, hl⟩ := Defined.sand_py (s := ⟨.scalar phi, .static, none, none, .num 1, .num 1, true⟩) (D := 2) (L := 20)
    (a := ⟨0, 0, 5, 0, 2, 20, true, 0, 15⟩)
    ⟨⟨45, by norm_num, ⟨phi, phi, .scalar _, by linarith, h1, by linarith, h1⟩⟩, by simp, trivial, trivial⟩
    ⟨le_rfl, le_rfl, by norm_num, le_rfl, by norm_num, by norm_num, rfl, rfl⟩
  exact ⟨l, h, by rintro rfl; simp at hl⟩

end OpenPile.Props.Rotational

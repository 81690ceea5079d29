/-
C29: every PISA curve is the published conic with the published scaling of both axes.
-/
import Verif.Props.Pisa
import Verif.Spec.Pisa

namespace OpenPile.Conic

theorem scaled_follows {c : Coeffs} {ds rs : ℝ} {len : ℕ} {l : List (ℝ × ℝ)} (hx : 0 < c.xu)
    (hy : 0 < c.yu) (hn : 0 ≤ c.n) (hn1 : c.n < 1)
    (h : scaledConic c.xu c.n c.k c.yu ds rs len = some l) : FollowsConic c ds rs l := by
  unfold scaledConic at h
  rw [Option.map_eq_some_iff] at h
  obtain ⟨s, hs, rfl⟩ := h
  obtain ⟨_, _, ⟨y0, h0⟩, y1, h1⟩ := C28_points hx hs
  refine ⟨by simp [scale, h0], ?_, ?_⟩
  · have := C28_plateau hs (List.mem_of_getLast? h1) (by linarith)
    subst this
    simp only [scale, List.getLast?_map, h1, Option.map_some, Option.some.injEq, Prod.mk.injEq]
    norm_num
  · intro q hq
    simp only [scale, List.mem_map] at hq
    obtain ⟨⟨x, y⟩, hm, rfl⟩ := hq
    refine ⟨x, y, rfl, conicX_nonneg hx len (fst_mem hs hm), ?_, ?_⟩
    · intro hle
      exact (C28_conic_partial hx hy hn hn1 hs hm (by norm_num at hle ⊢; exact hle)).1
    · intro hlt
      exact near_ultimate hs hm (by norm_num at hlt ⊢; exact hlt)

theorem follows_of {c : Coeffs} {xu n k yu ds rs ds' rs' : ℝ} {len : ℕ} {l : List (ℝ × ℝ)}
    (h : scaledConic xu n k yu ds' rs' len = some l) (h1 : xu = c.xu) (h2 : n = c.n) (h3 : k = c.k)
    (h4 : yu = c.yu) (h5 : ds' = ds) (h6 : rs' = rs) (hx : 0 < c.xu) (hy : 0 < c.yu) (hn : 0 ≤ c.n)
    (hn1 : c.n < 1) : FollowsConic c ds rs l := by
  subst h1 h2 h3 h4 h5 h6
  exact scaled_follows hx hy hn hn1 h

section clay
variable {X Su G0 D L : ℝ} {len : ℕ} {l : List (ℝ × ℝ)}

/-- **C29, Cowden clay** p-y curves: the published conic, displacement in units of `Su D / G0`, reaction
in units of `Su D`. -/
theorem C29_shape_py_cowden_partial (hD : 0 < D) (hX : 0 ≤ X) (hXD : X ≤ 28 * D)
    (h : pyCowden X Su G0 D len = some l) :
    FollowsConic (Published.cowdenP (X / D)) (Su * D / G0) (Su * D) l := by
  have he := exp_le_one_of (a := -3085 / 10000) (by norm_num) hX hD
  have hr0 : 0 ≤ X / D := by positivity
  have hr1 : X / D ≤ 28 := (div_le_iff₀ hD).2 hXD
  have e : Real.exp (-(0.3085 * (X / D))) = Real.exp (-3085 / 10000 * X / D) := by
    congr 1; ring
  refine follows_of (ite_none h) ?_ ?_ ?_ ?_ rfl rfl ?_ ?_ ?_ ?_ <;>
    simp only [Published.cowdenP, e]
  · ring
  · ring
  · ring
  · ring
  · norm_num
  · generalize Real.exp _ = E at he ⊢
    linarith
  · linarith
  · linarith

/-- **C29, Cowden clay** m-t curves: rotation in units of `Su / G0`, moment in units of `Su D²`. -/
theorem C29_shape_mt_cowden_partial (hD : 0 < D) (hX : 0 ≤ X) (hXD : X ≤ 6 * D)
    (h : mtCowden X Su G0 D len = some l) :
    FollowsConic (Published.cowdenM (X / D)) (Su / G0) (Su * D ^ 2) l := by
  have hr0 : 0 ≤ X / D := by positivity
  have hr1 : X / D ≤ 6 := (div_le_iff₀ hD).2 hXD
  have e1 : (1420 / 1000 + -9643 / 100000 * X / D : ℝ) = 1.420 - 0.09643 * (X / D) := by ring
  have e2 : (2899 / 10000 + -4775 / 100000 * X / D : ℝ) = 0.2899 - 0.04775 * (X / D) := by ring
  have h1 : (0 : ℝ) < 1.420 - 0.09643 * (X / D) := by linarith
  have h2 : (0 : ℝ) < 0.2899 - 0.04775 * (X / D) := by linarith
  have h := ite_none (ite_none h)
  rw [e1, e2] at h
  exact follows_of h rfl (by simp [Published.cowdenM]) rfl rfl rfl rfl (div_pos h2 h1) h2 le_rfl
    (by norm_num [Published.cowdenM])

/-- **C29, Cowden clay** base shear: displacement in units of `Su D / G0`, force in units of `Su D²`. -/
theorem C29_shape_hb_cowden_partial (hD : 0 < D) (hL : 0 ≤ L) (hLD : L ≤ 27 * D)
    (h : hbCowden Su G0 D L len = some l) :
    FollowsConic (Published.cowdenH (L / D)) (Su * D / G0) (Su * D ^ 2) l := by
  have hr0 : 0 ≤ L / D := by positivity
  have hr1 : L / D ≤ 27 := (div_le_iff₀ hD).2 hLD
  refine follows_of (ite_none h) ?_ ?_ ?_ ?_ rfl rfl ?_ ?_ ?_ ?_ <;>
    simp only [Published.cowdenH]
  · ring
  · ring
  · ring
  · ring
  · norm_num
  · linarith
  · linarith
  · linarith

/-- **C29, Cowden clay** base moment: rotation in units of `Su / G0`, moment in units of `Su D³`. -/
theorem C29_shape_mb_cowden_partial (hD : 0 < D) (hL : D ≤ L) (hLD : L ≤ 9 * D)
    (h : mbCowden Su G0 D L len = some l) :
    FollowsConic (Published.cowdenB (L / D)) (Su / G0) (Su * D ^ 3) l := by
  have hr0 : 1 ≤ L / D := (le_div_iff₀ hD).2 (by linarith)
  have hr1 : L / D ≤ 9 := (div_le_iff₀ hD).2 hLD
  refine follows_of (ite_none h) ?_ ?_ ?_ ?_ rfl rfl ?_ ?_ ?_ ?_ <;>
    simp only [Published.cowdenB]
  · ring
  · ring
  · ring
  · ring
  · norm_num
  · linarith
  · linarith
  · linarith

/-- **C29, Bothkennar clay** p-y curves. -/
theorem C29_shape_py_bothkennar_partial (hD : 0 < D) (hX : 0 ≤ X) (hXD : X ≤ 268 * D)
    (h : pyBothkennar X Su G0 D len = some l) :
    FollowsConic (Published.bothkennarP (X / D)) (Su * D / G0) (Su * D) l := by
  have he := exp_le_one_of (a := -8456 / 10000) (by norm_num) hX hD
  have hr0 : 0 ≤ X / D := by positivity
  have hr1 : X / D ≤ 268 := (div_le_iff₀ hD).2 hXD
  have e : Real.exp (-(0.8456 * (X / D))) = Real.exp (-8456 / 10000 * X / D) := by
    congr 1; ring
  refine follows_of (ite_none h) ?_ ?_ ?_ ?_ rfl rfl ?_ ?_ ?_ ?_ <;>
    simp only [Published.bothkennarP, e]
  · ring
  · ring
  · ring
  · ring
  · norm_num
  · generalize Real.exp _ = E at he ⊢
    linarith
  · linarith
  · linarith

/-- **C29, Bothkennar clay** m-t curves. -/
theorem C29_shape_mt_bothkennar_partial (hD : 0 < D) (hX : 0 ≤ X) (hXD : X ≤ 8 * D)
    (h : mtBothkennar X Su G0 D len = some l) :
    FollowsConic (Published.bothkennarM (X / D)) (Su / G0) (Su * D ^ 2) l := by
  have hr0 : 0 ≤ X / D := by positivity
  have hr1 : X / D ≤ 8 := (div_le_iff₀ hD).2 hXD
  have e1 : (1698 / 1000 + -1576 / 10000 * X / D : ℝ) = 1.698 - 0.1576 * (X / D) := by ring
  have e2 : (4862 / 10000 + -5674 / 100000 * X / D : ℝ) = 0.4862 - 0.05674 * (X / D) := by ring
  have h1 : (0 : ℝ) < 1.698 - 0.1576 * (X / D) := by linarith
  have h2 : (0 : ℝ) < 0.4862 - 0.05674 * (X / D) := by linarith
  have h := ite_none (ite_none h)
  rw [e1, e2] at h
  exact follows_of h rfl (by simp [Published.bothkennarM]) rfl rfl rfl rfl (div_pos h2 h1) h2 le_rfl
    (by norm_num [Published.bothkennarM])

/-- **C29, Bothkennar clay** base shear. -/
theorem C29_shape_hb_bothkennar_partial (hD : 0 < D) (hL : 0 ≤ L) (hLD : L ≤ 16 * D)
    (h : hbBothkennar Su G0 D L len = some l) :
    FollowsConic (Published.bothkennarH (L / D)) (Su * D / G0) (Su * D ^ 2) l := by
  have hr0 : 0 ≤ L / D := by positivity
  have hr1 : L / D ≤ 16 := (div_le_iff₀ hD).2 hLD
  refine follows_of (ite_none h) ?_ ?_ ?_ ?_ rfl rfl ?_ ?_ ?_ ?_ <;>
    simp only [Published.bothkennarH]
  · ring
  · ring
  · ring
  · ring
  · norm_num
  · linarith
  · linarith
  · linarith

/-- **C29, Bothkennar clay** base moment. -/
theorem C29_shape_mb_bothkennar_partial (hD : 0 < D) (hL : 0 ≤ L) (hLD : L ≤ 6 * D)
    (h : mbBothkennar Su G0 D L len = some l) :
    FollowsConic (Published.bothkennarB (L / D)) (Su / G0) (Su * D ^ 3) l := by
  have hr0 : 0 ≤ L / D := by positivity
  have hr1 : L / D ≤ 6 := (div_le_iff₀ hD).2 hLD
  refine follows_of (ite_none h) ?_ ?_ ?_ ?_ rfl rfl ?_ ?_ ?_ ?_ <;>
    simp only [Published.bothkennarB]
  · ring
  · ring
  · ring
  · norm_num
  · linarith
  · linarith
  · linarith

end clay

section sand
variable {sig X Dr G0 p D L : ℝ} {len : ℕ} {l : List (ℝ × ℝ)}

/-- **C29, Dunkirk sand** p-y curves: displacement in units of `σ D / G0`, reaction in units of `σ D`; at
every depth along the pile and every relative density. -/
theorem C29_shape_py_dunkirk (hX : 0 ≤ X) (hL : 0 < L) (hXL : X ≤ L) (hr : 0 ≤ Dr) (hr1 : Dr ≤ 100)
    (h : pyDunkirk sig X Dr G0 D L len = some l) :
    FollowsConic (Published.dunkirkP (Dr / 100) (X / D) (X / L)) (sig * D / G0) (sig * D) l := by
  have hz0 : 0 ≤ X / L := by positivity
  have hz1 : X / L ≤ 1 := (div_le_one hL).2 hXL
  have hm : 0 ≤ Dr / 100 * (1 - X / L) := mul_nonneg (by linarith) (by linarith)
  have h := ite_none h
  refine follows_of h ?_ ?_ ?_ ?_ rfl rfl ?_ ?_ ?_ ?_ <;>
    simp only [Published.dunkirkP]
  · ring
  · ring
  · ring
  · ring
  · linarith
  · nlinarith
  · linarith
  · linarith

/-- **C29, Dunkirk sand** m-t curves: rotation in units of `σ / G0`, moment in units of the lateral
resistance times the diameter. -/
theorem C29_shape_mt_dunkirk (hX : 0 ≤ X) (hL : 0 < L) (hXL : X ≤ L) (hr : 0 ≤ Dr)
    (h : mtDunkirk sig X Dr G0 p D L len = some l) :
    FollowsConic (Published.dunkirkM (Dr / 100) (X / L)) (sig / G0) (|p| * D) l := by
  have hz0 : 0 ≤ X / L := by positivity
  have hz1 : X / L ≤ 1 := (div_le_one hL).2 hXL
  have hm : 0 ≤ Dr / 100 * (X / L) := mul_nonneg (by linarith) hz0
  have e : (0 : ℝ) < 0.2605 + (-0.1989 + 0.2019 * (Dr / 100)) * (X / L) := by nlinarith
  have h := ite_none h
  refine follows_of h ?_ ?_ ?_ ?_ rfl rfl ?_ ?_ ?_ ?_ <;>
    simp only [Published.dunkirkM]
  · rw [zero_mul, zero_div, add_zero]
    ring
  · ring
  · ring
  · exact div_pos e (by norm_num)
  · exact e
  · exact le_rfl
  · norm_num

/-- **C29, Dunkirk sand** base shear: displacement in units of `σ D / G0`, force in units of `σ D²`. -/
theorem C29_shape_hb_dunkirk_partial (hD : 0 < D) (hL : 0 ≤ L) (hLD : L ≤ 6 * D) (hr : 0 ≤ Dr)
    (hr1 : Dr ≤ 100) (h : hbDunkirk sig Dr G0 D L len = some l) :
    FollowsConic (Published.dunkirkH (Dr / 100) (L / D)) (sig * D / G0) (sig * D ^ 2) l := by
  have hl0 : 0 ≤ L / D := by positivity
  have hl1 : L / D ≤ 6 := (div_le_iff₀ hD).2 hLD
  have m1 : 0 ≤ Dr / 100 * (6 - L / D) := mul_nonneg (by linarith) (by linarith)
  have m2 : 0 ≤ Dr / 100 * (L / D) := mul_nonneg (by linarith) hl0
  have m3 : 0 ≤ (1 - Dr / 100) * (L / D) := mul_nonneg (by linarith) hl0
  have h := ite_none h
  refine follows_of h ?_ ?_ ?_ ?_ rfl rfl ?_ ?_ ?_ ?_ <;>
    simp only [Published.dunkirkH]
  · ring
  · ring
  · ring
  · ring
  · nlinarith
  · nlinarith
  · nlinarith
  · nlinarith

/-- **C29, Dunkirk sand** base moment: rotation in units of `σ / G0`, moment in units of `σ D³`. -/
theorem C29_shape_mb_dunkirk_partial (hD : 0 < D) (hL : 0 ≤ L) (hLD : L ≤ 6 * D) (hr : 0 ≤ Dr)
    (hr1 : Dr ≤ 100) (h : mbDunkirk sig Dr G0 D L len = some l) :
    FollowsConic (Published.dunkirkB (Dr / 100) (L / D)) (sig / G0) (sig * D ^ 3) l := by
  have hl0 : 0 ≤ L / D := by positivity
  have hl1 : L / D ≤ 6 := (div_le_iff₀ hD).2 hLD
  have m1 : 0 ≤ Dr / 100 * (6 - L / D) := mul_nonneg (by linarith) (by linarith)
  have m2 : 0 ≤ Dr / 100 * (L / D) := mul_nonneg (by linarith) hl0
  have h := ite_none h
  refine follows_of h ?_ ?_ ?_ ?_ rfl rfl ?_ ?_ ?_ ?_ <;>
    simp only [Published.dunkirkB]
  · ring
  · ring
  · ring
  · ring
  · norm_num
  · nlinarith
  · linarith
  · linarith

end sand

/-- **C29, custom curves**: the conic with the given coefficients, with the scaling of the kind of spring
on both axes. -/
theorem C29_shape_custom {s G0 p D : ℝ} {c : Coeffs} {len : ℕ} {l : List (ℝ × ℝ)} (hx : 0 < c.xu)
    (hy : 0 < c.yu) (hn : 0 ≤ c.n) (hn1 : c.n < 1) :
    (pyCustomSand s G0 D c.xu c.n c.k c.yu len = some l → FollowsConic c (s * D / G0) (s * D) l) ∧
    (pyCustomClay s G0 D c.xu c.n c.k c.yu len = some l → FollowsConic c (s * D / G0) (s * D) l) ∧
    (mtCustomSand s G0 p D c.xu c.n c.k c.yu len = some l → FollowsConic c (s / G0) (p * D) l) ∧
    (mtCustomClay s G0 D c.xu c.n c.k c.yu len = some l → FollowsConic c (s / G0) (s * D ^ 2) l) ∧
    (hbCustomSand s G0 D c.xu c.n c.k c.yu len = some l →
      FollowsConic c (s * D / G0) (s * D ^ 2) l) ∧
    (hbCustomClay s G0 D c.xu c.n c.k c.yu len = some l →
      FollowsConic c (s * D / G0) (s * D ^ 2) l) ∧
    (mbCustomSand s G0 D c.xu c.n c.k c.yu len = some l → FollowsConic c (s / G0) (s * D ^ 3) l) ∧
    (mbCustomClay s G0 D c.xu c.n c.k c.yu len = some l → FollowsConic c (s / G0) (s * D ^ 3) l) := by
  refine ⟨?_, ?_, ?_, ?_, ?_, ?_, ?_, ?_⟩ <;> intro h <;>
    exact scaled_follows hx hy hn hn1 (ite_none h)

/-- A Cowden clay rotational spring at 10 m depth on a pile of 5 m diameter. -/
example : ∃ l, mtCowden 10 100 50000 5 15 = some l ∧ (0 : ℝ) ≤ 10 ∧ (10 : ℝ) ≤ 6 * 5 := by
  unfold mtCowden
  rw [if_neg (by norm_num)]
  simp only
  rw [if_neg (by norm_num)]
  unfold scaledConic
  obtain ⟨c, hc⟩ := C28_defined_moderate
    (xu := (2899 / 10000 + -4775 / 100000 * 10 / 5) / (1420 / 1000 + -9643 / 100000 * 10 / 5))
    (n := 0 + 0 * 10 / 5) (k := 1420 / 1000 + -9643 / 100000 * 10 / 5)
    (yu := 2899 / 10000 + -4775 / 100000 * 10 / 5) (len := 15)
    (by norm_num) (by norm_num) (by norm_num) (by norm_num) (by norm_num)
  rw [hc]
  exact ⟨_, rfl, by norm_num, by norm_num⟩

end OpenPile.Conic

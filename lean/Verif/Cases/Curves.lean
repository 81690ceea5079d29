/-
Concrete cases for C30, C31, C32, C35 and C83: the curves and strengths these theorems compare exist
for ordinary soils.
-/
import Verif.Props.Stronger

namespace OpenPile.Cases.Curves
open OpenPile.Lateral OpenPile.Conic OpenPile.Axial OpenPile.Props.Friction OpenPile.Props.Stronger

local macro "num" : term => `(by norm_num)

/-! ### friction and end bearing -/

/-- `C35_clay_ratio`, `C35_clay_stress_partial` and `C35_clay_strength`: the same clay deeper down,
and a stronger one. -/
example : ∃ f f' f'', fmaxClay 50 60 1 = some f ∧ fmaxClay 100 60 1 = some f' ∧
    fmaxClay 50 90 1 = some f'' ∧ f ≤ f' ∧ f ≤ f'' ∧ f'' / 90 ≤ f / 60 := by
  obtain ⟨f, h, -⟩ := C35_clay_bounds 50 60 1 num num num
  obtain ⟨f', h', -⟩ := C35_clay_bounds 100 60 1 num num num
  obtain ⟨f'', h'', -⟩ := C35_clay_bounds 50 90 1 num num num
  exact ⟨f, f', f'', h, h', h'', C35_clay_stress_partial 50 100 60 1 f f' num num num h h',
    C35_clay_strength 50 60 90 1 f f'' num num num num h h'',
    C35_clay_ratio 50 50 60 90 1 f f'' num num num num num h h''⟩

/-- `C35_violated_zero_stress`: clay of 60 kPa at the ground surface and a tenth of a millimetre of
soil further down. -/
example : ∃ f f', fmaxClay 0 60 1 = some f ∧ fmaxClay (1 / 10000) 60 1 = some f' ∧ f' < f := by
  obtain ⟨f, h, -⟩ := C35_clay_bounds 0 60 1 num num num
  obtain ⟨f', h', -⟩ := C35_clay_bounds (1 / 10000) 60 1 num num num
  exact ⟨f, f', h, h', C35_violated_zero_stress (1 / 10000) 60 1 f f' num num num num h h'⟩

/-- `C35_sand_bounds_partial`, `C35_sand_mono`, `C83_fmax_sand`: sand under 50 kPa, and a denser sand
deeper down. -/
example : ∃ f f', fmaxSand 50 25 (8 / 10) = some f ∧ fmaxSand 90 30 1 = some f' ∧
    0 < f ∧ f ≤ 114.8 ∧ f ≤ f' := by
  obtain ⟨f, h⟩ := C35_sand_total 50 25 (8 / 10)
  obtain ⟨f', h'⟩ := C35_sand_total 90 30 1
  obtain ⟨-, h1, -, h2⟩ := C35_sand_bounds_partial 50 25 (8 / 10) f num num num num h
  exact ⟨f, f', h, h', h2 num num num, h1,
    C35_sand_mono 50 90 25 30 (8 / 10) 1 f f' num num num num num num num h h'⟩

/-- `C35_violated_negative_friction`: an angle of 100 degrees. -/
example : ∃ f, fmaxSand 50 100 (8 / 10) = some f ∧ f < 0 :=
  (C35_sand_total 50 100 (8 / 10)).imp fun f h =>
    ⟨h, C35_violated_negative_friction 50 100 (8 / 10) f num num num num h⟩

/-- `C35_bearing_bounds`, `C35_bearing_mono` and `C83_qmax_sand`. -/
example : ∃ f f', qmaxSand 50 25 = some f ∧ qmaxSand 90 30 = some f' ∧ 0 < f ∧ f ≤ 2500 ∧ f ≤ f' := by
  obtain ⟨f, h⟩ := C35_bearing_total 50 25
  obtain ⟨f', h'⟩ := C35_bearing_total 90 30
  obtain ⟨-, -, h1, -, h2⟩ := C35_bearing_bounds 50 25 f num h
  exact ⟨f, f', h, h', h2 num, by linarith, C35_bearing_mono 50 90 25 30 f f' num num num h h'⟩

/-! ### clay -/

/-- Clay of 50 kPa three metres down a pile of diameter 2 m, and twenty draws of the generator. -/
theorem clay {Su : ℝ} (h : 0 ≤ Su) : ClayData 20 3 Su (1 / 100) 2 (1 / 2) :=
  ⟨num, num, h, num, num, num⟩

theorem draws {n : ℕ} (h : n = 20) : Draws n (List.replicate 20 (1 / 2)) :=
  ⟨by simp [h], by norm_num [List.mem_replicate]⟩

/-- `C31_api_clay_ymax_partial`: a requested range of half a metre. -/
example : ∃ l, apiClay 20 3 50 (1 / 100) 2 (1 / 2) .cyclic 1 20 (List.replicate 20 (1 / 2)) = some l ∧
    (∀ q ∈ l, q.1 ≤ range (1 / 100) 2 1) ∧ ∃ q ∈ l, q.1 = range (1 / 100) 2 1 := by
  obtain ⟨l, h, -⟩ := C31_api_clay (kind := .cyclic) (ymax := 1) (len := 20) (clay (Su := 50) num)
    (draws (n := max 8 20) rfl) num
  exact ⟨l, h, C31_api_clay_ymax_partial (clay num) (draws (n := max 8 20) rfl) (Or.inr num) h⟩

/-- `C31_matlock_ymax_partial`. -/
example : ∃ l, matlock 20 3 50 (1 / 100) 2 (1 / 2) .static 1 20 (List.replicate 20 (1 / 2)) = some l ∧
    (∀ q ∈ l, q.1 ≤ range (1 / 100) 2 1) ∧ ∃ q ∈ l, q.1 = range (1 / 100) 2 1 := by
  obtain ⟨l, h, -⟩ := C31_matlock (kind := .static) (ymax := 1) (len := 20) (clay (Su := 50) num)
    (draws (n := max 9 20) rfl) num
  exact ⟨l, h, C31_matlock_ymax_partial (clay num) (draws rfl) (Or.inr num) (Or.inl h)⟩

/-- `C31_violated_ymax_matlock`: a requested range of 5 cm. -/
example : ∃ l, matlock 20 3 50 (1 / 100) 2 (1 / 2) .static (1 / 20) 20 (List.replicate 20 (1 / 2)) = some l ∧
    ∃ q ∈ l, 1 / 20 < q.1 := by
  obtain ⟨l, h, -⟩ := C31_matlock (kind := .static) (ymax := 1 / 20) (len := 20) (clay (Su := 50) num)
    (draws (n := max 9 20) rfl) num
  exact ⟨l, h, C31_violated_ymax_matlock (r := 1 / 2) (draws := List.replicate 19 (1 / 2)) (clay (Su := 50) num)
    num num num (Or.inl h)⟩

/-- `C31_static_jump`, `C31_cyclic_jump` and `C31_modified_jump`: points where the laws change. -/
example : (∃ a : ℝ × ℝ, StaticLaw 100 1 a ∧ a.1 = 8 * 1) ∧
    (∃ a : ℝ × ℝ, CyclicLaw 100 1 (7185 / 10000) 3 1 False a ∧ a.1 = 3 * 1) ∧
    ∃ a : ℝ × ℝ, CyclicLaw 100 1 (1 / 2) 1 1 False a ∧ a.1 = 1 := by
  refine ⟨⟨(8 * 1, 100 * (8 * 1 / 1) ^ (33 / 100 : ℝ) / 2), ⟨fun _ => rfl, fun h => ?_⟩, rfl⟩,
    ⟨(3 * 1, 100 * (3 * 1 / 1) ^ (33 / 100 : ℝ) / 2), ⟨fun _ => rfl, fun h => h.elim, fun _ h => ?_,
      fun _ h => ?_⟩, rfl⟩,
    ⟨(1, 100 * (1 / 1) ^ (33 / 100 : ℝ) / 2), ⟨fun _ => rfl, fun h => h.elim, fun _ h => ?_, fun _ h => ?_⟩, rfl⟩⟩
  all_goals norm_num at h

/-- `C83_matlock`. -/
example : ∃ l l', matlock 20 3 50 (1 / 100) 2 (1 / 2) .static 0 20 (List.replicate 20 (1 / 2)) = some l ∧
    matlock 20 3 80 (1 / 100) 2 (1 / 2) .static 0 20 (List.replicate 20 (1 / 2)) = some l' ∧
    Outresists l l' := by
  have hd := draws (n := max 9 20) rfl
  obtain ⟨l, h, -⟩ := C31_matlock (kind := .static) (ymax := 0) (len := 20) (clay (Su := 50) num) hd num
  obtain ⟨l', h', -⟩ := C31_matlock (kind := .static) (ymax := 0) (len := 20) (clay (Su := 80) num) hd num
  exact ⟨l, l', h, h', C83_matlock (clay num) le_rfl num num le_rfl hd hd le_rfl le_rfl h h'⟩

/-- `C83_modified_matlock`. -/
example : ∃ l l', modMatlock 20 3 50 (1 / 100) 2 (1 / 2) .static 0 20 (List.replicate 20 (1 / 2)) = some l ∧
    modMatlock 20 3 80 (1 / 100) 2 (1 / 2) .static 0 20 (List.replicate 20 (1 / 2)) = some l' ∧
    Outresists l l' := by
  have hd := draws (n := max 8 20) rfl
  obtain ⟨l, h, -⟩ := C31_modified_matlock (kind := .static) (ymax := 0) (len := 20) (clay (Su := 50) num) hd num
  obtain ⟨l', h', -⟩ := C31_modified_matlock (kind := .static) (ymax := 0) (len := 20) (clay (Su := 80) num) hd num
  exact ⟨l, l', h, h', C83_modified_matlock (clay num) le_rfl num num le_rfl hd hd le_rfl le_rfl h h'⟩

/-! ### sand -/

/-- The curve of a sand of 30 degrees under 50 kPa exists. -/
theorem sand {X k ymax : ℝ} (kind : Loading) (hX : 0 ≤ X) (hk : 0 ≤ k) (hy : 0 ≤ ymax) {phi : ℝ}
    (h0 : 0 ≤ phi) (h1 : phi < 90) : ∃ l, apiSand 50 X phi 1 kind true k ymax 20 = some l := by
  obtain ⟨l, _, h, -⟩ := C30_curve (sig := 50) (X := X) (phi := phi) (D := 1) (kind := kind) (w := true)
    (k := k) (ymax := ymax) (len := 20) h0 h1 num hX num hk hy
  exact ⟨l, h⟩

/-- `C30_static_ge_cyclic`: above 2.625 diameters the two curves differ. -/
example : ∃ s c, apiSand 50 2 30 1 .static true 0 1 20 = some s ∧ apiSand 50 2 30 1 .cyclic true 0 1 20 = some c ∧
    List.Forall₂ (fun a b => a.1 = b.1 ∧ b.2 ≤ a.2) s c ∧ factor .cyclic 2 1 < factor .static 2 1 := by
  obtain ⟨s, hs⟩ := sand (X := 2) (k := 0) (ymax := 1) .static num num num (phi := 30) num num
  obtain ⟨c, hc⟩ := sand (X := 2) (k := 0) (ymax := 1) .cyclic num num num (phi := 30) num num
  exact ⟨s, c, hs, hc, C30_static_ge_cyclic num num num num num num hs hc,
    (C30_factor (X := 2) (D := 1) num).2.1 num⟩

/-- `C30_default_end`. -/
example : ∃ l y p kphi, apiSand 50 2 30 1 .static true 0 0 20 = some l ∧ l.getLast? = some (y, p) ∧
    kPhi 30 0 true = some kphi ∧ y * (kphi * 2) = 4 * (factor .static 2 1 * sandUltimate 50 2 30 1) := by
  obtain ⟨l, h⟩ := sand (X := 2) (k := 0) (ymax := 0) .static num num num (phi := 30) num num
  obtain ⟨y, p, kphi, h1, h2, h3, -⟩ := C30_default_end num num num num num h
  exact ⟨l, y, p, kphi, h, h1, h2, h3⟩

/-- `C30_shallow_default`: five centimetres down. -/
example : ∃ l, apiSand 50 (1 / 20) 30 1 .static true 0 0 20 = some l ∧
    ∀ q ∈ l, q.2 ≤ 40 * (1 / 20) * (factor .static (1 / 20) 1 * sandUltimate 50 (1 / 20) 30 1) := by
  obtain ⟨l, h⟩ := sand (X := 1 / 20) (k := 0) (ymax := 0) .static num num num (phi := 30) num num
  exact ⟨l, h, C30_shallow_default num num num num num num h⟩

/-- `C83_api_sand_default_partial`: 30 and 35 degrees below water. -/
example : ∃ l l', apiSand 50 2 30 1 .static true 0 0 20 = some l ∧ apiSand 50 2 35 1 .static true 0 0 20 = some l' ∧
    Outresists l l' := by
  obtain ⟨l, h⟩ := sand (X := 2) (k := 0) (ymax := 0) .static num num num (phi := 30) num num
  obtain ⟨l', h'⟩ := sand (X := 2) (k := 0) (ymax := 0) .static num num num (phi := 35) num num
  exact ⟨l, l', h, h', C83_api_sand_default_partial num num num num le_rfl num num le_rfl h h'⟩

/-! ### rock -/

theorem rock {qu : ℝ} (h : 0 ≤ qu) : RockData 100000 qu 2 1 (5 / 10000) := ⟨num, h, num, num, num⟩

/-- `C32_law` and `C83_rock_ultimate`. -/
example : ∃ l l', reeseRock 100000 1000 50 2 1 (5 / 10000) 20 = some l ∧
    reeseRock 100000 2000 50 2 1 (5 / 10000) 20 = some l' ∧
    (∀ q ∈ l, RockLaw 100000 1000 50 2 1 (5 / 10000) q) ∧
    ∃ q q', l.getLast? = some q ∧ l'.getLast? = some q' ∧ q.2 < q'.2 := by
  obtain ⟨l, h, -⟩ := C32_curve (RQD := 50) (len := 20) (rock (qu := 1000) num)
  obtain ⟨l', h', -⟩ := C32_curve (RQD := 50) (len := 20) (rock (qu := 2000) num)
  obtain ⟨q, q', h1, h2, -, h3⟩ := C83_rock_ultimate (rock num) (rock num) num h h'
  exact ⟨l, l', h, h', C32_law (rock num) h, q, q', h1, h2, h3 num⟩

/-- `C32_elastic`: rock of 1000 kPa. -/
example : ∃ l, reeseRock 100000 1000 50 2 1 (5 / 10000) 20 = some l ∧ ∀ q ∈ l, q.2 ≤ 500 * 100000 * q.1 := by
  obtain ⟨l, h, -⟩ := C32_curve (RQD := 50) (len := 20) (rock (qu := 1000) num)
  refine ⟨l, h, C32_elastic (rock num) h ?_⟩
  have h1 : (1 / 10 : ℝ) ≤ (5 / 10000 * 1 : ℝ) ^ (1 / 4 : ℝ) := by
    have : (1 / 10 : ℝ) = ((1 / 10 : ℝ) ^ 4) ^ (1 / 4 : ℝ) := by
      rw [← Real.rpow_natCast, ← Real.rpow_mul num]; norm_num
    rw [this]
    exact Real.rpow_le_rpow num num num
  have h2 : rockUltimate 1000 50 2 1 ≤ 10000 := by norm_num [rockUltimate, fracture]
  have h3 : 100000 ≤ rockModulus 100000 2 1 := by norm_num [rockModulus]
  nlinarith

end OpenPile.Cases.Curves

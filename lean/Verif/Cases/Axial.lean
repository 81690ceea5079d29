/-
Concrete cases for C36 and for the axial part of C83.
-/
import Verif.Props.AxialModel
import Verif.Props.Stronger

namespace OpenPile.Cases.Axial
open OpenPile.Axial OpenPile.Params OpenPile.Props.Friction OpenPile.Props.Axial OpenPile.Props.AxialModel
open OpenPile.Props.Stronger

local macro "num" : term => `(by norm_num)

theorem random : IsRandom (fun _ => 1 / 2) := fun _ => by norm_num

/-- A clay whose strength grows from 40 to 60 kPa, with the default limit of the adhesion factor. -/
noncomputable def clay (p : Plugging) : ClayAxial :=
  { Su := .list [40, 60], plugging := p, alphaLimit := 1, tMul := 1, zMul := 1, qMul := 1,
    wMul := 1, tResidual := 0.9, tensionMul := 1 }

theorem clay_su (p : Plugging) : layered (clay p).Su 5 10 = some 50 := by
  norm_num [layered, topBottom, clay]

theorem clay_case (p : Plugging) : ClayCase (clay p) 9 10 3 := by constructor <;> norm_num [clay]

theorem clay_friction (p : Plugging) : ∃ f, (clay p).unitShaftFriction 50 5 10 = some f := by
  obtain ⟨f, h, -⟩ := C35_clay_bounds 50 50 1 num num num
  refine ⟨f, ?_⟩
  unfold ClayAxial.unitShaftFriction
  rw [clay_su]
  exact h

/-- `C36_clay_partial`: an open-ended pile. -/
example : ∃ f c, (clay .none).unitShaftFriction 50 5 10 = some f ∧
    (clay .none).tzSpring 9 10 50 10 5 3 15 (fun _ => 1 / 2) stableArgsort = some c ∧
    IsGreatest (forces c) (f * contact (PluggedC Plugging.none) 9 10 * 1) := by
  obtain ⟨f, hf⟩ := clay_friction .none
  obtain ⟨c, h, h1, -⟩ := C36_clay_partial (clay .none) 9 10 50 10 5 3 50 f 15 _ _ random stableArgsort_spec
    (clay_case _) num (clay_su _) num hf (min_le_right _ _) le_rfl
  exact ⟨f, c, hf, h, h1⟩

/-- `C36_violated_clay_tension`: a plugged pile. -/
example : ∃ f c, (clay .both).unitShaftFriction 50 5 10 = some f ∧
    (clay .both).tzSpring 9 10 50 10 5 3 15 (fun _ => 1 / 2) stableArgsort = some c ∧
    IsLeast (forces c) (-(1 * f * 9 * 1)) := by
  obtain ⟨f, hf⟩ := clay_friction .both
  obtain ⟨c, h, h1, -⟩ := C36_violated_clay_tension (clay .both) 9 10 50 10 5 3 50 f 15 _ _ random
    stableArgsort_spec (clay_case _) num (clay_su _) num rfl hf (Or.inr rfl)
  exact ⟨f, c, hf, h, h1⟩

/-- `C36_clay_tip`. -/
example : (clay .both).unitTipResistance 5 10 = some 450 ∧
    ∃ c, (clay .both).qzSpring 1 7 10 5 3 15 (fun _ => 1 / 2) stableArgsort = some c ∧
      ∀ p ∈ c.1.zip c.2, p.1 ≤ 0 → p.2 = 0 := by
  have hq : (clay .both).unitTipResistance 5 10 = some 450 := by
    unfold ClayAxial.unitTipResistance
    rw [clay_su]
    norm_num [qmaxClay]
  obtain ⟨c, h, -, h1⟩ := C36_clay_tip (clay .both) 1 7 10 5 3 450 15 _ _ random stableArgsort_spec num
    (by norm_num [clay]) num hq
  exact ⟨hq, c, h, fun p hp => (h1 p hp).1⟩

/-- A sand of 25 degrees. -/
noncomputable def sand (p : Plugging) : SandAxial :=
  { delta := .scalar 25, K := 8 / 10, plugging := p, tMul := 1, zMul := 1, qMul := 1, wMul := 1,
    insideFriction := 1, tensionMul := 1 }

theorem sand_delta (p : Plugging) : layered (sand p).delta 5 10 = some 25 := by
  norm_num [layered, topBottom, sand]

theorem sand_case (p : Plugging) : SandCase (sand p) 9 10 := by constructor <;> norm_num [sand]

theorem sand_friction (p : Plugging) : ∃ f, (sand p).unitShaftFriction 50 5 10 = some f ∧ 0 < f := by
  obtain ⟨f, h⟩ := C35_sand_total 50 25 (8 / 10)
  obtain ⟨-, -, -, h2⟩ := C35_sand_bounds_partial 50 25 (8 / 10) f num num num num h
  refine ⟨f, ?_, h2 num num num⟩
  unfold SandAxial.unitShaftFriction
  rw [sand_delta]
  exact h

/-- `C36_sand_partial`: an open-ended pile. -/
example : ∃ f c, (sand .none).unitShaftFriction 50 5 10 = some f ∧
    (sand .none).tzSpring 9 10 50 10 5 15 (fun _ => 1 / 2) stableArgsort = some c ∧
    IsGreatest (forces c) (f * contact (PluggedC Plugging.none) 9 10 * 1) := by
  obtain ⟨f, hf, h0⟩ := sand_friction .none
  obtain ⟨c, h, h1, -⟩ := C36_sand_partial (sand .none) 9 10 50 10 5 f 15 _ _ random stableArgsort_spec
    (sand_case _) hf h0.le
  exact ⟨f, c, hf, h, h1⟩

/-- `C36_violated_sand_tension`: a plugged pile really pulls less than the outer circumference carries. -/
example : ∃ f c, (sand .both).unitShaftFriction 50 5 10 = some f ∧
    (sand .both).tzSpring 9 10 50 10 5 15 (fun _ => 1 / 2) stableArgsort = some c ∧
    ¬ IsLeast (forces c) (-(1 * f * 10 * 1)) := by
  obtain ⟨f, hf, h0⟩ := sand_friction .both
  obtain ⟨c, h, -, h1⟩ := C36_violated_sand_tension (sand .both) 9 10 50 10 5 f 15 _ _ random stableArgsort_spec
    (sand_case _) hf h0.le (Or.inr rfl)
  exact ⟨f, c, hf, h, h1 (by norm_num [sand]) (by norm_num [sand]) h0 num⟩

/-- `C36_sand_tip`. -/
example : ∃ q c, (sand .both).unitTipResistance 50 5 10 = some q ∧
    (sand .both).qzSpring 1 7 50 10 5 3 15 (fun _ => 1 / 2) stableArgsort = some c ∧
      ∀ p ∈ c.1.zip c.2, p.1 ≤ 0 → p.2 = 0 := by
  obtain ⟨q, hq⟩ := C35_bearing_total 50 25
  have hq' : (sand .both).unitTipResistance 50 5 10 = some q := by
    unfold SandAxial.unitTipResistance
    rw [sand_delta]
    exact hq
  obtain ⟨c, h, -, h1⟩ := C36_sand_tip (sand .both) 1 7 50 10 5 3 q 15 _ _ random stableArgsort_spec num
    (by norm_num [sand]) num hq'
  exact ⟨q, c, hq', h, fun p hp => (h1 p hp).1⟩

/-! ### stronger soils -/

/-- `C83_tz_clay`. -/
example : ∃ c c', tzApiClay 50 40 2 1 (9 / 10) 1 15 (fun _ => 1 / 2) stableArgsort = some c ∧
    tzApiClay 60 80 2 1 (9 / 10) 1 15 (fun _ => 1 / 2) stableArgsort = some c' ∧ Enlarged c c' := by
  obtain ⟨f, hf, -⟩ := C35_clay_bounds 50 40 1 num num num
  obtain ⟨f', hf', -⟩ := C35_clay_bounds 60 80 1 num num num
  obtain ⟨c, h, -⟩ := C33_tz_clay 50 40 2 1 (9 / 10) 1 f 15 _ _ random stableArgsort_spec num hf
  obtain ⟨c', h', -⟩ := C33_tz_clay 60 80 2 1 (9 / 10) 1 f' 15 _ _ random stableArgsort_spec num hf'
  exact ⟨c, c', h, h', C83_tz_clay num num num num num h h'⟩

/-- `C83_qz_clay`. -/
example : ∃ c c', qzApiClay 40 2 15 (fun _ => 1 / 2) stableArgsort = some c ∧
    qzApiClay 80 2 15 (fun _ => 1 / 2) stableArgsort = some c' ∧ Enlarged c c' := by
  obtain ⟨c, h, -⟩ := C33_qz_clay 40 2 15 _ _ random stableArgsort_spec num num
  obtain ⟨c', h', -⟩ := C33_qz_clay 80 2 15 _ _ random stableArgsort_spec num num
  exact ⟨c, c', h, h', C83_qz_clay num num h h'⟩

/-- `C83_tz_sand`. -/
example : ∃ c c', tzApiSand 50 25 (8 / 10) 1 15 (fun _ => 1 / 2) stableArgsort = some c ∧
    tzApiSand 60 30 1 1 15 (fun _ => 1 / 2) stableArgsort = some c' ∧ Enlarged c c' := by
  obtain ⟨f, hf⟩ := C35_sand_total 50 25 (8 / 10)
  obtain ⟨f', hf'⟩ := C35_sand_total 60 30 1
  obtain ⟨c, h, -⟩ := C33_tz_sand 50 25 (8 / 10) 1 f 15 _ _ random stableArgsort_spec hf
  obtain ⟨c', h', -⟩ := C33_tz_sand 60 30 1 1 f' 15 _ _ random stableArgsort_spec hf'
  exact ⟨c, c', h, h', C83_tz_sand num num num num num num num h h'⟩

/-- `C83_qz_sand`. -/
example : ∃ c c', qzApiSand 50 25 2 15 (fun _ => 1 / 2) stableArgsort = some c ∧
    qzApiSand 60 30 2 15 (fun _ => 1 / 2) stableArgsort = some c' ∧ Enlarged c c' := by
  obtain ⟨f, hf⟩ := C35_bearing_total 50 25
  obtain ⟨f', hf'⟩ := C35_bearing_total 60 30
  obtain ⟨c, h, -⟩ := C33_qz_sand 50 25 2 f 15 _ _ random stableArgsort_spec num hf
    (C35_bearing_bounds 50 25 f num hf).1
  obtain ⟨c', h', -⟩ := C33_qz_sand 60 30 2 f' 15 _ _ random stableArgsort_spec num hf'
    (C35_bearing_bounds 60 30 f' num hf').1
  exact ⟨c, c', h, h', C83_qz_sand num num num h h'⟩

end OpenPile.Cases.Axial

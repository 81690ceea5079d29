/-
Cases of C63 and C64: Models with API and PISA layers that are created, and their rotational springs.
-/
import Verif.Props.Capacity
import Verif.Props.Rotational

namespace OpenPile.Props.Creation
open OpenPile OpenPile.Assemble OpenPile.SoilModel OpenPile.Params OpenPile.Axial OpenPile.Spec.Rotational
open OpenPile.Props.Assemble OpenPile.Props.Capacity OpenPile.Props.Rotational OpenPile.Spec.Sound

/-- **C63, base.** Piles with their tip in an API layer or weak rock have no springs at the base but the axial one. -/
theorem C63_base_off {S : Input} {env : Draws} {A : Arrays} (hA : createSprings S env = some A) {r : Row}
    (ht : TipRow S r) (hp : r.bottom ≤ r.top) {l : SoilLayer} (hl : owners S r = [l]) {m : SoilModel.Model}
    (hm : l.lateral = some m) (hoff : WithoutBase m) :
    A.hb = List.replicate 15 (0, 0) ∧ A.mb = List.replicate 15 (0, 0) := by
  constructor
  · apply (C47_hb_partial hA ht hp hl).2
    exact Or.inr (Or.inr ⟨m, hm, by cases m <;> first | rfl | exact absurd hoff id⟩)
  · apply (C47_mb_partial hA ht hp hl).2
    exact Or.inr (Or.inr ⟨m, hm, by cases m <;> first | rfl | exact absurd hoff id⟩)

/-! ## The tube of 2 m diameter, 10 m in one layer of 20 m -/

noncomputable def tube : Pile.Pile ℝ := ⟨[⟨1, -10, 2, 1 / 20⟩], Pile.steel⟩

noncomputable def soil (m : SoilModel.Model) : SoilProfile := ⟨0, -1, [⟨⟨0, -20, 18⟩, some m, some (.clay axialExample)⟩]⟩

theorem created {m : SoilModel.Model} (hm : Spec.Sound.Lateral 2 10 m) (w : Switches) :
    ∃ (C : Mesh.Coordinates ℝ) (S : Input) (water : ℝ) (fc ft : ℕ → Bool → ℝ) (A : Arrays),
      Mesh.getCoordinates tube (some (soil m).geometry) [] 1 = some C ∧
      input tube (soil m) [] 1 w (Model.stableRows tube) = some S ∧ water ≤ (soil m).waterLine ∧
      (soil m).waterLine - water ≤ 1 + 1 / 10000 ∧
      S.layers = (soil m).layers ∧ S.tip = -10 ∧
      (∀ z, z ≤ (soil m).topElevation → 0 ≤ Spec.Soil.stressAt water z (soil m).geometry.layers) ∧
      (∀ r ∈ S.rows, r.bottom < r.top ∧ (∃ s ∈ tube.sections, r.sec = some s) ∧
        (r.top ≤ (soil m).topElevation → (∃ l, owners S r = [l]) ∧
          r.sigTop = some (Spec.Soil.stressAt water r.top (soil m).geometry.layers) ∧
          r.sigBottom = some (Spec.Soil.stressAt water r.bottom (soil m).geometry.layers))) ∧
      (∃ r, TipRow S r ∧ r.top ≤ (soil m).topElevation) ∧ Frictions S fc ft ∧
      createSprings S drawsExample = some A := by
  have hSu : ∀ d, Params.layered axialExample.Su d (0 - -20) = some 50 := by
    intro d
    norm_num [axialExample, Params.layered, Params.topBottom]
  refine C64_setup (setup_example (some m) (some (.clay axialExample))) w
    (table := Model.stableRows tube) ⟨Py.sortedBy_perm _ _, Py.sortedBy_pairwise _ _⟩ good_draws.1 good_draws.2
    good_lateral ?_ ?_
  · intro l hl m hm
    simp only [List.mem_singleton] at hl
    subst hl
    cases hm
    refine ⟨fun d _ _ => ⟨50, hSu d, by norm_num⟩, ?_, ?_, ?_, ?_, ?_⟩ <;> norm_num [axialExample]
  · intro l hl m' hm' s hs
    simp only [List.mem_singleton] at hl hs
    subst hl hs
    cases hm'
    norm_num
    exact hm

/-- Clay of 40 kPa with moment-rotation springs, and without. -/
noncomputable def clay (b : Bool) : MatlockClay :=
  ⟨.api, .scalar 40, .scalar (1 / 100), 1 / 4, .static, .num 1, .num 1, b⟩

theorem sound_clay (b : Bool) : Spec.Sound.Lateral 2 10 (.matlock (clay b)) :=
  ⟨⟨_, _, .scalar _, by norm_num, by norm_num⟩, ⟨_, _, .scalar _, by norm_num, by norm_num⟩, by norm_num [clay],
    trivial, trivial⟩

/-- PISA clay: `Cowden` or `Bothkennar`. -/
theorem sound_pisa (k : ClayKind) :
    Spec.Sound.Lateral 2 10 (.pisaClay ⟨k, .scalar 60, .list [1000, 20000], .num 1, .num 1, .num 1, .num 1⟩) :=
  ⟨⟨by norm_num, by norm_num⟩, ⟨_, _, .scalar _, by norm_num, by norm_num⟩, ⟨_, _, .pair _ _, by norm_num, by norm_num⟩,
    trivial, trivial, trivial, trivial⟩

theorem sound_dunkirk : Spec.Sound.Lateral 2 10 (.dunkirk ⟨.scalar 45, .list [1000, 20000], .num 1, .num 1, .num 1, .num 1⟩) :=
  ⟨⟨by norm_num, by norm_num⟩, ⟨_, _, .scalar _, by norm_num, by norm_num, by norm_num, by norm_num⟩,
    ⟨_, _, .pair _ _, by norm_num, by norm_num⟩, trivial, trivial, trivial, trivial⟩

/-- Models with the tube in any of the lateral soils above and a clay for the axial springs are created. -/
example (w : Switches) (b : Bool) (k : ClayKind) :
    (∃ A, modelSprings tube (soil (.matlock (clay b))) [] 1 w (Model.stableRows tube) drawsExample = some A) ∧
    (∃ A, modelSprings tube
      (soil (.pisaClay ⟨k, .scalar 60, .list [1000, 20000], .num 1, .num 1, .num 1, .num 1⟩)) [] 1 w
      (Model.stableRows tube) drawsExample = some A) ∧
    (∃ A, modelSprings tube
      (soil (.dunkirk ⟨.scalar 45, .list [1000, 20000], .num 1, .num 1, .num 1, .num 1⟩)) [] 1 w
      (Model.stableRows tube) drawsExample = some A) := by
  refine ⟨?_, ?_, ?_⟩
  · obtain ⟨C, S, water, fc, ft, A, -, hS, -, -, -, -, -, -, -, -, hA⟩ := created (sound_clay b) w
    exact ⟨A, by rw [modelSprings, hS]; exact hA⟩
  · obtain ⟨C, S, water, fc, ft, A, -, hS, -, -, -, -, -, -, -, -, hA⟩ := created (sound_pisa k) w
    exact ⟨A, by rw [modelSprings, hS]; exact hA⟩
  · obtain ⟨C, S, water, fc, ft, A, -, hS, -, -, -, -, -, -, -, -, hA⟩ := created sound_dunkirk w
    exact ⟨A, by rw [modelSprings, hS]; exact hA⟩

/-- The stress at the tip is positive. -/
theorem stress_tip (m : SoilModel.Model) {water : ℝ} (h : water ≤ -1) :
    0 < Spec.Soil.stressAt water (-10) (soil m).geometry.layers := by
  simp only [soil, SoilProfile.geometry, List.map_cons, List.map_nil, Spec.Soil.stressAt, List.sum_cons, List.sum_nil,
    add_zero, Spec.Soil.layerStress]
  have h1 : max (-20 : ℝ) (min 0 (-10)) = -10 := by norm_num
  have h2 : max water (-10) ≤ -1 := max_le h (by norm_num)
  have h3 : min (0 : ℝ) (max water (-10)) ≤ -1 := (min_le_right _ _).trans h2
  norm_num at h1 ⊢
  linarith

/-- With the springs asked for, the tip has 15 equal rotational springs; without, none; and the tip has no base shear
and moment in either case. -/
example (b : Bool) : ∃ (S : Input) (A : Arrays) (j : ℕ),
    input tube (soil (.matlock (clay b))) [] 1 ⟨true, true, true, true, true, true⟩ (Model.stableRows tube) = some S ∧
    createSprings S drawsExample = some A ∧ j + 1 = S.rows.length ∧
    (b = true → ∃ f, 0 < f ∧ ∀ c ∈ A.mt j true, MomentCurve 2 1 (scaled 2 f (clayNodes 1 1)) c) ∧
    (b = false → A.mt j true = List.replicate 15 (List.replicate 15 (0, 0))) ∧
    A.hb = List.replicate 15 (0, 0) := by
  obtain ⟨C, S, water, fc, ft, A, -, hS, hw, -, hlay, htip, -, hrows, ⟨r, hr, hrg⟩, -, hA⟩ :=
    created (sound_clay b) ⟨true, true, true, true, true, true⟩
  have hrm : r ∈ S.rows := List.mem_of_getLast? hr.last
  obtain ⟨h1, ⟨sec, hsm, hsec⟩, h2⟩ := hrows r hrm
  simp only [tube, List.mem_singleton] at hsm
  obtain ⟨⟨l, hl⟩, -, e2⟩ := h2 hrg
  have hlm : l ∈ S.layers := (List.mem_filter.1 (by show l ∈ owners S r; rw [hl]; exact List.mem_singleton.2 rfl)).1
  rw [hlay] at hlm
  simp only [soil, List.mem_singleton] at hlm
  have hjr := last_get hr
  have hon : S.distributedMoment = true := by
    simp only [input, Option.bind_eq_bind, Option.bind_eq_some_iff, Option.pure_def, Option.some.injEq] at hS
    obtain ⟨rows, -, tip, -, -, -, -, -, rfl⟩ := hS
    rfl
  have hne : S.rows ≠ [] := List.ne_nil_of_mem hrm
  refine ⟨S, A, S.rows.length - 1, hS, hA, Nat.sub_add_cancel (List.length_pos_iff.2 hne), ?_, ?_, ?_⟩
  · rintro rfl
    have hrt : r.bottom = -10 := hr.tip.trans htip
    have hsig := stress_tip (.matlock (clay true)) (water := water) hw
    rw [hrt] at e2
    have hf := Friction.C35_clay_law _ 40 1 hsig (by norm_num)
    have hf0 : 0 < min (Friction.adhesion (40 / Spec.Soil.stressAt water (-10)
        (soil (.matlock (clay true))).geometry.layers)) 1 * 40 :=
      mul_pos (lt_min (Friction.adhesion_pos (div_pos (by norm_num) hsig)) one_pos) (by norm_num)
    refine ⟨_, hf0, fun c hc => ?_⟩
    · have := (C63_model_clay (env := drawsExample) good_lateral.2 hA hjr hl (s := clay true) (by rw [hlm]) rfl hon true hsec
        (by rw [hsm]; norm_num) (by rw [hlm, levelAt, if_pos rfl, hrt]; norm_num) (Su := 40)
        (by rw [hlm, levelAt, if_pos rfl, hrt]; norm_num [clay, layered, topBottom]) e2
        hf hf0.le).2 c hc
      rw [hsm] at this
      exact this.2
  · rintro rfl
    exact C63_off hA hjr hl (m := .matlock (clay false)) (by rw [hlm]) (Or.inl rfl) true
  · exact (C63_base_off hA hr h1.le hl (m := .matlock (clay b)) (by rw [hlm]) trivial).1

/-- Sand with a friction angle of 35 degrees and moment-rotation springs. -/
noncomputable def sand : ApiSand := ⟨.scalar 35, .cyclic, none, none, .num 1, .num 1, true⟩

theorem sound_sand : Spec.Sound.Lateral 2 10 (.apiSand sand) :=
  ⟨⟨35, by norm_num, _, _, .scalar _, by norm_num, by norm_num, by norm_num, by norm_num⟩, (fun _ h => by cases h), trivial,
    trivial⟩

/-- The tip in sand: the rotational springs carry the friction in proportion to the lateral resistance. -/
example : ∃ (S : Input) (A : Arrays) (j : ℕ) (f pmax : ℝ),
    input tube (soil (.apiSand sand)) [] 1 ⟨true, true, true, true, true, true⟩ (Model.stableRows tube) = some S ∧
    createSprings S drawsExample = some A ∧ j + 1 = S.rows.length ∧ 0 < f ∧ 0 < pmax ∧
    List.Forall₂ (fun q c => c.length = 15 ∧ (0 ≤ q.2 → MomentCurve 2 (q.2 / pmax) (scaled 1 f (sandNodes 1)) c))
      (A.py j true) (A.mt j true) := by
  obtain ⟨C, S, water, fc, ft, A, -, hS, hw, -, hlay, htip, -, hrows, ⟨r, hr, hrg⟩, -, hA⟩ :=
    created sound_sand ⟨true, true, true, true, true, true⟩
  have hrm : r ∈ S.rows := List.mem_of_getLast? hr.last
  obtain ⟨h1, ⟨sec, hsm, hsec⟩, h2⟩ := hrows r hrm
  simp only [tube, List.mem_singleton] at hsm
  obtain ⟨⟨l, hl⟩, -, e2⟩ := h2 hrg
  have hlm : l ∈ S.layers := (List.mem_filter.1 (by show l ∈ owners S r; rw [hl]; exact List.mem_singleton.2 rfl)).1
  rw [hlay] at hlm
  simp only [soil, List.mem_singleton] at hlm
  have hjr := last_get hr
  have hon : S.distributedMoment = true ∧ S.distributedLateral = true ∧ S.ground = 0 := by
    simp only [input, Option.bind_eq_bind, Option.bind_eq_some_iff, Option.pure_def, Option.some.injEq] at hS
    obtain ⟨rows, -, tip, -, -, -, -, -, rfl⟩ := hS
    exact ⟨rfl, rfl, rfl⟩
  have hne : S.rows ≠ [] := List.ne_nil_of_mem hrm
  have hrt : r.bottom = -10 := hr.tip.trans htip
  have hsig := stress_tip (.apiSand sand) (water := water) hw
  rw [hrt] at e2
  obtain ⟨f, hf⟩ := Friction.C35_sand_total (Spec.Soil.stressAt water (-10) (soil (.apiSand sand)).geometry.layers)
    (35 - 5) 0.8
  have hf0 := (Friction.C35_sand_bounds_partial _ (35 - 5) 0.8 f hsig.le (by norm_num) (by norm_num)
    (by norm_num) hf).2.2.2 hsig (by norm_num) (by norm_num)
  -- the lateral spring
  obtain ⟨sig', sec', f1, f2, f3⟩ := (C54_py hA hjr hl true).1 (.apiSand sand) (by rw [hlm]) hon.2.1
  have h1' := Option.some.inj (f1.symm.trans e2)
  have h2' : sec' = sec := Option.some.inj (f2.symm.trans hsec)
  subst h1' h2'
  have h3 : sand.py _ = some (A.py (S.rows.length - 1) true) := f3
  have hX : |r.bottom - S.ground| = 10 := by rw [hrt, hon.2.2]; norm_num
  have hphi : layered (.scalar 35) (l.top - r.bottom) (l.top - l.bottom) = some 35 := by
    rw [hlm, hrt]; norm_num [layered, topBottom]
  unfold ApiSand.py SoilModel.guard ApiSand.subgrade at h3
  rw [if_neg (by rw [hlm]; norm_num [hrt])] at h3
  simp only [if_true, hX] at h3
  have h3' := h3
  rw [show sand.phi = .scalar 35 from rfl, hphi] at h3'
  simp only [sand, Option.bind_eq_bind, Option.bind_some, Option.bind_eq_some_iff] at h3'
  obtain ⟨l', hl', h4⟩ := h3'
  rw [Layer.multiply_one, Option.some.injEq] at h4
  have hD : (0 : ℝ) < sec'.diameter := by rw [hsm]; norm_num
  obtain ⟨y, p, -, hlast, -, -, hp⟩ := Lateral.C30_default_end (by norm_num) (by norm_num) hsig (by norm_num) hD hl'
  have hP := (Lateral.C30_ultimate (sig := Spec.Soil.stressAt water (-10) (soil (.apiSand sand)).geometry.layers)
    (X := 10) (phi := 35) (D := sec'.diameter) (by norm_num) (by norm_num) hsig.le
    (by norm_num) hD).2 ⟨hsig, by norm_num⟩
  have hF : 0 < Lateral.factor .cyclic 10 sec'.diameter :=
    lt_of_lt_of_le (by norm_num) (Lateral.factor_pos .cyclic 10 sec'.diameter)
  have hp0 : 0 < p := lt_trans (mul_pos (by norm_num) (mul_pos hF hP)) hp
  have hne' : l'.map Prod.snd ≠ [] := by
    intro h
    rw [List.map_eq_nil_iff] at h
    rw [h] at hlast
    cases hlast
  obtain ⟨m, hm⟩ : ∃ m, (l'.map Prod.snd).max? = some m := by
    cases h : (l'.map Prod.snd).max? with
    | none => exact absurd (List.max?_eq_none_iff.1 h) hne'
    | some m => exact ⟨m, rfl⟩
  rw [List.max?_eq_some_iff] at hm
  obtain ⟨q, hq, rfl⟩ := List.mem_map.1 hm.1
  have hmax : ∀ r ∈ l', r.2 ≤ q.2 := fun r hr => hm.2 _ (List.mem_map_of_mem hr)
  have hq0 : 0 < q.2 := lt_of_lt_of_le hp0 (hmax _ (List.mem_of_getLast? hlast))
  rw [h4] at hq hmax
  have := C63_model_sand (env := drawsExample) good_lateral.2 hA hjr hl (s := sand) (by rw [hlm]) rfl hon.2.1 hon.1
    true hsec hD (by rw [hlm, levelAt, if_pos rfl, hrt]; norm_num) (phi := 35) hphi e2 hf hf0.le
    hq hmax
  rw [hsm] at this
  exact ⟨S, A, S.rows.length - 1, f, q.2, hS, hA, Nat.sub_add_cancel (List.length_pos_iff.2 hne), hf0, hq0, this⟩

end OpenPile.Props.Creation

/-
C33: API t-z and Q-z curves.
-/
import Verif.Lemmas.Axial
import Mathlib.Tactic.NormNum

namespace OpenPile.Props.Axial
open OpenPile.Axial OpenPile.Spring OpenPile.Spec.Spring OpenPile.Props.Spring

theorem split_clay (res tens : ℝ) (len : ℕ) (draws : ℕ → ℝ) (argsort : List ℝ → List ℕ) :
    backboneClay res tens len draws argsort = complete
      ([-(300 / 10000), -(200 / 10000), -(100 / 10000), -(80 / 10000), -(57 / 10000), -(31 / 10000),
        -(16 / 10000), 0, 16 / 10000, 31 / 10000, 57 / 10000, 80 / 10000, 100 / 10000]
        ++ (200 / 10000) :: [300 / 10000])
      ([-tens * res, -tens * res, -tens * 1, -tens * (90 / 100), -tens * (75 / 100), -tens * (5 / 10),
        -tens * (3 / 10), 0, 3 / 10, 5 / 10, 75 / 100, 90 / 100, 1]
        ++ List.replicate ((200 / 10000 : ℝ) :: [300 / 10000]).length res)
      (max 15 len) (fun r => 2 / 100 + r * (1 / 100)) res draws argsort := by
  unfold backboneClay mirror
  simp only [List.drop_succ_cons, List.drop_zero, List.reverse_cons, List.reverse_nil,
    List.nil_append, List.cons_append, List.map_cons, List.map_nil, neg_mul, one_mul,
    List.length_cons, List.length_nil, zero_add, List.replicate]

/-- Points of a clay t-z backbone: API points in tension and compression, and points of residual
friction between 2% and 3% of the diameter. -/
theorem C33_backbone_clay (res tens : ℝ) (len : ℕ) (draws : ℕ → ℝ) (argsort : List ℝ → List ℕ)
    (hr : IsRandom draws) (hs : ∀ z, IsArgsort z (argsort z)) :
    ∃ c, backboneClay res tens len draws argsort = some c ∧ Curve (max 15 len) c ∧
      (∀ q ∈ clayNodes res tens, q ∈ c.1.zip c.2) ∧
      (∀ q ∈ c.1.zip c.2, q ∈ clayNodes res tens ∨ q = (-0.03, -(tens * res)) ∨
        (0.02 ≤ q.1 ∧ q.1 ≤ 0.03 ∧ q.2 = res)) ∧
      ∀ x, interp x (c.1.zip c.2) = interp x (clayNodes res tens) := by
  rw [split_clay]
  obtain ⟨c, h1, h2, h3, h4⟩ := complete_curve
    (A := [-(300 / 10000), -(200 / 10000), -(100 / 10000), -(80 / 10000), -(57 / 10000),
        -(31 / 10000), -(16 / 10000), 0, 16 / 10000, 31 / 10000, 57 / 10000, 80 / 10000, 100 / 10000])
    (B := [300 / 10000]) (b := 200 / 10000) (len := max 15 len)
    (S := [-tens * res, -tens * res, -tens * 1, -tens * (90 / 100), -tens * (75 / 100),
        -tens * (5 / 10), -tens * (3 / 10), 0, 3 / 10, 5 / 10, 75 / 100, 90 / 100, 1])
    (add := fun r => 2 / 100 + r * (1 / 100)) (tail := res) (draws := draws) hs
    (by norm_num) rfl (by norm_num) (by norm_num)
    (fun i => by have := (hr i).1; norm_num; linarith) (by simp)
  refine ⟨c, h1, h2, ?_, ?_, ?_⟩
  · intro q hq
    rw [h3]
    simp only [clayNodes, List.mem_cons, List.not_mem_nil, or_false] at hq
    simp only [List.zip_cons_cons, List.zip_nil_right, List.mem_cons, List.not_mem_nil, or_false]
    rcases hq with rfl | rfl | rfl | rfl | rfl | rfl | rfl | rfl | rfl | rfl | rfl | rfl | rfl <;>
      norm_num
  · intro q hq
    rw [h3] at hq
    simp only [List.zip_cons_cons, List.zip_nil_right, List.mem_cons, List.not_mem_nil, or_false]
      at hq
    rcases hq with h | ⟨h, h'⟩
    · rw [← or_assoc]
      left
      simp only [clayNodes, List.mem_cons, List.not_mem_nil, or_false]
      rcases h with rfl | rfl | rfl | rfl | rfl | rfl | rfl | rfl | rfl | rfl | rfl | rfl | rfl <;>
        norm_num
    · right; right
      rcases h' with h' | h' | ⟨i, _, h'⟩
      · exact ⟨by rw [h']; norm_num, by rw [h']; norm_num, h⟩
      · exact ⟨by rw [h']; norm_num, by rw [h']; norm_num, h⟩
      · have := hr i
        exact ⟨by rw [h']; norm_num; linarith, by rw [h']; norm_num; linarith, h⟩
  · intro x
    rw [h4]
    simp only [List.zip_cons_cons, List.zip_nil_right, List.cons_append, List.nil_append]
    rw [interp_flat_head x _ _ _ (by norm_num)]
    congr 1
    simp only [clayNodes]
    norm_num

theorem split_sand (tens : ℝ) (len : ℕ) (draws : ℕ → ℝ) (argsort : List ℝ → List ℕ) :
    backboneSand tens len draws argsort = complete
      ([-(40 / 1000), -(38 / 1000), -(36 / 1000), -(34 / 1000), -(32 / 1000), -(30 / 1000),
        -(254 / 10000), 0, 254 / 10000, 30 / 1000, 32 / 1000, 34 / 1000, 36 / 1000]
        ++ (38 / 1000) :: [40 / 1000])
      ([-tens * 1, -tens * 1, -tens * 1, -tens * 1, -tens * 1, -tens * 1, -tens * 1, 0, 1, 1, 1, 1, 1]
        ++ List.replicate ((38 / 1000 : ℝ) :: [40 / 1000]).length 1)
      (max 15 len) (fun r => 38 / 1000 + r * (1 / 100)) 1 draws argsort := by
  unfold backboneSand mirror
  simp only [List.drop_succ_cons, List.drop_zero, List.reverse_cons, List.reverse_nil,
    List.nil_append, List.cons_append, List.map_cons, List.map_nil, neg_mul, one_mul,
    List.length_cons, List.length_nil, zero_add, List.replicate]

/-- Points of a sand t-z backbone: linear up to one inch, full friction beyond. -/
theorem C33_backbone_sand (tens : ℝ) (len : ℕ) (draws : ℕ → ℝ) (argsort : List ℝ → List ℕ)
    (hr : IsRandom draws) (hs : ∀ z, IsArgsort z (argsort z)) :
    ∃ c, backboneSand tens len draws argsort = some c ∧ Curve (max 15 len) c ∧
      (∀ q ∈ sandNodes tens, q ∈ c.1.zip c.2) ∧
      (∀ q ∈ c.1.zip c.2, q ∈ sandNodes tens ∨ (-0.04 ≤ q.1 ∧ q.1 ≤ -0.0254 ∧ q.2 = -tens) ∨
        (0.0254 ≤ q.1 ∧ q.1 < 0.048 ∧ q.2 = 1)) ∧
      ∀ x, interp x (c.1.zip c.2) = interp x (sandNodes tens) := by
  rw [split_sand]
  obtain ⟨c, h1, h2, h3, h4⟩ := complete_curve
    (A := [-(40 / 1000), -(38 / 1000), -(36 / 1000), -(34 / 1000), -(32 / 1000), -(30 / 1000),
        -(254 / 10000), 0, 254 / 10000, 30 / 1000, 32 / 1000, 34 / 1000, 36 / 1000])
    (B := [40 / 1000]) (b := 38 / 1000) (len := max 15 len)
    (S := [-tens * 1, -tens * 1, -tens * 1, -tens * 1, -tens * 1, -tens * 1, -tens * 1, 0, 1, 1, 1, 1,
        1])
    (add := fun r => 38 / 1000 + r * (1 / 100)) (tail := 1) (draws := draws) hs
    (by norm_num) rfl (by norm_num) (by norm_num)
    (fun i => by have := (hr i).1; norm_num; linarith) (by simp)
  refine ⟨c, h1, h2, ?_, ?_, ?_⟩
  · intro q hq
    rw [h3]
    simp only [sandNodes, List.mem_cons, List.not_mem_nil, or_false] at hq
    simp only [List.zip_cons_cons, List.zip_nil_right, List.mem_cons, List.not_mem_nil, or_false]
    rcases hq with rfl | rfl | rfl <;> norm_num
  · intro q hq
    rw [h3] at hq
    simp only [List.zip_cons_cons, List.zip_nil_right, List.mem_cons, List.not_mem_nil, or_false]
      at hq
    rcases hq with h | ⟨h, h'⟩
    · simp only [sandNodes, List.mem_cons, List.not_mem_nil, or_false]
      rcases h with rfl | rfl | rfl | rfl | rfl | rfl | rfl | rfl | rfl | rfl | rfl | rfl | rfl <;>
        norm_num
    · right; right
      rcases h' with h' | h' | ⟨i, _, h'⟩
      · exact ⟨by rw [h']; norm_num, by rw [h']; norm_num, h⟩
      · exact ⟨by rw [h']; norm_num, by rw [h']; norm_num, h⟩
      · have := hr i
        exact ⟨by rw [h']; norm_num; linarith, by rw [h']; norm_num; linarith, h⟩
  · intro x
    rw [h4]
    simp only [List.zip_cons_cons, List.zip_nil_right, List.cons_append, List.nil_append]
    iterate 6 rw [interp_flat_head x _ _ _ (by norm_num)]
    have := interp_flat_tail x (254 / 10000) 1
      [(30 / 1000, 1), (32 / 1000, 1), (34 / 1000, 1), (36 / 1000, 1), (38 / 1000, 1)] (by simp)
      [(-(254 / 10000), -tens * 1), (0, 0)]
    simp only [List.cons_append, List.nil_append] at this
    rw [this]
    congr 1
    simp only [sandNodes]
    norm_num

theorem split_tip (len : ℕ) (draws : ℕ → ℝ) (argsort : List ℝ → List ℕ) :
    backboneTip len draws argsort = complete
      ([-(200 / 1000), -(150 / 1000), -(100 / 1000), -(73 / 1000), -(42 / 1000), -(13 / 1000),
        -(2 / 1000), 0, 2 / 1000, 13 / 1000, 42 / 1000, 73 / 1000]
        ++ (100 / 1000) :: [150 / 1000, 200 / 1000])
      ([0, 0, 0, 0, 0, 0, 0, 0, 25 / 100, 50 / 100, 75 / 100, 90 / 100]
        ++ List.replicate ((100 / 1000 : ℝ) :: [150 / 1000, 200 / 1000]).length 1)
      (max 15 len) (fun r => 1 / 10 + r * (1 / 10)) 1 draws argsort := by
  unfold backboneTip
  simp only [List.cons_append, List.nil_append, List.length_cons, List.length_nil, zero_add,
    List.replicate]

/-- Points of a Q-z backbone: no force in tension, API points in compression, full end bearing from
a tenth of the diameter. -/
theorem C33_backbone_tip (len : ℕ) (draws : ℕ → ℝ) (argsort : List ℝ → List ℕ)
    (hr : IsRandom draws) (hs : ∀ z, IsArgsort z (argsort z)) :
    ∃ c, backboneTip len draws argsort = some c ∧ Curve (max 15 len) c ∧
      (∀ q ∈ tipNodes, q ∈ c.1.zip c.2) ∧
      (∀ q ∈ c.1.zip c.2, q ∈ tipNodes ∨ (-0.2 ≤ q.1 ∧ q.1 < 0 ∧ q.2 = 0) ∨
        (0.1 ≤ q.1 ∧ q.1 ≤ 0.2 ∧ q.2 = 1)) ∧
      ∀ x, interp x (c.1.zip c.2) = interp x tipNodes := by
  rw [split_tip]
  obtain ⟨c, h1, h2, h3, h4⟩ := complete_curve
    (A := [-(200 / 1000), -(150 / 1000), -(100 / 1000), -(73 / 1000), -(42 / 1000), -(13 / 1000),
        -(2 / 1000), 0, 2 / 1000, 13 / 1000, 42 / 1000, 73 / 1000])
    (B := [150 / 1000, 200 / 1000]) (b := 100 / 1000) (len := max 15 len)
    (S := [0, 0, 0, 0, 0, 0, 0, 0, 25 / 100, 50 / 100, 75 / 100, 90 / 100])
    (add := fun r => 1 / 10 + r * (1 / 10)) (tail := 1) (draws := draws) hs
    (by norm_num) rfl (by norm_num) (by norm_num)
    (fun i => by have := (hr i).1; norm_num; linarith) (by simp)
  refine ⟨c, h1, h2, ?_, ?_, ?_⟩
  · intro q hq
    rw [h3]
    simp only [tipNodes, List.mem_cons, List.not_mem_nil, or_false] at hq
    simp only [List.zip_cons_cons, List.zip_nil_right, List.mem_cons, List.not_mem_nil, or_false]
    rcases hq with rfl | rfl | rfl | rfl | rfl | rfl <;> norm_num
  · intro q hq
    rw [h3] at hq
    simp only [List.zip_cons_cons, List.zip_nil_right, List.mem_cons, List.not_mem_nil, or_false]
      at hq
    rcases hq with h | ⟨h, h'⟩
    · simp only [tipNodes, List.mem_cons, List.not_mem_nil, or_false]
      rcases h with rfl | rfl | rfl | rfl | rfl | rfl | rfl | rfl | rfl | rfl | rfl | rfl <;>
        norm_num
    · right; right
      rcases h' with h' | (h' | h') | ⟨i, _, h'⟩
      · exact ⟨by rw [h']; norm_num, by rw [h']; norm_num, h⟩
      · exact ⟨by rw [h']; norm_num, by rw [h']; norm_num, h⟩
      · exact ⟨by rw [h']; norm_num, by rw [h']; norm_num, h⟩
      · have := hr i
        exact ⟨by rw [h']; norm_num; linarith, by rw [h']; norm_num; linarith, h⟩
  · intro x
    rw [h4]
    simp only [List.zip_cons_cons, List.zip_nil_right, List.cons_append, List.nil_append]
    iterate 7 rw [interp_flat_head x _ _ _ (by norm_num)]
    congr 1
    simp only [tipNodes]
    norm_num

/-! ### the curves handed to the solver -/

theorem scaled_asc {l : List (ℝ × ℝ)} (h : Asc l) {s c : ℝ} (hs : 0 < s) : Asc (scaled s c l) := by
  unfold Asc scaled
  rw [List.pairwise_map]
  exact h.imp fun hab => mul_lt_mul_of_pos_right hab hs

theorem clayNodes_asc (res tens : ℝ) : Asc (clayNodes res tens) := by
  unfold Asc clayNodes; norm_num

theorem sandNodes_asc (tens : ℝ) : Asc (sandNodes tens) := by unfold Asc sandNodes; norm_num

theorem tipNodes_asc : Asc tipNodes := by unfold Asc tipNodes; norm_num

/-- Interpolation in a scaled curve that interpolates like `nodes`. -/
theorem onCurve_scaled {c : List ℝ × List ℝ} {nodes : List (ℝ × ℝ)} (hn : Asc nodes) {s f : ℝ}
    (hs : 0 < s) (h : ∀ x, interp x (c.1.zip c.2) = interp x nodes) (x y : ℝ) :
    interp x ((scaleCurve s f c).1.zip (scaleCurve s f c).2) = some y ↔
      OnCurveBoth (scaled s f nodes) x y := by
  rw [zip_scaleCurve, interp_scaled s f hs, h, ← interp_scaled s f hs]
  exact interp_iff_both _ _ _ (scaled_asc hn hs)

/-- The clay t-z curve has the requested length (at least 15), ascending displacements, and whatever
the random points are the friction read from it is the API polygon scaled by the diameter and the unit
friction. -/
theorem C33_tz_clay (sig Su D al res tens f : ℝ) (len : ℕ) (draws : ℕ → ℝ)
    (argsort : List ℝ → List ℕ) (hr : IsRandom draws) (hs : ∀ z, IsArgsort z (argsort z))
    (hD : 0 < D) (hf : fmaxClay sig Su al = some f) :
    ∃ c, tzApiClay sig Su D al res tens len draws argsort = some c ∧ Curve (max 15 len) c ∧
      ∀ x y, interp x (c.1.zip c.2) = some y ↔ OnCurveBoth (scaled D f (clayNodes res tens)) x y := by
  obtain ⟨c, h1, h2, _, _, h5⟩ := C33_backbone_clay res tens (max 15 len) draws argsort hr hs
  refine ⟨scaleCurve D f c, by simp [tzApiClay, hf, h1], ?_, onCurve_scaled (clayNodes_asc _ _) hD h5⟩
  have := h2.scale hD.le f
  rwa [← max_assoc, max_self] at this

theorem rise_of_chain {l : List (ℝ × ℝ)} (h : l.IsChain (fun a b => a.1 < b.1 ∧ a.2 ≤ b.2))
    {p q : ℝ × ℝ} (hp : p ∈ l) (hq : q ∈ l) (hpq : p.1 ≤ q.1) : p.2 ≤ q.2 := by
  have : IsTrans (ℝ × ℝ) (fun a b => a.1 < b.1 ∧ a.2 ≤ b.2) :=
    ⟨fun a b c h h' => ⟨h.1.trans h'.1, h.2.trans h'.2⟩⟩
  have hw := List.pairwise_iff_getElem.1 (List.isChain_iff_pairwise.1 h)
  obtain ⟨i, hi, rfl⟩ := List.getElem_of_mem hp
  obtain ⟨j, hj, rfl⟩ := List.getElem_of_mem hq
  rcases lt_trichotomy i j with g | g | g
  · exact (hw i j hi hj g).2
  · subst g; exact le_rfl
  · exact absurd hpq (not_le.2 (hw j i hj hi g).1)

/-- Limits of the clay t-z curve, and where it rises. -/
theorem C33_tz_clay_bounds (sig Su D al res tens f : ℝ) (len : ℕ) (draws : ℕ → ℝ)
    (argsort : List ℝ → List ℕ) (hr : IsRandom draws) (hs : ∀ z, IsArgsort z (argsort z))
    (hD : 0 < D) (hf : fmaxClay sig Su al = some f) (hf0 : 0 ≤ f) (h0 : 0 ≤ res) (h1 : res ≤ 1)
    (ht : 0 ≤ tens) :
    ∃ c, tzApiClay sig Su D al res tens len draws argsort = some c ∧
      (∀ q ∈ c.1.zip c.2, -(tens * f) ≤ q.2 ∧ q.2 ≤ f) ∧ (0, 0) ∈ c.1.zip c.2 ∧
      (0.01 * D, f) ∈ c.1.zip c.2 ∧ (-(0.01 * D), -(tens * f)) ∈ c.1.zip c.2 ∧
      (∀ q ∈ c.1.zip c.2, ∀ r ∈ c.1.zip c.2, -(0.01 * D) ≤ q.1 → q.1 ≤ r.1 → r.1 ≤ 0.01 * D →
        q.2 ≤ r.2) := by
  obtain ⟨c, e, _, h3, h4, _⟩ := C33_backbone_clay res tens (max 15 len) draws argsort hr hs
  have mem : ∀ q, q ∈ (scaleCurve D f c).1.zip (scaleCurve D f c).2 ↔
      ∃ p ∈ c.1.zip c.2, q = (p.1 * D, p.2 * f) := by
    intro q
    rw [zip_scaleCurve, scaled, List.mem_map]
    exact ⟨fun ⟨p, h, h'⟩ => ⟨p, h, h'.symm⟩, fun ⟨p, h, h'⟩ => ⟨p, h, h'.symm⟩⟩
  have bnd : ∀ p ∈ c.1.zip c.2, -tens ≤ p.2 ∧ p.2 ≤ 1 := by
    intro p hp
    have hres : tens * res ≤ tens := mul_le_of_le_one_right ht h1
    rcases h4 p hp with h | rfl | ⟨_, _, h⟩
    · simp only [clayNodes, List.mem_cons, List.not_mem_nil, or_false] at h
      rcases h with rfl | rfl | rfl | rfl | rfl | rfl | rfl | rfl | rfl | rfl | rfl | rfl | rfl <;>
        constructor <;> norm_num <;> nlinarith [mul_nonneg ht h0]
    · constructor <;> simp only [] <;> nlinarith [mul_nonneg ht h0]
    · rw [h]; constructor <;> linarith
  refine ⟨scaleCurve D f c, by simp [tzApiClay, hf, e], ?_, ?_, ?_, ?_, ?_⟩
  · intro q hq
    obtain ⟨p, hp, rfl⟩ := (mem q).1 hq
    have := bnd p hp
    constructor <;> simp only [] <;> nlinarith [this.1, this.2]
  · exact (mem _).2 ⟨(0, 0), h3 _ (by simp [clayNodes]), by simp⟩
  · exact (mem _).2 ⟨(0.01, 1), h3 _ (by simp [clayNodes]), by simp⟩
  · exact (mem _).2 ⟨(-0.01, -tens), h3 _ (by simp [clayNodes]), by simp⟩
  · intro q hq r hr' hl hqr hu
    obtain ⟨p, hp, rfl⟩ := (mem q).1 hq
    obtain ⟨p', hp', rfl⟩ := (mem r).1 hr'
    simp only [] at hl hqr hu ⊢
    have a1 : -0.01 ≤ p.1 := le_of_mul_le_mul_right (by linarith) hD
    have a2 : p.1 ≤ p'.1 := le_of_mul_le_mul_right hqr hD
    have a3 : p'.1 ≤ 0.01 := le_of_mul_le_mul_right hu hD
    refine mul_le_mul_of_nonneg_right ?_ hf0
    have key : ∀ p ∈ c.1.zip c.2, -0.01 ≤ p.1 → p.1 ≤ 0.01 → p ∈ (clayNodes res tens).tail.dropLast := by
      intro p hp b1 b2
      rcases h4 p hp with h | rfl | ⟨h, _, _⟩
      · simp only [clayNodes, List.mem_cons, List.not_mem_nil, or_false] at h
        simp only [clayNodes, List.tail_cons, List.dropLast, List.mem_cons, List.not_mem_nil, or_false]
        rcases h with rfl | h | h | h | h | h | h | h | h | h | h | h | rfl
        · norm_num at b1
        all_goals first | (norm_num at b2; done) | tauto
      · norm_num at b1
      · linarith
    have k1 := key p hp a1 (a2.trans a3)
    have k2 := key p' hp' (a1.trans a2) a3
    refine rise_of_chain ?_ k1 k2 a2
    simp only [clayNodes, List.tail_cons, List.dropLast, List.isChain_cons_cons, List.isChain_singleton]
    refine ⟨?_, ?_, ?_, ?_, ?_, ?_, ?_, ?_, ?_, ?_, trivial⟩ <;> constructor <;> norm_num <;> linarith

/-- The sand t-z curve: the API polygon scaled by the unit friction; the displacement (one inch) does
not depend on the diameter. -/
theorem C33_tz_sand (sig delta k tens f : ℝ) (len : ℕ) (draws : ℕ → ℝ)
    (argsort : List ℝ → List ℕ) (hr : IsRandom draws) (hs : ∀ z, IsArgsort z (argsort z))
    (hf : fmaxSand sig delta k = some f) :
    ∃ c, tzApiSand sig delta k tens len draws argsort = some c ∧ Curve (max 15 len) c ∧
      (∀ x y, interp x (c.1.zip c.2) = some y ↔ OnCurveBoth (scaled 1 f (sandNodes tens)) x y) ∧
      (0, 0) ∈ c.1.zip c.2 ∧ (0 ≤ f → 0 ≤ tens →
        (∀ q ∈ c.1.zip c.2, -(tens * f) ≤ q.2 ∧ q.2 ≤ f) ∧
        ∀ q ∈ c.1.zip c.2, ∀ r ∈ c.1.zip c.2, q.1 ≤ r.1 → q.2 ≤ r.2) := by
  obtain ⟨c, h1, h2, h3, h4, h5⟩ := C33_backbone_sand tens len draws argsort hr hs
  have mem : ∀ q, q ∈ (scaleCurve 1 f c).1.zip (scaleCurve 1 f c).2 ↔
      ∃ p ∈ c.1.zip c.2, q = (p.1 * 1, p.2 * f) := by
    intro q
    rw [zip_scaleCurve, scaled, List.mem_map]
    exact ⟨fun ⟨p, h, h'⟩ => ⟨p, h, h'.symm⟩, fun ⟨p, h, h'⟩ => ⟨p, h, h'.symm⟩⟩
  refine ⟨scaleCurve 1 f c, by simp [tzApiSand, hf, h1], h2.scale zero_le_one f,
    onCurve_scaled (sandNodes_asc _) one_pos h5,
    (mem _).2 ⟨(0, 0), h3 _ (by simp [sandNodes]), by simp⟩, fun hf0 ht => ?_⟩
  have law : ∀ p ∈ c.1.zip c.2, (p.1 < 0 ∧ p.2 = -tens) ∨ (p.1 = 0 ∧ p.2 = 0) ∨ (0 < p.1 ∧ p.2 = 1) := by
    intro p hp
    rcases h4 p hp with h | h | h
    · simp only [sandNodes, List.mem_cons, List.not_mem_nil, or_false] at h
      rcases h with rfl | rfl | rfl <;> norm_num
    · exact Or.inl ⟨by linarith [h.2.1], h.2.2⟩
    · exact Or.inr (Or.inr ⟨by linarith [h.1], h.2.2⟩)
  constructor
  · intro q hq
    obtain ⟨p, hp, rfl⟩ := (mem q).1 hq
    have h6 := mul_nonneg ht hf0
    rcases law p hp with h | h | h <;> constructor <;> simp only [h.2] <;> linarith
  · intro q hq r hr' hqr
    obtain ⟨p, hp, rfl⟩ := (mem q).1 hq
    obtain ⟨p', hp', rfl⟩ := (mem r).1 hr'
    simp only [mul_one] at hqr
    refine mul_le_mul_of_nonneg_right ?_ hf0
    rcases law p hp with h | h | h <;> rcases law p' hp' with h' | h' | h' <;>
      rw [h.2, h'.2] <;> linarith [h.1, h'.1]

/-- A sand t-z curve asked for between 7 and 14 points, which its documentation allows, has 15. -/
theorem C33_violated_sand_length (tens : ℝ) (len : ℕ) (draws : ℕ → ℝ) (argsort : List ℝ → List ℕ)
    (hr : IsRandom draws) (hs : ∀ z, IsArgsort z (argsort z)) (h7 : 7 ≤ len) (h15 : len < 15) :
    ∃ c, backboneSand tens len draws argsort = some c ∧ c.1.length = 15 ∧ c.1.length ≠ len := by
  obtain ⟨c, h1, h2, _⟩ := C33_backbone_sand tens len draws argsort hr hs
  have : c.1.length = 15 := by rw [h2.disp]; omega
  exact ⟨c, h1, this, by omega⟩

/-- Q-z curves: no force in tension, non-decreasing, the full end bearing `f` from a tenth of the
diameter, and the API polygon scaled by the diameter and the end bearing. -/
theorem tip_curve (D f : ℝ) (len : ℕ) (draws : ℕ → ℝ) (argsort : List ℝ → List ℕ)
    (hr : IsRandom draws) (hs : ∀ z, IsArgsort z (argsort z)) (hD : 0 < D) (hf : 0 ≤ f) :
    ∃ b, backboneTip len draws argsort = some b ∧ Curve (max 15 len) (scaleCurve D f b) ∧
      (∀ x y, interp x ((scaleCurve D f b).1.zip (scaleCurve D f b).2) = some y ↔
        OnCurveBoth (scaled D f tipNodes) x y) ∧
      ∀ q ∈ (scaleCurve D f b).1.zip (scaleCurve D f b).2,
        (q.1 ≤ 0 → q.2 = 0) ∧ (0.1 * D ≤ q.1 → q.2 = f) ∧ 0 ≤ q.2 ∧ q.2 ≤ f := by
  obtain ⟨b, h1, h2, h3, h4, h5⟩ := C33_backbone_tip len draws argsort hr hs
  refine ⟨b, h1, h2.scale hD.le f, onCurve_scaled tipNodes_asc hD h5, ?_⟩
  intro q hq
  rw [zip_scaleCurve, scaled, List.mem_map] at hq
  obtain ⟨p, hp, rfl⟩ := hq
  simp only []
  have hneg : p.1 * D ≤ 0 → p.1 ≤ 0 := fun h => by
    by_contra hc
    exact absurd h (not_le.2 (mul_pos (not_le.1 hc) hD))
  have hbig : 0.1 * D ≤ p.1 * D → 0.1 ≤ p.1 := fun h => le_of_mul_le_mul_right h hD
  rcases h4 p hp with h | ⟨h, h', h''⟩ | ⟨h, h', h''⟩
  · simp only [tipNodes, List.mem_cons, List.not_mem_nil, or_false] at h
    rcases h with rfl | rfl | rfl | rfl | rfl | rfl
    all_goals
      refine ⟨fun g => ?_, fun g => ?_, ?_, ?_⟩
      · first | (simp; done) | (have := hneg g; norm_num at this; done)
      · first | (simp; done) | (have := hbig g; norm_num at this; done)
      · norm_num; try linarith
      · norm_num; try linarith
  · rw [h'']
    refine ⟨fun _ => by simp, fun g => ?_, by simp, by simpa using hf⟩
    have := hbig g
    norm_num at this
    linarith
  · rw [h'']
    refine ⟨fun g => ?_, fun _ => by simp, by simpa using hf, by simp⟩
    have := hneg g
    norm_num at h
    linarith

theorem C33_qz_clay (Su D : ℝ) (len : ℕ) (draws : ℕ → ℝ) (argsort : List ℝ → List ℕ)
    (hr : IsRandom draws) (hs : ∀ z, IsArgsort z (argsort z)) (hD : 0 < D) (hf : 0 ≤ Su) :
    ∃ c, qzApiClay Su D len draws argsort = some c ∧ Curve (max 15 len) c ∧
      (∀ x y, interp x (c.1.zip c.2) = some y ↔ OnCurveBoth (scaled D (9 * Su) tipNodes) x y) ∧
      ∀ q ∈ c.1.zip c.2, (q.1 ≤ 0 → q.2 = 0) ∧ (0.1 * D ≤ q.1 → q.2 = 9 * Su) ∧ 0 ≤ q.2 ∧
        q.2 ≤ 9 * Su := by
  obtain ⟨b, h1, h2, h3, h4⟩ := tip_curve D (9 * Su) len draws argsort hr hs hD (by linarith)
  exact ⟨_, by simp only [qzApiClay, h1, qmaxClay]; rfl, h2, h3, h4⟩

theorem C33_qz_sand (sig delta D f : ℝ) (len : ℕ) (draws : ℕ → ℝ) (argsort : List ℝ → List ℕ)
    (hr : IsRandom draws) (hs : ∀ z, IsArgsort z (argsort z)) (hD : 0 < D)
    (hq : qmaxSand sig delta = some f) (hf : 0 ≤ f) :
    ∃ c, qzApiSand sig delta D len draws argsort = some c ∧ Curve (max 15 len) c ∧
      (∀ x y, interp x (c.1.zip c.2) = some y ↔ OnCurveBoth (scaled D f tipNodes) x y) ∧
      ∀ q ∈ c.1.zip c.2, (q.1 ≤ 0 → q.2 = 0) ∧ (0.1 * D ≤ q.1 → q.2 = f) ∧ 0 ≤ q.2 ∧ q.2 ≤ f := by
  obtain ⟨b, h1, h2, h3, h4⟩ := tip_curve D f len draws argsort hr hs hD hf
  exact ⟨_, by simp only [qzApiSand, hq, h1]; rfl, h2, h3, h4⟩

/-- An `argsort` as the theorems above assume it: a stable sort of the indices. -/
noncomputable def stableArgsort (z : List ℝ) : List ℕ :=
  Py.sortedBy (fun i : ℕ => z.getD i 0) (List.range z.length)

theorem stableArgsort_spec (z : List ℝ) : IsArgsort z (stableArgsort z) :=
  ⟨Py.sortedBy_perm _ _, by
    rw [List.pairwise_map]
    exact Py.sortedBy_pairwise _ _⟩

/-- The hypotheses of the theorems above are met. -/
example : (∀ z, IsArgsort z (stableArgsort z)) ∧ IsRandom (fun _ => 1 / 2) ∧
    fmaxClay 50 25 1 = some (min (1 / 2 * (1 / 2 : ℝ) ^ (-(1 / 2) : ℝ)) 1 * 25) := by
  refine ⟨stableArgsort_spec, fun _ => by norm_num, ?_⟩
  have : psi 50 25 = 1 / 2 := by unfold psi; norm_num
  unfold fmaxClay
  simp only [this]
  norm_num

end OpenPile.Props.Axial

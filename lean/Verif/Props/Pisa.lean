/-
C29: the PISA soil reaction curves.
-/
import Verif.Props.Conic

namespace OpenPile.Conic

/-- A scaled conic with admissible parameters is a reaction curve. -/
theorem scaled_curve {xu n k yu sx sy : ℝ} {len : ℕ} {l : List (ℝ × ℝ)} (hx : 1 / 100 ≤ xu)
    (hy : 0 < yu) (hn : 0 ≤ n) (hn1 : n < 1) (hsx : 0 ≤ sx) (hsy : 0 ≤ sy)
    (h : scaledConic xu n k yu sx sy len = some l) : ReactionCurve len (yu * sy) l := by
  unfold scaledConic at h
  rw [Option.map_eq_some_iff] at h
  obtain ⟨c, hc, rfl⟩ := h
  have hx0 : 0 < xu := by linarith
  obtain ⟨h1, h2, _, y, h4⟩ := C28_points hx0 hc
  have h5 := C28_start_partial hx hy hn hn1 hc
  refine ⟨by simp [scale, h1], by simp [scale, h5], ?_, ?_, ?_, ?_⟩
  · unfold Rising scale
    rw [List.pairwise_map]
    have h6 : c.Pairwise (fun p q => p.1 < q.1) := h2
    refine List.Pairwise.imp_of_mem ?_ h6
    intro p q hp hq hlt
    have := C28_monotone hx0 hy hn hn1 hc (x := p.1) (y := p.2) (x' := q.1) (y' := q.2) hp hq hlt
    exact ⟨mul_le_mul_of_nonneg_right hlt.le hsx, mul_le_mul_of_nonneg_right this hsy⟩
  · intro q hq
    unfold scale at hq
    rw [List.mem_map] at hq
    obtain ⟨p, hp, rfl⟩ := hq
    have := (C28_bounded hx0 hy hn hn1 hc (x := p.1) (y := p.2) hp).1
    have h0 := conicX_nonneg hx0 len (fst_mem hc hp)
    exact ⟨mul_nonneg h0 hsx, mul_nonneg this hsy⟩
  · intro q hq
    unfold scale at hq
    rw [List.mem_map] at hq
    obtain ⟨p, hp, rfl⟩ := hq
    have := (C28_bounded hx0 hy hn hn1 hc (x := p.1) (y := p.2) hp).2
    exact mul_le_mul_of_nonneg_right this hsy
  · refine ⟨11 / 10 * xu * sx, ?_⟩
    have hm := List.mem_of_getLast? h4
    have := C28_plateau hc hm (by linarith)
    subst this
    simp [scale, h4]

theorem exp_le_one_of {a X D : ℝ} (ha : a ≤ 0) (hX : 0 ≤ X) (hD : 0 < D) :
    Real.exp (a * X / D) ≤ 1 := by
  rw [Real.exp_le_one_iff]
  apply div_nonpos_of_nonpos_of_nonneg _ hD.le
  exact mul_nonpos_of_nonpos_of_nonneg ha hX

theorem ratio {c X D : ℝ} : c * X / D = c * (X / D) := mul_div_assoc _ _ _

section clay
variable {X Su G0 D L : ℝ} {len : ℕ} {l : List (ℝ × ℝ)}

/-- **C29**, Bothkennar clay p-y curves down to 268 diameters (beyond, the shape parameter is
negative). -/
theorem C29_py_bothkennar_partial (hD : 0 < D) (hG : 0 < G0) (hS : 0 ≤ Su) (hX : 0 ≤ X)
    (hXD : X ≤ 268 * D) (h : pyBothkennar X Su G0 D len = some l) :
    ReactionCurve len
      ((7743 / 1000 - 3945 / 1000 * Real.exp (-8456 / 10000 * X / D)) * (Su * D)) l := by
  unfold pyBothkennar at h
  rw [if_neg (by push Not; exact ⟨hD.ne', hG.ne'⟩)] at h
  have he := exp_le_one_of (a := -8456 / 10000) (by norm_num) hX hD
  have hr0 : 0 ≤ X / D := by positivity
  have hr1 : X / D ≤ 268 := (div_le_iff₀ hD).2 hXD
  have := scaled_curve (by norm_num) (by linarith) (by rw [ratio]; linarith)
    (by rw [ratio]; linarith) (by positivity) (by positivity) h
  convert this using 2
  ring

/-- **C29**, Cowden clay p-y curves down to 28 diameters. -/
theorem C29_py_cowden_partial (hD : 0 < D) (hG : 0 < G0) (hS : 0 ≤ Su) (hX : 0 ≤ X)
    (hXD : X ≤ 28 * D) (h : pyCowden X Su G0 D len = some l) :
    ReactionCurve len
      ((107 / 10 - 7101 / 1000 * Real.exp (-3085 / 10000 * X / D)) * (Su * D)) l := by
  unfold pyCowden at h
  rw [if_neg (by push Not; exact ⟨hD.ne', hG.ne'⟩)] at h
  have he := exp_le_one_of (a := -3085 / 10000) (by norm_num) hX hD
  have hr0 : 0 ≤ X / D := by positivity
  have hr1 : X / D ≤ 28 := (div_le_iff₀ hD).2 hXD
  have := scaled_curve (by norm_num) (by linarith) (by rw [ratio]; linarith)
    (by rw [ratio]; linarith) (by positivity) (by positivity) h
  convert this using 2
  ring

/-- **C29**, Bothkennar clay m-t curves down to 8 diameters (see `C29_violated_mt_bothkennar` for
larger depths). -/
theorem C29_mt_bothkennar_partial (hD : 0 < D) (hG : 0 < G0) (hS : 0 ≤ Su) (hX : 0 ≤ X)
    (hXD : X ≤ 8 * D) (h : mtBothkennar X Su G0 D len = some l) :
    ReactionCurve len ((4862 / 10000 - 5674 / 100000 * (X / D)) * (Su * D ^ 2)) l := by
  have hr0 : 0 ≤ X / D := by positivity
  have hr1 : X / D ≤ 8 := (div_le_iff₀ hD).2 hXD
  unfold mtBothkennar at h
  rw [if_neg (by push Not; exact ⟨hD.ne', hG.ne'⟩)] at h
  simp only [ratio] at h
  have hk : 0 < 1698 / 1000 + -1576 / 10000 * (X / D) := by linarith
  rw [if_neg hk.ne'] at h
  have := scaled_curve (by rw [le_div_iff₀ hk]; linarith) (by linarith) (by simp) (by simp)
    (by positivity) (by positivity) h
  convert this using 2
  ring

/-- **C29**, Cowden clay m-t curves down to 5.5 diameters (see `C29_violated_mt_cowden`). -/
theorem C29_mt_cowden_partial (hD : 0 < D) (hG : 0 < G0) (hS : 0 ≤ Su) (hX : 0 ≤ X)
    (hXD : X ≤ 11 / 2 * D) (h : mtCowden X Su G0 D len = some l) :
    ReactionCurve len ((2899 / 10000 - 4775 / 100000 * (X / D)) * (Su * D ^ 2)) l := by
  have hr0 : 0 ≤ X / D := by positivity
  have hr1 : X / D ≤ 11 / 2 := (div_le_iff₀ hD).2 hXD
  unfold mtCowden at h
  rw [if_neg (by push Not; exact ⟨hD.ne', hG.ne'⟩)] at h
  simp only [ratio] at h
  have hk : 0 < 1420 / 1000 + -9643 / 100000 * (X / D) := by linarith
  rw [if_neg hk.ne'] at h
  have := scaled_curve (by rw [le_div_iff₀ hk]; linarith) (by linarith) (by simp) (by simp)
    (by positivity) (by positivity) h
  convert this using 2
  ring

/-- **C29**, Bothkennar clay base shear for lengths up to 16 diameters. -/
theorem C29_hb_bothkennar_partial (hD : 0 < D) (hG : 0 < G0) (hS : 0 ≤ Su) (hL : 0 ≤ L)
    (hLD : L ≤ 16 * D) (h : hbBothkennar Su G0 D L len = some l) :
    ReactionCurve len ((5279 / 10000 + 6864 / 100000 * (L / D)) * (Su * D ^ 2)) l := by
  have hr0 : 0 ≤ L / D := by positivity
  have hr1 : L / D ≤ 16 := (div_le_iff₀ hD).2 hLD
  unfold hbBothkennar at h
  rw [if_neg (by push Not; exact ⟨hD.ne', hG.ne'⟩)] at h
  simp only [ratio] at h
  exact scaled_curve (by linarith) (by linarith) (by linarith) (by linarith) (by positivity)
    (by positivity) h

/-- **C29**, Cowden clay base shear for lengths up to 27 diameters. -/
theorem C29_hb_cowden_partial (hD : 0 < D) (hG : 0 < G0) (hS : 0 ≤ Su) (hL : 0 ≤ L)
    (hLD : L ≤ 27 * D) (h : hbCowden Su G0 D L len = some l) :
    ReactionCurve len ((4038 / 10000 + 4812 / 100000 * (L / D)) * (Su * D ^ 2)) l := by
  have hr0 : 0 ≤ L / D := by positivity
  have hr1 : L / D ≤ 27 := (div_le_iff₀ hD).2 hLD
  unfold hbCowden at h
  rw [if_neg (by push Not; exact ⟨hD.ne', hG.ne'⟩)] at h
  simp only [ratio] at h
  exact scaled_curve (by linarith) (by linarith) (by linarith) (by linarith) (by positivity)
    (by positivity) h

/-- **C29**, Bothkennar clay base moment for lengths up to 6 diameters. -/
theorem C29_mb_bothkennar_partial (hD : 0 < D) (hG : 0 < G0) (hS : 0 ≤ Su) (hL : 0 ≤ L)
    (hLD : L ≤ 6 * D) (h : mbBothkennar Su G0 D L len = some l) :
    ReactionCurve len ((8756 / 10000 - 9195 / 100000 * (L / D)) * (Su * D ^ 3)) l := by
  have hr0 : 0 ≤ L / D := by positivity
  have hr1 : L / D ≤ 6 := (div_le_iff₀ hD).2 hLD
  unfold mbBothkennar at h
  rw [if_neg (by push Not; exact ⟨hD.ne', hG.ne'⟩)] at h
  simp only [ratio] at h
  have := scaled_curve (by linarith) (by linarith) (by linarith) (by linarith) (by positivity)
    (by positivity) h
  convert this using 2
  ring

/-- **C29**, Cowden clay base moment for lengths between 1 and 9 diameters. -/
theorem C29_mb_cowden_partial (hD : 0 < D) (hG : 0 < G0) (hS : 0 ≤ Su) (hL : D ≤ L)
    (hLD : L ≤ 9 * D) (h : mbCowden Su G0 D L len = some l) :
    ReactionCurve len ((8192 / 10000 - 8588 / 100000 * (L / D)) * (Su * D ^ 3)) l := by
  have hr0 : 1 ≤ L / D := (le_div_iff₀ hD).2 (by linarith)
  have hr1 : L / D ≤ 9 := (div_le_iff₀ hD).2 hLD
  unfold mbCowden at h
  rw [if_neg (by push Not; exact ⟨hD.ne', hG.ne'⟩)] at h
  simp only [ratio] at h
  have := scaled_curve (by linarith) (by linarith) (by linarith) (by linarith) (by positivity)
    (by positivity) h
  convert this using 2
  ring

end clay

section sand
variable {sig X Dr G0 p D L : ℝ} {len : ℕ} {l : List (ℝ × ℝ)}

/-- **C29**, Dunkirk sand p-y curves: all relative densities, everywhere along the pile.  (At least 8
points are returned.) -/
theorem C29_py_dunkirk (hD : 0 < D) (hG : 0 < G0) (hs : 0 ≤ sig) (hX : 0 ≤ X) (hL : 0 < L)
    (hXL : X ≤ L) (hr : 0 ≤ Dr) (hr1 : Dr ≤ 100) (h : pyDunkirk sig X Dr G0 D L len = some l) :
    ReactionCurve (max 8 len)
      ((3667 / 10000 + 2589 / 100 * (Dr / 100) + (3375 / 10000 - 89 / 10 * (Dr / 100)) * (X / L))
        * (sig * D)) l := by
  unfold pyDunkirk at h
  simp only at h
  rw [if_neg (by push Not; exact ⟨hD.ne', hL.ne', hG.ne'⟩)] at h
  have e : (3375 / 10000 - 89 / 10 * (Dr / 100)) * X / L
      = (3375 / 10000 - 89 / 10 * (Dr / 100)) * (X / L) := ratio
  rw [e] at h
  have hr0 : 0 ≤ X / L := by positivity
  have hr1' : X / L ≤ 1 := (div_le_one hL).2 hXL
  have hd0 : 0 ≤ Dr / 100 := by positivity
  have hd1 : Dr / 100 ≤ 1 := by linarith
  refine scaled_curve (by linarith) ?_ (by linarith) (by linarith) (by positivity)
    (by positivity) h
  have : Dr / 100 * (X / L) ≤ Dr / 100 * 1 := mul_le_mul_of_nonneg_left hr1' hd0
  nlinarith

/-- The normalised ultimate moment of Dunkirk sand m-t springs. -/
noncomputable def mtDunkirkMax (X Dr L : ℝ) : ℝ :=
  2605 / 10000 + (-1989 / 10000 + 2019 / 10000 * (Dr / 100)) * (X / L)

/-- **C29**, Dunkirk sand m-t curves where the normalised ultimate moment is at least 0.17 (see
`C29_violated_mt_dunkirk` for the rest). -/
theorem C29_mt_dunkirk_partial (hD : 0 < D) (hG : 0 < G0) (hs : 0 ≤ sig) (hL : 0 < L)
    (hm : 17 / 100 ≤ mtDunkirkMax X Dr L) (h : mtDunkirk sig X Dr G0 p D L len = some l) :
    ReactionCurve len (mtDunkirkMax X Dr L * (|p| * D)) l := by
  unfold mtDunkirk at h
  simp only at h
  rw [if_neg (by push Not; exact ⟨hD.ne', hL.ne', hG.ne'⟩)] at h
  simp only [ratio, zero_mul, zero_div, add_zero] at h
  unfold mtDunkirkMax at hm ⊢
  exact scaled_curve (by rw [le_div_iff₀ (by norm_num)]; linarith) (by linarith) le_rfl (by norm_num)
    (by positivity) (by positivity) h

/-- **C29**, Dunkirk sand base shear for lengths up to 6 diameters (see `C29_violated_hb_dunkirk`). -/
theorem C29_hb_dunkirk_partial (hD : 0 < D) (hG : 0 < G0) (hs : 0 ≤ sig) (hL : 0 ≤ L)
    (hLD : L ≤ 6 * D) (hr : 0 ≤ Dr) (hr1 : Dr ≤ 100) (h : hbDunkirk sig Dr G0 D L len = some l) :
    ReactionCurve len ((9952 / 100000 + 7996 / 10000 * (Dr / 100)
      + (3988 / 100000 - 1606 / 10000 * (Dr / 100)) * (L / D)) * (sig * D ^ 2)) l := by
  have hl0 : 0 ≤ L / D := by positivity
  have hl1 : L / D ≤ 6 := (div_le_iff₀ hD).2 hLD
  unfold hbDunkirk at h
  simp only at h
  rw [if_neg (by push Not; exact ⟨hD.ne', hG.ne'⟩)] at h
  simp only [ratio] at h
  have hd0 : 0 ≤ Dr / 100 := by positivity
  have hd1 : Dr / 100 ≤ 1 := by linarith
  have hp : 0 ≤ Dr / 100 * (L / D) := mul_nonneg hd0 hl0
  have hp1 : Dr / 100 * (L / D) ≤ Dr / 100 * 6 := mul_le_mul_of_nonneg_left hl1 hd0
  have hp2 : Dr / 100 * (L / D) ≤ 1 * (L / D) := mul_le_mul_of_nonneg_right hd1 hl0
  exact scaled_curve (by linarith) (by linarith) (by linarith) (by linarith) (by positivity)
    (by positivity) h

/-- **C29**, Dunkirk sand base moment for lengths up to 6 diameters (see `C29_violated_mb_dunkirk`). -/
theorem C29_mb_dunkirk_partial (hD : 0 < D) (hG : 0 < G0) (hs : 0 ≤ sig) (hL : 0 ≤ L)
    (hLD : L ≤ 6 * D) (hr : 0 ≤ Dr) (hr1 : Dr ≤ 100) (h : mbDunkirk sig Dr G0 D L len = some l) :
    ReactionCurve len ((9981 / 100000 + 3710 / 10000 * (Dr / 100)
      + (1998 / 100000 - 9041 / 100000 * (Dr / 100)) * (L / D)) * (sig * D ^ 3)) l := by
  have hl0 : 0 ≤ L / D := by positivity
  have hl1 : L / D ≤ 6 := (div_le_iff₀ hD).2 hLD
  unfold mbDunkirk at h
  simp only at h
  rw [if_neg (by push Not; exact ⟨hD.ne', hG.ne'⟩)] at h
  simp only [ratio] at h
  have hd0 : 0 ≤ Dr / 100 := by positivity
  have hd1 : Dr / 100 ≤ 1 := by linarith
  have hp : 0 ≤ Dr / 100 * (L / D) := mul_nonneg hd0 hl0
  have hp1 : Dr / 100 * (L / D) ≤ Dr / 100 * 6 := mul_le_mul_of_nonneg_left hl1 hd0
  have hp2 : Dr / 100 * (L / D) ≤ 1 * (L / D) := mul_le_mul_of_nonneg_right hd1 hl0
  exact scaled_curve (by linarith) (by linarith) (by linarith) (by linarith) (by positivity)
    (by positivity) h

end sand

/-! ### custom curves -/

/-- **C29**, the custom curves: admissible normalised parameters give a reaction curve capped by the
ultimate value times the scaling of the kind of spring. -/
theorem C29_custom_partial {s G0 p D xu n k yu : ℝ} {len : ℕ} {l : List (ℝ × ℝ)} (hD : 0 < D)
    (hG : 0 < G0) (hs : 0 ≤ s) (hp : 0 ≤ p) (hx : 1 / 100 ≤ xu) (hy : 0 < yu) (hn : 0 ≤ n)
    (hn1 : n < 1) :
    (pyCustomSand s G0 D xu n k yu len = some l → ReactionCurve len (yu * (s * D)) l) ∧
    (pyCustomClay s G0 D xu n k yu len = some l → ReactionCurve len (yu * (s * D)) l) ∧
    (mtCustomSand s G0 p D xu n k yu len = some l → ReactionCurve len (yu * (p * D)) l) ∧
    (mtCustomClay s G0 D xu n k yu len = some l → ReactionCurve len (yu * (s * D ^ 2)) l) ∧
    (hbCustomSand s G0 D xu n k yu len = some l → ReactionCurve len (yu * (s * D ^ 2)) l) ∧
    (hbCustomClay s G0 D xu n k yu len = some l → ReactionCurve len (yu * (s * D ^ 2)) l) ∧
    (mbCustomSand s G0 D xu n k yu len = some l → ReactionCurve len (yu * (s * D ^ 3)) l) ∧
    (mbCustomClay s G0 D xu n k yu len = some l → ReactionCurve len (yu * (s * D ^ 3)) l) := by
  refine ⟨?_, ?_, ?_, ?_, ?_, ?_, ?_, ?_⟩ <;> intro h
  · unfold pyCustomSand at h
    rw [if_neg hG.ne'] at h
    exact scaled_curve hx hy hn hn1 (by positivity) (by positivity) h
  · unfold pyCustomClay at h
    rw [if_neg hG.ne'] at h
    exact scaled_curve hx hy hn hn1 (by positivity) (by positivity) h
  · unfold mtCustomSand at h
    rw [if_neg hG.ne'] at h
    exact scaled_curve hx hy hn hn1 (by positivity) (by positivity) h
  · unfold mtCustomClay at h
    rw [if_neg hG.ne'] at h
    exact scaled_curve hx hy hn hn1 (by positivity) (by positivity) h
  · unfold hbCustomSand at h
    rw [if_neg hG.ne'] at h
    exact scaled_curve hx hy hn hn1 (by positivity) (by positivity) h
  · unfold hbCustomClay at h
    rw [if_neg hG.ne'] at h
    exact scaled_curve hx hy hn hn1 (by positivity) (by positivity) h
  · unfold mbCustomSand at h
    rw [if_neg hG.ne'] at h
    exact scaled_curve hx hy hn hn1 (by positivity) (by positivity) h
  · unfold mbCustomClay at h
    rw [if_neg hG.ne'] at h
    exact scaled_curve hx hy hn hn1 (by positivity) (by positivity) h

/-! ### zero scaling -/

theorem scaled_zero {xu n k yu sx sy : ℝ} {len : ℕ} {l : List (ℝ × ℝ)}
    (h : scaledConic xu n k yu sx sy len = some l) (hs : sy = 0) : ∀ q ∈ l, q.2 = 0 := by
  subst hs
  unfold scaledConic at h
  rw [Option.map_eq_some_iff] at h
  obtain ⟨c, _, rfl⟩ := h
  intro q hq
  unfold scale at hq
  rw [List.mem_map] at hq
  obtain ⟨p, _, rfl⟩ := hq
  simp

theorem ite_none {c : Prop} [Decidable c] {α : Type} {a : Option α} {b : α}
    (h : (if c then none else a) = some b) : a = some b := by
  by_cases hc : c
  · rw [if_pos hc] at h; simp at h
  · rwa [if_neg hc] at h

/-- **C29**, zero strength, stress or lateral resistance gives a zero reaction everywhere. -/
theorem C29_zero_scaling {X G0 D L Dr p sig : ℝ} {len : ℕ} {l : List (ℝ × ℝ)}
    (h : pyBothkennar X 0 G0 D len = some l ∨ pyCowden X 0 G0 D len = some l ∨
      pyDunkirk 0 X Dr G0 D L len = some l ∨ mtBothkennar X 0 G0 D len = some l ∨
      mtCowden X 0 G0 D len = some l ∨ mtDunkirk sig X Dr G0 0 D L len = some l ∨
      hbBothkennar 0 G0 D L len = some l ∨ hbCowden 0 G0 D L len = some l ∨
      hbDunkirk 0 Dr G0 D L len = some l ∨ mbBothkennar 0 G0 D L len = some l ∨
      mbCowden 0 G0 D L len = some l ∨ mbDunkirk 0 Dr G0 D L len = some l) :
    ∀ q ∈ l, q.2 = 0 := by
  rcases h with h | h | h | h | h | h | h | h | h | h | h | h
  · exact scaled_zero (ite_none h) (by simp)
  · exact scaled_zero (ite_none h) (by simp)
  · exact scaled_zero (ite_none h) (by simp)
  · exact scaled_zero (ite_none (ite_none h)) (by simp)
  · exact scaled_zero (ite_none (ite_none h)) (by simp)
  · exact scaled_zero (ite_none h) (by simp)
  · exact scaled_zero (ite_none h) (by simp)
  · exact scaled_zero (ite_none h) (by simp)
  · exact scaled_zero (ite_none h) (by simp)
  · exact scaled_zero (ite_none h) (by simp)
  · exact scaled_zero (ite_none h) (by simp)
  · exact scaled_zero (ite_none h) (by simp)

/-! ### where the claim fails -/

theorem head_nonneg {xu n k yu : ℝ} {len : ℕ} (hx : xu < 0) {l : List (ℝ × ℝ)}
    (h : conic xu n k yu len = some l) : l.head? = some (0, yu) := by
  obtain ⟨_, _, hm, hY⟩ := conic_points h
  have h1 : (l.map Prod.fst).head? = some 0 := by rw [hm]; simp [conicX]
  rw [List.head?_map, Option.map_eq_some_iff] at h1
  obtain ⟨⟨x, y⟩, h2, h3⟩ := h1
  simp only at h3
  subst h3
  have := C28_plateau h (List.mem_of_head? h2) hx.le
  rw [h2, this]

theorem scaled_head {xu n k yu sx sy : ℝ} {len : ℕ} {l : List (ℝ × ℝ)}
    (h : scaledConic xu n k yu sx sy len = some l) :
    5 ≤ len ∧ ∃ c, conic xu n k yu len = some c ∧ l = scale sx sy c := by
  unfold scaledConic at h
  rw [Option.map_eq_some_iff] at h
  obtain ⟨c, hc, rfl⟩ := h
  exact ⟨(conic_points hc).2.1, c, hc, rfl⟩

/-- **C29**, refuted for Bothkennar clay m-t curves between 8.6 and 10.7 diameters below ground: the
normalised ultimate moment is negative and the curve returns it at zero rotation. -/
theorem C29_violated_mt_bothkennar {X Su G0 D : ℝ} {len : ℕ} {l : List (ℝ × ℝ)} (hD : 0 < D)
    (hS : 0 < Su) (h1 : 86 / 10 * D ≤ X) (h2 : X ≤ 107 / 10 * D)
    (h : mtBothkennar X Su G0 D len = some l) : ∃ m, l.head? = some (0, m) ∧ m < 0 := by
  have hr0 : 86 / 10 ≤ X / D := (le_div_iff₀ hD).2 h1
  have hr1 : X / D ≤ 107 / 10 := (div_le_iff₀ hD).2 h2
  unfold mtBothkennar at h
  have h := ite_none (ite_none h)
  obtain ⟨h5, c, hc, rfl⟩ := scaled_head h
  rw [ratio, ratio, ratio] at hc
  have hk : 0 < 1698 / 1000 + -1576 / 10000 * (X / D) := by linarith
  have hm : 4862 / 10000 + -5674 / 100000 * (X / D) < 0 := by linarith
  have := head_nonneg (div_neg_of_neg_of_pos hm hk) hc
  refine ⟨_, by simp [scale, this]; rfl, ?_⟩
  exact mul_neg_of_neg_of_pos hm (by positivity)

/-- **C29**, refuted for Cowden clay m-t curves between 6.1 and 14.7 diameters below ground. -/
theorem C29_violated_mt_cowden {X Su G0 D : ℝ} {len : ℕ} {l : List (ℝ × ℝ)} (hD : 0 < D)
    (hS : 0 < Su) (h1 : 61 / 10 * D ≤ X) (h2 : X ≤ 147 / 10 * D)
    (h : mtCowden X Su G0 D len = some l) : ∃ m, l.head? = some (0, m) ∧ m < 0 := by
  have hr0 : 61 / 10 ≤ X / D := (le_div_iff₀ hD).2 h1
  have hr1 : X / D ≤ 147 / 10 := (div_le_iff₀ hD).2 h2
  unfold mtCowden at h
  have h := ite_none (ite_none h)
  obtain ⟨h5, c, hc, rfl⟩ := scaled_head h
  rw [ratio, ratio, ratio] at hc
  have hk : 0 < 1420 / 1000 + -9643 / 100000 * (X / D) := by linarith
  have hm : 2899 / 10000 + -4775 / 100000 * (X / D) < 0 := by linarith
  have := head_nonneg (div_neg_of_neg_of_pos hm hk) hc
  refine ⟨_, by simp [scale, this]; rfl, ?_⟩
  exact mul_neg_of_neg_of_pos hm (by positivity)

/-- **C29**, refuted for Dunkirk sand m-t curves wherever the normalised ultimate moment is below 0.17
(for loose sand the lower half of the pile): the ultimate rotation `m_max / 17` is below the tolerance
of 0.01 of the conic, and the full ultimate moment is returned at zero rotation. -/
theorem C29_violated_mt_dunkirk {sig X Dr G0 p D L : ℝ} {len : ℕ} {l : List (ℝ × ℝ)} (hD : 0 < D)
    (hL : 0 < L) (hp : p ≠ 0) (hm0 : 0 < mtDunkirkMax X Dr L)
    (hm : mtDunkirkMax X Dr L < 17 / 100) (h : mtDunkirk sig X Dr G0 p D L len = some l) :
    l.head? = some (0, mtDunkirkMax X Dr L * (|p| * D)) ∧ 0 < mtDunkirkMax X Dr L * (|p| * D) := by
  unfold mtDunkirk at h
  have h := ite_none h
  obtain ⟨h5, c, hc, rfl⟩ := scaled_head h
  simp only [ratio, zero_mul, zero_div, add_zero] at hc
  unfold mtDunkirkMax at hm hm0 ⊢
  have := (C28_violated_start (div_pos hm0 (by norm_num))
    (by rw [div_lt_iff₀ (by norm_num)]; linarith) hm0 hc).1
  refine ⟨by simp [scale, this], ?_⟩
  have : 0 < |p| := abs_pos.2 hp
  positivity

/-- Loose sand (relative density 30 %), three quarters down the pile: the hypotheses of
`C29_violated_mt_dunkirk` are met, and the curve exists. -/
example : ∃ l, 0 < mtDunkirkMax 15 30 20 ∧ mtDunkirkMax 15 30 20 < 17 / 100 ∧
    mtDunkirk 100 15 30 100000 500 5 20 15 = some l := by
  have h1 : 0 < mtDunkirkMax 15 30 20 := by unfold mtDunkirkMax; norm_num
  have h2 : mtDunkirkMax 15 30 20 < 17 / 100 := by unfold mtDunkirkMax; norm_num
  obtain ⟨c, hc⟩ := small_defined (n := 0) (k := 17) (yu := mtDunkirkMax 15 30 20) (len := 15)
    (div_pos h1 (by norm_num : (0 : ℝ) < 17))
    (by rw [div_lt_iff₀ (by norm_num)]; linarith) (by norm_num)
  refine ⟨scale (100 / 100000) (|500| * 5) c, h1, h2, ?_⟩
  unfold mtDunkirk
  simp only
  rw [if_neg (by norm_num)]
  simp only [ratio, zero_mul, zero_div, add_zero]
  unfold scaledConic
  unfold mtDunkirkMax at hc
  rw [hc]
  rfl

/-- **C29**, refuted for Dunkirk sand base shear in very dense sand and piles of 6.4 to 7.4 diameters:
the normalised ultimate displacement is negative and the ultimate shear acts at zero displacement. -/
theorem C29_violated_hb_dunkirk {sig G0 D L : ℝ} {len : ℕ} {l : List (ℝ × ℝ)} (hD : 0 < D)
    (hs : 0 < sig) (h1 : 64 / 10 * D ≤ L) (h2 : L ≤ 74 / 10 * D)
    (h : hbDunkirk sig 100 G0 D L len = some l) : ∃ H, l.head? = some (0, H) ∧ 0 < H := by
  have hr0 : 64 / 10 ≤ L / D := (le_div_iff₀ hD).2 h1
  have hr1 : L / D ≤ 74 / 10 := (div_le_iff₀ hD).2 h2
  unfold hbDunkirk at h
  have h := ite_none h
  obtain ⟨h5, c, hc, rfl⟩ := scaled_head h
  simp only [ratio] at hc
  norm_num at hc
  have := head_nonneg (by linarith) hc
  refine ⟨_, by simp [scale, this]; rfl, ?_⟩
  apply mul_pos _ (by positivity)
  linarith

/-- **C29**, refuted for Dunkirk sand base moments in very dense sand and piles of at least 7
diameters: the reaction reached at large rotation is negative. -/
theorem C29_violated_mb_dunkirk {sig G0 D L : ℝ} {len : ℕ} {l : List (ℝ × ℝ)} (hD : 0 < D)
    (hs : 0 < sig) (h1 : 7 * D ≤ L) (h : mbDunkirk sig 100 G0 D L len = some l) :
    ∃ x M, l.getLast? = some (x, M) ∧ M < 0 := by
  have hr0 : 7 ≤ L / D := (le_div_iff₀ hD).2 h1
  unfold mbDunkirk at h
  have h := ite_none h
  obtain ⟨h5, c, hc, rfl⟩ := scaled_head h
  simp only [ratio] at hc
  norm_num at hc
  obtain ⟨_, _, _, y, h4⟩ := C28_points (by norm_num) hc
  have hy := C28_plateau hc (List.mem_of_getLast? h4) (by norm_num)
  subst hy
  refine ⟨_, _, by simp [scale, h4]; exact ⟨rfl, rfl⟩, ?_⟩
  apply mul_neg_of_neg_of_pos _ (by positivity)
  linarith

/-- The hypotheses of the positive theorems are met by a typical monopile spring, which exists. -/
example : ∃ l, mtCowden 10 100 50000 5 15 = some l ∧ (0 : ℝ) ≤ 10 ∧ (10 : ℝ) ≤ 11 / 2 * 5 := by
  unfold mtCowden
  rw [if_neg (by norm_num)]
  simp only
  rw [if_neg (by norm_num)]
  unfold scaledConic
  obtain ⟨c, hc⟩ := C28_defined_moderate
    (xu := (2899 / 10000 + -4775 / 100000 * 10 / 5) / (1420 / 1000 + -9643 / 100000 * 10 / 5))
    (n := 0 + 0 * 10 / 5) (k := 1420 / 1000 + -9643 / 100000 * 10 / 5)
    (yu := 2899 / 10000 + -4775 / 100000 * 10 / 5) (len := 15)
    (by norm_num) (by norm_num) (by norm_num) (by norm_num) (by norm_num)
  rw [hc]
  exact ⟨_, rfl, by norm_num, by norm_num⟩

end OpenPile.Conic

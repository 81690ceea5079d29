/-
C83 for the PISA curves: more shear strength (or vertical stress) and more shear modulus give stronger
springs.  The reaction per displacement falls along a conic, which is what makes a conic stretched in both
directions lie above the original one.
-/
import Verif.Props.Pisa
import Verif.Props.Stronger

namespace OpenPile.Props.Stronger
open OpenPile.Conic

/-- Along a conic in normalised form `n (r - s)² = (1 - n) (κ s - r) (1 - r)` the ratio `r / s` falls. -/
theorem ratio_falls {n κ s s' ρ ρ' : ℝ} (hn : 0 ≤ n) (hn1 : n < 1) (hs : 0 < s) (hss : s ≤ s')
    (h : n * (ρ - 1) ^ 2 = (1 - n) * (κ - ρ) * (1 / s - ρ))
    (h' : n * (ρ' - 1) ^ 2 = (1 - n) * (κ - ρ') * (1 / s' - ρ')) (h1 : 1 ≤ ρ)
    (hk' : ρ' ≤ κ) (hr' : ρ' ≤ 1 / s') : ρ' ≤ ρ := by
  by_contra hlt
  push Not at hlt
  have hinv : 1 / s' ≤ 1 / s := one_div_le_one_div_of_le hs hss
  have a : (κ - ρ') * (1 / s' - ρ') < (κ - ρ) * (1 / s - ρ) :=
    mul_lt_mul'' (by linarith) (by linarith) (by linarith) (by linarith)
  have b : (ρ - 1) ^ 2 ≤ (ρ' - 1) ^ 2 := by
    apply pow_le_pow_left₀ (by linarith); linarith
  have c : n * (ρ - 1) ^ 2 ≤ n * (ρ' - 1) ^ 2 := mul_le_mul_of_nonneg_left b hn
  rw [h, h', mul_assoc, mul_assoc] at c
  have d : (1 - n) * ((κ - ρ') * (1 / s' - ρ')) < (1 - n) * ((κ - ρ) * (1 / s - ρ)) :=
    mul_lt_mul_of_pos_left a (by linarith)
  linarith

theorem onConic_ratio {xu n k yu x y : ℝ} (hxu : 0 < xu) (hyu : 0 < yu) (hx : 0 < x)
    (h : OnConic xu n k yu x y) :
    n * (y / x * (xu / yu) - 1) ^ 2 =
      (1 - n) * (k * xu / yu - y / x * (xu / yu)) * (1 / (x / xu) - y / x * (xu / yu)) := by
  unfold OnConic at h
  have e : (y / yu - x / xu) ^ 2 = (x / xu) ^ 2 * (y / x * (xu / yu) - 1) ^ 2 := by
    field_simp
  have e2 : (y / yu - k * x / yu) * (y / yu - 1) =
      (x / xu) ^ 2 * ((k * xu / yu - y / x * (xu / yu)) * (1 / (x / xu) - y / x * (xu / yu))) := by
    field_simp
    ring
  have p : (x / xu) ^ 2 ≠ 0 := by positivity
  have q : (x / xu) ^ 2 * (n * (y / x * (xu / yu) - 1) ^ 2) = (x / xu) ^ 2 *
      ((1 - n) * (k * xu / yu - y / x * (xu / yu)) * (1 / (x / xu) - y / x * (xu / yu))) := by
    linear_combination -h - n * e + (1 - n) * e2
  exact mul_left_cancel₀ p q

/-- No point of a conic falls among the last 0.01 before the ultimate displacement, where the code rounds
up, if the points are at least 0.01 apart. -/
theorem points_apart {xu : ℝ} {len : ℕ} (hxu : 1 / 80 ≤ xu) (hlen : (len : ℝ) - 6 ≤ 80 * xu) {x : ℝ}
    (hx : x ∈ conicX xu len) (h : xu - 1 / 100 < x) : xu ≤ x := by
  unfold conicX at hx
  simp only [List.mem_append, List.mem_cons, List.not_mem_nil, or_false] at hx
  rcases hx with ((rfl | rfl | rfl | rfl) | hx) | rfl
  · linarith
  · linarith
  · linarith
  · linarith
  · unfold linspace at hx
    split_ifs at hx with h1
    · simp only [List.mem_cons, List.not_mem_nil, or_false] at hx
      linarith
    · simp only [List.mem_map, List.mem_range] at hx
      obtain ⟨i, hi, rfl⟩ := hx
      have h6 : 7 ≤ len := by omega
      have h6' : (7 : ℝ) ≤ len := by exact_mod_cast h6
      have e : ((len - 5 : ℕ) : ℝ) - 1 = len - 6 := by
        rw [Nat.cast_sub (by omega)]; push_cast; ring
      rw [e] at h ⊢
      have hm : (0 : ℝ) < (len : ℝ) - 6 := by linarith
      by_contra hlt
      push Not at hlt
      have hi' : i + 7 ≤ len := by
        by_contra hc
        have : i + 6 = len := by omega
        have : (i : ℝ) = len - 6 := by
          rw [← this]; push_cast; ring
        rw [this] at hlt
        have : ((len : ℝ) - 6) * ((xu - 2 / 10 * xu) / (len - 6)) = xu - 2 / 10 * xu := by
          field_simp
        linarith
      have hi2 : (i : ℝ) ≤ len - 7 := by
        have : ((i + 7 : ℕ) : ℝ) ≤ len := by exact_mod_cast hi'
        push_cast at this; linarith
      have hs : 1 / 100 ≤ (xu - 2 / 10 * xu) / ((len : ℝ) - 6) := by
        rw [le_div_iff₀ hm]; linarith
      have e2 : ((len : ℝ) - 7) * ((xu - 2 / 10 * xu) / (len - 6)) =
          (xu - 2 / 10 * xu) - (xu - 2 / 10 * xu) / (len - 6) := by
        field_simp
        ring
      have : (i : ℝ) * ((xu - 2 / 10 * xu) / (len - 6)) ≤
          ((len : ℝ) - 7) * ((xu - 2 / 10 * xu) / (len - 6)) :=
        mul_le_mul_of_nonneg_right hi2 (by linarith)
      linarith
  · linarith

/-- The reaction per displacement falls along the table of a conic. -/
theorem star {xu n k yu : ℝ} {len : ℕ} {l : List (ℝ × ℝ)} (hxu : 1 / 80 ≤ xu) (hyu : 0 < yu)
    (hn : 0 ≤ n) (hn1 : n < 1) (hlen : (len : ℝ) - 6 ≤ 80 * xu) (h : conic xu n k yu len = some l)
    {x y x' y' : ℝ} (hq : (x, y) ∈ l) (hq' : (x', y') ∈ l) (hx0 : 0 < x) (hxx : x ≤ x') :
    y' / x' ≤ y / x := by
  have hx : 0 < xu := by linarith
  have hx' : 0 < x' := hx0.trans_le hxx
  rcases le_or_gt xu x with g | g
  · rw [C28_plateau h hq g, C28_plateau h hq' (g.trans hxx)]
    gcongr
  · have g1 : x ≤ xu - 1 / 100 := by
      by_contra hc
      exact absurd (points_apart hxu hlen (fst_mem h hq) (not_le.1 hc)) (not_le.2 g)
    obtain ⟨c, lo, up, _⟩ := C28_conic_partial hx hyu hn hn1 h hq g1
    rcases le_or_gt xu x' with g' | g'
    · rw [C28_plateau h hq' g', div_le_div_iff₀ hx' hx0]
      rw [div_mul_eq_mul_div, div_le_iff₀ hx] at lo
      have y0 : 0 ≤ y := (C28_bounded hx hyu hn hn1 h hq).1
      nlinarith
    · have g1' : x' ≤ xu - 1 / 100 := by
        by_contra hc
        exact absurd (points_apart hxu hlen (fst_mem h hq') (not_le.1 hc)) (not_le.2 g')
      obtain ⟨c', _, up', top'⟩ := C28_conic_partial hx hyu hn hn1 h hq' g1'
      have r := onConic_ratio hx hyu hx0 c
      have r' := onConic_ratio hx hyu hx' c'
      have hc : 0 < xu / yu := by positivity
      have key := ratio_falls hn hn1 (by positivity) (by gcongr : x / xu ≤ x' / xu) r r' ?_ ?_ ?_
      · exact le_of_mul_le_mul_right key hc
      · have e : y / x * (xu / yu) = y * xu / (x * yu) := by field_simp
        rw [e, le_div_iff₀ (by positivity)]
        rw [div_mul_eq_mul_div, div_le_iff₀ hx] at lo
        linarith
      · have e : y' / x' * (xu / yu) = y' * xu / (x' * yu) := by field_simp
        rw [e, div_le_div_iff₀ (by positivity) hyu]
        have := mul_le_mul_of_nonneg_right up' (mul_nonneg hx.le hyu.le)
        nlinarith
      · have e : y' / x' * (xu / yu) = y' * xu / (x' * yu) := by field_simp
        rw [e, one_div_div, div_le_div_iff₀ (by positivity) hx']
        have := mul_le_mul_of_nonneg_right top' (mul_nonneg hx.le hx'.le)
        nlinarith

/-- Two tables from one normalised conic: larger reactions, at a ratio of reaction to displacement that is
at least as large. -/
theorem scaled_outresists {xu n k yu sx sy sx' sy' : ℝ} {len : ℕ} {l l' : List (ℝ × ℝ)}
    (hxu : 1 / 80 ≤ xu) (hyu : 0 < yu) (hn : 0 ≤ n) (hn1 : n < 1) (hlen : (len : ℝ) - 6 ≤ 80 * xu)
    (hsx : 0 < sx) (hsx' : 0 < sx') (hsy : 0 ≤ sy) (hy : sy ≤ sy') (hr : sy * sx' ≤ sy' * sx)
    (h : scaledConic xu n k yu sx sy len = some l)
    (h' : scaledConic xu n k yu sx' sy' len = some l') : Outresists l l' := by
  have hx : 0 < xu := by linarith
  unfold scaledConic at h h'
  rw [Option.map_eq_some_iff] at h h'
  obtain ⟨c, hc, rfl⟩ := h
  obtain ⟨c', hc', rfl⟩ := h'
  rw [hc, Option.some.injEq] at hc'
  subst hc'
  intro q hq q' hq' hle
  unfold scale at hq hq'
  obtain ⟨⟨x, y⟩, hp, rfl⟩ := List.mem_map.1 hq
  obtain ⟨⟨x', y'⟩, hp', rfl⟩ := List.mem_map.1 hq'
  dsimp only at hle ⊢
  have hy0 := (C28_bounded hx hyu hn hn1 hc hp).1
  have hy0' := (C28_bounded hx hyu hn hn1 hc hp').1
  have x0 : 0 ≤ x := conicX_nonneg hx len (fst_mem hc hp)
  have x0' : 0 ≤ x' := conicX_nonneg hx len (fst_mem hc hp')
  rcases lt_trichotomy x x' with g | g | g
  · have := C28_monotone hx hyu hn hn1 hc hp hp' g
    exact mul_le_mul this hy hsy hy0'
  · subst g
    have e := (conic_points hc).2.2.2 (x, y) hp
    have e' := (conic_points hc).2.2.2 (x, y') hp'
    dsimp only at e e'
    rw [e, Option.some.injEq] at e'
    subst e'
    gcongr
  · have hxpos : 0 < x := lt_of_le_of_lt x0' g
    have hxpos' : 0 < x' := by
      have : 0 < x' * sx' := lt_of_lt_of_le (by positivity) hle
      exact pos_of_mul_pos_left this hsx'.le
    have s := star hxu hyu hn hn1 hlen hc hp' hp hxpos' g.le
    rw [div_le_div_iff₀ hxpos hxpos'] at s
    -- y x' ≤ y' x
    have t : y * sy * (x' * sx') ≤ y' * sy' * (x' * sx') := by
      calc y * sy * (x' * sx') = (y * x') * (sy * sx') := by ring
        _ ≤ (y' * x) * (sy' * sx) := by
          apply mul_le_mul s hr (by positivity) (by positivity)
        _ = (y' * sy') * (x * sx) := by ring
        _ ≤ (y' * sy') * (x' * sx') := by
          apply mul_le_mul_of_nonneg_left hle
          exact mul_nonneg hy0' (hsy.trans hy)
    exact le_of_mul_le_mul_right t (by positivity)

theorem scales {a b c d S S' G G' : ℝ} (hc : 0 < c) (hd : 0 < d) (hS : 0 < S) (hSS : S ≤ S')
    (hG : 0 < G) (hGG : G ≤ G') (ea : a = S * c / G) (eb : b = S' * c / G') :
    0 < a ∧ 0 < b ∧ 0 ≤ S * d ∧ S * d ≤ S' * d ∧ S * d * b ≤ S' * d * a := by
  have hS' := hS.trans_le hSS
  have hG' := hG.trans_le hGG
  subst ea eb
  refine ⟨by positivity, by positivity, by positivity, by gcongr, ?_⟩
  rw [mul_div_assoc', mul_div_assoc', div_le_div_iff₀ hG' hG]
  have : S * d * (S' * c) * G ≤ S * d * (S' * c) * G' := by gcongr
  nlinarith

/-! ### the calibrated clays and Dunkirk sand -/

section
variable {X Su Su' G0 G0' D L : ℝ} {len : ℕ} {l l' : List (ℝ × ℝ)}

/-- Bothkennar clay, distributed lateral load. -/
theorem C83_py_bothkennar_partial (hD : 0 < D) (hS : 0 < Su) (hSS : Su ≤ Su') (hG : 0 < G0)
    (hGG : G0 ≤ G0') (hX : 0 ≤ X) (hXD : X ≤ 268 * D) (hlen : len ≤ 13910)
    (h : pyBothkennar X Su G0 D len = some l) (h' : pyBothkennar X Su' G0' D len = some l') :
    Outresists l l' := by
  have hl : (len : ℝ) ≤ 13910 := by exact_mod_cast hlen
  unfold pyBothkennar at h h'
  rw [if_neg (by push Not; exact ⟨hD.ne', hG.ne'⟩)] at h
  rw [if_neg (by push Not; exact ⟨hD.ne', (hG.trans_le hGG).ne'⟩)] at h'
  have he := exp_le_one_of (a := -8456 / 10000) (by norm_num) hX hD
  have hr0 : 0 ≤ X / D := by positivity
  have hr1 : X / D ≤ 268 := (div_le_iff₀ hD).2 hXD
  obtain ⟨a, b, c, d, e⟩ := scales hD hD hS hSS hG hGG rfl rfl
  exact scaled_outresists (by norm_num) (by linarith) (by rw [ratio]; linarith) (by rw [ratio]; linarith)
    (by linarith) a b c d e h h'

/-- Cowden clay, distributed lateral load. -/
theorem C83_py_cowden_partial (hD : 0 < D) (hS : 0 < Su) (hSS : Su ≤ Su') (hG : 0 < G0)
    (hGG : G0 ≤ G0') (hX : 0 ≤ X) (hXD : X ≤ 28 * D) (hlen : len ≤ 19300)
    (h : pyCowden X Su G0 D len = some l) (h' : pyCowden X Su' G0' D len = some l') :
    Outresists l l' := by
  have hl : (len : ℝ) ≤ 19300 := by exact_mod_cast hlen
  unfold pyCowden at h h'
  rw [if_neg (by push Not; exact ⟨hD.ne', hG.ne'⟩)] at h
  rw [if_neg (by push Not; exact ⟨hD.ne', (hG.trans_le hGG).ne'⟩)] at h'
  have he := exp_le_one_of (a := -3085 / 10000) (by norm_num) hX hD
  have hr0 : 0 ≤ X / D := by positivity
  have hr1 : X / D ≤ 28 := (div_le_iff₀ hD).2 hXD
  obtain ⟨a, b, c, d, e⟩ := scales hD hD hS hSS hG hGG rfl rfl
  exact scaled_outresists (by norm_num) (by linarith) (by rw [ratio]; linarith) (by rw [ratio]; linarith)
    (by linarith) a b c d e h h'

/-- Bothkennar clay, base shear. -/
theorem C83_hb_bothkennar_partial (hD : 0 < D) (hS : 0 < Su) (hSS : Su ≤ Su') (hG : 0 < G0)
    (hGG : G0 ≤ G0') (hL : 0 ≤ L) (hLD : L ≤ 16 * D) (hlen : len ≤ 23320)
    (h : hbBothkennar Su G0 D L len = some l) (h' : hbBothkennar Su' G0' D L len = some l') :
    Outresists l l' := by
  have hl : (len : ℝ) ≤ 23320 := by exact_mod_cast hlen
  have hr0 : 0 ≤ L / D := by positivity
  have hr1 : L / D ≤ 16 := (div_le_iff₀ hD).2 hLD
  unfold hbBothkennar at h h'
  rw [if_neg (by push Not; exact ⟨hD.ne', hG.ne'⟩)] at h
  rw [if_neg (by push Not; exact ⟨hD.ne', (hG.trans_le hGG).ne'⟩)] at h'
  simp only [ratio (c := 0), ratio (c := 4263 / 100000), ratio (c := -2701 / 10000),
    ratio (c := 6864 / 100000)] at h h'
  obtain ⟨a, b, c, d, e⟩ := scales hD (by positivity : 0 < D ^ 2) hS hSS hG hGG rfl rfl
  exact scaled_outresists (by linarith) (by linarith) (by linarith) (by linarith)
    (by linarith) a b c d e h h'

/-- Cowden clay, base shear. -/
theorem C83_hb_cowden_partial (hD : 0 < D) (hS : 0 < Su) (hSS : Su ≤ Su') (hG : 0 < G0)
    (hGG : G0 ≤ G0') (hL : 0 ≤ L) (hLD : L ≤ 27 * D) (hlen : len ≤ 18860)
    (h : hbCowden Su G0 D L len = some l) (h' : hbCowden Su' G0' D L len = some l') :
    Outresists l l' := by
  have hl : (len : ℝ) ≤ 18860 := by exact_mod_cast hlen
  have hr0 : 0 ≤ L / D := by positivity
  have hr1 : L / D ≤ 27 := (div_le_iff₀ hD).2 hLD
  unfold hbCowden at h h'
  rw [if_neg (by push Not; exact ⟨hD.ne', hG.ne'⟩)] at h
  rw [if_neg (by push Not; exact ⟨hD.ne', (hG.trans_le hGG).ne'⟩)] at h'
  simp only [ratio (c := 0), ratio (c := -3150 / 100000), ratio (c := -3575 / 10000),
    ratio (c := 4812 / 100000)] at h h'
  obtain ⟨a, b, c, d, e⟩ := scales hD (by positivity : 0 < D ^ 2) hS hSS hG hGG rfl rfl
  exact scaled_outresists (by linarith) (by linarith) (by linarith) (by linarith)
    (by linarith) a b c d e h h'

/-- Bothkennar clay, base moment. -/
theorem C83_mb_bothkennar_partial (hD : 0 < D) (hS : 0 < Su) (hSS : Su ≤ Su') (hG : 0 < G0)
    (hGG : G0 ≤ G0') (hL : 0 ≤ L) (hLD : L ≤ 6 * D) (hlen : len ≤ 14960)
    (h : mbBothkennar Su G0 D L len = some l) (h' : mbBothkennar Su' G0' D L len = some l') :
    Outresists l l' := by
  have hl : (len : ℝ) ≤ 14960 := by exact_mod_cast hlen
  have hr0 : 0 ≤ L / D := by positivity
  have hr1 : L / D ≤ 6 := (div_le_iff₀ hD).2 hLD
  unfold mbBothkennar at h h'
  rw [if_neg (by push Not; exact ⟨hD.ne', hG.ne'⟩)] at h
  rw [if_neg (by push Not; exact ⟨hD.ne', (hG.trans_le hGG).ne'⟩)] at h'
  simp only [ratio (c := -1155 / 10000), ratio (c := -1995 / 100000), ratio (c := -9195 / 100000)] at h h'
  obtain ⟨a, b, c, d, e⟩ := scales one_pos (by positivity : 0 < D ^ 3) hS hSS hG hGG rfl rfl
  rw [mul_one] at a b e
  rw [mul_one] at e
  exact scaled_outresists (by linarith) (by linarith) (by linarith) (by linarith)
    (by linarith) a b c d e h h'

/-- Cowden clay, base moment. -/
theorem C83_mb_cowden_partial (hD : 0 < D) (hS : 0 < Su) (hSS : Su ≤ Su') (hG : 0 < G0)
    (hGG : G0 ≤ G0') (hL : D ≤ L) (hLD : L ≤ 9 * D) (hlen : len ≤ 13850)
    (h : mbCowden Su G0 D L len = some l) (h' : mbCowden Su' G0' D L len = some l') :
    Outresists l l' := by
  have hl : (len : ℝ) ≤ 13850 := by exact_mod_cast hlen
  have hr0 : 1 ≤ L / D := (le_div_iff₀ hD).2 (by linarith)
  have hr1 : L / D ≤ 9 := (div_le_iff₀ hD).2 hLD
  unfold mbCowden at h h'
  rw [if_neg (by push Not; exact ⟨hD.ne', hG.ne'⟩)] at h
  rw [if_neg (by push Not; exact ⟨hD.ne', (hG.trans_le hGG).ne'⟩)] at h'
  simp only [ratio (c := -1087 / 10000), ratio (c := -2132 / 1000000), ratio (c := -8588 / 100000)] at h h'
  obtain ⟨a, b, c, d, e⟩ := scales one_pos (by positivity : 0 < D ^ 3) hS hSS hG hGG rfl rfl
  rw [mul_one] at a b e
  rw [mul_one] at e
  exact scaled_outresists (by linarith) (by linarith) (by linarith) (by linarith)
    (by linarith) a b c d e h h'

/-- Bothkennar clay, distributed moment, down to 8 diameters, as long as the points of the normalised
conic are at least 0.01 apart. -/
theorem C83_mt_bothkennar_partial (hD : 0 < D) (hS : 0 < Su) (hSS : Su ≤ Su') (hG : 0 < G0)
    (hGG : G0 ≤ G0') (hX : 0 ≤ X) (hXD : X ≤ 8 * D)
    (hlen : ((len : ℝ) - 6) * (1698 / 1000 - 1576 / 10000 * (X / D)) ≤
      80 * (4862 / 10000 - 5674 / 100000 * (X / D)))
    (h : mtBothkennar X Su G0 D len = some l) (h' : mtBothkennar X Su' G0' D len = some l') :
    Outresists l l' := by
  have hr0 : 0 ≤ X / D := by positivity
  have hr1 : X / D ≤ 8 := (div_le_iff₀ hD).2 hXD
  have hk : 0 < 1698 / 1000 + -1576 / 10000 * (X / D) := by linarith
  unfold mtBothkennar at h h'
  rw [if_neg (by push Not; exact ⟨hD.ne', hG.ne'⟩)] at h
  rw [if_neg (by push Not; exact ⟨hD.ne', (hG.trans_le hGG).ne'⟩)] at h'
  simp only [ratio (X := X) (D := D)] at h h'
  rw [if_neg hk.ne'] at h h'
  obtain ⟨a, b, c, d, e⟩ := scales one_pos (by positivity : 0 < D ^ 2) hS hSS hG hGG rfl rfl
  rw [mul_one] at a b e
  rw [mul_one] at e
  refine scaled_outresists ?_ (by linarith) (by linarith) (by linarith) ?_ a b c d e h h'
  · rw [le_div_iff₀ hk]; linarith
  · rw [mul_div_assoc', le_div_iff₀ hk]; linarith

/-- Cowden clay, distributed moment, down to 5.5 diameters, under the same condition. -/
theorem C83_mt_cowden_partial (hD : 0 < D) (hS : 0 < Su) (hSS : Su ≤ Su') (hG : 0 < G0)
    (hGG : G0 ≤ G0') (hX : 0 ≤ X) (hXD : X ≤ 11 / 2 * D)
    (hlen : ((len : ℝ) - 6) * (1420 / 1000 - 9643 / 100000 * (X / D)) ≤
      80 * (2899 / 10000 - 4775 / 100000 * (X / D)))
    (h : mtCowden X Su G0 D len = some l) (h' : mtCowden X Su' G0' D len = some l') :
    Outresists l l' := by
  have hr0 : 0 ≤ X / D := by positivity
  have hr1 : X / D ≤ 11 / 2 := (div_le_iff₀ hD).2 hXD
  have hk : 0 < 1420 / 1000 + -9643 / 100000 * (X / D) := by linarith
  unfold mtCowden at h h'
  rw [if_neg (by push Not; exact ⟨hD.ne', hG.ne'⟩)] at h
  rw [if_neg (by push Not; exact ⟨hD.ne', (hG.trans_le hGG).ne'⟩)] at h'
  simp only [ratio (X := X) (D := D)] at h h'
  rw [if_neg hk.ne'] at h h'
  obtain ⟨a, b, c, d, e⟩ := scales one_pos (by positivity : 0 < D ^ 2) hS hSS hG hGG rfl rfl
  rw [mul_one] at a b e
  rw [mul_one] at e
  refine scaled_outresists ?_ (by linarith) (by linarith) (by linarith) ?_ a b c d e h h'
  · rw [le_div_iff₀ hk]; linarith
  · rw [mul_div_assoc', le_div_iff₀ hk]; linarith

end

/-- Two clays under a pile of 6 m diameter and 18 m length. -/
example : ∃ l l', hbBothkennar 40 20000 6 18 15 = some l ∧ hbBothkennar 60 30000 6 18 15 = some l' ∧
    Outresists l l' := by
  obtain ⟨c, hc⟩ := C28_defined_moderate (xu := 2915 / 10 + 0 * 18 / 6)
    (n := 3113 / 10000 + 4263 / 100000 * 18 / 6) (k := 3008 / 1000 + -2701 / 10000 * 18 / 6)
    (yu := 5279 / 10000 + 6864 / 100000 * 18 / 6) (len := 15) (by norm_num) (by norm_num) (by norm_num)
    (by norm_num) (by norm_num)
  have e : ∀ Su G0 : ℝ, G0 ≠ 0 → hbBothkennar Su G0 6 18 15 =
      some (scale (Su * 6 / G0) (Su * 6 ^ 2) c) := by
    intro Su G0 hG
    unfold hbBothkennar scaledConic
    rw [if_neg (by push Not; exact ⟨by norm_num, hG⟩), hc]
    rfl
  exact ⟨_, _, e _ _ (by norm_num), e _ _ (by norm_num), C83_hb_bothkennar_partial (by norm_num)
    (by norm_num) (by norm_num) (by norm_num) (by norm_num) (by norm_num) (by norm_num) (by norm_num)
    (e _ _ (by norm_num)) (e _ _ (by norm_num))⟩

/-- Dunkirk sand, distributed lateral load: the ultimate load grows with the relative density and the
vertical stress. -/
theorem C83_py_dunkirk_ultimate {sig sig' X Dr Dr' G0 G0' D L : ℝ} {len len' : ℕ} {l l' : List (ℝ × ℝ)}
    (hD : 0 < D) (hs : 0 ≤ sig) (hss : sig ≤ sig') (hG : 0 < G0) (hG' : 0 < G0') (hX : 0 ≤ X) (hL : 0 < L)
    (hXL : X ≤ L) (hr : 0 ≤ Dr) (hrr : Dr ≤ Dr') (hr1 : Dr' ≤ 100)
    (h : pyDunkirk sig X Dr G0 D L len = some l) (h' : pyDunkirk sig' X Dr' G0' D L len' = some l') :
    ∃ q q', l.getLast? = some q ∧ l'.getLast? = some q' ∧ q.2 ≤ q'.2 := by
  obtain ⟨x, e⟩ := (C29_py_dunkirk hD hG hs hX hL hXL hr (hrr.trans hr1) h).ends
  obtain ⟨x', e'⟩ := (C29_py_dunkirk hD hG' (hs.trans hss) hX hL hXL (hr.trans hrr) hr1 h').ends
  refine ⟨_, _, e, e', ?_⟩
  dsimp only
  have hr0 : 0 ≤ X / L := by positivity
  have hr1' : X / L ≤ 1 := (div_le_one hL).2 hXL
  have hdd : Dr / 100 ≤ Dr' / 100 := by linarith
  have hd0 : 0 ≤ Dr / 100 := by positivity
  have := mul_le_mul_of_nonneg_left hr1' hd0
  have := mul_le_mul_of_nonneg_left hr1' (sub_nonneg.2 hdd)
  apply mul_le_mul _ (by gcongr) (by positivity) (by nlinarith)
  nlinarith

/-- Dunkirk sand, distributed lateral load: more vertical stress and more shear modulus (the relative
density is the same). -/
theorem C83_py_dunkirk_partial {sig sig' X Dr G0 G0' D L : ℝ} {len : ℕ} {l l' : List (ℝ × ℝ)} (hD : 0 < D)
    (hs : 0 < sig) (hss : sig ≤ sig') (hG : 0 < G0) (hGG : G0 ≤ G0') (hX : 0 ≤ X) (hL : 0 < L)
    (hXL : X ≤ L) (hr : 0 ≤ Dr) (hr1 : Dr ≤ 100) (hlen : len ≤ 4320)
    (h : pyDunkirk sig X Dr G0 D L len = some l) (h' : pyDunkirk sig' X Dr G0' D L len = some l') :
    Outresists l l' := by
  have hl : ((max 8 len : ℕ) : ℝ) ≤ 4320 := by exact_mod_cast max_le (by norm_num) hlen
  unfold pyDunkirk at h h'
  simp only at h h'
  rw [if_neg (by push Not; exact ⟨hD.ne', hL.ne', hG.ne'⟩)] at h
  rw [if_neg (by push Not; exact ⟨hD.ne', hL.ne', (hG.trans_le hGG).ne'⟩)] at h'
  rw [ratio (X := X) (D := L)] at h h'
  have hr0 : 0 ≤ X / L := by positivity
  have hr1' : X / L ≤ 1 := (div_le_one hL).2 hXL
  have hd0 : 0 ≤ Dr / 100 := by positivity
  have hd1 : Dr / 100 ≤ 1 := by linarith
  obtain ⟨a, b, c, d, e⟩ := scales hD hD hs hss hG hGG rfl rfl
  refine scaled_outresists (by linarith) ?_ (by linarith) (by linarith) (by linarith) a b c d e h h'
  have : Dr / 100 * (X / L) ≤ Dr / 100 * 1 := mul_le_mul_of_nonneg_left hr1' hd0
  nlinarith

/-- Dunkirk sand, base shear: more vertical stress and more shear modulus at the same relative density, for
lengths up to 6 diameters and up to 22 points (the default is 20). -/
theorem C83_hb_dunkirk_partial {sig sig' Dr G0 G0' D L : ℝ} {len : ℕ} {l l' : List (ℝ × ℝ)} (hD : 0 < D)
    (hs : 0 < sig) (hss : sig ≤ sig') (hG : 0 < G0) (hGG : G0 ≤ G0') (hL : 0 ≤ L) (hLD : L ≤ 6 * D)
    (hr : 0 ≤ Dr) (hr1 : Dr ≤ 100) (hlen : len ≤ 22)
    (h : hbDunkirk sig Dr G0 D L len = some l) (h' : hbDunkirk sig' Dr G0' D L len = some l') :
    Outresists l l' := by
  have hl : (len : ℝ) ≤ 22 := by exact_mod_cast hlen
  have hl0 : 0 ≤ L / D := by positivity
  have hl1 : L / D ≤ 6 := (div_le_iff₀ hD).2 hLD
  unfold hbDunkirk at h h'
  simp only at h h'
  rw [if_neg (by push Not; exact ⟨hD.ne', hG.ne'⟩)] at h
  rw [if_neg (by push Not; exact ⟨hD.ne', (hG.trans_le hGG).ne'⟩)] at h'
  simp only [ratio] at h h'
  have hd0 : 0 ≤ Dr / 100 := by positivity
  have hd1 : Dr / 100 ≤ 1 := by linarith
  have hp : 0 ≤ Dr / 100 * (L / D) := mul_nonneg hd0 hl0
  have hp1 : Dr / 100 * (L / D) ≤ Dr / 100 * 6 := mul_le_mul_of_nonneg_left hl1 hd0
  have hp2 : Dr / 100 * (L / D) ≤ 1 * (L / D) := mul_le_mul_of_nonneg_right hd1 hl0
  obtain ⟨a, b, c, d, e⟩ := scales hD (pow_pos hD 2) hs hss hG hGG
    (mul_div_assoc sig D G0).symm (mul_div_assoc sig' D G0').symm
  exact scaled_outresists (by linarith) (by linarith) (by linarith) (by linarith) (by linarith) a b c d e h h'

/-- Dunkirk sand, base moment: the same for up to 3590 points. -/
theorem C83_mb_dunkirk_partial {sig sig' Dr G0 G0' D L : ℝ} {len : ℕ} {l l' : List (ℝ × ℝ)} (hD : 0 < D)
    (hs : 0 < sig) (hss : sig ≤ sig') (hG : 0 < G0) (hGG : G0 ≤ G0') (hL : 0 ≤ L) (hLD : L ≤ 6 * D)
    (hr : 0 ≤ Dr) (hr1 : Dr ≤ 100) (hlen : len ≤ 3590)
    (h : mbDunkirk sig Dr G0 D L len = some l) (h' : mbDunkirk sig' Dr G0' D L len = some l') :
    Outresists l l' := by
  have hl : (len : ℝ) ≤ 3590 := by exact_mod_cast hlen
  have hl0 : 0 ≤ L / D := by positivity
  have hl1 : L / D ≤ 6 := (div_le_iff₀ hD).2 hLD
  unfold mbDunkirk at h h'
  simp only at h h'
  rw [if_neg (by push Not; exact ⟨hD.ne', hG.ne'⟩)] at h
  rw [if_neg (by push Not; exact ⟨hD.ne', (hG.trans_le hGG).ne'⟩)] at h'
  simp only [ratio] at h h'
  have hd0 : 0 ≤ Dr / 100 := by positivity
  have hd1 : Dr / 100 ≤ 1 := by linarith
  have hp : 0 ≤ Dr / 100 * (L / D) := mul_nonneg hd0 hl0
  have hp1 : Dr / 100 * (L / D) ≤ Dr / 100 * 6 := mul_le_mul_of_nonneg_left hl1 hd0
  have hp2 : Dr / 100 * (L / D) ≤ 1 * (L / D) := mul_le_mul_of_nonneg_right hd1 hl0
  obtain ⟨a, b, c, d, e⟩ := scales one_pos (pow_pos hD 3) hs hss hG hGG
    (by rw [mul_one] : sig / G0 = sig * 1 / G0) (by rw [mul_one] : sig' / G0' = sig' * 1 / G0')
  exact scaled_outresists (by linarith) (by linarith) (by linarith) (by linarith) (by linarith) a b c d e h h'

/-- Two states of stress under a pile of 6 m diameter and 18 m length. -/
example : ∃ l l', mbDunkirk 100 40 60000 6 18 15 = some l ∧ mbDunkirk 150 40 70000 6 18 15 = some l' ∧
    Outresists l l' := by
  obtain ⟨c, hc⟩ := C28_defined_moderate (xu := 4489 / 100)
    (n := 3 / 10 + 4986 / 10000 * (40 / 100)) (k := 3515 / 10000 + 0 * 18 / 6)
    (yu := 9981 / 100000 + 3710 / 10000 * (40 / 100) + (1998 / 100000 - 9041 / 100000 * (40 / 100)) * 18 / 6)
    (len := 15) (by norm_num) (by norm_num) (by norm_num) (by norm_num) (by norm_num)
  have e : ∀ sig G0 : ℝ, G0 ≠ 0 → mbDunkirk sig 40 G0 6 18 15 =
      some (scale (sig / G0) (sig * 6 ^ 3) c) := by
    intro sig G0 hG
    unfold mbDunkirk scaledConic
    simp only
    rw [if_neg (by push Not; exact ⟨by norm_num, hG⟩), hc]
    rfl
  exact ⟨_, _, e _ _ (by norm_num), e _ _ (by norm_num), C83_mb_dunkirk_partial (by norm_num)
    (by norm_num) (by norm_num) (by norm_num) (by norm_num) (by norm_num) (by norm_num) (by norm_num)
    (by norm_num) (by norm_num) (e _ _ (by norm_num)) (e _ _ (by norm_num))⟩

/-- The custom curves: any normalised conic with admissible parameters whose points are at least 0.01
apart. -/
theorem C83_custom_partial {s s' G0 G0' D xu n k yu : ℝ} {len : ℕ} {l l' : List (ℝ × ℝ)} (hD : 0 < D)
    (hs : 0 < s) (hss : s ≤ s') (hG : 0 < G0) (hGG : G0 ≤ G0') (hxu : 1 / 80 ≤ xu) (hyu : 0 < yu)
    (hn : 0 ≤ n) (hn1 : n < 1) (hlen : (len : ℝ) - 6 ≤ 80 * xu) :
    (pyCustomSand s G0 D xu n k yu len = some l → pyCustomSand s' G0' D xu n k yu len = some l' →
      Outresists l l') ∧
    (pyCustomClay s G0 D xu n k yu len = some l → pyCustomClay s' G0' D xu n k yu len = some l' →
      Outresists l l') ∧
    (mtCustomClay s G0 D xu n k yu len = some l → mtCustomClay s' G0' D xu n k yu len = some l' →
      Outresists l l') ∧
    (hbCustomSand s G0 D xu n k yu len = some l → hbCustomSand s' G0' D xu n k yu len = some l' →
      Outresists l l') ∧
    (hbCustomClay s G0 D xu n k yu len = some l → hbCustomClay s' G0' D xu n k yu len = some l' →
      Outresists l l') ∧
    (mbCustomSand s G0 D xu n k yu len = some l → mbCustomSand s' G0' D xu n k yu len = some l' →
      Outresists l l') ∧
    (mbCustomClay s G0 D xu n k yu len = some l → mbCustomClay s' G0' D xu n k yu len = some l' →
      Outresists l l') := by
  have hG' := (hG.trans_le hGG).ne'
  have key : ∀ d c : ℝ, 0 < c → 0 < d →
      scaledConic xu n k yu (s * c / G0) (s * d) len = some l →
      scaledConic xu n k yu (s' * c / G0') (s' * d) len = some l' → Outresists l l' := by
    intro d c hc hd
    obtain ⟨a, b, u, v, e⟩ := scales hc hd hs hss hG hGG rfl rfl
    exact scaled_outresists hxu hyu hn hn1 hlen a b u v e
  have k2 : 0 < D ^ 2 := by positivity
  have k3 : 0 < D ^ 3 := by positivity
  have one : ∀ d, 0 < d → scaledConic xu n k yu (s / G0) (s * d) len = some l →
      scaledConic xu n k yu (s' / G0') (s' * d) len = some l' → Outresists l l' := by
    intro d hd
    have := key d 1 one_pos hd
    rwa [mul_one, mul_one] at this
  refine ⟨?_, ?_, ?_, ?_, ?_, ?_, ?_⟩
  · unfold pyCustomSand; rw [if_neg hG.ne', if_neg hG']; exact key D D hD hD
  · unfold pyCustomClay; rw [if_neg hG.ne', if_neg hG']; exact key D D hD hD
  · unfold mtCustomClay; rw [if_neg hG.ne', if_neg hG']; exact one _ k2
  · unfold hbCustomSand; rw [if_neg hG.ne', if_neg hG']; exact key _ D hD k2
  · unfold hbCustomClay; rw [if_neg hG.ne', if_neg hG']; exact key _ D hD k2
  · unfold mbCustomSand; rw [if_neg hG.ne', if_neg hG']; exact one _ k3
  · unfold mbCustomClay; rw [if_neg hG.ne', if_neg hG']; exact one _ k3

end OpenPile.Props.Stronger

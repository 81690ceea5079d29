/-
C83 for the distributed moment of Dunkirk sand.  The ultimate rotation is at most 0.0155 in the normalised
form, while `conic` puts every point within 0.01 of the ultimate rotation on the plateau.
-/
import Verif.Props.StrongerPisa

namespace OpenPile.Props.Stronger
open OpenPile.Conic

/-- The normalised ultimate moment of Dunkirk sand, mt_curves.py 174-181: the number the statements below
need for their conditions. -/
noncomputable def mtUltimate (X Dr L : ℝ) : ℝ :=
  2605 / 10000 + (-1989 / 10000 + 2019 / 10000 * (Dr / 100)) * X / L

theorem mtUltimate_pos {X Dr L : ℝ} (hX : 0 ≤ X) (hL : 0 < L) (hXL : X ≤ L) (hr : 0 ≤ Dr) :
    0 < mtUltimate X Dr L := by
  unfold mtUltimate
  rw [mul_div_assoc]
  have h0 : 0 ≤ X / L := by positivity
  have h1 : X / L ≤ 1 := (div_le_one hL).2 hXL
  have h2 : 0 ≤ Dr / 100 * (X / L) := by positivity
  nlinarith

theorem mtDunkirk_eq {sig X Dr G0 p D L : ℝ} {len : ℕ} (hD : 0 < D) (hL : 0 < L) (hG : 0 < G0) :
    mtDunkirk sig X Dr G0 p D L len = scaledConic (mtUltimate X Dr L / 17) 0 17 (mtUltimate X Dr L)
      (sig / G0) (|p| * D) len := by
  unfold mtDunkirk mtUltimate
  simp only
  rw [if_neg (by push Not; exact ⟨hD.ne', hL.ne', hG.ne'⟩), zero_mul, zero_div, add_zero]

/-- Two tables from one normalised conic whose displacements do not grow: no condition on the spacing of
the points. -/
theorem contracted_outresists {xu n k yu sx sy sx' sy' : ℝ} {len : ℕ} {l l' : List (ℝ × ℝ)}
    (hx : 0 < xu) (hyu : 0 < yu) (hn : 0 ≤ n) (hn1 : n < 1) (hsx' : 0 < sx') (hs : sx' ≤ sx)
    (hsy : 0 ≤ sy) (hy : sy ≤ sy') (h : scaledConic xu n k yu sx sy len = some l)
    (h' : scaledConic xu n k yu sx' sy' len = some l') : Outresists l l' := by
  unfold scaledConic at h h'
  rw [Option.map_eq_some_iff] at h h'
  obtain ⟨c, hc, rfl⟩ := h
  obtain ⟨c', hc', rfl⟩ := h'
  rw [hc, Option.some.injEq] at hc'
  subst hc'
  intro q hq q' hq' hle
  unfold scale at hq hq'
  obtain ⟨⟨x, y⟩, hp, rfl⟩ := List.mem_map.1 hq
  obtain ⟨⟨x', y'⟩, hp', rfl⟩ := List.mem_map.1 hq'
  dsimp only at hle ⊢
  have hy0' := (C28_bounded hx hyu hn hn1 hc hp').1
  have x0' : 0 ≤ x' := conicX_nonneg hx len (fst_mem hc hp')
  have hxx : x ≤ x' := by
    have : x * sx ≤ x' * sx := hle.trans (mul_le_mul_of_nonneg_left hs x0')
    exact le_of_mul_le_mul_right this (hsx'.trans_le hs)
  rcases hxx.lt_or_eq with g | g
  · exact mul_le_mul (C28_monotone hx hyu hn hn1 hc hp hp' g) hy hsy hy0'
  · subst g
    have e := (conic_points hc).2.2.2 (x, y) hp
    have e' := (conic_points hc).2.2.2 (x, y') hp'
    dsimp only at e e'
    rw [e, Option.some.injEq] at e'
    subst e'
    gcongr

/-- **C83** (Dunkirk sand, distributed moment).  A stronger sand of the same density (more lateral reaction
at the row of the table, and a shear modulus that grows at least as fast as the vertical stress) resists at
least as much, for any number of points. -/
theorem C83_mt_dunkirk_partial {sig sig' X Dr G0 G0' p p' D L : ℝ} {len : ℕ} {l l' : List (ℝ × ℝ)}
    (hD : 0 < D) (hs' : 0 < sig') (hG : 0 < G0) (hG' : 0 < G0') (hgrow : sig' / G0' ≤ sig / G0)
    (hX : 0 ≤ X) (hL : 0 < L) (hXL : X ≤ L) (hr : 0 ≤ Dr) (hp : |p| ≤ |p'|)
    (h : mtDunkirk sig X Dr G0 p D L len = some l) (h' : mtDunkirk sig' X Dr G0' p' D L len = some l') :
    Outresists l l' := by
  have hm := mtUltimate_pos hX hL hXL hr
  rw [mtDunkirk_eq hD hL hG] at h
  rw [mtDunkirk_eq hD hL hG'] at h'
  exact contracted_outresists (by positivity) hm le_rfl one_pos (by positivity) hgrow (by positivity)
    (by gcongr) h h'

/-- **C83** (Dunkirk sand, distributed moment, loose sand at depth).  Where the normalised ultimate moment is
below 0.17 every point of the table, the one at rotation zero included, carries the ultimate moment, so a
stronger sand resists at least as much whatever its shear modulus. -/
theorem C83_mt_dunkirk_deep {sig sig' X Dr G0 G0' p p' D L : ℝ} {len : ℕ} {l l' : List (ℝ × ℝ)}
    (hD : 0 < D) (hG : 0 < G0) (hG' : 0 < G0') (hX : 0 ≤ X) (hL : 0 < L) (hXL : X ≤ L) (hr : 0 ≤ Dr)
    (hdeep : mtUltimate X Dr L < 17 / 100) (hp : |p| ≤ |p'|)
    (h : mtDunkirk sig X Dr G0 p D L len = some l) (h' : mtDunkirk sig' X Dr G0' p' D L len = some l') :
    (∀ q ∈ l, q.2 = mtUltimate X Dr L * (|p| * D)) ∧ Outresists l l' := by
  have hm := mtUltimate_pos hX hL hXL hr
  rw [mtDunkirk_eq hD hL hG] at h
  rw [mtDunkirk_eq hD hL hG'] at h'
  have flat : ∀ {sx sy : ℝ} {t : List (ℝ × ℝ)}, scaledConic (mtUltimate X Dr L / 17) 0 17
      (mtUltimate X Dr L) sx sy len = some t → ∀ q ∈ t, q.2 = mtUltimate X Dr L * sy := by
    intro sx sy t ht q hq
    unfold scaledConic at ht
    rw [Option.map_eq_some_iff] at ht
    obtain ⟨c, hc, rfl⟩ := ht
    unfold scale at hq
    obtain ⟨⟨x, y⟩, hxy, rfl⟩ := List.mem_map.1 hq
    have x0 : 0 ≤ x := conicX_nonneg (by positivity) len (fst_mem hc hxy)
    dsimp only
    rw [near_ultimate hc hxy (by linarith)]
  refine ⟨flat h, ?_⟩
  intro q hq q' hq' _
  rw [flat h q hq, flat h' q' hq']
  gcongr

/-- A sand under `r` times the vertical stress has `r` times the lateral reaction at the same row of its p-y
table, so the reactions compared below are those of the two p-y tables. -/
theorem py_row_scaled {sig X Dr G0 D L r : ℝ} {len : ℕ} {l : List (ℝ × ℝ)}
    (h : pyDunkirk sig X Dr G0 D L len = some l) :
    pyDunkirk (r * sig) X Dr G0 D L len = some (l.map (fun q => (r * q.1, r * q.2))) := by
  unfold pyDunkirk at h ⊢
  simp only at h ⊢
  by_cases h0 : D = 0 ∨ L = 0 ∨ G0 = 0
  · rw [if_pos h0] at h; cases h
  rw [if_neg h0] at h ⊢
  unfold scaledConic at h ⊢
  rw [Option.map_eq_some_iff] at h
  obtain ⟨c, hc, rfl⟩ := h
  rw [hc, Option.map_some, Option.some.injEq]
  unfold scale
  rw [List.map_map]
  apply List.map_congr_left
  intro q _
  simp only [Function.comp_apply, Prod.mk.injEq]
  constructor <;> ring

/-- **C83 is violated** by the distributed moment of Dunkirk sand.  Under two to ten times the vertical stress
(and the same shear modulus, so that the lateral reaction grows by the same factor) the moment at some larger
rotation is smaller: the code lifts the points within 0.01 of the ultimate rotation to the ultimate moment, and
in the stronger sand that happens at a larger rotation. -/
theorem C83_violated_rotation {sig X Dr G0 p D L r : ℝ} {len : ℕ} (hD : 0 < D) (hs : 0 < sig) (hG : 0 < G0)
    (hL : 0 < L) (hlo : 17 / 90 ≤ mtUltimate X Dr L) (hup : mtUltimate X Dr L < 17 / 80)
    (hp : p ≠ 0) (h2 : 2 ≤ r) (h10 : r < 10) (hlen : 6 ≤ len) :
    ∃ l l', mtDunkirk sig X Dr G0 p D L len = some l ∧
      mtDunkirk (r * sig) X Dr G0 (r * p) D L len = some l' ∧ ¬ Outresists l l' := by
  have hm : 0 < mtUltimate X Dr L := by linarith
  set M := mtUltimate X Dr L with hM
  have hx : 0 < M / 17 := by positivity
  obtain ⟨c, hc⟩ := C28_defined_moderate (xu := M / 17) (n := 0) (k := 17) (yu := M) (len := len) hx hm
    le_rfl (by norm_num) (by omega)
  refine ⟨scale (sig / G0) (|p| * D) c, scale (r * sig / G0) (|r * p| * D) c, ?_, ?_, ?_⟩
  · rw [mtDunkirk_eq hD hL hG, ← hM]; unfold scaledConic; rw [hc]; rfl
  · rw [mtDunkirk_eq hD hL hG, ← hM]; unfold scaledConic; rw [hc]; rfl
  have mem : ∀ x ∈ conicX (M / 17) len, ∃ y, (x, y) ∈ c := by
    intro x hxm
    rw [← (conic_points hc).2.2.1] at hxm
    obtain ⟨⟨a, b⟩, hab, rfl⟩ := List.mem_map.1 hxm
    exact ⟨b, hab⟩
  obtain ⟨ya, ha⟩ := mem (2 / 10 * (M / 17)) (by
    unfold conicX linspace
    rw [List.mem_append, List.mem_append]
    left; right
    split_ifs
    · simp
    · rw [List.mem_map]
      exact ⟨0, List.mem_range.2 (by omega), by simp⟩)
  obtain ⟨yb, hb⟩ := mem (1 / 10 * (M / 17)) (by simp [conicX])
  have ea : ya = M := near_ultimate hc ha (by linarith)
  obtain ⟨_, _, ub, _⟩ := C28_conic_partial hx hm le_rfl one_pos hc hb (by linarith)
  have hk : max (M / (M / 17)) 17 = 17 := by
    rw [div_div_cancel₀ hm.ne', max_self]
  rw [hk] at ub
  intro hO
  have := hO (2 / 10 * (M / 17) * (sig / G0), ya * (|p| * D)) (List.mem_map.2 ⟨_, ha, rfl⟩)
    (1 / 10 * (M / 17) * (r * sig / G0), yb * (|r * p| * D)) (List.mem_map.2 ⟨_, hb, rfl⟩) (by
      dsimp only
      rw [mul_div_assoc]
      have : 0 < M / 17 * (sig / G0) := by positivity
      nlinarith)
  dsimp only at this
  rw [ea, abs_mul, abs_of_pos (by linarith : (0 : ℝ) < r)] at this
  have hp' : 0 < |p| := abs_pos.2 hp
  have hpD : 0 < |p| * D := by positivity
  have e : yb * (r * |p| * D) = (yb * r) * (|p| * D) := by ring
  rw [e] at this
  have h3 := le_of_mul_le_mul_right this hpD
  nlinarith

/-- A loose sand at 70 % of the depth of a pile of 6 m diameter and 30 m length: under 50 kPa more than under
100 kPa. -/
example : ∃ l l', mtDunkirk 50 21 60 50000 100 6 30 20 = some l ∧
    mtDunkirk (2 * 50) 21 60 50000 (2 * 100) 6 30 20 = some l' ∧ ¬ Outresists l l' :=
  C83_violated_rotation (by norm_num) (by norm_num) (by norm_num) (by norm_num)
    (by unfold mtUltimate; norm_num) (by unfold mtUltimate; norm_num) (by norm_num) le_rfl (by norm_num)
    (by norm_num)

/-- Two sands in which the modulus grows with the stress, at the ground surface. -/
example {l l' : List (ℝ × ℝ)} (h : mtDunkirk 50 0 60 50000 100 6 30 20 = some l)
    (h' : mtDunkirk 100 0 60 100000 200 6 30 20 = some l') : Outresists l l' :=
  C83_mt_dunkirk_partial (by norm_num) (by norm_num) (by norm_num) (by norm_num) (by norm_num) le_rfl
    (by norm_num) (by norm_num) (by norm_num) (by norm_num) h h'

/-- Both tables exist. -/
example : (∃ l, mtDunkirk 50 0 60 50000 100 6 30 20 = some l) ∧
    ∃ l, mtDunkirk 100 0 60 100000 200 6 30 20 = some l := by
  obtain ⟨c, hc⟩ := C28_defined_moderate (xu := mtUltimate 0 60 30 / 17) (n := 0) (k := 17)
    (yu := mtUltimate 0 60 30) (len := 20) (by unfold mtUltimate; norm_num) (by unfold mtUltimate; norm_num)
    le_rfl (by norm_num) (by norm_num)
  constructor <;>
  · rw [mtDunkirk_eq (by norm_num) (by norm_num) (by norm_num)]
    unfold scaledConic
    rw [hc]
    exact ⟨_, rfl⟩

/-- A sand of 30 % density near the tip. -/
example : mtUltimate 29 30 30 < 17 / 100 := by unfold mtUltimate; norm_num

end OpenPile.Props.Stronger

/-
Properties C04 (soil profile) and C11 (stress at the pile tip).
-/
import Verif.Spec.Soil
import Mathlib.Tactic.Linarith
import Mathlib.Tactic.Ring
import Mathlib.Tactic.FieldSimp
import Mathlib.Tactic.NormNum
import Mathlib.Algebra.Order.Ring.Rat
import Mathlib.Data.List.Chain

namespace OpenPile.Props.Soil
open OpenPile.Soil OpenPile.Spec.Soil

variable {K : Type} [Field K] [LinearOrder K] [IsStrictOrderedRing K]

theorem built_iff (l : Layer K) : Built l ↔ l.bottom < l.top ∧ 10 < l.weight := by
  constructor
  · rintro ⟨t, b, w, h⟩
    unfold mkLayer at h
    split at h
    · cases h
    · split at h
      · cases h
      · cases h; simp_all
  · rintro ⟨h1, h2⟩
    exact ⟨l.top, l.bottom, l.weight, by simp [mkLayer, h1, h2]⟩

/-! ## C04 -/

omit [IsStrictOrderedRing K] in
theorem sortLayers_perm (l : List (Layer K)) : (sortLayers l).Perm l :=
  (List.reverse_perm _).trans (Py.sortedBy_perm _ l)

omit [IsStrictOrderedRing K] in
theorem sortLayers_sorted (l : List (Layer K)) :
    (sortLayers l).Pairwise (fun a b => b.top ≤ a.top) := by
  rw [sortLayers, List.pairwise_reverse]
  exact Py.sortedBy_pairwise _ l

omit [IsStrictOrderedRing K] in
theorem layersConnect_iff (l : List (Layer K)) :
    layersConnect l = true ↔ l.IsChain (fun a b => isClose b.top a.bottom = true) := by
  induction l with
  | nil => simp [layersConnect]
  | cons a l ih =>
    cases l with
    | nil => simp [layersConnect]
    | cons b l => simp [layersConnect, ih, List.isChain_cons_cons]

theorem isClose_of_small (a b : K) (ha : |a| ≤ 1000000) (hb : |b| ≤ 1000000) :
    isClose a b = true ↔ |a - b| ≤ 1 / 1000 := by
  unfold isClose
  rw [decide_eq_true_eq]
  have h : max |a| |b| ≤ 1000000 := max_le ha hb
  have h2 : 1 / 1000000000 * max |a| |b| ≤ (1 / 1000 : K) := by
    have : (1 / 1000000000 : K) * max |a| |b| ≤ 1 / 1000000000 * 1000000 :=
      mul_le_mul_of_nonneg_left h (by norm_num)
    refine this.trans_eq (by norm_num)
  rw [max_eq_right h2]

/-- **C04, acceptance.** `SoilProfile` raises an IndexError exactly for an empty list of layers;
otherwise it is accepted exactly when some arrangement of its layers with non-increasing tops that
sorting produces starts at `top_elevation` and consecutive layers meet within 1 mm (elevations up to
1000 km). -/
theorem C04_accepted_iff (te wl : K) (layers : List (Layer K))
    (hsmall : ∀ l ∈ layers, |l.top| ≤ 1000000 ∧ |l.bottom| ≤ 1000000) :
    (mkProfile te wl layers = .error .indexError ↔ layers = []) ∧
    ((∃ p, mkProfile te wl layers = .ok p) ↔
      (sortLayers layers).head?.map (·.top) = some te ∧
      (sortLayers layers).IsChain (fun upper lower => |lower.top - upper.bottom| ≤ 1 / 1000)) ∧
    (∀ p, mkProfile te wl layers = .ok p → p = ⟨te, wl, layers⟩) := by
  have hperm := sortLayers_perm layers
  have hch : (sortLayers layers).IsChain (fun a b => isClose b.top a.bottom = true) ↔
      (sortLayers layers).IsChain (fun upper lower => |lower.top - upper.bottom| ≤ 1 / 1000) := by
    have hs : ∀ l ∈ sortLayers layers, |l.top| ≤ 1000000 ∧ |l.bottom| ≤ 1000000 :=
      fun l hl => hsmall l (hperm.subset hl)
    generalize sortLayers layers = L at hs
    induction L with
    | nil => simp
    | cons a L ih =>
      cases L with
      | nil => simp
      | cons b L =>
        have ih' := ih (fun l hl => hs l (List.mem_cons_of_mem _ hl))
        rw [List.isChain_cons_cons, List.isChain_cons_cons]
        exact and_congr (isClose_of_small _ _ (hs b (by simp)).1 (hs a (by simp)).2) ih'
  unfold mkProfile
  rw [← hch]
  cases hL : sortLayers layers with
  | nil =>
    have : layers = [] := by rw [hL] at hperm; exact hperm.symm.eq_nil
    simp [this]
  | cons a L =>
    have hne : layers ≠ [] := by
      rintro rfl; rw [hL] at hperm; exact absurd hperm.eq_nil (by simp)
    by_cases h1 : a.top = te <;> by_cases h2 : layersConnect (a :: L) = true
    · have h3 := (layersConnect_iff _).1 h2
      simp only [h1, ne_eq, not_true_eq_false, if_false, h2, if_true]
      refine ⟨by simp [hne], ⟨fun _ => ⟨by simp [h1], h3⟩, fun _ => ⟨_, rfl⟩⟩, ?_⟩
      intro p hp
      exact (Except.ok.inj hp).symm
    · rw [layersConnect_iff] at h2
      have h3 := h2
      rw [← layersConnect_iff] at h3
      simp [h1, h2, h3, hne]
    · simp [h1, hne]
    · simp [h1, hne]

/-- **C04, gaps and overlaps.** In an accepted profile (elevations up to 1000 km): every elevation
between `top_elevation` and the lowest layer bottom is within 1 mm of a layer, and of two layers in
sorted order the lower one starts at most 1 mm above the bottom of the upper one. -/
theorem C04_no_gap_no_overlap (te wl : K) (layers : List (Layer K)) (p : Profile K)
    (hs : ∀ l ∈ layers, Built l)
    (hsmall : ∀ l ∈ layers, |l.top| ≤ 1000000 ∧ |l.bottom| ≤ 1000000)
    (hp : mkProfile te wl layers = .ok p) :
    (∀ l ∈ layers, l.top ≤ te) ∧ (∃ l ∈ layers, l.top = te) ∧
    (∀ z l, l ∈ layers → l.bottom ≤ z → z ≤ te →
      ∃ l' ∈ layers, l'.bottom - 1 / 1000 ≤ z ∧ z ≤ l'.top + 1 / 1000) ∧
    (sortLayers layers).Pairwise (fun upper lower => lower.top ≤ upper.bottom + 1 / 1000) := by
  obtain ⟨h1, h2⟩ := (C04_accepted_iff te wl layers hsmall).2.1.1 ⟨p, hp⟩
  have hperm := sortLayers_perm layers
  have hsorted := sortLayers_sorted layers
  have hs' : ∀ l ∈ sortLayers layers, l.bottom < l.top :=
    fun l hl => ((built_iff l).1 (hs l (hperm.subset hl))).1
  have htop : ∀ l ∈ sortLayers layers, l.top ≤ te := by
    intro l hl
    cases hL : sortLayers layers with
    | nil => rw [hL] at hl; simp at hl
    | cons a L =>
      rw [hL] at h1 hl hsorted
      simp at h1
      rcases List.mem_cons.1 hl with rfl | h
      · exact h1.le
      · exact h1 ▸ (List.pairwise_cons.1 hsorted).1 l h
  refine ⟨fun l hl => htop l (hperm.symm.subset hl), ?_, ?_, ?_⟩
  · cases hL : sortLayers layers with
    | nil => rw [hL] at h1; simp at h1
    | cons a L =>
      rw [hL] at h1 hperm
      exact ⟨a, hperm.subset (by simp), by simpa using h1⟩
  · intro z l hl hz hz'
    -- among layers with top ≥ z - tol walk down
    have key : ∀ (L : List (Layer K)) (a : Layer K),
        (a :: L).IsChain (fun upper lower => |lower.top - upper.bottom| ≤ 1 / 1000) →
        (∀ x ∈ a :: L, x.bottom < x.top) → z ≤ a.top + 1 / 1000 →
        (∃ x ∈ a :: L, x.bottom ≤ z) →
        ∃ l' ∈ a :: L, l'.bottom - 1 / 1000 ≤ z ∧ z ≤ l'.top + 1 / 1000 := by
      intro L
      induction L with
      | nil =>
        rintro a _ _ hza ⟨x, hx, hxz⟩
        rw [List.mem_singleton.1 hx] at hxz
        exact ⟨a, by simp, by linarith, hza⟩
      | cons b L ih =>
        rintro a hch hv hza ⟨x, hx, hxz⟩
        by_cases hab : a.bottom - 1 / 1000 ≤ z
        · exact ⟨a, by simp, hab, hza⟩
        · have hc := List.isChain_cons_cons.1 hch
          have h3 := abs_le.1 hc.1
          obtain ⟨l', hl', h4⟩ := ih b hc.2 (fun x hx => hv x (List.mem_cons_of_mem _ hx))
            (by push Not at hab; linarith [h3.1])
            (by
              rcases List.mem_cons.1 hx with rfl | hx
              · push Not at hab; linarith
              · exact ⟨x, hx, hxz⟩)
          exact ⟨l', List.mem_cons_of_mem _ hl', h4⟩
    cases hL : sortLayers layers with
    | nil => rw [hL] at h1; simp at h1
    | cons a L =>
      rw [hL] at h1 h2 hs' hperm
      simp at h1
      obtain ⟨l', hl', h4⟩ := key L a h2 hs' (by rw [h1]; linarith)
        ⟨l, hperm.symm.subset hl, hz⟩
      exact ⟨l', hperm.subset hl', h4⟩
  · generalize sortLayers layers = L at *
    clear h1 hperm htop
    induction L with
    | nil => simp
    | cons a L ih =>
      rw [List.pairwise_cons] at hsorted ⊢
      refine ⟨?_, ih h2.tail hsorted.2 (fun l hl => hs' l (by simp [hl]))⟩
      cases L with
      | nil => simp
      | cons b L =>
        have h3 := abs_le.1 (List.isChain_cons_cons.1 h2).1
        intro c hc
        have : c.top ≤ b.top := by
          rcases List.mem_cons.1 hc with rfl | hc
          · exact le_rfl
          · exact (List.pairwise_cons.1 hsorted.2).1 c hc
        linarith [h3.2]

/-- **C04, bottom elevation.** `bottom_elevation` (top minus the sum of thicknesses) deviates from
the bottom of the lowest layer by at most 1 mm per layer interface, and not at all if the layers
meet exactly. -/
theorem C04_bottom_elevation (te wl : K) (layers : List (Layer K)) (p : Profile K)
    (hs : ∀ l ∈ layers, Built l)
    (hsmall : ∀ l ∈ layers, |l.top| ≤ 1000000 ∧ |l.bottom| ≤ 1000000)
    (hp : mkProfile te wl layers = .ok p) :
    ∃ lowest, (sortLayers layers).getLast? = some lowest ∧ lowest ∈ layers ∧
      (∀ l ∈ layers, lowest.top ≤ l.top) ∧
      |p.bottomElevation - lowest.bottom| ≤ ((layers.length : K) - 1) * (1 / 1000) ∧
      ((sortLayers layers).IsChain (fun upper lower => lower.top = upper.bottom) →
        p.bottomElevation = lowest.bottom) := by
  obtain ⟨h1, h2⟩ := (C04_accepted_iff te wl layers hsmall).2.1.1 ⟨p, hp⟩
  have hpe := (C04_accepted_iff te wl layers hsmall).2.2 p hp
  have hperm := sortLayers_perm layers
  have hsorted := sortLayers_sorted layers
  have hs' : ∀ l ∈ sortLayers layers, l.bottom < l.top :=
    fun l hl => ((built_iff l).1 (hs l (hperm.subset hl))).1
  have key : ∀ (L : List (Layer K)) (a last : Layer K),
      (a :: L).IsChain (fun upper lower => |lower.top - upper.bottom| ≤ 1 / 1000) →
      (∀ x ∈ a :: L, x.bottom < x.top) → (a :: L).getLast? = some last →
      |a.top - ((a :: L).map (fun x => |x.top - x.bottom|)).sum - last.bottom| ≤
        (L.length : K) * (1 / 1000) ∧
      ((a :: L).IsChain (fun upper lower => lower.top = upper.bottom) →
        a.top - ((a :: L).map (fun x => |x.top - x.bottom|)).sum = last.bottom) := by
    intro L
    induction L with
    | nil =>
      intro a last _ hv hl
      simp at hl
      subst hl
      have := hv a (by simp)
      have e : |a.top - a.bottom| = a.top - a.bottom := abs_of_pos (by linarith)
      simp [e]
    | cons b L ih =>
      intro a last hch hv hl
      have hc := List.isChain_cons_cons.1 hch
      obtain ⟨i1, i2⟩ := ih b last hc.2 (fun x hx => hv x (List.mem_cons_of_mem _ hx))
        (by simpa using hl)
      have := hv a (by simp)
      have e : |a.top - a.bottom| = a.top - a.bottom := abs_of_pos (by linarith)
      rw [List.map_cons, List.sum_cons, e]
      constructor
      · have h3 := abs_le.1 hc.1
        have h4 := abs_le.1 i1
        rw [List.length_cons, abs_le]
        push_cast
        constructor <;> linarith
      · intro hex
        have hx := List.isChain_cons_cons.1 hex
        have := i2 hx.2
        linarith [hx.1]
  have hsum : (layers.map (fun x => |x.top - x.bottom|)).sum =
      ((sortLayers layers).map (fun x => |x.top - x.bottom|)).sum := (hperm.map _).sum_eq.symm
  subst hpe
  simp only [Profile.bottomElevation]
  rw [hsum, ← hperm.length_eq]
  cases hL : sortLayers layers with
  | nil => rw [hL] at h1; simp at h1
  | cons a L =>
    rw [hL] at h1 h2 hs' hperm hsorted
    simp at h1
    obtain ⟨last, hlast⟩ : ∃ x, (a :: L).getLast? = some x :=
      ⟨(a :: L).getLast (by simp), List.getLast?_eq_getLast_of_ne_nil (by simp)⟩
    have hlm : last ∈ a :: L := List.mem_of_getLast? hlast
    obtain ⟨k1, k2⟩ := key L a last h2 hs' hlast
    refine ⟨last, hlast, hperm.subset hlm, ?_, ?_, ?_⟩
    · intro l hl
      have hl' := hperm.symm.subset hl
      obtain ⟨M, hM⟩ := List.getLast?_eq_some_iff.1 hlast
      rw [hM] at hsorted hl'
      rcases List.mem_append.1 hl' with h | h
      · exact (List.pairwise_append.1 hsorted).2.2 l h last (by simp)
      · rw [List.mem_singleton.1 h]
    · rw [← h1, List.length_cons]
      push_cast
      simpa using k1
    · intro hex
      rw [← h1]
      exact k2 hex

/-- Three layers listed bottom-up, with a gap of 0.5 mm, are accepted and satisfy the hypotheses. -/
example : (∃ p, mkProfile (0:ℚ) 0 [⟨-20, -40, 19⟩, ⟨-4, -20, 18⟩, ⟨0, -39995/10000, 18⟩] = .ok p) ∧
    (∀ l ∈ ([⟨-20, -40, 19⟩, ⟨-4, -20, 18⟩, ⟨0, -39995/10000, 18⟩] : List (Layer ℚ)), Built l) ∧
    (∀ l ∈ ([⟨-20, -40, 19⟩, ⟨-4, -20, 18⟩, ⟨0, -39995/10000, 18⟩] : List (Layer ℚ)),
      |l.top| ≤ 1000000 ∧ |l.bottom| ≤ 1000000) := by
  refine ⟨⟨⟨0, 0, [⟨-20, -40, 19⟩, ⟨-4, -20, 18⟩, ⟨0, -39995/10000, 18⟩]⟩, by decide +kernel⟩,
    ?_, ?_⟩
  · simp [built_iff]; norm_num
  · simp [abs_le]; norm_num
/-- An overlap of 2 mm is rejected. -/
example : mkProfile (0:ℚ) 0 [⟨-4, -20, 18⟩, ⟨0, -4002/1000, 18⟩] = .error .layersOverlap := by
  decide +kernel

/-! ## C11 -/

/-- One layer contributes the integral of the effective unit weight, except in a partially
penetrated layer whose soil is completely dry (`tip` strictly inside, water at or below the layer
bottom), where the code adds nothing. -/
theorem tipStressLayer_eq (tip water sig : K) (l : Layer K) (hl : l.bottom < l.top)
    (hw : ¬ (l.bottom < tip ∧ tip < l.top ∧ water ≤ l.bottom)) :
    tipStressLayer tip water sig l = sig + layerStress water tip l := by
  unfold tipStressLayer layerStress
  have hne : l.top - l.bottom ≠ 0 := by linarith
  simp only
  by_cases h1 : tip ≤ l.bottom
  · have e1 : max l.bottom (min tip l.top) = l.bottom := by
      rw [min_eq_left (by linarith), max_eq_left h1]
    rw [if_pos h1, e1]
    split
    · rename_i h2
      rw [max_eq_right h2, min_eq_right hl.le]; ring
    · rename_i h2
      push Not at h2
      split
      · rename_i h3
        rw [max_eq_left h2.le, min_eq_right h3.le]
        field_simp; ring
      · rename_i h3
        push Not at h3
        rw [max_eq_left h2.le, min_eq_left h3]; ring
  · push Not at h1
    rw [if_neg (not_le.2 h1)]
    by_cases h4 : tip < l.top
    · have hwl : l.bottom < water := by
        by_contra hcon
        exact hw ⟨h1, h4, not_lt.1 hcon⟩
      have e1 : max l.bottom (min tip l.top) = tip := by
        rw [min_eq_left h4.le, max_eq_right h1.le]
      have hne' : l.top - tip ≠ 0 := by linarith
      rw [if_pos ⟨h4, hwl⟩, e1]
      split
      · rename_i h2
        rw [max_eq_right h2, min_eq_right h4.le]; ring
      · rename_i h2
        push Not at h2
        split
        · rename_i h3
          rw [max_eq_left h2.le, min_eq_right h3.le]
          field_simp; ring
        · rename_i h3
          push Not at h3
          rw [max_eq_left h2.le, min_eq_left h3]; ring
    · have e1 : max l.bottom (min tip l.top) = l.top := by
        rw [min_eq_right (not_lt.1 h4), max_eq_right hl.le]
      rw [if_neg (by tauto), e1, min_eq_left (le_max_right _ _)]; ring

/-- **C11 (partial).** For a profile with a *single* layer, the stress at the tip is the mudline
stress plus the effective weight of the soil above the tip, unless the layer is dry below the tip.
Missing for the full property: several layers and a dry layer containing the tip (both violated). -/
theorem C11_single_layer_partial (tip water sig : K) (l : Layer K) (hl : Built l)
    (hw : ¬ (l.bottom < tip ∧ tip < l.top ∧ water ≤ l.bottom)) :
    getTipSigVEff tip water [l] sig = some (sig + stressAt water tip [l]) := by
  have : getTipSigVEff tip water [l] sig = some (tipStressLayer tip water sig l) := rfl
  rw [this, tipStressLayer_eq tip water sig l ((built_iff l).1 hl).1 hw]
  simp [stressAt]

example : Built (⟨0, -20, 18⟩ : Layer ℚ) ∧
    getTipSigVEff (-10 : ℚ) (-4) [⟨0, -20, 18⟩] 0 = some (18 * 4 + 8 * 6) :=
  ⟨(built_iff _).2 (by norm_num), by decide +kernel⟩

/-- **C11 violated (several layers).** For a tip in the second layer the stress of the second layer
is missing: the function returns after the first layer, 80 kPa instead of 160 kPa. -/
theorem C11_violated_second_layer :
    ∃ (layers : List (Layer ℚ)) (tip water : ℚ), (∀ l ∈ layers, Built l) ∧
      (∃ p, mkProfile 0 water layers = .ok p) ∧
      getTipSigVEff tip water layers 0 = some 80 ∧ stressAt water tip layers = 160 := by
  refine ⟨[⟨0, -10, 18⟩, ⟨-10, -30, 18⟩], -20, 0, ?_, ⟨⟨0, 0, [⟨0, -10, 18⟩, ⟨-10, -30, 18⟩]⟩, by decide +kernel⟩,
    by decide +kernel, by decide +kernel⟩
  simp [built_iff]; norm_num

/-- **C11 violated (dry layer).** A tip inside a completely dry layer gets no stress at all. -/
theorem C11_violated_dry_layer :
    ∃ (l : Layer ℚ) (tip water : ℚ), Built l ∧
      getTipSigVEff tip water [l] 0 = some 0 ∧ stressAt water tip [l] = 180 :=
  ⟨⟨0, -20, 18⟩, -10, -30, (built_iff _).2 (by norm_num), by decide +kernel, by decide +kernel⟩

omit [IsStrictOrderedRing K] in
/-- An empty list of layers yields `None` instead of the mudline stress. -/
theorem C11_violated_no_layers (tip water sig : K) : getTipSigVEff tip water [] sig = none := rfl

end OpenPile.Props.Soil

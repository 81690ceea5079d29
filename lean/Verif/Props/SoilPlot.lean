/-
C89: the plot of a soil profile.
-/
import Verif.Model.SoilPlot
import Verif.Props.Soil

namespace OpenPile.Props.SoilPlot
open OpenPile.Soil OpenPile.SoilPlot OpenPile.Spec.Soil OpenPile.Props.Soil

variable {K : Type} [Field K] [LinearOrder K] [IsStrictOrderedRing K]

/-- The part of the axis a rectangle covers. -/
def Covers (q : Patch K) (z : K) : Prop := q.y ≤ z ∧ z ≤ q.y + q.height

/-- The elevation lies within the limits of the axis. -/
def Visible (f : Figure K) (z : K) : Prop := f.bottom ≤ z ∧ z ≤ f.top

theorem chain_below {L : List (Layer K)} (h : L.IsChain (fun u l => l.top = u.bottom)) (hv : ∀ l ∈ L, l.bottom < l.top) :
    L.Pairwise (fun u l => l.top ≤ u.bottom) := by
  induction L with
  | nil => exact List.Pairwise.nil
  | cons a L ih =>
    have ih := ih (List.IsChain.tail h) (fun l hl => hv l (List.mem_cons_of_mem _ hl))
    refine List.pairwise_cons.2 ⟨?_, ih⟩
    intro l hl
    cases L with
    | nil => cases hl
    | cons b L =>
      have e := (List.isChain_cons_cons.1 h).1
      rcases List.mem_cons.1 hl with rfl | hl
      · exact e.le
      · have h1 := (List.pairwise_cons.1 ih).1 l hl
        have h2 := hv b (by simp)
        linarith

omit [Field K] [IsStrictOrderedRing K] in
theorem chain_cover {L : List (Layer K)} (h : L.IsChain (fun u l => l.top = u.bottom)) {a last : Layer K} {z : K}
    (ha : L.head? = some a) (hl : L.getLast? = some last) (h1 : z ≤ a.top) (h2 : last.bottom ≤ z) :
    ∃ l ∈ L, l.bottom ≤ z ∧ z ≤ l.top := by
  induction L generalizing a with
  | nil => cases ha
  | cons b L ih =>
    cases ha
    by_cases hz : b.bottom ≤ z
    · exact ⟨b, by simp, hz, h1⟩
    · cases L with
      | nil =>
        cases hl
        exact absurd h2 hz
      | cons c L =>
        have e := List.isChain_cons_cons.1 h
        obtain ⟨l, hm, hh⟩ := ih e.2 (a := c) rfl (by simpa using hl) (by rw [e.1]; exact (not_le.1 hz).le)
        exact ⟨l, List.mem_cons_of_mem _ hm, hh⟩

/-- **C89, every layer at its place.** For an accepted profile each layer has one rectangle, from its bottom to its top,
with its label inside; the rectangle lies within the limits of the axis up to 1 mm for each layer. -/
theorem C89_layers (te wl : K) (layers : List (Layer K)) (p : Profile K) (hs : ∀ l ∈ layers, Built l)
    (hsmall : ∀ l ∈ layers, |l.top| ≤ 1000000 ∧ |l.bottom| ≤ 1000000) (hp : mkProfile te wl layers = .ok p) :
    (soilPlot p).patches.length = layers.length ∧ (soilPlot p).labels.length = layers.length ∧
      ∀ (i : ℕ) (l : Layer K), layers[i]? = some l → ∃ q t, (soilPlot p).patches[i]? = some q ∧ (soilPlot p).labels[i]? = some t ∧
        (∀ z, Covers q z ↔ l.bottom ≤ z ∧ z ≤ l.top) ∧ l.bottom < t ∧ t < l.top ∧
        l.top < (soilPlot p).top ∧ (soilPlot p).bottom - (layers.length : K) * (1 / 1000) ≤ l.bottom := by
  have hpe := (C04_accepted_iff te wl layers hsmall).2.2 p hp
  obtain ⟨htop, -, -, hpair⟩ := C04_no_gap_no_overlap te wl layers p hs hsmall hp
  obtain ⟨low, hlast, hmem, -, hb, -⟩ := C04_bottom_elevation te wl layers p hs hsmall hp
  subst hpe
  refine ⟨by simp [soilPlot], by simp [soilPlot], ?_⟩
  intro i l hl
  have hlm := List.mem_of_getElem? hl
  have hbt := ((built_iff l).1 (hs l hlm)).1
  refine ⟨⟨l.bottom, l.top - l.bottom⟩, 1 / 2 * (l.top + l.bottom), by simp [soilPlot, hl], by simp [soilPlot, hl], ?_,
    by linarith, by linarith, ?_, ?_⟩
  · intro z
    simp only [Covers, add_sub_cancel]
  · exact lt_max_of_lt_left (by have := htop l hlm; simp only; linarith)
  · have h1 := (abs_le.1 hb).2
    have hlow := ((built_iff low).1 (hs low hmem)).1
    have h2 : low.bottom ≤ l.bottom + 1 / 1000 := by
      have hl' : l ∈ sortLayers layers := (sortLayers_perm layers).symm.subset hlm
      obtain ⟨M, hM⟩ := List.getLast?_eq_some_iff.1 hlast
      rw [hM] at hpair hl'
      rcases List.mem_append.1 hl' with h | h
      · have := (List.pairwise_append.1 hpair).2.2 l h low (by simp)
        linarith
      · rw [List.mem_singleton.1 h]; linarith
    have : (soilPlot (⟨te, wl, layers⟩ : Profile K)).bottom = (⟨te, wl, layers⟩ : Profile K).bottomElevation := rfl
    rw [this]
    linarith

/-- **C89, the column of soil.** Where the layers meet exactly, the rectangles lie wholly within the axis, cover the
profile from its bottom to its top and nowhere overlap. -/
theorem C89_column (te wl : K) (layers : List (Layer K)) (p : Profile K) (hs : ∀ l ∈ layers, Built l)
    (hsmall : ∀ l ∈ layers, |l.top| ≤ 1000000 ∧ |l.bottom| ≤ 1000000) (hp : mkProfile te wl layers = .ok p)
    (hex : (sortLayers layers).IsChain (fun upper lower => lower.top = upper.bottom)) :
    (∀ q ∈ (soilPlot p).patches, ∀ z, Covers q z → Visible (soilPlot p) z) ∧
    (∀ z, (∃ q ∈ (soilPlot p).patches, Covers q z) ↔ (soilPlot p).bottom ≤ z ∧ z ≤ te) ∧
    (∀ l ∈ layers, ∀ l' ∈ layers, ∀ z, l.bottom < z → z < l.top → l'.bottom < z → z < l'.top → l = l') := by
  have hpe := (C04_accepted_iff te wl layers hsmall).2.2 p hp
  obtain ⟨hhead, -⟩ := (C04_accepted_iff te wl layers hsmall).2.1.1 ⟨p, hp⟩
  obtain ⟨htop, -, -, -⟩ := C04_no_gap_no_overlap te wl layers p hs hsmall hp
  obtain ⟨low, hlast, hmem, -, -, hb⟩ := C04_bottom_elevation te wl layers p hs hsmall hp
  have hb := hb hex
  have hperm := sortLayers_perm layers
  have hv : ∀ l ∈ sortLayers layers, l.bottom < l.top := fun l hl => ((built_iff l).1 (hs l (hperm.subset hl))).1
  have hpw := chain_below hex hv
  have hlow : ∀ l ∈ layers, low.bottom ≤ l.bottom := by
    intro l hl
    have hl' := hperm.symm.subset hl
    obtain ⟨M, hM⟩ := List.getLast?_eq_some_iff.1 hlast
    have hlv := hv low (hperm.symm.subset hmem)
    rw [hM] at hpw hl'
    rcases List.mem_append.1 hl' with h | h
    · have := (List.pairwise_append.1 hpw).2.2 l h low (by simp)
      linarith
    · rw [List.mem_singleton.1 h]
  subst hpe
  have e1 : (soilPlot (⟨te, wl, layers⟩ : Profile K)).bottom = low.bottom := hb
  have e2 : te + 5 ≤ (soilPlot (⟨te, wl, layers⟩ : Profile K)).top := le_max_left _ _
  have hc : ∀ q ∈ (soilPlot (⟨te, wl, layers⟩ : Profile K)).patches, ∃ l ∈ layers, ∀ z, Covers q z ↔ l.bottom ≤ z ∧ z ≤ l.top := by
    intro q hq
    obtain ⟨l, hl, rfl⟩ := List.mem_map.1 hq
    exact ⟨l, hl, fun z => by simp only [Covers, add_sub_cancel]⟩
  refine ⟨?_, ?_, ?_⟩
  · intro q hq z hz
    obtain ⟨l, hl, h⟩ := hc q hq
    obtain ⟨a, b⟩ := (h z).1 hz
    have := hlow l hl
    have := htop l hl
    exact ⟨by rw [e1]; linarith, by linarith⟩
  · intro z
    rw [e1]
    constructor
    · rintro ⟨q, hq, hz⟩
      obtain ⟨l, hl, h⟩ := hc q hq
      obtain ⟨a, b⟩ := (h z).1 hz
      exact ⟨(hlow l hl).trans a, b.trans (htop l hl)⟩
    · rintro ⟨h1, h2⟩
      obtain ⟨a, ha, hat⟩ := Option.map_eq_some_iff.1 hhead
      obtain ⟨l, hl, h⟩ := chain_cover hex ha hlast (by rw [hat]; exact h2) h1
      refine ⟨⟨l.bottom, l.top - l.bottom⟩, List.mem_map.2 ⟨l, hperm.subset hl, rfl⟩, ?_⟩
      simpa only [Covers, add_sub_cancel] using h
  · intro l hl l' hl' z h1 h2 h3 h4
    by_contra hne
    have h := List.Pairwise.forall_of_forall_of_flip (R := fun a b : Layer K => a = b ∨ b.top ≤ a.bottom ∨ a.top ≤ b.bottom)
      (l := sortLayers layers) (fun a _ => Or.inl rfl) (hpw.imp (fun h => Or.inr (Or.inl h)))
      (hpw.imp (fun h => Or.inr (Or.inr h))) (hperm.symm.subset hl) (hperm.symm.subset hl')
    rcases h with h | h | h
    · exact hne h
    · linarith
    · linarith

/-- **C89, the water line** is drawn within the limits of the axis exactly if it does not lie below the profile. -/
theorem C89_water (p : Profile K) : (soilPlot p).water ≠ [] ∧ (∀ z ∈ (soilPlot p).water, z = p.waterLine) ∧
    ((∀ z ∈ (soilPlot p).water, Visible (soilPlot p) z) ↔ p.bottomElevation ≤ p.waterLine) := by
  refine ⟨by simp [soilPlot], by simp [soilPlot], ?_⟩
  have : p.waterLine ≤ (soilPlot p).top := by
    refine le_trans ?_ (le_max_right _ _)
    linarith
  simp only [soilPlot, List.mem_cons, List.not_mem_nil, or_false, forall_eq_or_imp, forall_eq, add_zero, Visible, and_self] at this ⊢
  exact ⟨fun h => h.1, fun h => ⟨h, this⟩⟩

omit [IsStrictOrderedRing K] in
/-- **C89 is violated by a water line below the profile**, which is accepted with any layers: it is not shown. -/
theorem C89_violated_water (te wl : K) (layers : List (Layer K)) (p : Profile K) (hp : mkProfile te wl layers = .ok p)
    (wl' : K) (hw : wl' < p.bottomElevation) :
    ∃ p', mkProfile te wl' layers = .ok p' ∧ ∀ z ∈ (soilPlot p').water, ¬ Visible (soilPlot p') z := by
  unfold mkProfile at hp ⊢
  cases hL : sortLayers layers with
  | nil => rw [hL] at hp; cases hp
  | cons a L =>
    rw [hL] at hp
    simp only at hp ⊢
    by_cases h1 : a.top ≠ te
    · rw [if_pos h1] at hp; cases hp
    · rw [if_neg h1] at hp ⊢
      by_cases h2 : layersConnect (a :: L) = true
      · rw [if_pos h2] at hp ⊢
        cases hp
        refine ⟨_, rfl, ?_⟩
        intro z hz hv
        simp only [soilPlot, List.mem_cons, List.not_mem_nil, or_false, add_zero, or_self] at hz
        subst hz
        exact absurd hv.1 (not_le.2 hw)
      · rw [if_neg h2] at hp; cases hp

/-! ### cases -/

/-- Two layers, listed from below: the axis reaches from -40 m to 5 m above the sea. -/
example : mkProfile (0 : ℚ) 15 [⟨-20, -40, 19⟩, ⟨0, -20, 18⟩] = .ok ⟨0, 15, [⟨-20, -40, 19⟩, ⟨0, -20, 18⟩]⟩ ∧
    soilPlot (⟨0, 15, [⟨-20, -40, 19⟩, ⟨0, -20, 18⟩]⟩ : Profile ℚ) =
      ⟨-40, 20, [⟨-40, 20⟩, ⟨-20, 20⟩], [-30, -10], [15, 15, 15]⟩ ∧
    (sortLayers ([⟨-20, -40, 19⟩, ⟨0, -20, 18⟩] : List (Layer ℚ))).IsChain (fun u l => l.top = u.bottom) := by
  refine ⟨by decide +kernel, by decide +kernel, ?_⟩
  have : sortLayers ([⟨-20, -40, 19⟩, ⟨0, -20, 18⟩] : List (Layer ℚ)) = [⟨0, -20, 18⟩, ⟨-20, -40, 19⟩] := by decide +kernel
  rw [this]
  simp

/-- Ground water 50 m below ground is not shown. -/
example : ∃ p, mkProfile (0 : ℚ) (-50) [⟨-20, -40, 19⟩, ⟨0, -20, 18⟩] = .ok p ∧ ∀ z ∈ (soilPlot p).water, ¬ Visible (soilPlot p) z :=
  C89_violated_water 0 15 _ ⟨0, 15, [⟨-20, -40, 19⟩, ⟨0, -20, 18⟩]⟩ (by decide +kernel) (-50) (by decide +kernel)

end OpenPile.Props.SoilPlot

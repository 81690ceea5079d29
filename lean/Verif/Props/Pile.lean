/-
Properties C01, C02, C03, C50: sections, piles, materials.
-/
import Verif.Lemmas.Pile
import Mathlib.Algebra.Order.Ring.Rat
import Mathlib.Tactic.Positivity
import Mathlib.Tactic.NormNum

namespace OpenPile.Props.Pile
open OpenPile.Pile OpenPile.Spec.Pile

variable {K : Type} [Field K] [LinearOrder K] [IsStrictOrderedRing K]

/-! ## C01 section geometry -/

/-- **C01, decision logic.** A section is accepted exactly when the diameter is positive, the
thickness (if given) is positive and the bottom is below the top; an omitted thickness means a
solid bar (nothing enclosed). -/
theorem C01_accepted_iff (pi top bottom d : K) (t : Option K) :
    ((∃ s, mkSection top bottom d t = .ok s) ↔ 0 < d ∧ bottom < top ∧ ∀ t', t = some t' → 0 < t') ∧
    (∀ s, mkSection top bottom d t = .ok s →
      s.top = top ∧ s.bottom = bottom ∧ s.diameter = d ∧ (∀ t', t = some t' → s.thickness = t') ∧
      (t = none → s.entrappedArea pi = 0 ∧ s.area pi = s.footprint pi)) := by
  unfold mkSection
  cases t with
  | none =>
    by_cases hd : 0 < d <;> by_cases hb : bottom ≥ top
    · simp [hd, hb]
    · simp only [hd, hb, not_true_eq_false, if_false]
      refine ⟨⟨fun _ => ⟨trivial, not_le.1 hb, by simp⟩, fun _ => ⟨_, rfl⟩⟩, ?_⟩
      rintro s hs
      cases hs
      refine ⟨rfl, rfl, rfl, by simp, fun _ => ⟨?_, ?_⟩⟩
      · simp only [Section.entrappedArea]; field_simp; ring
      · simp only [Section.area, Section.footprint]; field_simp; ring
    · simp [hd]
    · simp [hd]
  | some t =>
    by_cases hd : 0 < d <;> by_cases ht : 0 < t <;> by_cases hb : bottom ≥ top
    · simp [hd, ht, hb]
    · simp only [hd, ht, hb, not_true_eq_false, if_false]
      refine ⟨⟨fun _ => ⟨trivial, not_le.1 hb, by simp [ht]⟩, fun _ => ⟨_, rfl⟩⟩, ?_⟩
      rintro s hs
      cases hs
      simp
    all_goals simp [hd, ht]

/-- **C01, areas.** For every section that can be constructed, steel area and enclosed area add
up to the footprint, none exceeds it, and volumes are area times length. -/
theorem C01_area_sum (pi : K) (hpi : 0 < pi) (s : Section K) (_hs : Built s) (len : K) :
    s.area pi + s.entrappedArea pi = s.footprint pi ∧
    0 ≤ s.entrappedArea pi ∧ s.area pi ≤ s.footprint pi ∧ 0 < s.footprint pi ∧
    s.getVolume pi len + s.getEntrappedVolume pi len = s.footprint pi * len := by
  have hd : 0 < s.diameter := ((built_iff s).1 _hs).2.1
  have h1 : s.area pi + s.entrappedArea pi = s.footprint pi := by
    simp only [Section.area, Section.entrappedArea, Section.footprint]; ring
  have h2 : 0 ≤ s.entrappedArea pi := by
    simp only [Section.entrappedArea]; positivity
  refine ⟨h1, h2, by linarith, by simp only [Section.footprint]; positivity, ?_⟩
  simp only [Section.getVolume, Section.getEntrappedVolume, Section.area, Section.footprint]; ring

/-- **C01, sharp bound.** Steel area and second moment of area of a constructible section are
positive exactly when the wall is thinner than the *diameter*. -/
theorem C01_positive_iff (pi : K) (hpi : 0 < pi) (s : Section K) (hs : Built s) :
    (0 < s.area pi ↔ s.thickness < s.diameter) ∧ (0 < s.inertia pi ↔ s.thickness < s.diameter) := by
  obtain ⟨_, hd, ht⟩ := (built_iff s).1 hs
  have ha : s.area pi = s.thickness * pi * (s.diameter - s.thickness) := by
    simp only [Section.area]; ring
  have hi : s.inertia pi = s.thickness * pi * (s.diameter - s.thickness) *
      ((s.diameter ^ 2 + (s.diameter - 2 * s.thickness) ^ 2) / 16) := by
    simp only [Section.inertia]; ring
  have hq : 0 < (s.diameter ^ 2 + (s.diameter - 2 * s.thickness) ^ 2) / 16 := by positivity
  have hp : 0 < s.thickness * pi := by positivity
  constructor
  · rw [ha, mul_pos_iff_of_pos_left hp, sub_pos]
  · rw [hi, mul_pos_iff_of_pos_right hq, mul_pos_iff_of_pos_left hp, sub_pos]

/-- **C01 (partial).** If moreover the wall is at most half the diameter - which the code does not
check, see the violations below - all quantities are physical.  Missing for the full property: the
constructor does not enforce `thickness ≤ diameter / 2`. -/
theorem C01_physical_partial (pi : K) (hpi : 0 < pi) (s : Section K) (hs : Built s)
    (hth : s.thickness ≤ s.diameter / 2) :
    0 < s.area pi ∧ s.area pi ≤ s.footprint pi ∧ 0 < s.inertia pi ∧
    0 ≤ s.innerPerimeter pi ∧ s.innerPerimeter pi < s.outerPerimeter pi ∧
    s.innerPerimeter pi ^ 2 = 4 * pi * s.entrappedArea pi ∧
    s.outerPerimeter pi ^ 2 = 4 * pi * s.footprint pi := by
  obtain ⟨_, hd, ht⟩ := (built_iff s).1 hs
  have hlt : s.thickness < s.diameter := by linarith
  have h2 : 0 ≤ s.diameter - 2 * s.thickness := by linarith
  refine ⟨(C01_positive_iff pi hpi s hs).1.2 hlt, (C01_area_sum pi hpi s hs 0).2.2.1,
    (C01_positive_iff pi hpi s hs).2.2 hlt, ?_, ?_, ?_, ?_⟩
  · simp only [Section.innerPerimeter]; positivity
  · simp only [Section.innerPerimeter, Section.outerPerimeter]
    exact mul_lt_mul_of_pos_right (by linarith) hpi
  · simp only [Section.innerPerimeter, Section.entrappedArea]; ring
  · simp only [Section.outerPerimeter, Section.footprint]; ring

/-- A monopile section, 7.5 m wide with a 70 mm wall, meets all hypotheses. -/
example : Built (⟨0, -10, 15/2, 7/100⟩ : Section ℚ) ∧ (7/100 : ℚ) ≤ (15/2) / 2 :=
  ⟨(built_iff _).2 (by norm_num), by norm_num⟩

/-- **C01 violated.** A section with a wall thicker than the diameter is accepted and has negative
steel area and negative second moment of area. -/
theorem C01_violated_negative_area (pi : K) (hpi : 0 < pi) :
    ∃ s : Section K, mkSection 0 (-1) 1 (some 2) = .ok s ∧ s.area pi < 0 ∧ s.inertia pi < 0 := by
  refine ⟨⟨0, -1, 1, 2⟩, by simp [mkSection], ?_, ?_⟩
  · simp only [Section.area]; linarith
  · simp only [Section.inertia]; linarith

/-- **C01 violated.** A wall between half the diameter and the diameter gives a negative inner
perimeter. -/
theorem C01_violated_negative_perimeter (pi : K) (hpi : 0 < pi) :
    ∃ s : Section K, mkSection 0 (-1) 1 (some (3/4)) = .ok s ∧ s.innerPerimeter pi < 0 := by
  refine ⟨⟨0, -1, 1, 3/4⟩, by simp [mkSection], ?_⟩
  simp only [Section.innerPerimeter]; linarith

/-! ## C02 contiguous stack -/

/-- **C02, acceptance.** `Pile(sections)` succeeds exactly when the list is non-empty and some
arrangement of the sections is a gap-free, overlap-free stack; the accepted pile stores that
arrangement. -/
theorem C02_accepted_iff (secs : List (Section K)) (m : Material K) (hs : ∀ s ∈ secs, Built s) :
    (∃ p, mkPile secs m = .ok p) ↔ secs ≠ [] ∧ ∃ l, l.Perm secs ∧ Stacked l := by
  constructor
  · rintro ⟨p, hp⟩
    obtain ⟨h1, h2, _⟩ := (mkPile_ok_iff _ _ _).1 hp
    exact ⟨h1, _, sortSections_perm _, h2⟩
  · rintro ⟨h1, l, hl, hst⟩
    refine ⟨_, (mkPile_ok_iff _ _ _).2 ⟨h1, ?_, rfl⟩⟩
    rw [sort_of_stacked secs l hl.symm
      (fun s hs' => ((built_iff s).1 (hs s (hl.subset hs'))).1) hst]
    exact hst

/-- **C02, rejection reasons.** -/
theorem C02_rejection (secs : List (Section K)) (m : Material K) (hs : ∀ s ∈ secs, Built s) :
    (mkPile secs m = .error .noSections ↔ secs = []) ∧
    (mkPile secs m = .error .notConnected ↔ secs ≠ [] ∧ ¬ ∃ l, l.Perm secs ∧ Stacked l) := by
  have hacc := C02_accepted_iff secs m hs
  unfold mkPile at *
  cases secs with
  | nil => simp
  | cons a l =>
    simp only [List.length_cons, Nat.add_eq_zero_iff, one_ne_zero, and_false, if_false] at *
    split at hacc
    · rename_i h
      rw [if_pos h]
      refine ⟨by simp, ?_⟩
      have := hacc.1 ⟨_, rfl⟩
      simp [this.2]
    · rename_i h
      rw [if_neg h]
      refine ⟨by simp, ?_⟩
      simp only [reduceCtorEq, exists_false, false_iff, not_and] at hacc
      simp only [ne_eq, reduceCtorEq, not_false_iff, true_and, true_iff]
      exact hacc (by simp)

/-- **C02, geometry of an accepted pile.** Its sections are those given, stacked; every elevation
between pile bottom and pile top lies in a section; two different positions of the stack never
overlap; the length is top minus bottom and the sum of the section lengths, and is positive. -/
theorem C02_accepted_geometry (secs : List (Section K)) (m : Material K) (hs : ∀ s ∈ secs, Built s)
    (p : Pile K) (hp : mkPile secs m = .ok p) :
    p.sections.Perm secs ∧ Stacked p.sections ∧ p.material = m ∧
    ∃ t b, p.topElevation = some t ∧ p.bottomElevation = some b ∧ p.length = some (t - b) ∧ b < t ∧
      t - b = (secs.map Section.length).sum ∧
      (∀ z, b ≤ z ∧ z ≤ t ↔ ∃ s ∈ p.sections, z ∈ Extent s) ∧
      p.sections.Pairwise (fun s s' => Disjoint (Inside s) (Inside s')) := by
  obtain ⟨h1, h2, rfl⟩ := (mkPile_ok_iff _ _ _).1 hp
  have hperm := sortSections_perm secs
  refine ⟨hperm, h2, rfl, ?_⟩
  have hv : ∀ s ∈ sortSections secs, s.bottom < s.top :=
    fun s hs' => ((built_iff s).1 (hs s (hperm.subset hs'))).1
  have hsum : (secs.map Section.length).sum = ((sortSections secs).map Section.length).sum :=
    (hperm.map _).sum_eq.symm
  have hpw := stacked_pairwise _ hv h2
  rw [hsum]
  simp only [Pile.topElevation, Pile.bottomElevation, Pile.length]
  generalize sortSections secs = l at *
  cases l with
  | nil => exact absurd hperm.symm.eq_nil h1
  | cons a l =>
    obtain ⟨last, hlast⟩ : ∃ x, (a :: l).getLast? = some x :=
      ⟨(a :: l).getLast (by simp), List.getLast?_eq_getLast_of_ne_nil (by simp)⟩
    have hlm : last ∈ a :: l := List.mem_of_getLast? hlast
    have hsl := stacked_sum_length a l h2 last.bottom (by rw [hlast]; rfl)
    have hbot : ∀ s ∈ a :: l, last.bottom ≤ s.bottom := by
      intro s hs'
      obtain ⟨l', hl'⟩ := List.getLast?_eq_some_iff.1 hlast
      rw [hl'] at hpw hs'
      rcases List.mem_append.1 hs' with h | h
      · have h3 := (List.pairwise_append.1 hpw).2.2 s h last (by simp)
        exact (hv last hlm).le.trans h3
      · rw [List.mem_singleton.1 h]
    have htop : ∀ s ∈ a :: l, s.top ≤ a.top := by
      intro s hs'
      rcases List.mem_cons.1 hs' with rfl | h
      · exact le_rfl
      · exact ((List.pairwise_cons.1 hpw).1 s h).trans (hv a (by simp)).le
    refine ⟨a.top, last.bottom, rfl, by rw [hlast]; rfl, by rw [hlast]; rfl, ?_, hsl.symm, ?_, ?_⟩
    · exact (hbot a (by simp)).trans_lt (hv a (by simp))
    · intro z
      constructor
      · rintro ⟨hz1, hz2⟩
        obtain ⟨s, hs', h3⟩ := stacked_covers a l h2 last.bottom z (by rw [hlast]; rfl) hz1 hz2
        exact ⟨s, hs', h3⟩
      · rintro ⟨s, hs', h3, h4⟩
        exact ⟨(hbot s hs').trans h3, h4.trans (htop s hs')⟩
    · refine hpw.imp ?_
      intro s s' hss
      rw [Set.disjoint_left]
      rintro z ⟨hz1, _⟩ ⟨_, hz4⟩
      exact absurd (hz4.trans_le hss) (not_lt.2 hz1.le)

/-- **C02, order independence.** The order in which the sections are listed is irrelevant. -/
theorem C02_order_irrelevant (l₁ l₂ : List (Section K)) (m : Material K) (hp : l₁.Perm l₂)
    (hs : ∀ s ∈ l₁, Built s) (p : Pile K) : mkPile l₁ m = .ok p ↔ mkPile l₂ m = .ok p := by
  suffices H : ∀ l₁ l₂ : List (Section K), l₁.Perm l₂ → (∀ s ∈ l₁, Built s) →
      mkPile l₁ m = .ok p → mkPile l₂ m = .ok p from
    ⟨H l₁ l₂ hp hs, H l₂ l₁ hp.symm (fun s h => hs s (hp.symm.subset h))⟩
  intro l₁ l₂ hp hs h
  obtain ⟨h1, h2, rfl⟩ := (mkPile_ok_iff _ _ _).1 h
  have hperm := sortSections_perm l₁
  have he : sortSections l₂ = sortSections l₁ :=
    sort_of_stacked l₂ _ (hp.symm.trans hperm.symm)
      (fun s hs' => ((built_iff s).1 (hs s (hperm.subset hs'))).1) h2
  exact (mkPile_ok_iff _ _ _).2
    ⟨fun h0 => h1 (by rw [h0] at hp; exact hp.eq_nil), by rw [he]; exact h2, by rw [he]⟩

/-- Two sections listed bottom first are accepted. -/
example : mkPile [⟨-10, -40, 15/2, 8/100⟩, ⟨0, -10, 15/2, 7/100⟩] (steel : Material ℚ) =
    .ok ⟨[⟨0, -10, 15/2, 7/100⟩, ⟨-10, -40, 15/2, 8/100⟩], steel⟩ := by decide +kernel
/-- A gap of 1 mm is rejected. -/
example : mkPile [⟨-10, -40, 15/2, 8/100⟩, ⟨0, -9999/1000, 15/2, 7/100⟩] (steel : Material ℚ) =
    .error .notConnected := by decide +kernel

/-! ## C03 volumes and weights -/

/-- **C03, totals.** For an accepted pile, in any listing order: volume, inner volume and gross
volume are sums over the sections, and weight is volume times unit weight. -/
theorem C03_totals (pi : K) (secs : List (Section K)) (m : Material K) (p : Pile K)
    (hp : mkPile secs m = .ok p) :
    p.volume pi = (secs.map (fun s => s.area pi * (s.top - s.bottom))).sum ∧
    p.innerVolume pi = (secs.map (fun s => s.entrappedArea pi * (s.top - s.bottom))).sum ∧
    p.volume pi + p.innerVolume pi = (secs.map (fun s => s.footprint pi * (s.top - s.bottom))).sum ∧
    p.weight pi = m.uw * p.volume pi := by
  obtain ⟨h1, h2, rfl⟩ := (mkPile_ok_iff _ _ _).1 hp
  have hperm := sortSections_perm secs
  have hz : ∀ l : List (Section K),
      (List.zipWith (· * ·) (l.map (·.entrappedArea pi))
        (List.zipWith (· - ·) (l.map (·.top)) (l.map (·.bottom)))) =
      l.map (fun s => s.entrappedArea pi * (s.top - s.bottom)) := by
    intro l
    induction l with
    | nil => rfl
    | cons a l ih => simp [ih]
  have hv : Pile.volume pi ⟨sortSections secs, m⟩ =
      (secs.map (fun s => s.area pi * (s.top - s.bottom))).sum :=
    (hperm.map (fun s : Section K => s.area pi * (s.top - s.bottom))).sum_eq
  have hi : Pile.innerVolume pi ⟨sortSections secs, m⟩ =
      (secs.map (fun s => s.entrappedArea pi * (s.top - s.bottom))).sum := by
    simp only [Pile.innerVolume]
    rw [hz]
    exact (hperm.map (fun s => s.entrappedArea pi * (s.top - s.bottom))).sum_eq
  refine ⟨hv, hi, ?_, ?_⟩
  · rw [hv, hi, ← List.sum_map_add]
    congr 1
    apply List.map_congr_left
    intro s _
    simp only [Section.area, Section.entrappedArea, Section.footprint]; ring
  · simp only [Pile.weight]; ring

/-- **C03, splitting.** Cutting a section in two at any elevation strictly inside it changes neither
acceptance nor length, volume, inner volume or weight of the pile. -/
theorem C03_split (pi : K) (l₁ l₂ : List (Section K)) (s : Section K) (z : K) (m : Material K)
    (hs : ∀ s' ∈ l₁ ++ s :: l₂, Built s') (hz : s.bottom < z ∧ z < s.top) (p : Pile K)
    (hp : mkPile (l₁ ++ s :: l₂) m = .ok p) :
    ∃ q, mkPile (l₁ ++ { s with bottom := z } :: { s with top := z } :: l₂) m = .ok q ∧
      q.topElevation = p.topElevation ∧ q.bottomElevation = p.bottomElevation ∧
      q.length = p.length ∧ q.volume pi = p.volume pi ∧ q.innerVolume pi = p.innerVolume pi ∧
      q.weight pi = p.weight pi := by
  obtain ⟨h1, h2, rfl⟩ := (mkPile_ok_iff _ _ _).1 hp
  have hperm := sortSections_perm (l₁ ++ s :: l₂)
  have hbs := (built_iff s).1 (hs s (by simp))
  -- the accepted stack contains `s`
  obtain ⟨a, b, hab⟩ := List.append_of_mem (hperm.symm.subset (by simp : s ∈ l₁ ++ s :: l₂))
  set u : Section K := { s with bottom := z } with hu
  set v : Section K := { s with top := z } with hv
  have hrest : (a ++ b).Perm (l₁ ++ l₂) := by
    rw [hab] at hperm
    have e1 : (s :: (a ++ b)).Perm (s :: (l₁ ++ l₂)) :=
      (List.perm_middle.symm.trans hperm).trans List.perm_middle
    exact List.perm_cons s |>.1 e1
  have hperm' : (a ++ u :: v :: b).Perm (l₁ ++ u :: v :: l₂) := by
    have e1 : (a ++ u :: v :: b).Perm (u :: v :: (a ++ b)) :=
      List.perm_middle.trans ((List.perm_cons u).2 List.perm_middle)
    have e2 : (l₁ ++ u :: v :: l₂).Perm (u :: v :: (l₁ ++ l₂)) :=
      List.perm_middle.trans ((List.perm_cons u).2 List.perm_middle)
    exact e1.trans ((((List.perm_cons v).2 hrest).cons u).trans e2.symm)
  have hst : Stacked (a ++ u :: v :: b) := by
    rw [hab] at h2
    unfold Stacked at *
    rw [List.isChain_append] at h2 ⊢
    obtain ⟨g1, g2, g3⟩ := h2
    refine ⟨g1, ?_, ?_⟩
    · rw [List.isChain_cons_cons]
      refine ⟨rfl, ?_⟩
      rw [List.isChain_cons] at g2 ⊢
      exact ⟨fun y hy => g2.1 y hy, g2.2⟩
    · intro x hx y hy
      simp only [List.head?_cons, Option.mem_def, Option.some.injEq] at hy
      subst hy
      exact g3 x hx s (by simp)
  have hbuilt : ∀ s' ∈ a ++ u :: v :: b, s'.bottom < s'.top := by
    intro s' hs'
    have hs'' := hperm'.subset hs'
    simp only [List.mem_append, List.mem_cons] at hs''
    rcases hs'' with h | rfl | rfl | h
    · exact ((built_iff s').1 (hs s' (by simp [h]))).1
    · exact hz.2
    · exact hz.1
    · exact ((built_iff s').1 (hs s' (by simp [h]))).1
  have hsort := sort_of_stacked _ _ hperm'.symm hbuilt hst
  have hq : mkPile (l₁ ++ u :: v :: l₂) m = .ok ⟨a ++ u :: v :: b, m⟩ :=
    (mkPile_ok_iff _ _ _).2 ⟨by simp, by rw [hsort]; exact hst, by rw [hsort]⟩
  obtain ⟨t1, t2, _, t4⟩ := C03_totals pi _ m _ hp
  obtain ⟨q1, q2, _, q4⟩ := C03_totals pi _ m _ hq
  have ht : (a ++ u :: v :: b).head?.map (·.top) = (a ++ s :: b).head?.map (·.top) := by
    cases a <;> simp [hu]
  have hb : (a ++ u :: v :: b).getLast?.map (·.bottom) = (a ++ s :: b).getLast?.map (·.bottom) := by
    cases b with
    | nil => simp [hv]
    | cons c b => simp [List.getLast?_append, List.getLast?_cons_cons]
  have hvol : Pile.volume pi ⟨a ++ u :: v :: b, m⟩ =
      Pile.volume pi ⟨sortSections (l₁ ++ s :: l₂), m⟩ := by
    rw [t1, q1]
    simp only [List.map_append, List.map_cons, List.sum_append, List.sum_cons, hu, hv,
      Section.area]
    ring
  refine ⟨_, hq, ?_, ?_, ?_, hvol, ?_, ?_⟩
  · rw [hab]; exact ht
  · rw [hab]; exact hb
  · simp only [Pile.length, Pile.topElevation, Pile.bottomElevation]
    rw [hab, ht, hb]
  · rw [t2, q2]
    simp only [List.map_append, List.map_cons, List.sum_append, List.sum_cons, hu, hv,
      Section.entrappedArea]
    ring
  · rw [t4, q4, hvol]

example : Built (⟨0, -10, 15/2, 7/100⟩ : Section ℚ) ∧ (-10 : ℚ) < -4 ∧ (-4 : ℚ) < 0 :=
  ⟨(built_iff _).2 (by norm_num), by norm_num, by norm_num⟩

/-- **C03, tubular piles.** `create_tubular` accepts exactly the positive diameters and wall
thicknesses with bottom below top and gives the closed formulas. -/
theorem C03_tubular (pi top bottom d wt : K) (m : Material K) :
    ((∃ p, createTubular top bottom d wt m = .ok p) ↔ 0 < d ∧ 0 < wt ∧ bottom < top) ∧
    ∀ p, createTubular top bottom d wt m = .ok p →
      p.length = some (top - bottom) ∧ p.volume pi = pi * wt * (d - wt) * (top - bottom) ∧
      p.weight pi = m.uw * (pi * wt * (d - wt) * (top - bottom)) := by
  have key : 0 < d → 0 < wt → bottom < top →
      createTubular top bottom d wt m = .ok ⟨[⟨top, bottom, d, wt⟩], m⟩ := by
    intro h1 h2 h3
    simp only [createTubular, mkSection, h1, h2, not_true_eq_false, if_false, ge_iff_le,
      not_le.2 h3, bind, Except.bind]
    rfl
  have herr : ¬ (0 < d ∧ 0 < wt ∧ bottom < top) → ∀ p, createTubular top bottom d wt m ≠ .ok p := by
    intro h p hp
    have hacc := (C01_accepted_iff pi top bottom d (some wt)).1
    unfold createTubular at hp
    cases hs : mkSection top bottom d (some wt) with
    | error e => rw [hs] at hp; cases hp
    | ok s =>
      have := hacc.1 ⟨s, hs⟩
      exact h ⟨this.1, this.2.2 wt rfl, this.2.1⟩
  constructor
  · constructor
    · rintro ⟨p, hp⟩
      by_contra h
      exact herr h p hp
    · rintro ⟨h1, h2, h3⟩
      exact ⟨_, key h1 h2 h3⟩
  · intro p hp
    by_cases h : 0 < d ∧ 0 < wt ∧ bottom < top
    · rw [key h.1 h.2.1 h.2.2] at hp
      cases hp
      refine ⟨rfl, ?_, ?_⟩ <;>
      · simp only [Pile.weight, Pile.volume, Section.area, Section.length, List.map_cons,
          List.map_nil, List.sum_cons, List.sum_nil]
        ring
    · exact absurd hp (herr h p)

example : ∃ p, createTubular (0:ℚ) (-40) (15/2) (7/100) steel = .ok p :=
  (C03_tubular 3 0 (-40) (15/2) (7/100) steel).1.2 (by norm_num)

/-! ## C50 materials -/

/-- **C50.** A material is accepted exactly for positive unit weight and stiffness and Poisson
ratio in (-1, 0.5]; its shear modulus is then at least E/3, and satisfies G = E / (2 (1 + ν)). -/
theorem C50_material (uw E nu : K) :
    ((∃ m, mkMaterial uw E nu = some m) ↔ 0 < uw ∧ 0 < E ∧ -1 < nu ∧ nu ≤ 1/2) ∧
    ∀ m, mkMaterial uw E nu = some m → m.uw = uw ∧ m.E = E ∧ m.nu = nu ∧
      E / 3 ≤ m.shearModulus ∧ 0 < m.shearModulus ∧ m.shearModulus * (2 * (1 + nu)) = E := by
  unfold mkMaterial
  split
  · rename_i h
    refine ⟨⟨fun _ => h, fun _ => ⟨_, rfl⟩⟩, ?_⟩
    rintro m hm
    cases hm
    obtain ⟨h1, h2, h3, h4⟩ := h
    have hpos : 0 < 2 + 2 * nu := by linarith
    refine ⟨rfl, rfl, rfl, ?_, ?_, ?_⟩
    · simp only [Material.shearModulus]
      rw [div_le_div_iff₀ (by norm_num) hpos]
      nlinarith
    · simp only [Material.shearModulus]; positivity
    · simp only [Material.shearModulus]
      have : 1 + nu ≠ 0 := by linarith
      field_simp
  · rename_i h
    exact ⟨⟨fun hm => (by obtain ⟨m, hm⟩ := hm; cases hm), fun h' => absurd h' h⟩,
      fun m hm => (by cases hm)⟩

/-- **C50, unbounded above.** -/
theorem C50_shear_unbounded (uw E B : K) (h1 : 0 < uw) (h2 : 0 < E) :
    ∃ nu m, mkMaterial uw E nu = some m ∧ B < m.shearModulus := by
  set c := max B E with hc
  have hcE : E ≤ c := le_max_right _ _
  have hc0 : 0 < c := h2.trans_le hcE
  refine ⟨-1 + E / (4 * c), ⟨uw, E, -1 + E / (4 * c)⟩, ?_, ?_⟩
  · have h3 : 0 < E / (4 * c) := by positivity
    have h4 : E / (4 * c) ≤ 1 := by rw [div_le_one (by positivity)]; linarith
    simp [mkMaterial, h1, h2]
    constructor <;> linarith
  · simp only [Material.shearModulus]
    have : E / (2 + 2 * (-1 + E / (4 * c))) = 2 * c := by
      have hE := h2.ne'
      have e1 : 2 + 2 * (-1 + E / (4 * c)) = E / (2 * c) := by field_simp; ring
      rw [e1]; field_simp
    rw [this]
    have := le_max_left B E
    linarith

/-- The predefined materials are valid. -/
theorem C50_predefined : mkMaterial (K := K) 78 210000000 (3/10) = some steel ∧
    mkMaterial (K := K) 24 30000000 (2/10) = some concrete := by
  constructor <;> unfold mkMaterial <;> rw [if_pos (by norm_num)] <;> rfl

end OpenPile.Props.Pile

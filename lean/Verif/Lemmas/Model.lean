import Verif.Model.Model
import Verif.Lemmas.Mesh
import Verif.Spec.Soil
import Verif.Props.Soil

namespace OpenPile.Model
open OpenPile.Pile (Pile Section)
open OpenPile.Soil (Layer Profile)
open OpenPile.Mesh OpenPile.Spec.Soil OpenPile.Spec.Mesh

variable {K : Type} [Field K] [LinearOrder K] [IsStrictOrderedRing K] [FloorRing K]

/-! ### merge_asof -/

omit [Field K] [IsStrictOrderedRing K] [FloorRing K] in
/-- The result of a forward merge is a row with the least key that is at least `z`. -/
theorem mergeForward_some {α : Type} (key : α → K) (rows : List α)
    (hs : rows.Pairwise (fun a b => key a ≤ key b)) (z : K) (r : α)
    (h : mergeForward key rows z = some r) :
    r ∈ rows ∧ z ≤ key r ∧ ∀ r' ∈ rows, z ≤ key r' → key r ≤ key r' := by
  induction rows with
  | nil => cases h
  | cons a l ih =>
    unfold mergeForward at h ih
    rw [List.find?_cons] at h
    rw [List.pairwise_cons] at hs
    by_cases hz : z ≤ key a
    · simp only [hz, decide_true] at h
      cases h
      refine ⟨by simp, hz, ?_⟩
      intro r' hr' _
      rcases List.mem_cons.1 hr' with rfl | h'
      · exact le_rfl
      · exact hs.1 r' h'
    · simp only [hz, decide_false] at h
      obtain ⟨h1, h2, h3⟩ := ih hs.2 h
      refine ⟨List.mem_cons_of_mem _ h1, h2, ?_⟩
      intro r' hr' hzr
      rcases List.mem_cons.1 hr' with rfl | h'
      · exact absurd hzr hz
      · exact h3 r' h' hzr

omit [Field K] [IsStrictOrderedRing K] [FloorRing K] in
theorem mergeForward_isSome {α : Type} (key : α → K) (rows : List α) (z : K) (r : α)
    (hr : r ∈ rows) (hz : z ≤ key r) : ∃ r', mergeForward key rows z = some r' := by
  unfold mergeForward
  cases h : rows.find? (fun r => decide (z ≤ key r)) with
  | some r' => exact ⟨r', rfl⟩
  | none =>
    rw [List.find?_eq_none] at h
    exact absurd hz (by simpa using h r hr)

omit [Field K] [IsStrictOrderedRing K] [FloorRing K] in
theorem mergeForward_none {α : Type} (key : α → K) (rows : List α) (z : K)
    (h : ∀ r ∈ rows, key r < z) : mergeForward key rows z = none := by
  unfold mergeForward
  rw [List.find?_eq_none]
  intro r hr
  simpa using h r hr

omit [Field K] [IsStrictOrderedRing K] [FloorRing K] in
theorem mem_pileRows (p : Pile K) (r : K × Section K) :
    r ∈ pileRows p ↔ r.2 ∈ p.sections ∧ (r.1 = r.2.top ∨ r.1 = r.2.bottom) := by
  unfold pileRows
  rw [List.mem_flatMap]
  constructor
  · rintro ⟨s, hs, h⟩
    simp only [List.mem_cons, List.not_mem_nil, or_false] at h
    rcases h with rfl | rfl
    · exact ⟨hs, Or.inl rfl⟩
    · exact ⟨hs, Or.inr rfl⟩
  · rintro ⟨hs, h⟩
    refine ⟨r.2, hs, ?_⟩
    simp only [List.mem_cons, List.not_mem_nil, or_false]
    rcases h with h | h
    · exact Or.inl (Prod.ext h rfl)
    · exact Or.inr (Prod.ext h rfl)

/-- Sections stacked downwards. -/
def Stack (l : List (Section K)) : Prop := l.IsChain (fun u v => v.top = u.bottom)

omit [IsStrictOrderedRing K] [FloorRing K] in
theorem stack_order (l : List (Section K)) (hb : ∀ s ∈ l, s.bottom < s.top) (hst : Stack l) :
    l.Pairwise (fun u v => v.top ≤ u.bottom) := by
  have h := Pile.stacked_pairwise l hb hst
  exact h

omit [IsStrictOrderedRing K] [FloorRing K] in
/-- Two sections of a stack are equal or one lies below the other. -/
theorem stack_trichotomy (l : List (Section K)) (hb : ∀ s ∈ l, s.bottom < s.top) (hst : Stack l)
    (s t : Section K) (hs : s ∈ l) (ht : t ∈ l) : s = t ∨ s.top ≤ t.bottom ∨ t.top ≤ s.bottom := by
  have h := stack_order l hb hst
  clear hst
  induction l with
  | nil => cases hs
  | cons a l ih =>
    rw [List.pairwise_cons] at h
    rcases List.mem_cons.1 hs with rfl | hs' <;> rcases List.mem_cons.1 ht with rfl | ht'
    · exact Or.inl rfl
    · exact Or.inr (Or.inr (h.1 t ht'))
    · exact Or.inr (Or.inl (h.1 s hs'))
    · exact ih (fun s hs => hb s (List.mem_cons_of_mem _ hs)) hs' ht' h.2

omit [IsStrictOrderedRing K] [FloorRing K] in
/-- Rows a forward merge can return for an element of section `s`: the top row of `s` or the bottom
row of the section that ends where `s` begins. -/
theorem merged_row (p : Pile K) (rows : List (K × Section K)) (hrows : SortedRows p rows)
    (hb : ∀ s ∈ p.sections, s.bottom < s.top) (hst : Stack p.sections) (s : Section K)
    (hs : s ∈ p.sections) (z : K) (hz1 : s.bottom < z) (hz2 : z ≤ s.top) :
    ∃ r, mergeForward (·.1) rows z = some r ∧ r.1 = s.top ∧
      (r.2 = s ∨ (r.2 ∈ p.sections ∧ r.2.bottom = s.top)) := by
  have hm : (s.top, s) ∈ rows := by
    rw [hrows.1.mem_iff, mem_pileRows]
    exact ⟨hs, Or.inl rfl⟩
  obtain ⟨r, hr⟩ := mergeForward_isSome (·.1) rows z _ hm hz2
  refine ⟨r, hr, ?_⟩
  obtain ⟨h1, h2, h3⟩ := mergeForward_some (·.1) rows hrows.2 z r hr
  have hle : r.1 ≤ s.top := h3 _ hm hz2
  rw [hrows.1.mem_iff, mem_pileRows] at h1
  obtain ⟨hmem, hkey⟩ := h1
  rcases stack_trichotomy p.sections hb hst r.2 s hmem hs with h | h | h
  · refine ⟨?_, Or.inl h⟩
    rcases hkey with hk | hk
    · rw [hk, h]
    · rw [hk, h] at h2
      exact absurd hz1 (not_lt.2 h2)
  · -- r.2 below s: impossible
    exfalso
    have : r.1 ≤ r.2.top := by
      rcases hkey with hk | hk
      · exact hk.le
      · exact hk.le.trans (hb _ hmem).le
    exact absurd (h2.trans (this.trans h)) (not_le.2 hz1)
  · -- r.2 above s
    have hb2 := hb _ hmem
    have e : r.1 = r.2.bottom := by
      rcases hkey with hk | hk
      · exfalso
        rw [hk] at hle
        exact absurd (lt_of_le_of_lt h hb2) (not_lt.2 hle)
      · exact hk
    rw [e] at hle ⊢
    exact ⟨le_antisymm hle h, Or.inr ⟨hmem, le_antisymm hle h⟩⟩

omit [IsStrictOrderedRing K] [FloorRing K] in
theorem pileRows_nodup (p : Pile K) (hb : ∀ s ∈ p.sections, s.bottom < s.top)
    (hst : Stack p.sections) : (pileRows p).Nodup := by
  obtain ⟨secs, mat⟩ := p
  unfold pileRows
  simp only at hb hst ⊢
  have h := stack_order secs hb hst
  clear hst
  induction secs with
  | nil => simp
  | cons a l ih =>
    rw [List.pairwise_cons] at h
    rw [List.flatMap_cons, List.nodup_append]
    refine ⟨?_, ih (fun s hs => hb s (List.mem_cons_of_mem _ hs)) h.2, ?_⟩
    · simp [(hb a (by simp)).ne']
    · intro x hx y hy hxy
      subst hxy
      rw [List.mem_flatMap] at hy
      obtain ⟨s, hs, hy⟩ := hy
      have h1 := h.1 s hs
      have h2 := hb s (List.mem_cons_of_mem _ hs)
      have hx2 : x.2 = a := by
        simp only [List.mem_cons, List.not_mem_nil, or_false] at hx
        rcases hx with rfl | rfl <;> rfl
      have hy2 : x.2 = s := by
        simp only [List.mem_cons, List.not_mem_nil, or_false] at hy
        rcases hy with rfl | rfl <;> rfl
      rw [hx2] at hy2
      subst hy2
      exact absurd h1 (not_le.2 h2)

/-! ### cumulative stress -/

omit [LinearOrder K] [IsStrictOrderedRing K] [FloorRing K] in
theorem cumsum_replicate_none (acc : K) (m : ℕ) (l : List (Option K)) :
    cumsum acc (List.replicate m none ++ l) = List.replicate m none ++ cumsum acc l := by
  induction m with
  | zero => rfl
  | succ m ih => simp [List.replicate_succ, cumsum, ih]

omit [Field K] [IsStrictOrderedRing K] [FloorRing K] in
theorem whereTop_append (t : K) (i : ℕ) (a b : List (K × K)) :
    whereTop t i (a ++ b) = whereTop t i a ++ whereTop t (i + a.length) b := by
  induction a generalizing i with
  | nil => simp [whereTop]
  | cons e a ih =>
    simp only [List.cons_append, whereTop, List.length_cons]
    rw [ih, show i + 1 + a.length = i + (a.length + 1) by omega]
    split <;> rfl

omit [Field K] [IsStrictOrderedRing K] [FloorRing K] in
theorem whereTop_none (t : K) (i : ℕ) (a : List (K × K)) (h : ∀ e ∈ a, e.1 ≠ t) :
    whereTop t i a = [] := by
  induction a generalizing i with
  | nil => rfl
  | cons e a ih =>
    rw [whereTop, if_neg (h e (by simp))]
    exact ih _ (fun e he => h e (List.mem_cons_of_mem _ he))

omit [Field K] [LinearOrder K] [IsStrictOrderedRing K] [FloorRing K] in
/-- Elements that hang together: each starts where the previous one ends. -/
theorem elements_chain (z : List K) :
    (z.zip z.tail).IsChain (fun a b => a.2 = b.1) := by
  induction z with
  | nil => simp
  | cons a z ih =>
    cases z with
    | nil => simp
    | cons b z =>
      cases z with
      | nil => simp
      | cons c z =>
        simp only [List.tail_cons, List.zip_cons_cons] at ih ⊢
        rw [List.isChain_cons_cons]
        exact ⟨rfl, ih⟩

omit [LinearOrder K] [IsStrictOrderedRing K] [FloorRing K] in
/-- If the stress increment of every element is the given weight times its length then the running
sum from the first element's top is the stress at the element bottoms. -/
theorem cumsum_stress (σ : K → K) (w : K × K → K) (l : List (K × K))
    (hch : l.IsChain (fun a b => a.2 = b.1))
    (hinc : ∀ e ∈ l, σ e.2 - σ e.1 = (e.1 - e.2) * w e) (acc : K)
    (hacc : ∀ e, l.head? = some e → acc = σ e.1) :
    cumsum acc (l.map (fun e => some ((e.1 - e.2) * w e))) = l.map (fun e => some (σ e.2)) := by
  induction l generalizing acc with
  | nil => rfl
  | cons a l ih =>
    have h1 := hinc a (by simp)
    have h2 := hacc a rfl
    have h3 : acc + (a.1 - a.2) * w a = σ a.2 := by rw [h2, ← h1]; ring
    simp only [List.map_cons, cumsum, h3]
    rw [ih hch.tail (fun e he => hinc e (List.mem_cons_of_mem _ he)) (σ a.2)]
    intro e he
    cases l with
    | nil => cases he
    | cons b l =>
      cases he
      rw [List.isChain_cons_cons] at hch
      rw [hch.1]

omit [LinearOrder K] [IsStrictOrderedRing K] [FloorRing K] in
/-- Sum over a list when all but the selected members contribute nothing. -/
theorem sum_of_filter {α : Type} (sel : α → Bool) (g : α → K) (l : List α)
    (h : ∀ a ∈ l, sel a = false → g a = 0) : (l.map g).sum = ((l.filter sel).map g).sum := by
  induction l with
  | nil => rfl
  | cons a l ih =>
    have ih' := ih (fun b hb => h b (List.mem_cons_of_mem _ hb))
    rw [List.map_cons, List.sum_cons, List.filter_cons, ih']
    by_cases ha : sel a = true
    · rw [if_pos ha]; simp
    · rw [if_neg ha, h a (by simp) (by simpa using ha)]; simp

omit [FloorRing K] in
/-- Increment of the stress of one layer over an element inside it that the water line does not cut. -/
theorem layerStress_inside (water : K) (l : Layer K) (e : K × K) (he : e.2 < e.1)
    (h1 : l.bottom ≤ e.2) (h2 : e.1 ≤ l.top) (hw : water ≤ e.2 ∨ e.1 ≤ water) :
    layerStress water e.2 l - layerStress water e.1 l =
      (e.1 - e.2) * (if e.1 ≤ water then l.weight - 10 else l.weight) := by
  unfold layerStress
  have m1 : min e.2 l.top = e.2 := min_eq_left (by linarith)
  have m2 : min e.1 l.top = e.1 := min_eq_left h2
  have m3 : max l.bottom e.2 = e.2 := max_eq_right h1
  have m4 : max l.bottom e.1 = e.1 := max_eq_right (by linarith)
  simp only [m1, m2, m3, m4]
  rcases hw with hw | hw
  · rw [if_neg (by linarith), max_eq_right hw, max_eq_right (by linarith),
      min_eq_right (by linarith), min_eq_right h2]
    ring
  · rw [if_pos hw, max_eq_left hw, max_eq_left (by linarith : e.2 ≤ water)]
    ring

omit [FloorRing K] in
/-- A layer that does not overlap the element contributes no increment. -/
theorem layerStress_outside (water : K) (l : Layer K) (e : K × K) (he : e.2 < e.1)
    (hl : l.bottom < l.top) (h : e.1 ≤ l.bottom ∨ l.top ≤ e.2) :
    layerStress water e.2 l - layerStress water e.1 l = 0 := by
  unfold layerStress
  rcases h with h | h
  · have m1 : min e.2 l.top = e.2 := min_eq_left (by linarith)
    have m2 : min e.1 l.top = e.1 := min_eq_left (by linarith)
    have m3 : max l.bottom e.2 = l.bottom := max_eq_left (by linarith)
    have m4 : max l.bottom e.1 = l.bottom := max_eq_left h
    simp only [m1, m2, m3, m4, sub_self]
  · have m1 : min e.2 l.top = l.top := min_eq_right h
    have m2 : min e.1 l.top = l.top := min_eq_right (by linarith)
    simp only [m1, m2, sub_self]

omit [Field K] [IsStrictOrderedRing K] [FloorRing K] in
/-- Two members of a stack of intervals are equal or do not overlap. -/
theorem disjoint_of_stack {α : Type} (top bottom : α → K) (l : List α)
    (hb : ∀ s ∈ l, bottom s < top s) (hst : l.IsChain (fun u v => top v = bottom u))
    (s t : α) (hs : s ∈ l) (ht : t ∈ l) : s = t ∨ top s ≤ bottom t ∨ top t ≤ bottom s := by
  have h : l.Pairwise (fun u v => top v ≤ bottom u) := by
    clear hs ht
    induction l with
    | nil => simp
    | cons a l ih =>
      have ih' := ih (fun s hs => hb s (List.mem_cons_of_mem _ hs)) hst.tail
      rw [List.pairwise_cons]
      refine ⟨?_, ih'⟩
      intro x hx
      cases l with
      | nil => cases hx
      | cons b l =>
        rw [List.isChain_cons_cons] at hst
        rw [List.pairwise_cons] at ih'
        rcases List.mem_cons.1 hx with rfl | hx
        · exact hst.1.le
        · have h1 := ih'.1 x hx
          have h2 := hb b (by simp)
          rw [hst.1] at h2
          exact h1.trans h2.le
  clear hst
  induction l with
  | nil => cases hs
  | cons a l ih =>
    rw [List.pairwise_cons] at h
    rcases List.mem_cons.1 hs with rfl | hs' <;> rcases List.mem_cons.1 ht with rfl | ht'
    · exact Or.inl rfl
    · exact Or.inr (Or.inr (h.1 t ht'))
    · exact Or.inr (Or.inl (h.1 s hs'))
    · exact ih (fun s hs => hb s (List.mem_cons_of_mem _ hs)) hs' ht' h.2

omit [Field K] [LinearOrder K] [IsStrictOrderedRing K] [FloorRing K] in
theorem insertIdx_replicate {α : Type} (m : ℕ) (a x : α) (l : List α) :
    (List.replicate m a ++ l).insertIdx m x = List.replicate m a ++ x :: l := by
  induction m with
  | zero => simp
  | succ m ih => simp [List.replicate_succ, ih]

omit [IsStrictOrderedRing K] [FloorRing K] [LinearOrder K] in
theorem shift_stress (σ : K → K) (a : K × K) (l : List (K × K))
    (hch : (a :: l).IsChain (fun a b => a.2 = b.1)) (h0 : σ a.1 = 0) :
    some 0 :: ((a :: l).map (fun e => some (σ e.2))).dropLast =
      (a :: l).map (fun e => some (σ e.1)) := by
  have gen : ∀ (l : List (K × K)) (a : K × K), (a :: l).IsChain (fun a b => a.2 = b.1) →
      some (σ a.1) :: ((a :: l).map (fun e => some (σ e.2))).dropLast =
      (a :: l).map (fun e => some (σ e.1)) := by
    intro l
    induction l with
    | nil => intro a _; rfl
    | cons b l ih =>
      intro a h
      rw [List.isChain_cons_cons] at h
      have := ih b h.2
      simp only [List.map_cons, List.dropLast_cons_cons] at this ⊢
      rw [h.1, this]
  rw [← h0]
  exact gen l a hch

omit [Field K] [IsStrictOrderedRing K] [FloorRing K] in
theorem elements_sorted (l : List (K × K)) (hch : l.IsChain (fun a b => a.2 = b.1))
    (hlt : ∀ e ∈ l, e.2 < e.1) : l.Pairwise (fun a b => b.1 < a.1) := by
  induction l with
  | nil => simp
  | cons a l ih =>
    have ih' := ih hch.tail (fun e he => hlt e (List.mem_cons_of_mem _ he))
    rw [List.pairwise_cons]
    refine ⟨?_, ih'⟩
    intro x hx
    cases l with
    | nil => cases hx
    | cons b l =>
      rw [List.isChain_cons_cons] at hch
      rw [List.pairwise_cons] at ih'
      have := hlt a (by simp)
      rw [hch.1] at this
      rcases List.mem_cons.1 hx with rfl | hx
      · exact this
      · exact (ih'.1 x hx).trans this

omit [Field K] [IsStrictOrderedRing K] [FloorRing K] in
theorem exists_element_from (N : List K) (hN : N.Pairwise (· > ·)) (a b : K) (ha : a ∈ N)
    (hb : b ∈ N) (hlt : b < a) : ∃ y, (a, y) ∈ N.zip N.tail := by
  induction N with
  | nil => cases ha
  | cons x N ih =>
    cases N with
    | nil =>
      simp only [List.mem_cons, List.not_mem_nil, or_false] at ha hb
      rw [ha, hb] at hlt
      exact absurd hlt (lt_irrefl _)
    | cons y N =>
      rcases List.mem_cons.1 ha with rfl | ha'
      · exact ⟨y, by simp⟩
      · rcases List.mem_cons.1 hb with rfl | hb'
        · have := (List.pairwise_cons.1 hN).1 a ha'
          exact absurd hlt (not_lt.2 (le_of_lt this))
        · obtain ⟨w, hw⟩ := ih (List.pairwise_cons.1 hN).2 ha' hb'
          exact ⟨w, by simp only [List.tail_cons, List.zip_cons_cons, List.mem_cons] at hw ⊢
                       exact Or.inr hw⟩

omit [IsStrictOrderedRing K] [FloorRing K] in
theorem stressAt_sub (water z z' : K) (l : List (Layer K)) :
    stressAt water z l - stressAt water z' l =
      (l.map (fun x => layerStress water z x - layerStress water z' x)).sum := by
  unfold stressAt
  induction l with
  | nil => simp
  | cons a l ih => simp only [List.map_cons, List.sum_cons, ← ih]; ring

omit [FloorRing K] in
theorem stressAt_ground (water top : K) (l : List (Layer K))
    (h : ∀ x ∈ l, x.bottom < x.top ∧ x.top ≤ top) : stressAt water top l = 0 := by
  unfold stressAt
  apply List.sum_eq_zero
  intro y hy
  obtain ⟨x, hx, rfl⟩ := List.mem_map.1 hy
  obtain ⟨h1, h2⟩ := h x hx
  unfold layerStress
  rw [min_eq_right h2]
  simp only [max_eq_right h1.le]
  rw [min_eq_left (le_max_right _ _)]
  ring

/-- The stress table of a mesh whose elements are cut neither by layer boundaries nor by the water
line `w'`, which separates the element tops like the actual water line does. -/
theorem soilRows_spec (sp : Profile K) (els : List (K × K))
    (hch : els.IsChain (fun a b => a.2 = b.1)) (hlt : ∀ e ∈ els, e.2 < e.1)
    (htop : ∃ e ∈ els, e.1 = sp.topElevation)
    (hb : ∀ l ∈ sp.layers, l.bottom < l.top ∧ l.top ≤ sp.topElevation)
    (hdis : ∀ l ∈ sp.layers, ∀ l' ∈ sp.layers, l = l' ∨ l.top ≤ l'.bottom ∨ l'.top ≤ l.bottom)
    (hone : ∀ e ∈ els, e.1 ≤ sp.topElevation →
      ∃ l, sp.layers.filter (fun l => decide (e.1 ≤ l.top ∧ e.2 ≥ l.bottom)) = [l])
    (hcut : ∀ e ∈ els, e.1 ≤ sp.topElevation → ∀ l ∈ sp.layers,
      e.1 ≤ l.bottom ∨ l.top ≤ e.2 ∨ (l.bottom ≤ e.2 ∧ e.1 ≤ l.top))
    (w' : K) (hw1 : ∀ e ∈ els, w' ≤ e.2 ∨ e.1 ≤ w')
    (hw2 : ∀ e ∈ els, (e.1 ≤ sp.waterLine ↔ e.1 ≤ w')) :
    ∃ rows, soilRows sp els = .ok rows ∧ rows.map (·.element) = els ∧
      ∀ r ∈ rows,
        (r.element.1 ≤ sp.topElevation →
          r.sigTop = some (stressAt w' r.element.1 sp.layers) ∧
          r.sigBottom = some (stressAt w' r.element.2 sp.layers)) ∧
        (sp.topElevation < r.element.1 → r.weight = none ∧ r.sigTop = none ∧ r.sigBottom = none) := by
  classical
  obtain ⟨e0, he0, htop0⟩ := htop
  obtain ⟨A, B, rfl⟩ := List.append_of_mem he0
  have hsort := elements_sorted _ hch hlt
  rw [List.pairwise_append, List.pairwise_cons] at hsort
  obtain ⟨_, ⟨hB, _⟩, hAB⟩ := hsort
  have hA' : ∀ e ∈ A, sp.topElevation < e.1 := fun e he => by
    have := hAB e he e0 (by simp)
    rwa [htop0] at this
  have hB' : ∀ e ∈ e0 :: B, e.1 ≤ sp.topElevation := by
    intro e he
    rcases List.mem_cons.1 he with rfl | he
    · exact htop0.le
    · have := hB e he
      rw [htop0] at this
      exact this.le
  have hmemEls : ∀ e ∈ e0 :: B, e ∈ A ++ e0 :: B := fun e he => List.mem_append_right _ he
  -- the table of layers
  have htab : ∀ l, l ∈ soilTable sp ↔ l ∈ sp.layers := fun l => by
    unfold soilTable
    rw [(Py.sortedBy_perm _ _).mem_iff, (Props.Soil.sortLayers_perm _).mem_iff]
  have htabs : (soilTable sp).Pairwise (fun a b => a.top ≤ b.top) := Py.sortedBy_pairwise _ _
  -- weights above ground
  have hwA : ∀ e ∈ A, elementWeight sp e = none := by
    intro e he
    unfold elementWeight
    rw [mergeForward_none, Option.map_none]
    intro l hl
    exact lt_of_le_of_lt (hb l ((htab l).1 hl)).2 (hA' e he)
  -- weights and increments below ground
  have key : ∀ e ∈ e0 :: B, ∃ w, elementWeight sp e = some w ∧
      stressAt w' e.2 sp.layers - stressAt w' e.1 sp.layers = (e.1 - e.2) * w := by
    intro e he
    obtain ⟨l, hl⟩ := hone e (hmemEls e he) (hB' e he)
    have hlm : l ∈ sp.layers ∧ (e.1 ≤ l.top ∧ e.2 ≥ l.bottom) := by
      have : l ∈ sp.layers.filter (fun l => decide (e.1 ≤ l.top ∧ e.2 ≥ l.bottom)) := by
        rw [hl]; simp
      rw [List.mem_filter] at this
      exact ⟨this.1, by simpa using this.2⟩
    have hle := hlt e (hmemEls e he)
    obtain ⟨l', hl'⟩ := mergeForward_isSome (·.top) (soilTable sp) e.1 l ((htab l).2 hlm.1) hlm.2.1
    obtain ⟨g1, g2, g3⟩ := mergeForward_some (·.top) (soilTable sp) htabs e.1 l' hl'
    have hll : l' = l := by
      rcases hdis l' ((htab l').1 g1) l hlm.1 with h | h | h
      · exact h
      · exfalso
        have := hlm.2.2
        linarith
      · exfalso
        have h1 := g3 l ((htab l).2 hlm.1) hlm.2.1
        have h2 := (hb l' ((htab l').1 g1)).1
        linarith
    subst hll
    refine ⟨if e.1 ≤ sp.waterLine then l'.weight - 10 else l'.weight, ?_, ?_⟩
    · unfold elementWeight
      rw [hl', Option.map_some]
    · rw [stressAt_sub, sum_of_filter (fun l => decide (e.1 ≤ l.top ∧ e.2 ≥ l.bottom)), hl]
      · simp only [List.map_cons, List.map_nil, List.sum_cons, List.sum_nil, add_zero]
        rw [layerStress_inside w' l' e hle hlm.2.2 hlm.2.1 (hw1 e (hmemEls e he))]
        simp only [hw2 e (hmemEls e he)]
      · intro a ha hsel
        apply layerStress_outside w' a e hle (hb a ha).1
        rcases hcut e (hmemEls e he) (hB' e he) a ha with h | h | h
        · exact Or.inl h
        · exact Or.inr h
        · simp [h.1, h.2] at hsel
  let wt : K × K → K := fun e => (elementWeight sp e).getD 0
  have hwt : ∀ e ∈ e0 :: B, elementWeight sp e = some (wt e) := by
    intro e he
    obtain ⟨w, hw, _⟩ := key e he
    simp [wt, hw]
  have hinc : ∀ e ∈ e0 :: B, stressAt w' e.2 sp.layers - stressAt w' e.1 sp.layers =
      (e.1 - e.2) * wt e := by
    intro e he
    obtain ⟨w, hw, h⟩ := key e he
    rw [h]
    simp [wt, hw]
  have hground := stressAt_ground w' sp.topElevation sp.layers hb
  have hchB : (e0 :: B).IsChain (fun a b => a.2 = b.1) := (List.isChain_append.1 hch).2.1
  -- the columns
  have hs : (A ++ e0 :: B).map (fun e => (elementWeight sp e).map (fun w => (e.1 - e.2) * w)) =
      List.replicate A.length none ++ (e0 :: B).map (fun e => some ((e.1 - e.2) * wt e)) := by
    rw [List.map_append]
    congr 1
    · rw [List.eq_replicate_iff]
      refine ⟨by simp, ?_⟩
      intro x hx
      obtain ⟨e, he, rfl⟩ := List.mem_map.1 hx
      rw [hwA e he, Option.map_none]
    · apply List.map_congr_left
      intro e he
      rw [hwt e he, Option.map_some]
  have hcs : cumsum 0 ((A ++ e0 :: B).map
      (fun e => (elementWeight sp e).map (fun w => (e.1 - e.2) * w))) =
      List.replicate A.length none ++ (e0 :: B).map (fun e => some (stressAt w' e.2 sp.layers)) := by
    rw [hs, cumsum_replicate_none, cumsum_stress (fun z => stressAt w' z sp.layers) wt _ hchB hinc]
    intro e he
    cases he
    rw [htop0, hground]
  have hwhere : whereTop sp.topElevation 0 (A ++ e0 :: B) = [A.length] := by
    rw [whereTop_append, whereTop_none _ _ A (fun e he => (hA' e he).ne'), whereTop,
      if_pos htop0, whereTop_none]
    · simp
    · intro e he
      have := hB e he
      rw [htop0] at this
      exact this.ne
  have hcol : stressColumns sp (A ++ e0 :: B) =
      .ok (List.replicate A.length none ++ (e0 :: B).map (fun e => some (stressAt w' e.1 sp.layers)),
        List.replicate A.length none ++
          (e0 :: B).map (fun e => some (stressAt w' e.2 sp.layers))) := by
    unfold stressColumns
    simp only [hwhere, hcs]
    rw [List.dropLast_append_of_ne_nil (by simp), insertIdx_replicate,
      shift_stress (fun z => stressAt w' z sp.layers) e0 B hchB (by rw [htop0, hground])]
  have hzip : ∀ (l : List (K × K)) (f : K × K → Option K × Option K),
      List.zipWith (fun e (x : Option K × Option K) =>
        (⟨e, elementWeight sp e, x.1, x.2⟩ : SoilRow K)) l (l.map f) =
      l.map (fun e => ⟨e, elementWeight sp e, (f e).1, (f e).2⟩) := by
    intro l f
    induction l with
    | nil => rfl
    | cons a l ih => simp [ih]
  have hrep : List.replicate A.length (none : Option K) = A.map (fun _ => none) := by
    simp
  refine ⟨A.map (fun e => ⟨e, elementWeight sp e, none, none⟩) ++
    (e0 :: B).map (fun e => ⟨e, elementWeight sp e, some (stressAt w' e.1 sp.layers),
      some (stressAt w' e.2 sp.layers)⟩), ?_, ?_, ?_⟩
  · unfold soilRows
    rw [hcol]
    simp only [bind, Except.bind, pure, Except.pure]
    rw [hrep, List.zip_append (by simp), List.zip_map', List.zip_map',
      List.zipWith_append (by simp), hzip, hzip]
  · rw [List.map_append, List.map_map, List.map_map]
    simp [Function.comp_def]
  · intro r hr
    rcases List.mem_append.1 hr with h | h
    · obtain ⟨e, he, rfl⟩ := List.mem_map.1 h
      refine ⟨fun h => absurd h (not_le.2 (hA' e he)), fun _ => ⟨hwA e he, rfl, rfl⟩⟩
    · obtain ⟨e, he, rfl⟩ := List.mem_map.1 h
      exact ⟨fun _ => ⟨rfl, rfl⟩, fun h => absurd (hB' e he) (not_le.2 h)⟩

end OpenPile.Model

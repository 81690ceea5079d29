/-
Lemmas on interpolation of spring tables.
-/
import Verif.Model.Spring
import Mathlib.Tactic.Ring
import Mathlib.Tactic.FieldSimp
import Mathlib.Tactic.Linarith
import Mathlib.Tactic.Positivity

namespace OpenPile.Spring

variable {K : Type} [Field K] [LinearOrder K] [IsStrictOrderedRing K]

/-- Displacements strictly increase along the table. -/
def Asc (tab : List (K × K)) : Prop := tab.Pairwise (fun q r => q.1 < r.1)

omit [IsStrictOrderedRing K] in
theorem interp_some (x : K) (tab : List (K × K)) (h : tab ≠ []) : ∃ y, interp x tab = some y := by
  induction tab with
  | nil => exact absurd rfl h
  | cons q t ih =>
    obtain ⟨a, f⟩ := q
    cases t with
    | nil => exact ⟨f, rfl⟩
    | cons r rest =>
      obtain ⟨b, g⟩ := r
      unfold interp
      split_ifs
      · exact ⟨_, rfl⟩
      · exact ⟨_, rfl⟩
      · exact ih (by simp)

/-- Right of (or at) the last point. -/
theorem interp_last (x : K) (l : List (K × K)) (a f : K) (hs : Asc (l ++ [(a, f)])) (hx : a ≤ x) :
    interp x (l ++ [(a, f)]) = some f := by
  induction l with
  | nil => rfl
  | cons q t ih =>
    obtain ⟨c, h⟩ := q
    have hs' : Asc (t ++ [(a, f)]) := (List.pairwise_cons.1 hs).2
    have hc : ∀ r ∈ t ++ [(a, f)], c < r.1 := (List.pairwise_cons.1 hs).1
    have hca : c < a := hc (a, f) (by simp)
    have ih := ih hs'
    rcases ht : t ++ [(a, f)] with _ | ⟨⟨d, g⟩, rest⟩
    · simp at ht
    · rw [List.cons_append, ht]
      rw [ht] at ih hs'
      unfold interp
      rw [if_neg (not_lt.2 (hca.le.trans hx))]
      have hd : d ≤ a := by
        have : (a, f) ∈ (d, g) :: rest := by rw [← ht]; simp
        rcases List.mem_cons.1 this with h | h
        · rw [← (Prod.mk.injEq _ _ _ _ ▸ h : a = d ∧ f = g).1]
        · exact ((List.pairwise_cons.1 hs').1 _ h).le
      rw [if_neg (not_lt.2 (hd.trans hx))]
      exact ih

/-- Left of (or at) the first point. -/
theorem interp_first (x a f : K) (l : List (K × K)) (hs : Asc ((a, f) :: l)) (hx : x ≤ a) :
    interp x ((a, f) :: l) = some f := by
  cases l with
  | nil => rfl
  | cons r rest =>
    obtain ⟨b, g⟩ := r
    have hab : a < b := (List.pairwise_cons.1 hs).1 (b, g) (by simp)
    unfold interp
    by_cases h : x < a
    · rw [if_pos h]
    · have : x = a := le_antisymm hx (not_lt.1 h)
      subst this
      rw [if_neg h, if_pos hab]
      simp

/-- Between two neighbouring points. -/
theorem interp_seg (x : K) (l1 l2 : List (K × K)) (a f b g : K)
    (hs : Asc (l1 ++ (a, f) :: (b, g) :: l2)) (ha : a ≤ x) (hb : x ≤ b) :
    interp x (l1 ++ (a, f) :: (b, g) :: l2) = some (f + (g - f) / (b - a) * (x - a)) := by
  induction l1 with
  | nil =>
    rw [List.nil_append] at hs ⊢
    have hab : a < b := (List.pairwise_cons.1 hs).1 (b, g) (by simp)
    unfold interp
    rw [if_neg (not_lt.2 ha)]
    by_cases h : x < b
    · rw [if_pos h]
    · rw [if_neg h]
      have : x = b := le_antisymm hb (not_lt.1 h)
      subst this
      rw [interp_first x x g l2 (List.pairwise_cons.1 hs).2 le_rfl]
      congr 1
      have : x - a ≠ 0 := (sub_pos.2 hab).ne'
      field_simp
      ring
  | cons q t ih =>
    obtain ⟨c, h⟩ := q
    rw [List.cons_append] at hs ⊢
    have hs' := (List.pairwise_cons.1 hs).2
    have hc := (List.pairwise_cons.1 hs).1
    have hca : c < a := hc (a, f) (by simp)
    rcases ht : t ++ (a, f) :: (b, g) :: l2 with _ | ⟨⟨d, e⟩, rest⟩
    · simp at ht
    · unfold interp
      rw [if_neg (not_lt.2 (hca.le.trans ha))]
      have ih := ih hs'
      rw [ht] at ih hs'
      have hd : d ≤ a := by
        have : (a, f) ∈ (d, e) :: rest := by rw [← ht]; simp
        rcases List.mem_cons.1 this with h | h
        · rw [← (Prod.mk.injEq _ _ _ _ ▸ h : a = d ∧ f = e).1]
        · exact ((List.pairwise_cons.1 hs').1 _ h).le
      rw [if_neg (not_lt.2 (hd.trans ha))]
      exact ih

/-- Interpolated values stay between bounds of the table. -/
theorem interp_bounds (x y lo hi : K) (tab : List (K × K)) (h : interp x tab = some y)
    (hb : ∀ q ∈ tab, lo ≤ q.2 ∧ q.2 ≤ hi) : lo ≤ y ∧ y ≤ hi := by
  induction tab with
  | nil => simp [interp] at h
  | cons q t ih =>
    obtain ⟨a, f⟩ := q
    have hf := hb (a, f) (by simp)
    cases t with
    | nil =>
      simp only [interp, Option.some.injEq] at h
      subst h
      exact hf
    | cons r rest =>
      obtain ⟨b, g⟩ := r
      have hg := hb (b, g) (by simp)
      unfold interp at h
      split_ifs at h with h1 h2
      · simp only [Option.some.injEq] at h; subst h; exact hf
      · simp only [Option.some.injEq] at h
        subst h
        have hax : a ≤ x := not_lt.1 h1
        have hba : 0 < b - a := by linarith
        have ht0 : 0 ≤ (x - a) / (b - a) := by
          apply div_nonneg <;> linarith
        have ht1 : (x - a) / (b - a) ≤ 1 := by
          rw [div_le_one hba]; linarith
        have e : f + (g - f) / (b - a) * (x - a)
            = (1 - (x - a) / (b - a)) * f + (x - a) / (b - a) * g := by
          field_simp; ring
        rw [e]
        generalize (x - a) / (b - a) = t at *
        simp only at hf hg
        constructor <;> nlinarith
      · exact ih h (fun q hq => hb q (List.mem_cons_of_mem _ hq))

/-- Resistances do not decrease along the table. -/
def Rising (tab : List (K × K)) : Prop := tab.Pairwise (fun q r => q.2 ≤ r.2)

theorem interp_ge_first (x y a f : K) (l : List (K × K)) (hr : Rising ((a, f) :: l))
    (h : interp x ((a, f) :: l) = some y) : f ≤ y := by
  have key : ∀ (l : List (K × K)) (lo x y : K), (∀ q ∈ l, lo ≤ q.2) → interp x l = some y → lo ≤ y := by
    intro l lo x y hlo h
    have hex : ∃ hi, ∀ q ∈ l, q.2 ≤ hi := by
      clear h hlo
      induction l with
      | nil => exact ⟨0, by simp⟩
      | cons q t ih =>
        obtain ⟨hi, hh⟩ := ih
        refine ⟨max q.2 hi, ?_⟩
        intro r hr
        rcases List.mem_cons.1 hr with rfl | hr
        · exact le_max_left _ _
        · exact (hh r hr).trans (le_max_right _ _)
    obtain ⟨hi, hh⟩ := hex
    exact (interp_bounds x y lo hi l h (fun q hq => ⟨hlo q hq, hh q hq⟩)).1
  apply key _ _ x y _ h
  intro q hq
  rcases List.mem_cons.1 hq with rfl | hq
  · exact le_rfl
  · exact (List.pairwise_cons.1 hr).1 q hq

/-- A rising table is interpolated monotonically. -/
theorem interp_mono (x x' y y' : K) (tab : List (K × K)) (hs : Asc tab) (hr : Rising tab)
    (hx : x ≤ x') (h : interp x tab = some y) (h' : interp x' tab = some y') : y ≤ y' := by
  induction tab with
  | nil => simp [interp] at h
  | cons q t ih =>
    obtain ⟨a, f⟩ := q
    by_cases h1 : x < a
    · have hy : y = f := by
        rw [interp_first x a f t hs h1.le] at h
        simpa using h.symm
      rw [hy]
      exact interp_ge_first x' y' a f t hr h'
    · cases t with
      | nil =>
        simp only [interp, Option.some.injEq] at h h'
        rw [← h, ← h']
      | cons r rest =>
        obtain ⟨b, g⟩ := r
        have hs' := (List.pairwise_cons.1 hs).2
        have hr' := (List.pairwise_cons.1 hr).2
        have hab : a < b := (List.pairwise_cons.1 hs).1 (b, g) (by simp)
        have hfg : f ≤ g := (List.pairwise_cons.1 hr).1 (b, g) (by simp)
        unfold interp at h h'
        rw [if_neg h1] at h
        rw [if_neg (fun hh => h1 (hx.trans_lt hh))] at h'
        by_cases h2 : x < b
        · rw [if_pos h2] at h
          simp only [Option.some.injEq] at h
          have hslope : 0 ≤ (g - f) / (b - a) := div_nonneg (by linarith) (by linarith)
          by_cases h3 : x' < b
          · rw [if_pos h3] at h'
            simp only [Option.some.injEq] at h'
            rw [← h, ← h']
            have := mul_le_mul_of_nonneg_left (sub_le_sub_right hx a) hslope
            linarith
          · rw [if_neg h3] at h'
            have h4 := interp_ge_first x' y' b g rest hr' h'
            rw [← h]
            have h5 : (g - f) / (b - a) * (x - a) ≤ (g - f) / (b - a) * (b - a) :=
              mul_le_mul_of_nonneg_left (by linarith) hslope
            rw [div_mul_cancel₀ _ (by linarith : b - a ≠ 0)] at h5
            linarith
        · rw [if_neg h2] at h
          rw [if_neg (fun hh => h2 (hx.trans_lt hh))] at h'
          exact ih hs' hr' h h'

/-- For an ascending table the maximum displacement is the last one. -/
theorem maxDisp_eq (l : List (K × K)) (a f : K) (hs : Asc (l ++ [(a, f)])) :
    maxDisp (l ++ [(a, f)]) = some a := by
  unfold maxDisp
  rw [List.max?_eq_some_iff]
  refine ⟨by simp, ?_⟩
  intro b hb
  simp only [List.map_append, List.map_cons, List.map_nil, List.mem_append, List.mem_map,
    List.mem_singleton] at hb
  rcases hb with ⟨q, hq, rfl⟩ | rfl
  · exact ((List.pairwise_append.1 hs).2.2 q hq (a, f) (by simp)).le
  · exact le_rfl

/-- On ascending tables the explicit cap is what `np.interp` does anyway. -/
theorem resistance_eq (tab : List (K × K)) (hs : Asc tab) (hne : tab ≠ []) (d : K) :
    resistance tab d = interp d tab := by
  rcases List.eq_nil_or_concat tab with h | ⟨l, ⟨a, f⟩, h⟩
  · exact absurd h hne
  · rw [List.concat_eq_append] at h
    subst h
    unfold resistance
    rw [maxDisp_eq l a f hs]
    simp only [Option.bind_eq_bind, Option.bind_some, List.getLast?_append, List.getLast?_singleton,
      Option.some_or]
    split_ifs with h
    · rw [interp_last d l a f hs h.le]
      rfl
    · rfl

end OpenPile.Spring

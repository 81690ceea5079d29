import Verif.Spec.Pile
import Mathlib.Tactic.Linarith
import Mathlib.Tactic.Ring
import Mathlib.Tactic.FieldSimp
import Mathlib.Data.List.Sort
import Mathlib.Data.List.Chain

namespace OpenPile.Pile
open OpenPile.Spec.Pile

variable {K : Type} [Field K] [LinearOrder K]

theorem connected_iff (l : List (Section K)) : connected l = true ↔ Stacked l := by
  unfold Stacked
  induction l with
  | nil => simp [connected]
  | cons a l ih =>
    cases l with
    | nil => simp [connected]
    | cons b l => simp [connected, ih, List.isChain_cons_cons]

theorem built_iff (s : Section K) [IsStrictOrderedRing K] :
    Built s ↔ s.bottom < s.top ∧ 0 < s.diameter ∧ 0 < s.thickness := by
  constructor
  · rintro ⟨t, b, d, th, h⟩
    unfold mkSection at h
    split at h
    · cases h
    · rename_i hd
      cases th with
      | none =>
        simp only at h
        split at h
        · cases h
        · cases h
          simp only [not_not] at hd
          simp_all
      | some th =>
        simp only at h
        split at h
        · cases h
        · split at h
          · cases h
          · cases h; simp_all
  · rintro ⟨h1, h2, h3⟩
    exact ⟨s.top, s.bottom, s.diameter, some s.thickness, by simp [mkSection, h1, h2, h3]⟩

/-- A stacked list of valid sections has strictly decreasing tops, and everything later lies below. -/
theorem stacked_pairwise (l : List (Section K)) (hv : ∀ s ∈ l, s.bottom < s.top) (h : Stacked l) :
    l.Pairwise (fun a b => b.top ≤ a.bottom) := by
  induction l with
  | nil => simp
  | cons a l ih =>
    have hl := ih (fun s hs => hv s (List.mem_cons_of_mem _ hs)) h.tail
    rw [List.pairwise_cons]
    refine ⟨?_, hl⟩
    cases l with
    | nil => simp
    | cons b l =>
      have hab : b.top = a.bottom := (List.isChain_cons_cons.1 h).1
      intro c hc
      rcases List.mem_cons.1 hc with rfl | hc
      · exact hab.le
      · have h1 := (List.pairwise_cons.1 hl).1 c hc
        have h2 := hv b (by simp)
        exact (h1.trans h2.le).trans hab.le

theorem sortSections_perm (l : List (Section K)) : (sortSections l).Perm l :=
  Py.sortedBy_perm _ l

/-- If some arrangement of the sections is stacked, sorting finds it. -/
theorem sort_of_stacked [IsStrictOrderedRing K] (l l' : List (Section K))
    (hp : l.Perm l') (hv : ∀ s ∈ l', s.bottom < s.top) (h : Stacked l') :
    sortSections l = l' := by
  refine Py.sortedBy_eq_of_strict _ l l' hp ?_
  refine (stacked_pairwise l' hv h).imp_of_mem ?_
  intro a b ha hb hab
  exact neg_lt_neg (hab.trans_lt (hv a ha))

theorem mkPile_ok_iff (l : List (Section K)) (m : Material K) (p : Pile K) :
    mkPile l m = .ok p ↔ l ≠ [] ∧ Stacked (sortSections l) ∧ p = ⟨sortSections l, m⟩ := by
  unfold mkPile
  cases l with
  | nil => simp
  | cons a l =>
    simp only [List.length_cons, Nat.add_eq_zero_iff, one_ne_zero, and_false, if_false, ne_eq,
      reduceCtorEq, not_false_iff, true_and, ← connected_iff]
    split
    · rename_i h
      simp only [Except.ok.injEq, h, true_and]
      exact eq_comm
    · rename_i h
      simp [h]

theorem stacked_sum_length (a : Section K) (l : List (Section K)) (h : Stacked (a :: l)) (b : K)
    (hb : (a :: l).getLast?.map (·.bottom) = some b) :
    ((a :: l).map Section.length).sum = a.top - b := by
  induction l generalizing a with
  | nil =>
    simp at hb
    simp [Section.length, hb]
  | cons c l ih =>
    have h1 := (List.isChain_cons_cons.1 h)
    have := ih c h1.2 (by simpa using hb)
    rw [List.map_cons, List.sum_cons, this, Section.length, h1.1]
    ring

theorem stacked_covers (a : Section K) (l : List (Section K)) (h : Stacked (a :: l)) (b z : K)
    (hb : (a :: l).getLast?.map (·.bottom) = some b) (hz : b ≤ z) (hz' : z ≤ a.top) :
    ∃ s ∈ a :: l, s.bottom ≤ z ∧ z ≤ s.top := by
  induction l generalizing a with
  | nil =>
    simp at hb
    exact ⟨a, by simp, by rw [hb]; exact hz, hz'⟩
  | cons c l ih =>
    have h1 := (List.isChain_cons_cons.1 h)
    by_cases hlt : a.bottom ≤ z
    · exact ⟨a, by simp, hlt, hz'⟩
    · obtain ⟨s, hs, h2⟩ := ih c h1.2 (by simpa using hb) (by rw [h1.1]; exact (not_le.1 hlt).le)
      exact ⟨s, List.mem_cons_of_mem _ hs, h2⟩

end OpenPile.Pile

/-
Lemmas about axial curves.
-/
import Verif.Model.Axial
import Verif.Spec.Axial
import Verif.Lemmas.Conic
import Verif.Props.Spring
import Mathlib.Data.List.GetD

namespace OpenPile.Axial
open OpenPile.Spring

/-! ### sorting -/

theorem sort_append {A B : List ℝ} (hA : A.Pairwise (· ≤ ·)) (hAB : ∀ a ∈ A, ∀ b ∈ B, a ≤ b) :
    Py.sortedBy id (A ++ B) = A ++ Py.sortedBy id B := by
  have hp : (Py.sortedBy id (A ++ B)).Perm (A ++ Py.sortedBy id B) :=
    (Py.sortedBy_perm id _).trans ((List.Perm.refl A).append (Py.sortedBy_perm id B).symm)
  have h2 : (A ++ Py.sortedBy id B).Pairwise (· ≤ ·) := by
    rw [List.pairwise_append]
    exact ⟨hA, Py.sortedBy_pairwise id B, fun a ha b hb =>
      hAB a ha b ((Py.sortedBy_perm id B).mem_iff.1 hb)⟩
  exact hp.eq_of_pairwise (fun a b _ _ h h' => le_antisymm h h') (Py.sortedBy_pairwise id _) h2

/-- A sorted arrangement of `b :: l` with `b` minimal starts with `b`. -/
theorem sort_cons {b : ℝ} {l : List ℝ} (h : ∀ x ∈ l, b ≤ x) :
    Py.sortedBy id (b :: l) = b :: Py.sortedBy id l := by
  have := sort_append (A := [b]) (B := l) (by simp) (by simpa using h)
  simpa using this

theorem mapM_some_map {α β : Type} (f : α → Option β) (g : α → β) : ∀ (l : List α),
    (∀ a ∈ l, f a = some (g a)) → l.mapM f = some (l.map g)
  | [], _ => rfl
  | a :: l, h => by
    rw [List.mapM_cons, h a (by simp), mapM_some_map f g l (fun b hb => h b (by simp [hb]))]
    rfl

theorem getD_range_map (z : List ℝ) :
    (List.range z.length).map (fun i : ℕ => z.getD i 0) = z := by
  apply List.ext_getElem
  · simp
  · intro i h1 h2
    rw [List.getElem_map, List.getElem_range, List.getD_eq_getElem _ _ h2]

/-- If equal displacements carry equal forces, permuting the forces with `argsort` of the sorted
displacements changes nothing. -/
theorem gather_argsort {z t : List ℝ} {ids : List ℕ} (hl : t.length = z.length)
    (hz : z.Pairwise (· ≤ ·)) (hi : IsArgsort z ids)
    (hf : ∀ i j, i < z.length → j < z.length → z.getD i 0 = z.getD j 0 → t.getD i 0 = t.getD j 0) :
    gather t ids = some t := by
  have hlt : ∀ i ∈ ids, i < z.length := fun i h => List.mem_range.1 (hi.perm.mem_iff.1 h)
  have h1 : gather t ids = some (ids.map (fun i : ℕ => t.getD i 0)) := by
    refine mapM_some_map _ _ _ fun i h => ?_
    have := hlt i h
    rw [List.getD_eq_getElem _ _ (hl ▸ this), List.getElem?_eq_getElem]
  have h2 : ids.map (fun i : ℕ => z.getD i 0) = z := by
    have hp : (ids.map (fun i : ℕ => z.getD i 0)).Perm z := by
      have := hi.perm.map (fun i : ℕ => z.getD i 0)
      rwa [getD_range_map] at this
    exact hp.eq_of_pairwise (fun a b _ _ h h' => le_antisymm h h') hi.sorted hz
  have hlen : ids.length = z.length := by simpa using hi.perm.length_eq
  rw [h1]
  congr 1
  apply List.ext_getElem
  · simp [hlen, hl]
  · intro i h3 h4
    have h5 : i < ids.length := by simpa using h3
    have h6 : i < z.length := hlen ▸ h5
    rw [List.getElem_map, ← List.getD_eq_getElem _ 0 h4]
    refine hf _ _ (hlt _ (List.getElem_mem h5)) h6 ?_
    have : (ids.map (fun i : ℕ => z.getD i 0)).getD i 0 = z.getD i 0 := by rw [h2]
    rw [List.getD_eq_getElem _ _ (by simpa using h5), List.getElem_map] at this
    exact this

theorem sortedBy_length (l : List ℝ) : (Py.sortedBy id l).length = l.length :=
  (Py.sortedBy_perm id l).length_eq

/-- The completed curve: a strictly ascending part `A` with forces `S`, followed by the sorted tail
with constant force. -/
theorem complete_eq {A B S T : List ℝ} {len : ℕ} {add : ℝ → ℝ} {tail : ℝ} {draws : ℕ → ℝ}
    {argsort : List ℝ → List ℕ} (hs : ∀ z, IsArgsort z (argsort z)) (hA : A.Pairwise (· < ·))
    (hAS : A.length = S.length) (hT : T = List.replicate B.length tail)
    (hAB : ∀ a ∈ A, ∀ b ∈ B, a < b) (hadd : ∀ a ∈ A, ∀ i, a < add (draws i)) :
    complete (A ++ B) (S ++ T) len add tail draws argsort =
      some (A ++ Py.sortedBy id (B ++ (List.range (len - (A ++ B).length)).map
          (fun i : ℕ => add (draws i))),
        S ++ List.replicate (B.length + (len - (A ++ B).length)) tail) := by
  set n := len - (A ++ B).length with hn
  set C := B ++ (List.range n).map (fun i : ℕ => add (draws i)) with hC
  have hAC : ∀ a ∈ A, ∀ c ∈ C, a < c := by
    intro a ha c hc
    rw [hC, List.mem_append, List.mem_map] at hc
    rcases hc with h | ⟨i, _, rfl⟩
    · exact hAB a ha c h
    · exact hadd a ha i
  have hsort : Py.sortedBy id ((A ++ B) ++ (List.range n).map (fun i : ℕ => add (draws i))) =
      A ++ Py.sortedBy id C := by
    rw [List.append_assoc, ← hC]
    exact sort_append (hA.imp le_of_lt) (fun a ha b hb => le_of_lt (hAC a ha b hb))
  have ht : (S ++ T) ++ List.replicate n tail = S ++ List.replicate (B.length + n) tail := by
    rw [hT, List.append_assoc, List.replicate_append_replicate]
  unfold complete
  simp only [← hn, hsort, ht]
  have hCl : (Py.sortedBy id C).length = B.length + n := by rw [sortedBy_length, hC]; simp
  have hsorted : (A ++ Py.sortedBy id C).Pairwise (· ≤ ·) := by
    rw [List.pairwise_append]
    exact ⟨hA.imp le_of_lt, Py.sortedBy_pairwise id C, fun a ha b hb =>
      le_of_lt (hAC a ha b ((Py.sortedBy_perm id C).mem_iff.1 hb))⟩
  rw [gather_argsort (z := A ++ Py.sortedBy id C) ?_ hsorted (hs _) ?_]
  · rfl
  · simp [hCl, hAS]
  · intro i j hi hj hij
    have key : ∀ i, i < (A ++ Py.sortedBy id C).length → A.length ≤ i →
        (S ++ List.replicate (B.length + n) tail).getD i 0 = tail ∧
        (A ++ Py.sortedBy id C).getD i 0 ∈ C := by
      intro i h h'
      constructor
      · rw [List.getD_append_right _ _ _ _ (hAS ▸ h'), List.getD_replicate]
        simp only [List.length_append, hCl] at h
        omega
      · rw [List.getD_append_right _ _ _ _ h', ← (Py.sortedBy_perm id C).mem_iff,
          List.getD_eq_getElem _ _ (by simp only [List.length_append] at h; omega)]
        exact List.getElem_mem _
    have low : ∀ i (h : i < A.length), (A ++ Py.sortedBy id C).getD i 0 = A[i] ∧ A[i] ∈ A := by
      intro i h
      rw [List.getD_append _ _ _ _ h, List.getD_eq_getElem _ _ h]
      exact ⟨rfl, List.getElem_mem h⟩
    rcases lt_or_ge i A.length with h | h <;> rcases lt_or_ge j A.length with h' | h'
    · have e : A[i] = A[j] := by rw [← (low i h).1, ← (low j h').1, hij]
      have hij' : i = j := by
        rcases lt_trichotomy i j with g | g | g
        · exact absurd e (ne_of_lt (List.pairwise_iff_getElem.1 hA i j h h' g))
        · exact g
        · exact absurd e.symm (ne_of_lt (List.pairwise_iff_getElem.1 hA j i h' h g))
      rw [hij']
    · rw [(low i h).1] at hij
      exact absurd hij (ne_of_lt (hAC _ (low i h).2 _ (key j hj h').2))
    · rw [(low j h').1] at hij
      exact absurd hij.symm (ne_of_lt (hAC _ (low j h').2 _ (key i hi h).2))
    · rw [(key i hi h).1, (key j hj h').1]

/-! ### interpolation -/

theorem interp_const (x a c : ℝ) : ∀ (R : List (ℝ × ℝ)), (∀ q ∈ R, q.2 = c) →
    interp x ((a, c) :: R) = some c
  | [], _ => rfl
  | (b, g) :: R, h => by
    have hg : g = c := h (b, g) (by simp)
    subst hg
    rw [interp]
    split_ifs
    · rfl
    · simp
    · exact interp_const x b g R (fun q hq => h q (by simp [hq]))

/-- A tail of constant force is equivalent to its first point. -/
theorem interp_flat_tail (x a c : ℝ) (R : List (ℝ × ℝ)) (h : ∀ q ∈ R, q.2 = c) :
    ∀ A : List (ℝ × ℝ), interp x (A ++ (a, c) :: R) = interp x (A ++ [(a, c)])
  | [] => by simpa [interp] using interp_const x a c R h
  | [(b, g)] => by
    have := interp_flat_tail x a c R h []
    simp only [List.nil_append] at this
    simp only [List.cons_append, List.nil_append, interp.eq_3]
    rw [this]
  | (b, g) :: (b', g') :: A => by
    have := interp_flat_tail x a c R h ((b', g') :: A)
    simp only [List.cons_append] at this
    simp only [List.cons_append, interp.eq_3]
    rw [this]

/-- A first point of the same force as the second is redundant. -/
theorem interp_flat_head (x a b c : ℝ) (hab : a ≤ b) (R : List (ℝ × ℝ)) :
    interp x ((a, c) :: (b, c) :: R) = interp x ((b, c) :: R) := by
  rw [interp.eq_3]
  by_cases h : x < b
  · have : interp x ((b, c) :: R) = some c := by
      cases R with
      | nil => rfl
      | cons q R => obtain ⟨d, g⟩ := q; rw [interp.eq_3, if_pos h]
    rw [this]
    split_ifs <;> simp
  · rw [if_neg (fun h' => h (lt_of_lt_of_le h' hab)), if_neg h]

theorem interp_scaled (s c : ℝ) (hs : 0 < s) (x : ℝ) : ∀ l : List (ℝ × ℝ),
    interp x (scaled s c l) = (interp (x / s) l).map (· * c)
  | [] => rfl
  | [(a, f)] => rfl
  | (a, f) :: (b, g) :: R => by
    have ih := interp_scaled s c hs x ((b, g) :: R)
    simp only [scaled, List.map_cons] at ih ⊢
    rw [interp.eq_3, interp.eq_3, ih]
    have e1 : x < a * s ↔ x / s < a := by rw [div_lt_iff₀ hs]
    have e2 : x < b * s ↔ x / s < b := by rw [div_lt_iff₀ hs]
    simp only [e1, e2]
    split_ifs with h1 h2
    · rfl
    · simp only [Option.map_some, Option.some.injEq]
      have hba : b - a ≠ 0 := by
        have := lt_of_le_of_lt (not_lt.1 h1) h2
        exact ne_of_gt (by linarith)
      have : b * s - a * s ≠ 0 := by
        rw [← sub_mul]; exact mul_ne_zero hba hs.ne'
      field_simp
    · rfl

theorem zip_scaleCurve (sz st : ℝ) (c : List ℝ × List ℝ) :
    (scaleCurve sz st c).1.zip (scaleCurve sz st c).2 = scaled sz st (c.1.zip c.2) := by
  simp only [scaleCurve, scaled, List.zip_map]
  rfl

theorem Curve.scale {len : ℕ} {c : List ℝ × List ℝ} (h : Curve len c) {sz : ℝ} (hz : 0 ≤ sz)
    (st : ℝ) : Curve len (scaleCurve sz st c) := by
  refine ⟨by simp [scaleCurve, h.disp], by simp [scaleCurve, h.force], ?_⟩
  simp only [scaleCurve, List.pairwise_map]
  exact h.sorted.imp fun hab => mul_le_mul_of_nonneg_right hab hz

/-- The curve built by `complete`: its vectors, and what interpolation in it gives. -/
theorem complete_curve {A B S : List ℝ} {b : ℝ} {len : ℕ} {add : ℝ → ℝ} {tail : ℝ} {draws : ℕ → ℝ}
    {argsort : List ℝ → List ℕ} (hs : ∀ z, IsArgsort z (argsort z)) (hA : A.Pairwise (· < ·))
    (hAS : A.length = S.length) (hAb : ∀ a ∈ A, a < b) (hB : ∀ x ∈ B, b ≤ x)
    (hadd : ∀ i, b ≤ add (draws i)) (hlen : (A ++ b :: B).length ≤ len) :
    ∃ c, complete (A ++ b :: B) (S ++ List.replicate (b :: B).length tail) len add tail draws argsort =
        some c ∧ Curve len c ∧
      (∀ q, q ∈ c.1.zip c.2 ↔ q ∈ A.zip S ∨ (q.2 = tail ∧ (q.1 = b ∨ q.1 ∈ B ∨
        ∃ i, i < len - (A ++ b :: B).length ∧ q.1 = add (draws i)))) ∧
      ∀ x, interp x (c.1.zip c.2) = interp x (A.zip S ++ [(b, tail)]) := by
  set n := len - (A ++ b :: B).length with hn
  have heq := complete_eq (A := A) (B := b :: B) (S := S) (T := List.replicate (b :: B).length tail)
    (len := len) (add := add) (tail := tail) (draws := draws) hs hA hAS rfl
    (fun a ha x hx => by
      rcases List.mem_cons.1 hx with rfl | hx
      · exact hAb a ha
      · exact lt_of_lt_of_le (hAb a ha) (hB x hx))
    (fun a ha i => lt_of_lt_of_le (hAb a ha) (hadd i))
  rw [← hn] at heq
  set D := B ++ (List.range n).map (fun i : ℕ => add (draws i)) with hD
  have hDb : ∀ x ∈ D, b ≤ x := by
    intro x hx
    rw [hD, List.mem_append, List.mem_map] at hx
    rcases hx with h | ⟨i, _, rfl⟩
    · exact hB x h
    · exact hadd i
  rw [List.cons_append, sort_cons hDb] at heq
  have hDl : (Py.sortedBy id D).length = B.length + n := by rw [sortedBy_length, hD]; simp
  have hrep : List.replicate ((b :: B).length + n) tail
      = tail :: List.replicate (B.length + n) tail := by
    rw [List.length_cons, show B.length + 1 + n = (B.length + n) + 1 by omega, List.replicate_succ]
  rw [hrep] at heq
  have hzip : (A ++ b :: Py.sortedBy id D).zip (S ++ tail :: List.replicate (B.length + n) tail) =
      A.zip S ++ (b, tail) :: (Py.sortedBy id D).map (fun x => (x, tail)) := by
    rw [List.zip_append hAS, List.zip_cons_cons]
    congr 2
    rw [← hDl]
    generalize Py.sortedBy id D = l
    induction l with
    | nil => rfl
    | cons a l ih => simp [List.replicate_succ, ih]
  refine ⟨_, heq, ⟨?_, ?_, ?_⟩, ?_, ?_⟩
  · simp only [List.length_append, List.length_cons, hDl] at *; omega
  · simp only [List.length_append, List.length_cons, List.length_replicate, ← hAS] at *; omega
  · simp only []
    rw [List.pairwise_append, List.pairwise_cons]
    refine ⟨hA.imp le_of_lt, ⟨fun x hx => hDb x ((Py.sortedBy_perm id D).mem_iff.1 hx),
      Py.sortedBy_pairwise id D⟩, fun a ha x hx => ?_⟩
    rcases List.mem_cons.1 hx with rfl | hx
    · exact le_of_lt (hAb a ha)
    · exact le_trans (le_of_lt (hAb a ha)) (hDb x ((Py.sortedBy_perm id D).mem_iff.1 hx))
  · intro q
    obtain ⟨u, v⟩ := q
    have memD : ∀ x, x ∈ Py.sortedBy id D ↔ x ∈ B ∨ ∃ i, i < n ∧ add (draws i) = x := by
      intro x
      rw [(Py.sortedBy_perm id D).mem_iff, hD, List.mem_append, List.mem_map]
      simp only [List.mem_range]
    simp only []
    rw [hzip]
    simp only [List.mem_append, List.mem_cons, List.mem_map, Prod.mk.injEq, memD]
    constructor
    · rintro (h | ⟨rfl, rfl⟩ | ⟨_, h | ⟨i, hi, rfl⟩, rfl, rfl⟩)
      · exact Or.inl h
      · exact Or.inr ⟨rfl, Or.inl rfl⟩
      · exact Or.inr ⟨rfl, Or.inr (Or.inl h)⟩
      · exact Or.inr ⟨rfl, Or.inr (Or.inr ⟨i, hi, rfl⟩)⟩
    · rintro (h | ⟨rfl, rfl | h | ⟨i, hi, rfl⟩⟩)
      · exact Or.inl h
      · exact Or.inr (Or.inl ⟨rfl, rfl⟩)
      · exact Or.inr (Or.inr ⟨u, Or.inl h, rfl, rfl⟩)
      · exact Or.inr (Or.inr ⟨_, Or.inr ⟨i, hi, rfl⟩, rfl, rfl⟩)
  · intro x
    simp only []
    rw [hzip]
    exact interp_flat_tail x b tail _ (by simp) _

end OpenPile.Axial

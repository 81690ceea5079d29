/-
Lemmas on assembly: placing element matrices, quadratic forms, nodal sums.
-/
import Verif.Model.Kernel
import Verif.Spec.Kernel
import Mathlib.Tactic.Ring
import Mathlib.Tactic.Linarith

namespace OpenPile.Kernel
open Matrix OpenPile.Spec.Kernel

variable {K : Type} [Field K] {n : ℕ}

/-- Position of the local degree of freedom `a` of element `i` in the global vector. -/
def emb (i : Fin n) (a : Fin 6) : Fin (3 * n + 3) := ⟨3 * i.1 + a.1, by omega⟩

theorem emb_injective (i : Fin n) : Function.Injective (emb i) := by
  intro a b h
  simp only [emb, Fin.mk.injEq] at h
  ext
  omega

theorem stacked_apply (u : Fin (3 * n + 3) → K) (i : Fin n) (a : Fin 6) : stacked u i a = u (emb i a) := rfl

theorem place_emb (i : Fin n) (k : Matrix (Fin 6) (Fin 6) K) (a b : Fin 6) :
    place n i k (emb i a) (emb i b) = k a b := by
  unfold place emb
  rw [dif_pos (by simp only; omega)]
  congr 1 <;> ext <;> simp

theorem not_range_emb {i : Fin n} {r : Fin (3 * n + 3)} (h : r ∉ Set.range (emb i)) :
    ¬ (3 * i.1 ≤ r.1 ∧ r.1 < 3 * i.1 + 6) := by
  intro hr
  apply h
  refine ⟨⟨r.1 - 3 * i.1, by omega⟩, ?_⟩
  ext
  simp only [emb]
  omega

theorem place_row_zero (i : Fin n) (k : Matrix (Fin 6) (Fin 6) K) {r : Fin (3 * n + 3)}
    (h : r ∉ Set.range (emb i)) (c : Fin (3 * n + 3)) : place n i k r c = 0 := by
  unfold place
  rw [dif_neg]
  exact fun hc => not_range_emb h hc.1

theorem place_col_zero (i : Fin n) (k : Matrix (Fin 6) (Fin 6) K) {c : Fin (3 * n + 3)}
    (h : c ∉ Set.range (emb i)) (r : Fin (3 * n + 3)) : place n i k r c = 0 := by
  unfold place
  rw [dif_neg]
  exact fun hc => not_range_emb h hc.2

theorem place_mulVec_emb (i : Fin n) (k : Matrix (Fin 6) (Fin 6) K) (u : Fin (3 * n + 3) → K)
    (a : Fin 6) : (place n i k *ᵥ u) (emb i a) = (k *ᵥ stacked u i) a := by
  unfold mulVec dotProduct
  symm
  apply Fintype.sum_of_injective (emb i) (emb_injective i)
  · intro c hc
    show place n i k (emb i a) c * u c = 0
    rw [place_col_zero i k hc, zero_mul]
  · intro b
    show k a b * stacked u i b = place n i k (emb i a) (emb i b) * u (emb i b)
    rw [place_emb, stacked_apply]

theorem place_mulVec_zero (i : Fin n) (k : Matrix (Fin 6) (Fin 6) K) (u : Fin (3 * n + 3) → K)
    {r : Fin (3 * n + 3)} (h : r ∉ Set.range (emb i)) : (place n i k *ᵥ u) r = 0 := by
  unfold mulVec dotProduct
  apply Finset.sum_eq_zero
  intro c _
  show place n i k r c * u c = 0
  rw [place_row_zero i k h, zero_mul]

theorem place_work (i : Fin n) (k : Matrix (Fin 6) (Fin 6) K) (v u : Fin (3 * n + 3) → K) :
    work (place n i k) v u = work k (stacked v i) (stacked u i) := by
  unfold work
  unfold dotProduct
  symm
  apply Fintype.sum_of_injective (emb i) (emb_injective i)
  · intro r hr
    rw [place_mulVec_zero i k u hr, mul_zero]
  · intro a
    rw [place_mulVec_emb, stacked_apply]

theorem work_add {ι : Type} [Fintype ι] (M N : Matrix ι ι K) (v u : ι → K) :
    work (M + N) v u = work M v u + work N v u := by
  simp [work, add_mulVec]

theorem work_sum {ι κ : Type} [Fintype ι] (s : Finset κ) (M : κ → Matrix ι ι K) (v u : ι → K) :
    work (∑ i ∈ s, M i) v u = ∑ i ∈ s, work (M i) v u := by
  classical
  induction s using Finset.induction_on with
  | empty => simp [work]
  | insert a s ha ih => rw [Finset.sum_insert ha, Finset.sum_insert ha, work_add, ih]

theorem assemble_work (k : Fin n → Matrix (Fin 6) (Fin 6) K) (v u : Fin (3 * n + 3) → K) :
    work (assemble n k) v u = ∑ i, work (k i) (stacked v i) (stacked u i) := by
  unfold assemble
  rw [work_sum]
  simp only [place_work]

theorem place_transpose (i : Fin n) (k : Matrix (Fin 6) (Fin 6) K) :
    (place n i k)ᵀ = place n i kᵀ := by
  ext r c
  simp only [transpose_apply, place]
  by_cases h1 : 3 * i.1 ≤ r.1 ∧ r.1 < 3 * i.1 + 6 <;>
    by_cases h2 : 3 * i.1 ≤ c.1 ∧ c.1 < 3 * i.1 + 6 <;> simp [h1, h2]

theorem assemble_transpose (k : Fin n → Matrix (Fin 6) (Fin 6) K) :
    (assemble n k)ᵀ = assemble n (fun i => (k i)ᵀ) := by
  unfold assemble
  rw [transpose_sum]
  simp only [place_transpose]

theorem base_transpose (h m q : K) : (baseMatrix n h m q)ᵀ = baseMatrix n h m q := by
  ext r c
  simp only [transpose_apply, baseMatrix]
  congr 1
  · simp only [eq_iff_iff]; tauto
  · congr 1
    · simp only [eq_iff_iff]; tauto
    · congr 1
      simp only [eq_iff_iff]; tauto

/-- The last node. -/
theorem base_mulVec (h m q : K) (u : Fin (3 * n + 3) → K) (r : Fin (3 * n + 3)) :
    (baseMatrix n h m q *ᵥ u) r =
      if r = dof (Fin.last n) 1 then h * u r else if r = dof (Fin.last n) 2 then m * u r
      else if r = dof (Fin.last n) 0 then q * u r else 0 := by
  unfold mulVec dotProduct
  have hd : ∀ d : Fin 3, (r = dof (Fin.last n) d) ↔ r.1 = 3 * n + d.1 := by
    intro d
    rw [Fin.ext_iff]
    simp [dof]
  rw [Finset.sum_eq_single r]
  · simp only [baseMatrix, hd]
    by_cases h1 : r.1 = 3 * n + 1
    · simp [h1]
    by_cases h2 : r.1 = 3 * n + 2
    · simp [h2]
    by_cases h3 : r.1 = 3 * n
    · simp [h3]
    simp [h1, h2, h3]
  · intro c _ hc
    have : c.1 ≠ r.1 := fun h => hc (Fin.ext h)
    simp only [baseMatrix]
    rw [if_neg (by omega), if_neg (by omega), if_neg (by omega), zero_mul]
  · simp

theorem base_work (h m q : K) (v u : Fin (3 * n + 3) → K) :
    work (baseMatrix n h m q) v u =
      h * v (dof (Fin.last n) 1) * u (dof (Fin.last n) 1)
      + m * v (dof (Fin.last n) 2) * u (dof (Fin.last n) 2)
      + q * v (dof (Fin.last n) 0) * u (dof (Fin.last n) 0) := by
  unfold work
  have h12 : dof (Fin.last n) (1 : Fin 3) ≠ dof (Fin.last n) 2 := by
    intro h; simp [dof, Fin.ext_iff] at h
  have h10 : dof (Fin.last n) (1 : Fin 3) ≠ dof (Fin.last n) 0 := by
    intro h; simp [dof, Fin.ext_iff] at h
  have h20 : dof (Fin.last n) (2 : Fin 3) ≠ dof (Fin.last n) 0 := by
    intro h; simp [dof, Fin.ext_iff] at h
  have e : ∀ r, v r * (baseMatrix n h m q *ᵥ u) r =
      (if r = dof (Fin.last n) 1 then h * v r * u r else 0)
      + (if r = dof (Fin.last n) 2 then m * v r * u r else 0)
      + (if r = dof (Fin.last n) 0 then q * v r * u r else 0) := by
    intro r
    rw [base_mulVec]
    by_cases h1 : r = dof (Fin.last n) 1
    · subst h1; simp [h12, h10]; ring
    by_cases h2 : r = dof (Fin.last n) 2
    · subst h2; simp [h12.symm, h20]; ring
    by_cases h3 : r = dof (Fin.last n) 0
    · subst h3; simp [h10.symm, h20.symm]; ring
    simp [h1, h2, h3]
  unfold dotProduct
  simp only [e, Finset.sum_add_distrib, Finset.sum_ite_eq', Finset.mem_univ, if_true]

theorem work_comm {ι : Type} [Fintype ι] (M : Matrix ι ι K) (hM : Mᵀ = M) (v u : ι → K) :
    work M v u = work M u v := by
  unfold work
  rw [dotProduct_mulVec, ← mulVec_transpose, hM, dotProduct_comm]

/-! ### degrees of freedom by node -/

theorem dof_injective : Function.Injective (fun p : Fin (n + 1) × Fin 3 => dof p.1 p.2) := by
  rintro ⟨j, d⟩ ⟨j', d'⟩ h
  simp only [dof, Fin.mk.injEq] at h
  ext <;> simp <;> omega

theorem dof_surjective (r : Fin (3 * n + 3)) : ∃ j d, r = dof (n := n) j d := by
  refine ⟨⟨r.1 / 3, by omega⟩, ⟨r.1 % 3, by omega⟩, ?_⟩
  ext
  simp [dof]
  omega

theorem sum_dof (f : Fin (3 * n + 3) → K) : ∑ r, f r = ∑ j : Fin (n + 1), ∑ d : Fin 3, f (dof j d) := by
  rw [← Fintype.sum_prod_type' (f := fun j d => f (dof j d))]
  symm
  apply Fintype.sum_bijective (fun p : Fin (n + 1) × Fin 3 => dof p.1 p.2)
  · refine ⟨dof_injective, fun r => ?_⟩
    obtain ⟨j, d, h⟩ := dof_surjective r
    exact ⟨(j, d), h.symm⟩
  · intro p; rfl

omit [Field K] in
theorem stacked_top (u : Fin (3 * n + 3) → K) (i : Fin n) :
    stacked u i 0 = u (dof i.castSucc 0) ∧ stacked u i 1 = u (dof i.castSucc 1) ∧
    stacked u i 2 = u (dof i.castSucc 2) ∧ stacked u i 3 = u (dof i.succ 0) ∧
    stacked u i 4 = u (dof i.succ 1) ∧ stacked u i 5 = u (dof i.succ 2) := by
  refine ⟨?_, ?_, ?_, ?_, ?_, ?_⟩ <;>
  · simp only [stacked]
    congr 1

/-- Local index of degree of freedom `d` at the top of an element. -/
def topDof (d : Fin 3) : Fin 6 := ⟨d.1, by omega⟩
/-- Local index of degree of freedom `d` at the bottom of an element. -/
def botDof (d : Fin 3) : Fin 6 := ⟨d.1 + 3, by omega⟩

theorem sum_mulVec {ι κ : Type} [Fintype ι] (s : Finset κ) (M : κ → Matrix ι ι K) (u : ι → K) (r : ι) :
    ((∑ i ∈ s, M i) *ᵥ u) r = ∑ i ∈ s, (M i *ᵥ u) r := by
  classical
  induction s using Finset.induction_on with
  | empty => simp
  | insert a s ha ih => rw [Finset.sum_insert ha, Finset.sum_insert ha, add_mulVec, Pi.add_apply, ih]

/-- Nodal forces of the assembled matrix: the end forces of the element below and of the element
above the node. -/
theorem assemble_mulVec_dof (k : Fin n → Matrix (Fin 6) (Fin 6) K) (u : Fin (3 * n + 3) → K)
    (j : Fin (n + 1)) (d : Fin 3) :
    (assemble n k *ᵥ u) (dof j d) =
      (if h : j.1 < n then (k ⟨j.1, h⟩ *ᵥ stacked u ⟨j.1, h⟩) (topDof d) else 0)
      + (if h : 0 < j.1 then
          (k ⟨j.1 - 1, by omega⟩ *ᵥ stacked u ⟨j.1 - 1, by omega⟩) (botDof d) else 0) := by
  unfold assemble
  rw [sum_mulVec]
  have key : ∀ i : Fin n, (place n i (k i) *ᵥ u) (dof j d) =
      (if i.1 = j.1 then (k i *ᵥ stacked u i) (topDof d) else 0)
      + (if i.1 + 1 = j.1 then (k i *ᵥ stacked u i) (botDof d) else 0) := by
    intro i
    by_cases h1 : i.1 = j.1
    · have : dof j d = emb i (topDof d) := by
        ext; simp [dof, emb, topDof, h1]
      rw [this, place_mulVec_emb, if_pos h1, if_neg (by omega), add_zero]
    by_cases h2 : i.1 + 1 = j.1
    · have : dof j d = emb i (botDof d) := by
        ext; simp [dof, emb, botDof]; omega
      rw [this, place_mulVec_emb, if_neg h1, if_pos h2, zero_add]
    · rw [if_neg h1, if_neg h2, add_zero]
      apply place_mulVec_zero
      rintro ⟨a, ha⟩
      rw [Fin.ext_iff] at ha
      simp only [emb, dof] at ha
      omega
  rw [Finset.sum_congr rfl (fun i _ => key i), Finset.sum_add_distrib]
  congr 1
  · split_ifs with h
    · rw [Finset.sum_eq_single ⟨j.1, h⟩]
      · simp
      · intro b _ hb
        rw [if_neg]
        exact fun h => hb (Fin.ext h)
      · simp
    · apply Finset.sum_eq_zero
      intro i _
      rw [if_neg (by omega)]
  · split_ifs with h
    · rw [Finset.sum_eq_single ⟨j.1 - 1, by omega⟩]
      · rw [if_pos (by simp only; omega)]
      · intro b _ hb
        rw [if_neg]
        intro h2
        exact hb (Fin.ext (by simp only; omega))
      · simp
    · apply Finset.sum_eq_zero
      intro i _
      rw [if_neg (by omega)]

end OpenPile.Kernel

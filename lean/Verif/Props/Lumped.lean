/-
C42 in soils that vary with depth: what the "distributed" table (which holds lumped springs) does to resistances that
change along the pile and to those that jump at a layer boundary.
-/
import Verif.Props.Extract

namespace OpenPile.Props.Extract
open OpenPile OpenPile.Extract

variable {K : Type} [Field K] [LinearOrder K] [IsStrictOrderedRing K]

/-- The resistance of the lower half of the element above node `j` (`a` per metre) and of the upper half of the element
below it (`b` per metre). -/
def share (z : ℕ → K) (j : ℕ) (a b : K) : K := a * ((z (j - 1) - z j) / 2) + b * ((z j - z (j + 1)) / 2)

theorem combine_get {x y : List K} {a b u v : K} {k : ℕ} (hx : x[k]? = some u) (hy : y[k]? = some v) :
    (combine a x b y)[k]? = some (u * a + v * b) := by
  unfold combine
  rw [List.getElem?_zipWith, hx, hy]

/-- The row of an inner node, from the springs `a` above and `b` below. -/
theorem row_inner {z : ℕ → K} {n : ℕ} {s : Springs K} {j k : ℕ} (h0 : 0 < j) (hj : j < n) {a b : K}
    (ha : (s (j - 1) true).r[k]? = some a) (hb : (s j false).r[k]? = some b) :
    (distributedRow z n (weighted z n s) j).r[k]? =
      some ((a * influence z n j * influence z n (j - 1) + b * influence z n j * influence z n j) /
        (influence z n (j - 1) + influence z n j)) := by
  have h1 : (weighted z n s (j - 1) true).r[k]? = some (a * influence z n j) := by
    simp only [weighted, if_true, List.getElem?_map, ha, Option.map_some, Nat.sub_add_cancel h0]
  have h2 : (weighted z n s j false).r[k]? = some (b * influence z n j) := by
    simp only [weighted, Bool.false_eq_true, if_false, List.getElem?_map, hb, Option.map_some]
  unfold distributedRow
  rw [if_neg (by omega), if_neg (by omega)]
  simp only [List.getElem?_map, combine_get h1 h2, Option.map_some]

/-- The displacement of an inner node, which both springs share. -/
theorem row_inner_d {z : ℕ → K} {n : ℕ} (hz : Descending z n) {s : Springs K} {j k : ℕ} (h0 : 0 < j) (hj : j < n) {a : K}
    (ha : (s (j - 1) true).d[k]? = some a) (hb : (s j false).d[k]? = some a) :
    (distributedRow z n (weighted z n s) j).d[k]? = some a := by
  have hn : 0 < n := by omega
  have hp := influence_pos hz hn hj.le
  have hq := influence_pos hz hn (i := j - 1) (by omega)
  unfold distributedRow
  rw [if_neg (by omega), if_neg (by omega)]
  have h1 : (weighted z n s (j - 1) true).d[k]? = some a := ha
  have h2 : (weighted z n s j false).d[k]? = some a := hb
  simp only [List.getElem?_map, combine_get h1 h2, Option.map_some]
  congr 1
  field_simp

/-- **C42, resistances varying with depth.** If the springs above and below every node agree (`v j k` is the `k`-th
resistance per metre at node `j`), then the rows of the table are the resistance times the tributary length, and their
sum is the integral of the resistance along the pile, taken linear within every element. -/
theorem C42_continuous_partial {z : ℕ → K} {n : ℕ} (hz : Descending z n) (hn : 0 < n) {s : Springs K} {v : ℕ → K} {k : ℕ}
    (hs : ∀ j, j < n → (s j false).r[k]? = some (v j) ∧ (s j true).r[k]? = some (v (j + 1))) :
    (∀ j, j ≤ n → (distributedRow z n (weighted z n s) j).r[k]? = some (v j * tributary z n j)) ∧
    ∑ j ∈ Finset.range (n + 1), v j * tributary z n j =
      ∑ i ∈ Finset.range n, (z i - z (i + 1)) * ((v i + v (i + 1)) / 2) := by
  constructor
  · intro j hj
    by_cases h0 : j = 0
    · subst h0
      unfold distributedRow
      rw [if_pos rfl, ← C42_influence hz hn hj]
      simp only [weighted, Bool.false_eq_true, if_false, List.getElem?_map, (hs 0 hn).1, Option.map_some]
    · by_cases h1 : j = n
      · subst h1
        unfold distributedRow
        have := (hs (j - 1) (by omega)).2
        rw [Nat.sub_add_cancel hn] at this
        rw [if_neg h0, if_pos rfl, ← C42_influence hz hn le_rfl]
        simp only [weighted, if_true, List.getElem?_map, this, Option.map_some, Nat.sub_add_cancel hn]
      · have h2 := (hs (j - 1) (by omega)).2
        rw [Nat.sub_add_cancel (by omega)] at h2
        rw [row_inner (by omega) (by omega) h2 (hs j (by omega)).1, ← C42_influence hz hn hj]
        have hp := influence_pos hz hn hj
        have hq := influence_pos hz hn (i := j - 1) (by omega)
        congr 1
        field_simp
  · unfold tributary
    simp only [mul_add, Finset.sum_add_distrib]
    rw [Finset.sum_range_succ', Finset.sum_range_succ]
    simp only [Nat.add_eq_zero_iff, one_ne_zero, and_false, if_false, Nat.add_sub_cancel, if_true, mul_zero, add_zero]
    have e2 : ∑ i ∈ Finset.range n, v i * (if i = n then (0 : K) else (z i - z (i + 1)) / 2)
        = ∑ i ∈ Finset.range n, v i * ((z i - z (i + 1)) / 2) :=
      Finset.sum_congr rfl fun i hi => by rw [if_neg (by have := Finset.mem_range.1 hi; omega)]
    rw [e2, ← Finset.sum_add_distrib]
    exact Finset.sum_congr rfl fun i _ => by ring

/-- **C42, layer boundaries.** Where the springs above and below an inner node differ, the row is the share of both
half elements if and only if the tributary lengths `w` of the node and `w'` of its upper neighbour satisfy
`w w' / (w + w') = ` half the length of the element above. -/
theorem C42_interface {z : ℕ → K} {n : ℕ} (hz : Descending z n) {s : Springs K} {j k : ℕ} (h0 : 0 < j) (hj : j < n)
    {a b : K} (hab : a ≠ b) (ha : (s (j - 1) true).r[k]? = some a) (hb : (s j false).r[k]? = some b) :
    (distributedRow z n (weighted z n s) j).r[k]? = some (share z j a b) ↔
      tributary z n j * tributary z n (j - 1) / (tributary z n (j - 1) + tributary z n j) = (z (j - 1) - z j) / 2 := by
  have hn : 0 < n := by omega
  have hp := influence_pos hz hn hj.le
  have hq := influence_pos hz hn (i := j - 1) (by omega)
  rw [row_inner h0 hj ha hb, Option.some.injEq]
  rw [C42_influence hz hn hj.le] at *
  rw [C42_influence hz hn (show j - 1 ≤ n by omega)] at *
  have ht : tributary z n j = (z (j - 1) - z j) / 2 + (z j - z (j + 1)) / 2 := by
    unfold tributary
    rw [if_neg (by omega), if_neg (by omega)]
  have key : (a * tributary z n j * tributary z n (j - 1) + b * tributary z n j * tributary z n j) /
      (tributary z n (j - 1) + tributary z n j) - share z j a b =
      (a - b) * (tributary z n j * tributary z n (j - 1) / (tributary z n (j - 1) + tributary z n j) -
        (z (j - 1) - z j) / 2) := by
    have e1 : share z j a b = (a - b) * ((z (j - 1) - z j) / 2) + b * tributary z n j := by
      rw [ht]
      unfold share
      ring
    rw [e1]
    have : tributary z n (j - 1) + tributary z n j ≠ 0 := by linarith
    field_simp
    ring
  rw [← sub_eq_zero, key, mul_eq_zero, sub_eq_zero, sub_eq_zero]
  exact ⟨fun h => h.resolve_left hab, Or.inr⟩

/-- All elements are `l` long. -/
def Equal (z : ℕ → K) (n : ℕ) (l : K) : Prop := ∀ i, i < n → z i - z (i + 1) = l

theorem Equal.descending {z : ℕ → K} {n : ℕ} {l : K} (h : Equal z n l) (hl : 0 < l) : Descending z n :=
  fun i hi => by have := h i hi; linarith

theorem Equal.inner {z : ℕ → K} {n : ℕ} {l : K} (h : Equal z n l) {j : ℕ} (h0 : 0 < j) (hj : j < n) :
    tributary z n j = l ∧ z (j - 1) - z j = l := by
  have h1 := h (j - 1) (by omega)
  rw [Nat.sub_add_cancel h0] at h1
  refine ⟨?_, h1⟩
  unfold tributary
  rw [if_neg (by omega), if_neg (by omega), h1, h j hj]
  ring

/-- **C42, layer boundaries on meshes of equal elements** are treated correctly from the second node below the head on. -/
theorem C42_interface_partial {z : ℕ → K} {n : ℕ} {l : K} (hl : 0 < l) (hz : Equal z n l) {s : Springs K} {j k : ℕ}
    (h0 : 2 ≤ j) (hj : j < n) {a b : K} (ha : (s (j - 1) true).r[k]? = some a) (hb : (s j false).r[k]? = some b) :
    (distributedRow z n (weighted z n s) j).r[k]? = some (share z j a b) := by
  have hd := hz.descending hl
  obtain ⟨e1, e2⟩ := hz.inner (show 0 < j by omega) hj
  obtain ⟨e3, -⟩ := hz.inner (show 0 < j - 1 by omega) (show j - 1 < n by omega)
  by_cases hab : a = b
  · subst hab
    have hn : 0 < n := by omega
    rw [row_inner (by omega) hj ha hb, C42_influence hd hn hj.le, C42_influence hd hn (show j - 1 ≤ n by omega), e1, e3]
    unfold share
    rw [e2, hz j hj]
    congr 1
    field_simp
    ring
  · rw [C42_interface hd (by omega) hj hab ha hb, e1, e2, e3]
    field_simp
    norm_num

/-- **C42 is violated at a layer boundary one element below the head**: on every mesh of equal elements, a third of the
resistance above and two thirds of that below are taken instead of half of each. -/
theorem C42_violated_interface {z : ℕ → K} {n : ℕ} {l : K} (hl : 0 < l) (hz : Equal z n l) (hn : 1 < n) {s : Springs K}
    {k : ℕ} {a b : K} (hab : a ≠ b) (ha : (s 0 true).r[k]? = some a) (hb : (s 1 false).r[k]? = some b) :
    (distributedRow z n (weighted z n s) 1).r[k]? = some (l * (a / 3 + 2 * b / 3)) ∧
    share z 1 a b = l * (a / 2 + b / 2) ∧ l * (a / 3 + 2 * b / 3) ≠ l * (a / 2 + b / 2) := by
  have hd := hz.descending hl
  obtain ⟨e1, e2⟩ := hz.inner one_pos hn
  have e3 : tributary z n 0 = l / 2 := by
    unfold tributary
    rw [if_pos rfl, if_neg (by omega), hz 0 (by omega)]
    ring
  refine ⟨?_, ?_, ?_⟩
  · rw [row_inner one_pos hn ha hb, Nat.sub_self, C42_influence hd (by omega) hn.le, C42_influence hd (by omega) (Nat.zero_le n), e1, e3]
    congr 1
    field_simp
    ring
  · unfold share
    rw [e2, hz 1 hn]
    ring
  · intro h
    have := mul_left_cancel₀ hl.ne' h
    apply hab
    linarith

/-! ### cases -/

/-- Resistance growing by 10 kN/m per metre along four elements of half a metre. -/
example : (∀ j, j < 4 → ((fun (i : ℕ) (b : Bool) => (⟨[0, 5 * ((if b then i + 1 else i : ℕ) : ℚ)], [0, 1]⟩ : Curve ℚ)) j false).r[1]? =
      some ((fun i : ℕ => 5 * (i : ℚ)) j) ∧
    ((fun (i : ℕ) (b : Bool) => (⟨[0, 5 * ((if b then i + 1 else i : ℕ) : ℚ)], [0, 1]⟩ : Curve ℚ)) j true).r[1]? =
      some ((fun i : ℕ => 5 * (i : ℚ)) (j + 1))) ∧
    Equal (fun i : ℕ => (0 : ℚ) - i / 2) 4 (1 / 2) :=
  ⟨fun j _ => ⟨rfl, rfl⟩, fun i _ => by push_cast; ring⟩

/-- One metre elements, 1 kN/m in the first and 4 kN/m below: 3 kN in the table at the boundary instead of 2.5 kN. -/
example : (distributedRow (fun i : ℕ => (0 : ℚ) - i) 3 (weighted (fun i : ℕ => (0 : ℚ) - i) 3
      (fun i _ => ⟨[if i = 0 then 1 else 4], [1]⟩)) 1).r[0]? = some 3 ∧
    share (fun i : ℕ => (0 : ℚ) - i) 1 1 4 = 5 / 2 := by
  constructor <;> decide +kernel

end OpenPile.Props.Extract

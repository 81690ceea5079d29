/-
Python / numpy primitives shared by the model.
-/
import Mathlib.Data.List.Sort
import Mathlib.Data.List.Dedup
import Mathlib.Data.List.Pairwise
import Mathlib.Algebra.Order.Field.Basic

namespace OpenPile.Py

/-- Python's `sorted(l, key=key)`: a stable ascending sort (library behaviour; used in
construct.py 295 and _model_build.py 96). -/
def sortedBy {α K : Type} [LinearOrder K] (key : α → K) (l : List α) : List α :=
  l.insertionSort (fun a b => key a ≤ key b)

/-- `np.unique(z)[::-1]`: the distinct values in decreasing order (library behaviour; used in
_model_build.py 155 and 171). -/
def uniqueDesc {K : Type} [LinearOrder K] (l : List K) : List K :=
  (l.insertionSort (fun a b => b ≤ a)).dedup

theorem sortedBy_perm {α K : Type} [LinearOrder K] (key : α → K) (l : List α) :
    (sortedBy key l).Perm l := List.perm_insertionSort _ l

theorem sortedBy_pairwise {α K : Type} [LinearOrder K] (key : α → K) (l : List α) :
    (sortedBy key l).Pairwise (fun a b => key a ≤ key b) := by
  have : Std.Total (fun a b : α => key a ≤ key b) := ⟨fun a b => le_total _ _⟩
  have : IsTrans α (fun a b : α => key a ≤ key b) := ⟨fun a b c h1 h2 => le_trans h1 h2⟩
  exact List.pairwise_insertionSort _ l

/-- A list without ties in the key has only one sorted arrangement. -/
theorem sortedBy_eq_of_strict {α K : Type} [LinearOrder K] (key : α → K) (l l' : List α)
    (hp : l.Perm l') (hs : l'.Pairwise (fun a b => key a < key b)) : sortedBy key l = l' := by
  have hperm := (sortedBy_perm key l).trans hp
  have hinj : ∀ a ∈ l', ∀ b ∈ l', key a = key b → a = b := by
    intro a ha b hb hab
    by_contra hne
    have : Std.Symm (fun a b : α => key a ≠ key b) := ⟨fun _ _ h => h.symm⟩
    exact (hs.imp (fun h => (ne_of_lt h))).forall ha hb hne hab
  refine hperm.eq_of_pairwise ?_ (sortedBy_pairwise key l) (hs.imp le_of_lt)
  intro a b ha hb hab hba
  exact hinj a (hperm.subset ha) b hb (le_antisymm hab hba)

theorem mem_uniqueDesc {K : Type} [LinearOrder K] (l : List K) (x : K) :
    x ∈ uniqueDesc l ↔ x ∈ l := by
  rw [uniqueDesc, List.mem_dedup, List.mem_insertionSort]

theorem uniqueDesc_pairwise {K : Type} [LinearOrder K] (l : List K) :
    (uniqueDesc l).Pairwise (· > ·) := by
  have h1 : (l.insertionSort (fun a b => b ≤ a)).Pairwise (fun a b => b ≤ a) := by
    have : Std.Total (fun a b : K => b ≤ a) := ⟨fun a b => le_total _ _⟩
    have : IsTrans K (fun a b : K => b ≤ a) := ⟨fun a b c h1 h2 => le_trans h2 h1⟩
    exact List.pairwise_insertionSort _ l
  have h2 := h1.sublist (List.dedup_sublist _)
  have h3 := List.nodup_dedup (l.insertionSort (fun a b => b ≤ a))
  have h4 := h2.and h3
  exact h4.imp (fun ⟨h, h'⟩ => lt_of_le_of_ne h h'.symm)

/-- Two lists with the same members have the same `uniqueDesc`. -/
theorem uniqueDesc_congr {K : Type} [LinearOrder K] (l l' : List K) (h : ∀ x, x ∈ l ↔ x ∈ l') :
    uniqueDesc l = uniqueDesc l' := by
  have h1 := uniqueDesc_pairwise l
  have h2 := uniqueDesc_pairwise l'
  have hp : (uniqueDesc l).Perm (uniqueDesc l') := by
    rw [List.perm_ext_iff_of_nodup (h1.imp (fun h => ne_of_gt h)) (h2.imp (fun h => ne_of_gt h))]
    intro x
    rw [mem_uniqueDesc, mem_uniqueDesc, h]
  refine hp.eq_of_pairwise ?_ h1 h2
  intro a b _ _ hab hba
  exact absurd hab (not_lt.2 (le_of_lt hba))

end OpenPile.Py

/-
Property C110: the tables of a pile describe the pile.
-/
import Verif.Model.PileTables
import Verif.Props.Pile
import Mathlib.Tactic.LinearCombination
import Mathlib.Tactic.NormNum

namespace OpenPile.Props.PileTables
open OpenPile.Pile OpenPile.PileTables

variable {K : Type} [Field K] [LinearOrder K] [IsStrictOrderedRing K]

/-! ### specification -/

/-- Splitting a table into consecutive pairs of rows. -/
def pairs {α : Type} : List α → List (α × α)
  | a :: b :: l => (a, b) :: pairs l
  | _ => []

/-- The volume a reader works out from a table with elevation and area: area times length, section by section. -/
def tableVolume {α : Type} (z area : α → K) (t : List α) : K := ((pairs t).map (fun q => area q.1 * (z q.1 - z q.2))).sum

/-! ### proofs -/

omit [LinearOrder K] [IsStrictOrderedRing K] in
theorem pairs_twice {α : Type} (p : Pile K) (f : K → Section K → α) :
    pairs (twice p f) = p.sections.map (fun x => (f x.top x, f x.bottom x)) := by
  unfold twice
  induction p.sections with
  | nil => rfl
  | cons x l ih =>
    rw [List.flatMap_cons, List.map_cons, ← ih]
    rfl

/-- **C110, printing.** Two piles that are printed with the same tables have the same sections. -/
theorem C110_printed (pi : K) (p q : Pile K) : printed pi p = printed pi q ↔ p.sections = q.sections := by
  constructor
  · intro h
    have := congrArg pairs h
    unfold printed at this
    rw [pairs_twice, pairs_twice] at this
    refine List.map_injective_iff.2 ?_ this
    rintro ⟨a, b, c, d⟩ ⟨a', b', c', d'⟩ h
    simp only [Prod.mk.injEq, PrintRow.mk.injEq, Section.width] at h
    obtain ⟨⟨rfl, rfl, rfl, -⟩, ⟨rfl, -⟩⟩ := h
    rfl
  · intro h
    unfold printed twice
    rw [h]

/-- **C110, data.** `Pile.data` tells all sections of the pile, wall thickness included. -/
theorem C110_data (pi : K) (hpi : 0 < pi) (p q : Pile K) : data pi p = data pi q ↔ p.sections = q.sections := by
  constructor
  · intro h
    have := congrArg pairs h
    unfold data at this
    rw [pairs_twice, pairs_twice] at this
    refine List.map_injective_iff.2 ?_ this
    rintro ⟨a, b, c, d⟩ ⟨a', b', c', d'⟩ h
    simp only [Prod.mk.injEq, DataRow.mk.injEq, Section.width, Section.innerPerimeter] at h
    obtain ⟨⟨rfl, rfl, -, -, -, -, hd⟩, ⟨rfl, -⟩⟩ := h
    have := mul_right_cancel₀ hpi.ne' hd
    have : d = d' := by linarith
    rw [this]
  · intro h
    unfold data twice
    rw [h]

omit [IsStrictOrderedRing K] in
theorem table_volume (pi : K) (p : Pile K) :
    tableVolume DataRow.elevation DataRow.area (data pi p) = p.volume pi ∧
      tableVolume PrintRow.elevation PrintRow.area (printed pi p) = p.volume pi ∧
      tableVolume DataRow.elevation DataRow.entrappedArea (data pi p) = p.innerVolume pi := by
  refine ⟨?_, ?_, ?_⟩
  · unfold tableVolume data Pile.volume Section.length
    rw [pairs_twice, List.map_map]
    rfl
  · unfold tableVolume printed Pile.volume Section.length
    rw [pairs_twice, List.map_map]
    rfl
  · unfold tableVolume data Pile.innerVolume
    rw [pairs_twice, List.map_map]
    congr 1
    induction p.sections with
    | nil => rfl
    | cons x l ih => simp only [List.map_cons, List.zipWith_cons_cons, ih, Function.comp_apply]

/-- **C110, volume.** The volume worked out from either table is the reported volume, the one from the entrapped areas the
reported inner volume. -/
theorem C110_volume (pi : K) (p : Pile K) :
    tableVolume DataRow.elevation DataRow.area (data pi p) = p.volume pi ∧
      tableVolume PrintRow.elevation PrintRow.area (printed pi p) = p.volume pi ∧
      tableVolume DataRow.elevation DataRow.entrappedArea (data pi p) = p.innerVolume pi :=
  table_volume pi p

/-- **C110, order.** For every pile that was accepted, the elevations of the tables never rise from row to row, the first is the top of
the pile and the last its bottom, and they are the same in both tables. -/
theorem C110_order (pi : K) {sections : List (Section K)} (hs : ∀ s ∈ sections, Spec.Pile.Built s) {mat : Material K} {p : Pile K}
    (h : mkPile sections mat = .ok p) :
    ((data pi p).map DataRow.elevation).Pairwise (fun a b => b ≤ a) ∧
      (data pi p).map DataRow.elevation = (printed pi p).map PrintRow.elevation ∧
      ((data pi p).map DataRow.elevation).head? = p.topElevation ∧
      ((data pi p).map DataRow.elevation).getLast? = p.bottomElevation ∧ (data pi p).length = 2 * sections.length := by
  have hd : (data pi p).map DataRow.elevation = p.sections.flatMap (fun x => [x.top, x.bottom]) := by
    unfold data twice
    rw [List.map_flatMap]
    rfl
  have hp : (printed pi p).map PrintRow.elevation = p.sections.flatMap (fun x => [x.top, x.bottom]) := by
    unfold printed twice
    rw [List.map_flatMap]
    rfl
  unfold mkPile at h
  split_ifs at h with h0
  simp only at h
  split_ifs at h with hc
  simp only [Except.ok.injEq] at h
  have hperm : p.sections.Perm sections := by
    rw [← h]
    exact Py.sortedBy_perm _ _
  have hb : ∀ s ∈ p.sections, s.bottom < s.top := by
    intro s hs'
    have := (built_iff _).1 (hs s (hperm.mem_iff.1 hs'))
    exact this.1
  have hcon : connected p.sections = true := by
    rw [← h]
    exact hc
  have hlen : (data pi p).length = 2 * sections.length := by
    rw [← hperm.length_eq]
    unfold data twice
    rw [List.length_flatMap]
    simp [mul_comm]
  have hchain : ∀ l : List (Section K), (∀ s ∈ l, s.bottom < s.top) → connected l = true →
      (l.flatMap (fun x => [x.top, x.bottom])).Pairwise (fun a b => b ≤ a) := by
    intro l
    induction l with
    | nil => intro _ _; exact List.Pairwise.nil
    | cons x l ih =>
      intro hb hc
      have hx := hb x (by simp)
      cases l with
      | nil => simp [hx.le]
      | cons y l =>
        simp only [connected, Bool.and_eq_true, decide_eq_true_eq] at hc
        have ih := ih (fun s hs => hb s (List.mem_cons_of_mem _ hs)) hc.2
        rw [List.flatMap_cons] at ih ⊢
        have hy : ∀ z ∈ (y :: l).flatMap (fun x => [x.top, x.bottom]), z ≤ x.bottom := by
          intro z hz
          rw [List.flatMap_cons] at hz
          rcases List.mem_cons.1 hz with rfl | hz
          · exact hc.1.le
          · exact ((List.pairwise_cons.1 ih).1 z hz).trans hc.1.le
        rw [List.flatMap_cons] at hy
        refine List.pairwise_cons.2 ⟨?_, List.pairwise_cons.2 ⟨?_, ih⟩⟩
        · intro z hz
          rcases List.mem_cons.1 hz with rfl | hz
          · exact hx.le
          · exact (hy z hz).trans hx.le
        · intro z hz
          exact hy z hz
  rw [hd, hp]
  refine ⟨hchain _ hb hcon, rfl, ?_, ?_, hlen⟩
  · unfold Pile.topElevation
    cases p.sections with
    | nil => rfl
    | cons x l => rfl
  · unfold Pile.bottomElevation
    rcases List.eq_nil_or_concat p.sections with h' | ⟨l, x, h'⟩
    · rw [h']
      rfl
    · rw [h']
      simp

omit [LinearOrder K] [IsStrictOrderedRing K] in
/-- **C110 does not hold for the material.** Neither table tells what the pile is made of: piles of the same sections but different
materials, for instance of steel and of concrete, are shown alike. -/
theorem C110_violated_material (pi : K) (sections : List (Section K)) (m m' : Material K) :
    printed pi ⟨sections, m⟩ = printed pi ⟨sections, m'⟩ ∧ data pi ⟨sections, m⟩ = data pi ⟨sections, m'⟩ := ⟨rfl, rfl⟩

/-- **C110 does not hold for `txt_pile`.** The text with the data of a pile is never made: the function reads an attribute no pile has. -/
theorem C110_violated_text (shown : String → String) : txtPile shown = .error "type" := by
  unfold txtPile txtReads
  rw [List.mapM_cons, if_pos (by decide), List.mapM_cons, if_neg (by decide)]
  rfl

/-! ### cases that meet the hypotheses -/

/-- A stepped pile listed from below: four rows. -/
example : ∃ p : Pile ℚ, mkPile [⟨-10, -40, 7, 8 / 100⟩, ⟨0, -10, 7, 7 / 100⟩] steel = .ok p ∧
    (∀ s ∈ [(⟨-10, -40, 7, 8 / 100⟩ : Section ℚ), ⟨0, -10, 7, 7 / 100⟩], Spec.Pile.Built s) ∧
    (printed (22 / 7) p).map (fun r => (r.elevation, r.thickness)) = [(0, 7 / 100), (-10, 7 / 100), (-10, 8 / 100), (-40, 8 / 100)] := by
  refine ⟨⟨[⟨0, -10, 7, 7 / 100⟩, ⟨-10, -40, 7, 8 / 100⟩], steel⟩, by decide +kernel, ?_, by decide +kernel⟩
  intro s hs
  simp only [List.mem_cons, List.not_mem_nil, or_false] at hs
  rcases hs with rfl | rfl <;> rw [built_iff] <;> norm_num

/-- Two piles of different walls are told apart, of different materials not. -/
example : printed (22 / 7 : ℚ) ⟨[⟨0, -10, 7, 7 / 100⟩], steel⟩ ≠ printed (22 / 7) ⟨[⟨0, -10, 7, 8 / 100⟩], steel⟩ ∧
    (steel : Material ℚ) ≠ concrete := by
  constructor
  · rw [Ne, C110_printed]
    decide +kernel
  · decide +kernel

end OpenPile.Props.PileTables

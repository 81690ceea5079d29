/-
C08, the arrays of element parameters.

`_model_build.py` 65-82 (`parameter2elements`) fills an array in a loop over the objects.
-/
import Verif.Props.Mesh

namespace OpenPile.Props.Mesh
open OpenPile.Mesh OpenPile.Spec.Mesh

variable {K : Type} [Field K] [LinearOrder K] [IsStrictOrderedRing K] [FloorRing K]

/-- The loop: an array of NaN; every object overwrites the places of the elements that it contains. -/
def fill {α β : Type} (top bottom : α → K) (key : α → β) (objects : List α) (elements : List (K × K)) : List (Option β) :=
  objects.foldl (fun a o => List.zipWith (fun (e : K × K) v => if e.1 ≤ top o ∧ e.2 ≥ bottom o then some (key o) else v) elements a)
    (elements.map fun _ => none)

omit [Field K] [IsStrictOrderedRing K] [FloorRing K] in
/-- **C08, the array.** The loop over the objects gives every element the value of the last object that contains it. -/
theorem C08_loop {α β : Type} (top bottom : α → K) (key : α → β) (objects : List α) (elements : List (K × K)) :
    fill top bottom key objects elements = parameter2elements top bottom key objects elements := by
  have gen : ∀ (l : List α) (acc : K × K → Option β),
      l.foldl (fun a o => List.zipWith (fun (e : K × K) v => if e.1 ≤ top o ∧ e.2 ≥ bottom o then some (key o) else v) elements a)
        (elements.map acc) =
      elements.map fun e => l.foldl (fun acc o => if e.1 ≤ top o ∧ e.2 ≥ bottom o then some (key o) else acc) (acc e) := by
    intro l
    induction l with
    | nil => intro acc; rfl
    | cons o l ih =>
      intro acc
      rw [List.foldl_cons, List.zipWith_map_right, List.zipWith_self, ih]
      rfl
  exact gen objects fun _ => none

/-- **C08, the array for a pile.** If all required elevations are multiples of 0.1 mm and the mesh does not leave the pile, the array
has one place for every element, and the value of the one section that contains the element in it. -/
theorem C08_parameters_partial (sections : List (Pile.Section K)) (mat : Pile.Material K) (p : Pile.Pile K)
    (hp : Pile.mkPile sections mat = .ok p) (hb : ∀ s ∈ sections, Spec.Pile.Built s) (soil : Option (Soil.Profile K)) (x2mesh : List K)
    (c tip top : K) (hc : 1 / 100 ≤ c) (htip : p.bottomElevation = some tip) (htop : p.topElevation = some top)
    (hgrid : ∀ r, Required p tip soil x2mesh r → OnGrid r) {β : Type} (key : Pile.Section K → β) :
    ∃ C, getCoordinates p soil x2mesh c = some C ∧ ((∀ e ∈ C.elements, e.1 ≤ top ∧ tip ≤ e.2) →
      ∃ vs : List β, parameter2elements (·.top) (·.bottom) key p.sections C.elements = vs.map some ∧
        List.Forall₂ (fun e v => ∃ s ∈ sections, s.bottom ≤ e.2 ∧ e.1 ≤ s.top ∧ key s = v) C.elements vs) := by
  obtain ⟨C, hC, h⟩ := C08_one_section_partial sections mat p hp hb soil x2mesh c tip top hc htip htop hgrid
  obtain ⟨-, hmem⟩ := mkPile_sections sections mat p hp
  refine ⟨C, hC, fun hin => ?_⟩
  unfold parameter2elements
  generalize C.elements = es at h hin
  induction es with
  | nil => exact ⟨[], rfl, .nil⟩
  | cons e es ih =>
    obtain ⟨vs, h1, h2⟩ := ih (fun e he => h e (List.mem_cons_of_mem _ he)) (fun e he => hin e (List.mem_cons_of_mem _ he))
    obtain ⟨s, hs, hk⟩ := h e List.mem_cons_self (hin e List.mem_cons_self).1 (hin e List.mem_cons_self).2
    have hs' : s ∈ p.sections.filter (fun s => decide (e.1 ≤ s.top ∧ e.2 ≥ s.bottom)) := by rw [hs]; exact List.mem_singleton_self s
    rw [List.mem_filter, decide_eq_true_iff] at hs'
    exact ⟨key s :: vs, by rw [List.map_cons, List.map_cons, h1, hk], .cons ⟨s, (hmem s).1 hs'.1, hs'.2.2, hs'.2.1, rfl⟩ h2⟩

/-- Two sections, three elements. -/
example : parameter2elements (K := ℚ) (·.1) (·.2.1) (·.2.2) [(0, -4, 5), (-4, -10, 6)] [(0, -2), (-2, -4), (-4, -10)]
    = [some 5, some 5, some (6 : ℤ)] := by decide +kernel

end OpenPile.Props.Mesh

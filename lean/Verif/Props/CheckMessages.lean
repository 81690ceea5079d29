/-
C69: which complaint the check of boundary conditions raises.
-/
import Verif.Props.Check

namespace OpenPile.Props.Check
open OpenPile.Check OpenPile.BC OpenPile.Spec.BC OpenPile.Analysis OpenPile.Props.Analysis OpenPile.Props.Reported

variable {K : Type} [Field K] [LinearOrder K] [IsStrictOrderedRing K] [FloorRing K]

/-- Supports and loads contradict nothing. -/
def Consistent (bcs : List (Cond K)) : Prop := validateBc bcs .fixation = .ok () ∧ validateBc bcs .force = .ok ()

/-- Some node is fixed, or loaded, on the axis. -/
def SomeFixed (nodes : List K) (bcs : List (Cond K)) (a : Axis) : Prop := ∃ i < nodes.length, Fixed nodes bcs a i
def SomeLoaded (nodes : List K) (bcs : List (Cond K)) (a : Axis) : Prop := ∃ i < nodes.length, Loaded nodes bcs a i

/-- Two lateral supports, two rotational ones, or one of each. -/
def Propped (nodes : List K) (bcs : List (Cond K)) : Prop :=
  (∃ i < nodes.length, ∃ k < nodes.length, k ≠ i ∧ Fixed nodes bcs .y i ∧ Fixed nodes bcs .y k) ∨
  (∃ i < nodes.length, ∃ k < nodes.length, k ≠ i ∧ Fixed nodes bcs .x i ∧ Fixed nodes bcs .x k) ∨
  (SomeFixed nodes bcs .y ∧ SomeFixed nodes bcs .x)

/-- What each complaint is about.  The complaints come in this order: contradictions among the supports, then among
the loads; no support (models without soil); no load; an axial load without an axial support; a transverse load or a
moment without two supports against bending; soil. -/
def Reason (soil : Bool) (nodes : List K) (bcs : List (Cond K)) : Complaint → Prop
  | .conflict f => validateBc bcs .fixation = .error f ∨
      (validateBc bcs .fixation = .ok () ∧ validateBc bcs .force = .error f)
  | .noSupport => Consistent bcs ∧ soil = false ∧ ∀ a, ¬ SomeFixed nodes bcs a
  | .noLoad => Consistent bcs ∧ (soil = true ∨ ∃ a, SomeFixed nodes bcs a) ∧ ∀ a, ¬ SomeLoaded nodes bcs a
  | .noNormalSupport => Consistent bcs ∧ soil = false ∧ (∃ a, SomeFixed nodes bcs a) ∧ SomeLoaded nodes bcs .z ∧
      ¬ SomeFixed nodes bcs .z
  | .noBendingSupport => Consistent bcs ∧ soil = false ∧ (∃ a, SomeFixed nodes bcs a) ∧
      (SomeLoaded nodes bcs .x ∨ SomeLoaded nodes bcs .y) ∧
      (SomeLoaded nodes bcs .z → SomeFixed nodes bcs .z) ∧ ¬ Propped nodes bcs
  | .soilInMesh => Consistent bcs ∧ soil = true ∧ ∃ a, SomeLoaded nodes bcs a

theorem ex_axis (P : Axis → Prop) : (∃ a, P a) ↔ P .x ∨ P .y ∨ P .z := by
  constructor
  · rintro ⟨a, h⟩
    cases a
    exacts [Or.inl h, Or.inr (Or.inl h), Or.inr (Or.inr h)]
  · rintro (h | h | h)
    exacts [⟨_, h⟩, ⟨_, h⟩, ⟨_, h⟩]

theorem all_axis (P : Axis → Prop) : (∀ a, P a) ↔ P .x ∧ P .y ∧ P .z :=
  ⟨fun h => ⟨h _, h _, h _⟩, fun h a => by cases a; exacts [h.1, h.2.1, h.2.2]⟩

/-- The order of the questions, for the numbers of fixed and loaded nodes. -/
theorem chain (soil : Bool) (x y z fx fy fz : ℕ) (c : Complaint) :
    (if x + y + z = 0 ∧ soil = false then (.error .noSupport : Except Complaint Unit)
      else if fx + fy + fz = 0 then .error .noLoad
      else if soil = false then
        if ¬ (0 < fz ∧ 0 < z) ∧ 0 < fz ∧ z = 0 then .error .noNormalSupport
        else if 2 ≤ y + x ∧ 0 < fy then .ok ()
        else if 2 ≤ y + x ∧ 0 < fx then .ok ()
        else if fx + fy = 0 then .ok ()
        else .error .noBendingSupport
      else .error .soilInMesh) = .error c ↔
    match c with
    | .conflict _ => False
    | .noSupport => soil = false ∧ ¬ 0 < x ∧ ¬ 0 < y ∧ ¬ 0 < z
    | .noLoad => (soil = true ∨ 0 < x ∨ 0 < y ∨ 0 < z) ∧ ¬ 0 < fx ∧ ¬ 0 < fy ∧ ¬ 0 < fz
    | .noNormalSupport => soil = false ∧ (0 < x ∨ 0 < y ∨ 0 < z) ∧ 0 < fz ∧ ¬ 0 < z
    | .noBendingSupport => soil = false ∧ (0 < x ∨ 0 < y ∨ 0 < z) ∧ (0 < fx ∨ 0 < fy) ∧ (0 < fz → 0 < z) ∧
        ¬ 2 ≤ y + x
    | .soilInMesh => soil = true ∧ (0 < fx ∨ 0 < fy ∨ 0 < fz) := by
  cases soil <;> cases c <;> simp only [Bool.true_eq_false, Bool.false_eq_true, false_and, true_and, and_false,
      and_true, if_true, if_false, false_or, true_or] <;>
    split_ifs <;> first
      | exact iff_of_true rfl (by omega)
      | exact iff_of_false (by simp) (by omega)
      | simp

/-- **C69, the complaints.** The check raises a complaint exactly for its reason. -/
theorem C69_complaints (soil : Bool) (nodes : List K) (bcs : List (Cond K)) (c : Complaint) :
    checkModel soil nodes bcs = .error c ↔ Reason soil nodes bcs c := by
  unfold checkModel globalRestrained globalForces
  cases h1 : validateBc bcs .fixation with
  | error f => cases c <;> simp [bind, Except.bind, Reason, Consistent, h1]
  | ok u =>
  cases h2 : validateBc bcs .force with
  | error f => cases c <;> simp [bind, Except.bind, pure, Except.pure, Reason, Consistent, h1, h2]
  | ok u' =>
  simp only [bind, Except.bind, pure, Except.pure]
  have hc : Consistent bcs := ⟨h1, h2⟩
  unfold check
  rw [show ∀ g : Nodal Bool, g.x = g.get .x from fun _ => rfl, show ∀ g : Nodal Bool, g.y = g.get .y from fun _ => rfl,
    show ∀ g : Nodal Bool, g.z = g.get .z from fun _ => rfl, show ∀ g : Nodal ℤ, g.x = g.get .x from fun _ => rfl,
    show ∀ g : Nodal ℤ, g.y = g.get .y from fun _ => rfl, show ∀ g : Nodal ℤ, g.z = g.get .z from fun _ => rfl]
  simp only [count_left]
  have p1 : ∀ a, SomeFixed nodes bcs a ↔ 0 < nodesWith nodes.length (fun i => left storeBool false nodes bcs .fixation a i) :=
    fun a => (pos_iff _ _).symm
  have p2 : Propped nodes bcs ↔ 2 ≤ nodesWith nodes.length (fun i => left storeBool false nodes bcs .fixation .y i) +
      nodesWith nodes.length (fun i => left storeBool false nodes bcs .fixation .x i) := by
    have sp : ∀ m k : ℕ, 2 ≤ m + k ↔ 2 ≤ m ∨ 2 ≤ k ∨ (0 < m ∧ 0 < k) := by intro m k; omega
    rw [sp, ← p1, ← p1, two_iff, two_iff]
    rfl
  have p3 : ∀ a, SomeLoaded nodes bcs a ↔
      0 < nodesWith nodes.length (fun i => decide (left storeInt 0 nodes bcs .force a i ≠ 0)) := fun a => by
    rw [pos_iff]
    simp only [decide_eq_true_eq]
    rfl
  rw [chain]
  cases c <;> simp only [Reason, h1, h2, hc, ex_axis, all_axis, p1, p2, p3, true_and, reduceCtorEq, false_or]

/-- Contradicting supports: told to the user with the axis concerned. -/
example : checkModel (K := ℚ) false [0, -10] [⟨.fixation, 0, some (.flag true), none, none⟩,
    ⟨.fixation, 0, some (.flag false), none, none⟩] = .error (.conflict [.x]) := by decide +kernel

end OpenPile.Props.Check

/-
Properties C19 and C20: what the accepted materials with a strongly negative Poisson's ratio do to Timoshenko elements.
-/
import Verif.Props.Beam

namespace OpenPile.Props.Auxetic
open OpenPile.Kernel OpenPile.Spec.Kernel Matrix OpenPile.Props.Element OpenPile.Props.Solve OpenPile.Props.Beam

variable {K : Type} [Field K] [LinearOrder K] [IsStrictOrderedRing K]

/-- **C19 is violated by the energy of auxetic Timoshenko piles.** Material and section are accepted, there are no springs, and the
global matrix of a pile of one such element has a displacement of negative energy. -/
theorem C19_violated_auxetic (pi : K) (hpi : 0 < pi) :
    ∃ (m : Pile.Material K) (s : Pile.Section K) (u : Fin (3 * 1 + 3) → K),
      Pile.mkMaterial 78 210000000 (-9 / 10) = some m ∧ Pile.mkSection 0 (-10) 5 none = .ok s ∧
      energy (beamStiffness .timoshenko 1 (fun _ => elemOf pi m s (1 / 2))) u < 0 := by
  obtain ⟨m, s, u, h1, h2, h3⟩ := C16_violated_auxetic pi hpi
  refine ⟨m, s, u, h1, h2, ?_⟩
  rw [(C19_energy .timoshenko (fun _ : Fin 1 => elemOf pi m s (1 / 2)) (fun _ => ⟨(0, 0), (0, 0), (0, 0)⟩) 0 0 0 u).2, Fin.sum_univ_one]
  have : stacked (n := 1) u 0 = u := by
    funext a
    unfold stacked
    congr 1
    ext
    simp
  rw [this]
  exact h3

/-- The shear parameter of an accepted tube of 12.32 m diameter and 2.31 m wall, Poisson's ratio -32/33, on an element of 0.89 m. -/
theorem phi_example (pi : K) (hpi : 0 < pi) :
    phi .timoshenko (elemOf pi ⟨78, 210000000, -32 / 33⟩ ⟨0, -10, 308 / 25, 231 / 100⟩ (89 / 100)) = -4 := by
  simp only [phi, kappa, elemOf, shearMod, Pile.Section.area, Pile.Section.inertia]
  have := hpi.ne'
  norm_num
  field_simp
  norm_num

/-- **C20 is violated by auxetic Timoshenko piles.** The accepted tube of `phi_example` as first element of any pile: if head and
second node are held laterally, the second node also in rotation and along the axis, no rigid motion is left, but the head can be
rotated without any moment and `solve_equations` fails for all loads. -/
theorem C20_violated_auxetic (pi : K) (hpi : 0 < pi) :
    ∃ (m : Pile.Material K) (s : Pile.Section K),
      Pile.mkMaterial 78 210000000 (-32 / 33) = some m ∧ Pile.mkSection 0 (-10) (308 / 25) (some (231 / 100)) = .ok s ∧
      ∀ (n : ℕ) (el : Fin (n + 1) → Elem K) (restr : Fin (3 * (n + 1) + 3) → Bool), el 0 = elemOf pi m s (89 / 100) →
        restr (dof 0 1) = true → (∀ d, restr (dof 1 d) = true) → restr (dof 0 2) = false →
        (∀ w : Fin (3 * (n + 1) + 3) → K, Rigid (fun i => (el i).L) w → (∀ r, restr r = true → w r = 0) → w = 0) ∧
        ∀ F U, solveEquations (beamStiffness .timoshenko (n + 1) el) F U restr = none := by
  refine ⟨⟨78, 210000000, -32 / 33⟩, ⟨0, -10, 308 / 25, 231 / 100⟩, ?_, ?_, ?_⟩
  · unfold Pile.mkMaterial
    rw [if_pos]
    norm_num
  · unfold Pile.mkSection
    norm_num
  intro n el restr h0 r1 r2 r3
  constructor
  · rintro w ⟨a, b, θ, hw⟩ hz
    obtain ⟨e1, -, e3⟩ := hw 1
    obtain ⟨-, e2, -⟩ := hw 0
    rw [hz _ (r2 0)] at e1
    rw [hz _ (r2 2)] at e3
    rw [hz _ r1, ← e3] at e2
    funext r
    obtain ⟨j, d, rfl⟩ := dof_surjective r
    obtain ⟨f1, f2, f3⟩ := hw j
    fin_cases d
    · exact f1.trans e1.symm
    · refine f2.trans ?_
      rw [← e3, mul_zero]
      rw [mul_zero] at e2
      exact e2.symm
    · exact f3.trans e3.symm
  · intro F U
    rw [C15_fails_iff]
    refine ⟨Pi.single (dof 0 2) 1, ?_, ?_, ?_⟩
    · intro h
      have := congrFun h (dof 0 2)
      simp at this
    · intro i hi
      rw [Pi.single_eq_of_ne]
      rintro rfl
      rw [r3] at hi
      cases hi
    · intro i hi
      have e : (beamStiffness .timoshenko (n + 1) el *ᵥ Pi.single (dof 0 2) 1) i
          = work (beamStiffness .timoshenko (n + 1) el) (Pi.single i 1) (Pi.single (dof 0 2) 1) := by
        unfold work
        rw [single_one_dotProduct]
      rw [e]
      unfold beamStiffness
      rw [assemble_work, Finset.sum_eq_single 0]
      · have hw : ∀ a, stacked (n := n + 1) (Pi.single (dof 0 2) (1 : K)) 0 a = if a = 2 then 1 else 0 := by
          intro a
          unfold stacked
          rw [Pi.single_apply]
          congr 1
          simp only [dof, Fin.ext_iff]
          simp
        have hY : mechMatrix .timoshenko (el 0) 2 2 = 0 := by
          rw [h0]
          unfold mechMatrix
          rw [phi_example pi hpi]
          simp [beamMatrix]
        have hX : mechMatrix .timoshenko (el 0) 0 2 = 0 := by
          simp [mechMatrix, beamMatrix]
        have hv : ∀ a : Fin 6, a ≠ 0 → a ≠ 2 → stacked (n := n + 1) (Pi.single i (1 : K)) 0 a = 0 := by
          intro a a0 a2
          unfold stacked
          rw [Pi.single_eq_of_ne]
          rintro rfl
          have : restr ⟨3 * (0 : Fin (n + 1)).1 + a.1, by omega⟩ = true := by
            fin_cases a
            · exact absurd rfl a0
            · exact r1
            · exact absurd rfl a2
            · exact r2 0
            · exact r2 1
            · exact r2 2
          rw [this] at hi
          cases hi
        unfold work
        have hcol : mechMatrix .timoshenko (el 0) *ᵥ stacked (n := n + 1) (Pi.single (dof 0 2) (1 : K)) 0
            = fun r => mechMatrix .timoshenko (el 0) r 2 := by
          funext r
          unfold mulVec dotProduct
          rw [Finset.sum_eq_single 2]
          · rw [hw, if_pos rfl, mul_one]
          · intro b _ hb
            rw [hw, if_neg hb, mul_zero]
          · intro h
            exact absurd (Finset.mem_univ _) h
        rw [hcol]
        unfold dotProduct
        apply Finset.sum_eq_zero
        intro a _
        by_cases a0 : a = 0
        · beta_reduce
          rw [a0, hX, mul_zero]
        by_cases a2 : a = 2
        · beta_reduce
          rw [a2, hY, mul_zero]
        rw [hv a a0 a2, zero_mul]
      · intro b _ hb
        have : stacked (n := n + 1) (Pi.single (dof 0 2) (1 : K)) b = 0 := by
          funext a
          unfold stacked
          rw [Pi.single_eq_of_ne]
          · rfl
          · intro h
            have h' := congrArg Fin.val h
            have : b.1 ≠ 0 := fun hh => hb (Fin.ext hh)
            simp [dof] at h'
            omega
        unfold work
        rw [this, mulVec_zero, dotProduct_zero]
      · intro h
        exact absurd (Finset.mem_univ _) h

end OpenPile.Props.Auxetic

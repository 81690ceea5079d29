/-
Property C84, where it fails: rotational springs along Timoshenko elements let a pile give way more.
-/
import Verif.Props.SoilSupport

namespace OpenPile.Props.SoilSupport
open OpenPile.Kernel OpenPile.Spec.Kernel OpenPile.Props.Beam OpenPile.Props.Element OpenPile.Winkler
open OpenPile.Props.Compliance (energy_sub)
open OpenPile.Props.Solve (C15_solution C15_fails_iff)
open Matrix

variable {K : Type} [Field K] [LinearOrder K] [IsStrictOrderedRing K]

/-- A stiffness that stores less energy in the displacements of an analysis lets the same loads do more work. -/
theorem softer_work {ι : Type} [Fintype ι] [DecidableEq ι] (A S : Matrix ι ι K) (hS : Sᵀ = S) (F : ι → K) (R : ι → Bool)
    (hpos : ∀ v, (∀ i, R i = true → v i = 0) → 0 ≤ energy S v) (u Q d Q' : ι → K)
    (h : solveEquations A F 0 R = some (u, Q)) (h' : solveEquations S F 0 R = some (d, Q'))
    (hlt : energy S u < energy A u) : ∑ i, F i * u i < ∑ i, F i * d i := by
  obtain ⟨a1, a2, -, -⟩ := C15_solution A F 0 R u Q h
  obtain ⟨b1, b2, -, -⟩ := C15_solution S F 0 R d Q' h'
  have e1 : ∀ (B : Matrix ι ι K) (w v : ι → K), (∀ i, R i = false → (B *ᵥ w) i = F i) →
      (∀ i, R i = true → v i = 0) → work B v w = ∑ i, F i * v i := by
    intro B w v hw hv
    unfold work dotProduct
    refine Finset.sum_congr rfl (fun i _ => ?_)
    by_cases hi : R i = true
    · rw [hv i hi, zero_mul, mul_zero]
    · rw [hw i (by simpa using hi), mul_comm]
  have s1 := e1 A u u (fun i hi => (a1 i hi).1) (fun i hi => a2 i hi)
  have s2 := e1 S d u (fun i hi => (b1 i hi).1) (fun i hi => a2 i hi)
  have s3 := e1 S d d (fun i hi => (b1 i hi).1) (fun i hi => b2 i hi)
  have h1 := hpos (u - d) (fun i hi => by
    rw [Pi.sub_apply, a2 i hi, b2 i hi, sub_self])
  rw [energy_sub S hS, s2] at h1
  unfold energy at h1 hlt
  rw [s3] at h1
  rw [s1] at hlt
  linarith

/-- A solid steel pile of 3 m diameter. -/
def solid : Pile.Section K := ⟨0, -10, 3, 3 / 2⟩

/-- One element of 10 m. -/
def elP (pi : K) : Fin 1 → Elem K := fun _ => elemOf pi Pile.steel solid 10

/-- Tip fixed. -/
def tipFixed : Fin (3 * 1 + 3) → Bool := ![false, false, false, true, true, true]

theorem solid_good (pi : K) (hpi : 0 < pi) : GoodElems .timoshenko (elP pi) := by
  intro i
  have hs : Pile.mkSection (0 : K) (-10) 3 none = .ok solid := by
    unfold Pile.mkSection solid; norm_num
  have hm : Pile.mkMaterial (78 : K) 210000000 (3 / 10) = some Pile.steel := by
    unfold Pile.mkMaterial Pile.steel; norm_num
  refine ⟨goodElem_of_built pi hpi 78 210000000 (3 / 10) Pile.steel hm 0 (-10) 3 none
    solid hs (by norm_num [solid]) 10 (by norm_num), fun _ => ?_⟩
  show -(3 / 4) ≤ (3 / 10 : K)
  norm_num

theorem solid_coeffs (pi : K) (hpi : 0 < pi) : ∃ D, mtCoeffs .timoshenko (elP pi 0)
    = (1944291717849 / 16229664378490, 120121600000 / 1622966437849 + 304057800000 / 648097239283 * pi,
      11718480189245 / 9737798627094 + 141118589821923 / 41478223314112 * pi, D) := by
  refine ⟨_, Prod.ext ?_ (Prod.ext ?_ (Prod.ext ?_ rfl))⟩
  all_goals
    simp only [mtCoeffs, kappa, elP, elemOf, shearMod, Pile.Section.area, Pile.Section.inertia, Pile.steel, solid]
    norm_num
    field_simp
    norm_num
    try ring_nf

theorem stacked_one (v : Fin (3 * 1 + 3) → K) (i : Fin 1) : stacked v i = v := by
  funext c
  obtain rfl : i = 0 := Subsingleton.elim _ _
  fin_cases c <;> rfl

/-- Energy of the element with its rotational springs, tip fixed. -/
theorem push_energy (pi : K) (hpi : 0 < pi) (kt kb : K) (v : Fin (3 * 1 + 3) → K) (hv : ∀ i, tipFixed i = true → v i = 0) :
    ∃ A B C, A = 1944291717849 / 16229664378490 ∧ B = 120121600000 / 1622966437849 + 304057800000 / 648097239283 * pi ∧
      C = 11718480189245 / 9737798627094 + 141118589821923 / 41478223314112 * pi ∧
      energy (soilStiffness .timoshenko 1 (elP pi) (fun _ => ⟨(0, 0), (0, 0), (kt, kb)⟩) 0 0 0) v
        = energy (beamStiffness .timoshenko 1 (elP pi)) v
          + (kt + kb) / 2 * (A * v 1 ^ 2 + 2 * B * v 1 * v 2 + C * v 2 ^ 2) := by
  obtain ⟨D, hD⟩ := solid_coeffs pi hpi
  refine ⟨_, _, _, rfl, rfl, rfl, ?_⟩
  have z4 : v 4 = 0 := hv 4 rfl
  have z5 : v 5 = 0 := hv 5 rfl
  rw [(C19_energy _ _ _ _ _ _ v).1, (C19_energy .timoshenko (elP pi) (fun _ => ⟨(0, 0), (0, 0), (kt, kb)⟩) 0 0 0 v).2]
  simp only [Finset.univ_unique, Finset.sum_singleton, stacked_one, mtMatrix_energy, mt_energy, Fin.default_eq_zero, hD, z4, z5]
  have p0 : energy (pyMatrix (elP pi 0).L 0 0) v = 0 := by
    simp [pyMatrix, energy, work]
  have t0 : energy (tzMatrix (elP pi 0).L 0 0) v = 0 := by
    simp [tzMatrix, energy, work]
  rw [p0, t0]
  ring

/-- With springs that are soft against the pile the element in soil still resists every displacement. -/
theorem push_pos (pi : K) (h3 : 3 ≤ pi) (h4 : pi ≤ 4) (kt kb : K) (h0 : 0 ≤ kt + kb) (h1 : kt + kb ≤ 200000)
    (v : Fin (3 * 1 + 3) → K) (hv : ∀ i, tipFixed i = true → v i = 0) (hne : v ≠ 0) :
    0 < energy (soilStiffness .timoshenko 1 (elP pi) (fun _ => ⟨(0, 0), (0, 0), (kt, kb)⟩) 0 0 0) v := by
  have hpi : 0 < pi := by linarith
  have good := solid_good pi hpi
  obtain ⟨A, B, C, eA, eB, eC, e⟩ := push_energy pi hpi kt kb v hv
  have z3 : v 3 = 0 := hv 3 rfl
  have z4 : v 4 = 0 := hv 4 rfl
  have z5 : v 5 = 0 := hv 5 rfl
  have hphi : phi .timoshenko (elP pi 0) = 59319 / 4384000 * 12 := by
    simp only [phi, kappa, elP, elemOf, shearMod, Pile.Section.area, Pile.Section.inertia, Pile.steel, solid]
    norm_num
    field_simp
    norm_num
  have hL : (elP pi 0).L = 10 := rfl
  have hE : (elP pi 0).E = 210000000 := by norm_num [elP, elemOf, Pile.steel]
  have hI : (elP pi 0).I = 81 / 64 * pi := by
    simp only [elP, elemOf, Pile.Section.inertia, solid]
    ring
  have hA : (elP pi 0).A = 9 / 4 * pi := by
    simp only [elP, elemOf, Pile.Section.area, solid]
    ring
  rw [e, (C19_energy .timoshenko (elP pi) (fun _ => ⟨(0, 0), (0, 0), (kt, kb)⟩) 0 0 0 v).2]
  simp only [Finset.univ_unique, Finset.sum_singleton, stacked_one, Fin.default_eq_zero]
  rw [C16_energy .timoshenko _ (by rw [hL]; norm_num) (by rw [hphi]; norm_num), hL, hE, hI, hA, hphi, z3, z4, z5]
  set k := (kt + kb) / 2 with hk
  have k0 : 0 ≤ k := by linarith
  have k1 : k ≤ 100000 := by linarith
  have B0 : 0 ≤ B := by rw [eB]; positivity
  have B2 : B ≤ 2 := by rw [eB]; linarith
  have A0 : 0 < A := by rw [eA]; norm_num
  have C0 : 0 < C := by rw [eC]; positivity
  have kB : k * B ≤ 200000 := by nlinarith
  have kB0 : 0 ≤ k * B := mul_nonneg k0 B0
  obtain ⟨w, hw⟩ : ∃ w, w = v 2 + v 1 / 5 := ⟨_, rfl⟩
  have hy : v 1 = 5 * (w - v 2) := by rw [hw]; ring
  have e1 : v 2 + 0 - 2 * ((0 - v 1) / 10) = w := by rw [hw]; ring
  rw [e1]
  have q1 : 0 ≤ k * (A * v 1 ^ 2 + C * v 2 ^ 2) := by positivity
  have q2 : -(k * B * (5 * w ^ 2 + 15 * v 2 ^ 2)) ≤ k * (2 * B * v 1 * v 2) := by
    rw [hy]
    have : 0 ≤ k * B * (5 * (w + v 2) ^ 2) := mul_nonneg kB0 (by positivity)
    linarith
  have q3 : k * B * (5 * w ^ 2 + 15 * v 2 ^ 2) ≤ 200000 * (5 * w ^ 2 + 15 * v 2 ^ 2) :=
    mul_le_mul_of_nonneg_right kB (by positivity)
  have hns : v 0 ≠ 0 ∨ v 2 ≠ 0 ∨ w ≠ 0 := by
    by_contra hcon
    push Not at hcon
    obtain ⟨c0, c2, cw⟩ := hcon
    apply hne
    funext i
    fin_cases i
    · exact c0
    · show v 1 = 0
      rw [hy, cw, c2]
      ring
    · exact c2
    · exact z3
    · exact z4
    · exact z5
  have r0 : 1 * v 0 ^ 2 ≤ 210000000 * (9 / 4 * pi) / 10 * (v 0 - 0) ^ 2 := by
    rw [sub_zero]
    exact mul_le_mul_of_nonneg_right (by linarith) (sq_nonneg _)
  have r1 : 30000000 * v 2 ^ 2 ≤ 210000000 * (81 / 64 * pi) / 10 * (v 2 - 0) ^ 2 := by
    rw [sub_zero]
    exact mul_le_mul_of_nonneg_right (by linarith) (sq_nonneg _)
  have r2 : 30000000 * w ^ 2 ≤ 210000000 * (81 / 64 * pi) / 10 * (3 / (1 + 59319 / 4384000 * 12)) * w ^ 2 := by
    refine mul_le_mul_of_nonneg_right ?_ (sq_nonneg _)
    norm_num
    linarith
  have p0 : 0 < v 0 ^ 2 + v 2 ^ 2 + w ^ 2 := by
    rcases hns with h | h | h <;> positivity
  have s2 := sq_nonneg (v 2)
  have sw := sq_nonneg w
  linarith

/-- **C84, violated with rotational springs along Timoshenko elements.** For a solid steel pile of 3 m diameter, fixed at its
tip 10 m below the head, and rotational springs of any positive stiffness up to 100 MNm/m along its one element, there are
loads that do more work in soil than without. -/
theorem C84_violated_timoshenko (pi : K) (h3 : 3 ≤ pi) (h4 : pi ≤ 4) (kt kb : K) (h0 : 0 < kt + kb) (h1 : kt + kb ≤ 200000) :
    ∃ F u Q d Q' : Fin (3 * 1 + 3) → K,
      solveEquations (beamStiffness .timoshenko 1 (elP pi)) F 0 tipFixed = some (u, Q) ∧
      solveEquations (soilStiffness .timoshenko 1 (elP pi) (fun _ => ⟨(0, 0), (0, 0), (kt, kb)⟩) 0 0 0) F 0 tipFixed
        = some (d, Q') ∧ 0 < ∑ i, F i * u i ∧ ∑ i, F i * u i < ∑ i, F i * d i := by
  have hpi : 0 < pi := by linarith
  have good := solid_good pi hpi
  obtain ⟨B, eB⟩ : ∃ B, B = 120121600000 / 1622966437849 + 304057800000 / 648097239283 * pi := ⟨_, rfl⟩
  have B0 : 0 < B := by rw [eB]; positivity
  set v : Fin (3 * 1 + 3) → K := ![0, -B, 1944291717849 / 16229664378490, 0, 0, 0] with hv
  have v0 : ∀ i, tipFixed i = true → v i = 0 := by
    intro i hi
    fin_cases i
    · cases hi
    · cases hi
    · cases hi
    all_goals rfl
  have vne : v ≠ 0 := by
    intro h
    have : v 1 = 0 := by rw [h]; rfl
    have : -B = 0 := this
    linarith
  set Kb := beamStiffness .timoshenko 1 (elP pi) with hKb
  set S := soilStiffness .timoshenko 1 (elP pi) (fun _ => ⟨(0, 0), (0, 0), (kt, kb)⟩) 0 0 0 with hS
  have hn : solveEquations Kb (Kb *ᵥ v) 0 tipFixed ≠ none :=
    (C20_beam_supports .timoshenko (elP pi) good (Kb *ᵥ v) 0 tipFixed).2 ⟨⟨1, rfl⟩, 1, rfl, .inl ⟨1, rfl⟩⟩
  have hu := Solve.solve_eq_some Kb (Kb *ᵥ v) 0 tipFixed hn v (fun _ _ => rfl) v0
  have hn' : solveEquations S (Kb *ᵥ v) 0 tipFixed ≠ none := by
    rw [Ne, C15_fails_iff]
    rintro ⟨w, hw, hfix, hfree⟩
    have := push_pos pi h3 h4 kt kb h0.le h1 w hfix hw
    refine this.ne' ?_
    unfold energy work dotProduct
    apply Finset.sum_eq_zero
    intro r _
    by_cases hr : tipFixed r = true
    · rw [hfix r hr, zero_mul]
    · rw [hfree r (by simpa using hr), mul_zero]
  obtain ⟨⟨d, Q'⟩, hd⟩ := Option.ne_none_iff_exists'.1 hn'
  have hsym := (C19_symmetric .timoshenko (elP pi) (fun _ => ⟨(0, 0), (0, 0), (kt, kb)⟩) 0 0 0).1
  have hlt : energy S v < energy Kb v := by
    obtain ⟨A', B', C', eA', eB', eC', e⟩ := push_energy pi hpi kt kb v v0
    have hB : B' = B := eB'.trans eB.symm
    rw [← hS, ← hKb] at e
    rw [e]
    have h1 : v 1 = -B := rfl
    have h2 : v 2 = A' := eA'.symm
    rw [h1, h2, hB]
    have hA : 0 < A' := by rw [eA']; norm_num
    have key : A' * C' < B ^ 2 := by
      rw [eA', eC', eB]
      nlinarith
    have : A' * (-B) ^ 2 + 2 * B * -B * A' + C' * A' ^ 2 = A' * (A' * C' - B ^ 2) := by ring
    rw [this]
    have : 0 < (kt + kb) / 2 * (A' * (B ^ 2 - A' * C')) := mul_pos (by linarith) (mul_pos hA (by linarith))
    linarith
  have hSv := push_pos pi h3 h4 kt kb h0.le h1 v v0 vne
  refine ⟨Kb *ᵥ v, v, _, d, Q', hu, hd, ?_, softer_work Kb S hsym _ tipFixed ?_ v _ d Q' hu hd hlt⟩
  · have : ∑ i, (Kb *ᵥ v) i * v i = energy Kb v := by
      unfold energy work dotProduct
      exact Finset.sum_congr rfl (fun i _ => mul_comm _ _)
    rw [this]
    exact hSv.trans hlt
  · intro w hw
    by_cases hw0 : w = 0
    · rw [hw0]
      simp [energy, work]
    · exact (push_pos pi h3 h4 kt kb h0.le h1 w hw hw0).le

end OpenPile.Props.SoilSupport

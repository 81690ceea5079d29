/-
Property C72: a model with soil has a result exactly if springs and supports together hold the pile.
-/
import Verif.Props.SoilStiffness
import Verif.Props.LinearRange

namespace OpenPile.Props.Held
open OpenPile.Kernel OpenPile.Winkler OpenPile.Spring OpenPile.Spec.Kernel OpenPile.Props.SoilStiffness
open OpenPile.Props.Winkler OpenPile.Props.Beam OpenPile.Props.Element OpenPile.Props.Solve Matrix

variable {K : Type} [Field K] [LinearOrder K] [IsStrictOrderedRing K] {n : ℕ}

/-- Where a symmetric matrix of non-negative energy stores no energy it exerts no force. -/
theorem mulVec_zero_of_energy {ι : Type} [Fintype ι] [DecidableEq ι] (A : Matrix ι ι K) (hs : Aᵀ = A)
    (hn : ∀ v, 0 ≤ energy A v) (w : ι → K) (hw : energy A w = 0) : A *ᵥ w = 0 := by
  have key : ∀ v, work A v w = 0 := by
    intro v
    have h := fun t : K => hn (w + t • v)
    have e : ∀ t : K, energy A (w + t • v) = t * (2 * work A v w) + t ^ 2 * energy A v := by
      intro t
      have hc : work A w v = work A v w := work_comm A hs w v
      have : energy A (w + t • v) = energy A w + t * work A w v + t * work A v w + t ^ 2 * energy A v := by
        simp only [energy, work, mulVec_add, mulVec_smul, add_dotProduct, dotProduct_add, smul_dotProduct,
          dotProduct_smul, smul_eq_mul]
        ring
      rw [this, hw, hc]; ring
    set b := work A v w with hb
    set c := energy A v with hcdef
    have hc := hn v
    by_contra hne
    have h1 := h (-b / (c + 1))
    rw [e] at h1
    have hc1 : 0 < c + 1 := by linarith
    have e2 : -b / (c + 1) * (2 * b) + (-b / (c + 1)) ^ 2 * c = -(b ^ 2 * (c + 2)) / (c + 1) ^ 2 := by
      field_simp; ring
    rw [e2] at h1
    have hb2 : 0 < b ^ 2 := by positivity
    have : -(b ^ 2 * (c + 2)) / (c + 1) ^ 2 < 0 := by
      apply div_neg_of_neg_of_pos
      · have : 0 < b ^ 2 * (c + 2) := by apply mul_pos hb2; linarith
        linarith
      · positivity
    linarith
  funext r
  have := key (Pi.single r 1)
  unfold work at this
  rw [single_dotProduct, one_mul] at this
  exact this

/-- **C72, stiffness.** With springs of non-negative stiffness the equations of the pile have no unique solution
exactly if a rigid-body motion is left that no support and no spring resists.  (For Timoshenko elements the
rotational springs along the pile must be absent in one direction: their matrix is not that of the theory, see
C18.) -/
theorem soil_fails_iff (ty : ElementType) (el : Fin n → Elem K) (s : Fin n → SoilK K) (h m q : K)
    (hel : GoodElems ty el) (hs : GoodSprings ty el s h m q)
    (hmt : ty = .timoshenko → ∀ i, (s i).mt.1 = 0 ∧ (s i).mt.2 = 0)
    (F U : Fin (3 * n + 3) → K) (restr : Fin (3 * n + 3) → Bool) :
    solveEquations (soilStiffness ty n el s h m q) F U restr = none ↔ ¬ Beam.Held ty el s h m q restr := by
  constructor
  · intro hf hheld
    obtain ⟨u, Q, hsol, -⟩ := (C20_unique_partial ty el s h m q hel hs restr hheld).2 F U
    rw [hf] at hsol; cases hsol
  · intro hh
    unfold Beam.Held at hh
    push Not at hh
    obtain ⟨w, hr, hfix, hpy, htz, hm1, hb1, hb2, hb0, hw⟩ := hh
    rw [C15_fails_iff]
    refine ⟨w, hw, hfix, fun r _ => ?_⟩
    have he : energy (soilStiffness ty n el s h m q) w = 0 := by
      rw [(C19_energy ty el s h m q w).1]
      obtain ⟨hs, h1, h2, h3⟩ := hs
      have z : ∀ (a x : K), 0 ≤ a → (0 < a → x = 0) → a * x ^ 2 = 0 := by
        intro a x ha hx
        rcases ha.lt_or_eq with hp | h0
        · rw [hx hp]; ring
        · rw [← h0]; ring
      rw [z _ _ h3 hb0, z _ _ h1 hb1, z _ _ h2 hb2]
      rw [Finset.sum_eq_zero, add_zero, add_zero, add_zero]
      intro i _
      obtain ⟨p, t, r, c⟩ := hs i
      obtain ⟨g, gn⟩ := hel i
      have hri := (rigid_iff _ w).1 hr i
      obtain ⟨s0, s1, s2, s3, s4, s5⟩ := stacked_top w i
      have e1 : energy (mechMatrix ty (el i)) (stacked w i) = 0 :=
        (C16_zero_iff_rigid_partial ty (el i) g gn _).2 hri
      have e2 : energy (pyMatrix (el i).L (s i).py.1 (s i).py.2) (stacked w i) = 0 := by
        by_cases hp : 0 < (s i).py.1 ∨ 0 < (s i).py.2
        · obtain ⟨a, b, c⟩ := hpy i hp
          have a' : stacked w i 1 = 0 := s1.trans a
          have b' : stacked w i 4 = 0 := s4.trans b
          have c' : stacked w i 2 = 0 := s2.trans c
          have d' : stacked w i 5 = 0 := hri.2.1.trans c'
          rw [py_energy, a', b', c', d']; ring
        · push Not at hp
          rw [py_energy, le_antisymm hp.1 p.1, le_antisymm hp.2 p.2]; ring
      have e3 : energy (tzMatrix (el i).L (s i).tz.1 (s i).tz.2) (stacked w i) = 0 := by
        by_cases hp : 0 < (s i).tz.1 ∨ 0 < (s i).tz.2
        · have a' : stacked w i 0 = 0 := s0.trans (htz i hp)
          have b' : stacked w i 3 = 0 := hri.1.trans a'
          rw [tz_energy, a', b']; ring
        · push Not at hp
          rw [tz_energy, le_antisymm hp.1 t.1, le_antisymm hp.2 t.2]; ring
      have e4 : energy (mtMatrix ty (el i) (s i).mt.1 (s i).mt.2) (stacked w i) = 0 := by
        cases ty with
        | timoshenko =>
          rw [mtMatrix_energy, (hmt rfl i).1, (hmt rfl i).2]; ring
        | eulerBernoulli =>
          by_cases hp : 0 < (s i).mt.1 ∨ 0 < (s i).mt.2
          · have hk : mtMatrix .eulerBernoulli (el i) (s i).mt.1 (s i).mt.2
                = mtMatrix .eulerBernoulli (el i) (1 / 2 * (s i).mt.1 + 1 / 2 * (s i).mt.2)
                  (1 / 2 * (s i).mt.1 + 1 / 2 * (s i).mt.2) := by
              unfold mtMatrix
              ring_nf
            rw [hk, C18_mt_rigid_euler (el i) g.L _ _ hri, s2, hm1 i rfl hp]; ring
          · push Not at hp
            rw [mtMatrix_energy, le_antisymm hp.1 r.1, le_antisymm hp.2 r.2]; ring
      rw [e1, e2, e3, e4]; ring
    rw [mulVec_zero_of_energy _ (C19_symmetric ty el s h m q).1
      (fun v => (C19_nonneg_partial ty el s h m q hel hs v).1) w he]
    rfl

/-- Node `j` is held laterally by a support or, at the pile tip, by a base shear spring. -/
def HeldLat (h : K) (restr : Fin (3 * n + 3) → Bool) (j : Fin (n + 1)) : Prop :=
  restr (dof j 1) = true ∨ (j = Fin.last n ∧ 0 < h)

/-- A rotation of the pile is resisted by a support, a base moment spring or rotational springs along the pile. -/
def HeldRot (ty : ElementType) (s : Fin n → SoilK K) (m : K) (restr : Fin (3 * n + 3) → Bool) : Prop :=
  (∃ j : Fin (n + 1), restr (dof j 2) = true) ∨ 0 < m ∨
    (ty = .eulerBernoulli ∧ ∃ i, 0 < (s i).mt.1 ∨ 0 < (s i).mt.2)

/-- The pile is held axially: a support, a shaft spring or a base spring. -/
def HeldAx (s : Fin n → SoilK K) (q : K) (restr : Fin (3 * n + 3) → Bool) : Prop :=
  (∃ j : Fin (n + 1), restr (dof j 0) = true) ∨ (∃ i, 0 < (s i).tz.1 ∨ 0 < (s i).tz.2) ∨ 0 < q

/-- The pile is held against lateral motions: by lateral springs along an element, or by one node held laterally and
either a rotational restraint or a second such node. -/
def HeldAcross (ty : ElementType) (s : Fin n → SoilK K) (h m : K) (restr : Fin (3 * n + 3) → Bool) : Prop :=
  (∃ i, 0 < (s i).py.1 ∨ 0 < (s i).py.2) ∨
    ∃ j, HeldLat h restr j ∧ (HeldRot ty s m restr ∨ ∃ j', j' ≠ j ∧ HeldLat h restr j')

theorem held_iff (ty : ElementType) (el : Fin n → Elem K) (hL : ∀ i, 0 < (el i).L) (s : Fin n → SoilK K) (h m q : K)
    (restr : Fin (3 * n + 3) → Bool) :
    Beam.Held ty el s h m q restr ↔ HeldAx s q restr ∧ HeldAcross ty s h m restr := by
  set L : Fin n → K := fun i => (el i).L with hLdef
  have hmono := nodeDepth_strictMono L hL
  have h1ne : ∀ a b θ x0 : K, (a ≠ 0 ∨ θ ≠ 0 ∨ b + (nodeDepth L 0 - x0) * θ ≠ 0) →
      rigidVec L a b θ x0 ≠ 0 := by
    intro a b θ x0 h h0
    obtain ⟨r0, r1, r2⟩ := rigidVec_dof L a b θ x0 (0 : Fin (n + 1))
    rw [h0] at r0 r1 r2
    rcases h with h | h | h
    · exact h r0.symm
    · exact h r2.symm
    · exact h r1.symm
  have free : ∀ (a b θ x0 : K), Beam.Held ty el s h m q restr →
      (∀ j : Fin (n + 1), restr (dof j 0) = true → a = 0) →
      (∀ j : Fin (n + 1), HeldLat h restr j → b + (nodeDepth L j - x0) * θ = 0) → (HeldRot ty s m restr → θ = 0) →
      ((∃ i, 0 < (s i).tz.1 ∨ 0 < (s i).tz.2) → a = 0) → (0 < q → a = 0) →
      ((∃ i, 0 < (s i).py.1 ∨ 0 < (s i).py.2) → b = 0 ∧ θ = 0) → rigidVec L a b θ x0 = 0 := by
    intro a b θ x0 hh f0 f1 f2 ft fq fp
    have R := rigidVec_dof L a b θ x0
    apply hh (rigidVec L a b θ x0) (rigidVec_rigid L a b θ x0)
    · intro r hr
      obtain ⟨j, d, rfl⟩ := dof_surjective r
      fin_cases d
      · exact (R j).1.trans (f0 j hr)
      · exact (R j).2.1.trans (f1 j (Or.inl hr))
      · exact (R j).2.2.trans (f2 (Or.inl ⟨j, hr⟩))
    · intro i hi
      obtain ⟨b0, t0⟩ := fp ⟨i, hi⟩
      rw [(R _).2.1, (R _).2.1, (R _).2.2, b0, t0]
      simp
    · intro i hi
      rw [(R _).1, ft ⟨i, hi⟩]
    · intro i ht hi
      rw [(R _).2.2, f2 (Or.inr (Or.inr ⟨ht, i, hi⟩))]
    · intro hp
      rw [(R _).2.1, f1 _ (Or.inr ⟨rfl, hp⟩)]
    · intro hp
      rw [(R _).2.2, f2 (Or.inr (Or.inl hp))]
    · intro hp
      rw [(R _).1, fq hp]
  constructor
  · intro hh
    constructor
    · by_contra hcon
      unfold HeldAx at hcon
      push Not at hcon
      obtain ⟨c1, c2, c3⟩ := hcon
      refine h1ne 1 0 0 0 (Or.inl one_ne_zero) (free 1 0 0 0 hh (fun j hj => absurd hj (c1 j)) ?_ (fun _ => rfl) ?_ ?_ ?_)
      · intro j _; simp
      · rintro ⟨i, hi⟩
        rcases hi with hi | hi
        · exact absurd (c2 i).1 (not_le.2 hi)
        · exact absurd (c2 i).2 (not_le.2 hi)
      · intro hp; exact absurd c3 (not_le.2 hp)
      · intro _; exact ⟨rfl, rfl⟩
    · by_contra hcon
      unfold HeldAcross at hcon
      rw [not_or] at hcon
      obtain ⟨c1, c2⟩ := hcon
      by_cases hlat : ∃ j, HeldLat h restr j
      · obtain ⟨j, hj⟩ := hlat
        push Not at c2
        obtain ⟨hrot, hl2⟩ := c2 j hj
        refine h1ne 0 0 1 (nodeDepth L j) (Or.inr (Or.inl one_ne_zero)) (free _ _ _ _ hh (fun _ _ => rfl) ?_
          (fun hr => absurd hr hrot) (fun _ => rfl) (fun _ => rfl) (fun hp => absurd hp c1))
        intro j' hj'
        by_cases hjj : j' = j
        · subst hjj; simp
        · exact absurd hj' (hl2 j' hjj)
      · push Not at hlat
        refine h1ne 0 1 0 0 (Or.inr (Or.inr (by simp))) (free _ _ _ _ hh (fun _ _ => rfl)
          (fun j hj => absurd hj (hlat j)) (fun _ => rfl) (fun _ => rfl) (fun _ => rfl) (fun hp => absurd hp c1))
  · rintro ⟨ha, hc⟩ u ⟨a, b, θ, hr⟩ hfix hpy htz hmt hb1 hb2 hb0
    have ea : a = 0 := by
      rcases ha with ⟨j, hj⟩ | ⟨i, hi⟩ | hq
      · rw [← (hr j).1]; exact hfix _ hj
      · rw [← (hr i.castSucc).1]; exact htz i hi
      · rw [← (hr (Fin.last n)).1]; exact hb0 hq
    have elat : ∀ j, HeldLat h restr j → b + nodeDepth L j * θ = 0 := by
      rintro j (hj | ⟨rfl, hp⟩)
      · rw [← (hr j).2.1]; exact hfix _ hj
      · rw [← (hr _).2.1]; exact hb1 hp
    have erot : HeldRot ty s m restr → θ = 0 := by
      rintro (⟨j, hj⟩ | hp | ⟨ht, i, hi⟩)
      · rw [← (hr j).2.2]; exact hfix _ hj
      · rw [← (hr (Fin.last n)).2.2]; exact hb2 hp
      · rw [← (hr i.castSucc).2.2]; exact hmt i ht hi
    have ebt : b = 0 ∧ θ = 0 := by
      rcases hc with ⟨i, hi⟩ | ⟨j, hj, hrot⟩
      · obtain ⟨p1, -, p3⟩ := hpy i hi
        have t0 : θ = 0 := by rw [← (hr i.castSucc).2.2]; exact p3
        have := (hr i.castSucc).2.1
        rw [p1, t0] at this
        exact ⟨by simpa using this.symm, t0⟩
      · have eb := elat j hj
        have eθ : θ = 0 := by
          rcases hrot with hrot | ⟨j', hne, h'⟩
          · exact erot hrot
          · have eb' := elat j' h'
            have : (nodeDepth L j' - nodeDepth L j) * θ = 0 := by linear_combination eb' - eb
            rcases mul_eq_zero.1 this with h | h
            · exact absurd (hmono.injective (sub_eq_zero.1 h)) hne
            · exact h
        subst eθ
        exact ⟨by simpa using eb, rfl⟩
    obtain ⟨eb, et⟩ := ebt
    funext r
    obtain ⟨j', d, rfl⟩ := dof_surjective r
    obtain ⟨r0, r1, r2⟩ := hr j'
    fin_cases d
    · exact r0.trans ea
    · exact r1.trans (by simp [eb, et])
    · exact r2.trans et

end OpenPile.Props.Held

/-
Property C95: below a section, only the resultant of the loads above it matters.
-/
import Verif.Props.Decouple
import Verif.Props.FreeBody

namespace OpenPile.Props.SameBelow
open OpenPile.Kernel OpenPile.Winkler OpenPile.Spring OpenPile.Spec.Kernel OpenPile.Props.SoilStiffness
open OpenPile.Props.Solve OpenPile.Props.Beam OpenPile.Kernel OpenPile.Props.Decouple Matrix

variable {K : Type} [Field K] [LinearOrder K] [IsStrictOrderedRing K] {n : ℕ}

/-! ### specification -/

/-- Two nodal load vectors are equivalent for the pile below node `j`: they agree at the nodes below, and what acts on
node `j` and the nodes above has the same axial and lateral resultant and the same moment about node `j` (`x` are the depths
of the nodes). -/
structure Equivalent (x : Fin (n + 1) → K) (j : Fin (n + 1)) (F F' : Fin (3 * n + 3) → K) : Prop where
  below : ∀ k, j < k → ∀ c, F (dof k c) = F' (dof k c)
  axial : ∑ k ∈ Finset.Iic j, F (dof k 0) = ∑ k ∈ Finset.Iic j, F' (dof k 0)
  lateral : ∑ k ∈ Finset.Iic j, F (dof k 1) = ∑ k ∈ Finset.Iic j, F' (dof k 1)
  moment : ∑ k ∈ Finset.Iic j, (F (dof k 2) - (x j - x k) * F (dof k 1))
    = ∑ k ∈ Finset.Iic j, (F' (dof k 2) - (x j - x k) * F' (dof k 1))

/-- The degrees of freedom of node `j` and the nodes below. -/
def Below (j : Fin (n + 1)) (r : Fin (3 * n + 3)) : Prop := 3 * j.1 ≤ r.1

/-! ### motions that are rigid above a node -/

/-- The pile above node `j` moves as a rigid body. -/
def RigidAbove (L : Fin n → K) (j : Fin (n + 1)) (w : Fin (3 * n + 3) → K) : Prop :=
  ∀ i : Fin n, i.1 < j.1 → RigidElem (L i) (stacked w i)

omit [LinearOrder K] [IsStrictOrderedRing K] in
theorem rigidAbove_form (L : Fin n → K) (j : Fin (n + 1)) (w : Fin (3 * n + 3) → K) (h : RigidAbove L j w) :
    ∀ (m : ℕ) (k : Fin (n + 1)), k.1 + m = j.1 → w (dof k 0) = w (dof j 0) ∧ w (dof k 2) = w (dof j 2) ∧
      w (dof k 1) = w (dof j 1) - (nodeDepth L j - nodeDepth L k) * w (dof j 2) := by
  intro m
  induction m with
  | zero =>
    intro k hk
    obtain rfl : k = j := Fin.ext (by omega)
    simp
  | succ m ih =>
    intro k hk
    have hkn : k.1 < n := by
      have := j.2
      omega
    have e1 : (⟨k.1, hkn⟩ : Fin n).castSucc = k := rfl
    obtain ⟨a, b, c⟩ := ih (⟨k.1, hkn⟩ : Fin n).succ (by simp; omega)
    obtain ⟨s0, s1, s2, s3, s4, s5⟩ := stacked_top w ⟨k.1, hkn⟩
    obtain ⟨r1, r2, r3⟩ := h ⟨k.1, hkn⟩ (by simp; omega)
    have hd := nodeDepth_succ L ⟨k.1, hkn⟩
    rw [e1] at s0 s1 s2 hd
    rw [s0, s3] at r1
    rw [s2, s5] at r2
    rw [s4, s1, s2] at r3
    refine ⟨r1.symm.trans a, r2.symm.trans b, ?_⟩
    rw [hd] at c
    rw [c] at r3
    rw [← r2, b] at r3
    linear_combination -r3

/-- `w` below node `j`, continued above as the rigid motion of node `j`. -/
def extend (L : Fin n → K) (j : Fin (n + 1)) (w : Fin (3 * n + 3) → K) : Fin (3 * n + 3) → K := fun r =>
  if 3 * j.1 ≤ r.1 then w r else rigidVec L (w (dof j 0)) (w (dof j 1)) (w (dof j 2)) (nodeDepth L j) r

omit [LinearOrder K] [IsStrictOrderedRing K] in
theorem extend_below (L : Fin n → K) (j : Fin (n + 1)) (w : Fin (3 * n + 3) → K) :
    Agree (Below j) (extend L j w) w := by
  intro r hr
  unfold extend
  exact if_pos hr

omit [LinearOrder K] [IsStrictOrderedRing K] in
theorem extend_rigid (L : Fin n → K) (j : Fin (n + 1)) (w : Fin (3 * n + 3) → K) : RigidAbove L j (extend L j w) := by
  have key : ∀ k : Fin (n + 1), k.1 ≤ j.1 → ∀ c, extend L j w (dof k c)
      = rigidVec L (w (dof j 0)) (w (dof j 1)) (w (dof j 2)) (nodeDepth L j) (dof k c) := by
    intro k hk c
    unfold extend
    by_cases h : 3 * j.1 ≤ (dof k c).1
    · rw [if_pos h]
      obtain rfl : k = j := by
        refine Fin.ext ?_
        simp only [dof] at h
        omega
      obtain ⟨a, b, d⟩ := rigidVec_dof L (w (dof k 0)) (w (dof k 1)) (w (dof k 2)) (nodeDepth L k) k
      fin_cases c
      · exact a.symm
      · refine Eq.trans ?_ b.symm
        simp
      · exact d.symm
    · rw [if_neg h]
  intro i hi
  have hr := (rigid_iff L _).1 (rigidVec_rigid L (w (dof j 0)) (w (dof j 1)) (w (dof j 2)) (nodeDepth L j)) i
  obtain ⟨s0, s1, s2, s3, s4, s5⟩ := stacked_top (extend L j w) i
  obtain ⟨t0, t1, t2, t3, t4, t5⟩ := stacked_top (rigidVec L (w (dof j 0)) (w (dof j 1)) (w (dof j 2)) (nodeDepth L j)) i
  have hc : i.castSucc.1 ≤ j.1 := by simp; omega
  have hs : i.succ.1 ≤ j.1 := by simp; omega
  unfold RigidElem at hr ⊢
  rw [s0, s1, s2, s3, s4, s5, key _ hc, key _ hc, key _ hc, key _ hs, key _ hs, key _ hs]
  rw [t0, t1, t2, t3, t4, t5] at hr
  exact hr

/-- Two load vectors do the same work on every motion that is rigid above node `j`. -/
def SameWork (L : Fin n → K) (j : Fin (n + 1)) (F F' : Fin (3 * n + 3) → K) : Prop :=
  ∀ w, RigidAbove L j w → w ⬝ᵥ F = w ⬝ᵥ F'

omit [LinearOrder K] [IsStrictOrderedRing K] in
theorem sameWork_of_equivalent (L : Fin n → K) (j : Fin (n + 1)) (F F' : Fin (3 * n + 3) → K)
    (h : Equivalent (nodeDepth L) j F F') : SameWork L j F F' := by
  intro w hw
  have hform : ∀ k ∈ Finset.Iic j, _ := fun k hk => rigidAbove_form L j w hw (j.1 - k.1) k (by
    have : k.1 ≤ j.1 := Fin.le_def.1 (Finset.mem_Iic.1 hk)
    omega)
  have key : ∀ G : Fin (3 * n + 3) → K, w ⬝ᵥ G = (w (dof j 0) * ∑ k ∈ Finset.Iic j, G (dof k 0)
      + w (dof j 1) * ∑ k ∈ Finset.Iic j, G (dof k 1)
      + w (dof j 2) * ∑ k ∈ Finset.Iic j, (G (dof k 2) - (nodeDepth L j - nodeDepth L k) * G (dof k 1)))
      + ∑ k ∈ Finset.Ioi j, ∑ c : Fin 3, w (dof k c) * G (dof k c) := by
    intro G
    unfold dotProduct
    rw [sum_dof]
    have hun : (Finset.univ : Finset (Fin (n + 1))) = Finset.Iic j ∪ Finset.Ioi j := by
      ext k
      simp [le_or_gt]
    have hdis : Disjoint (Finset.Iic j) (Finset.Ioi j) := by
      rw [Finset.disjoint_left]
      intro k a b
      exact absurd (Finset.mem_Iic.1 a) (not_le.2 (Finset.mem_Ioi.1 b))
    rw [hun, Finset.sum_union hdis]
    congr 1
    rw [Finset.mul_sum, Finset.mul_sum, Finset.mul_sum, ← Finset.sum_add_distrib, ← Finset.sum_add_distrib]
    refine Finset.sum_congr rfl (fun k hk => ?_)
    obtain ⟨a, b, c⟩ := hform k hk
    rw [Fin.sum_univ_three, a, b, c]
    ring
  rw [key, key, h.axial, h.lateral, h.moment]
  congr 1
  refine Finset.sum_congr rfl (fun k hk => Finset.sum_congr rfl (fun c _ => ?_))
  rw [h.below k (Finset.mem_Ioi.1 hk)]

/-! ### systems in which the part above a node carries no load of its own -/

/-- Forces on motions that are rigid above node `j` depend on the displacements below only. -/
def Rides (L : Fin n → K) (j : Fin (n + 1)) (A : Matrix (Fin (3 * n + 3)) (Fin (3 * n + 3)) K) : Prop :=
  Aᵀ = A ∧ ∀ w v v', RigidAbove L j w → Agree (Below j) v v' → work A w v = work A w v'

/-- Spring stiffnesses that are zero in all elements above node `j`. -/
def NoSprings (s : Fin n → SoilK K) (j : Fin (n + 1)) : Prop := ∀ i : Fin n, i.1 < j.1 → s i = ⟨(0, 0), (0, 0), (0, 0)⟩

omit [LinearOrder K] [IsStrictOrderedRing K] in
theorem elem_bare (ty : ElementType) (e : Elem K) : elemMatrix ty e ⟨(0, 0), (0, 0), (0, 0)⟩ = mechMatrix ty e := by
  unfold elemMatrix mtMatrix pyMatrix tzMatrix
  simp

theorem rides_soil (ty : ElementType) (el : Fin n → Elem K) (hL : ∀ i, (el i).L ≠ 0) (hp : ∀ i, 1 + phi ty (el i) ≠ 0)
    (s : Fin n → SoilK K) (h m q : K) (j : Fin (n + 1)) (hs : NoSprings s j) :
    Rides (fun i => (el i).L) j (soilStiffness ty n el s h m q) := by
  refine ⟨(C19_symmetric ty el s h m q).1, fun w v v' hw hv => ?_⟩
  unfold soilStiffness
  rw [work_add, work_add, assemble_work, assemble_work, base_work, base_work]
  have hlast : ∀ c, v (dof (Fin.last n) c) = v' (dof (Fin.last n) c) := fun c => hv _ (by
    have := j.2
    simp only [Below, dof, Fin.val_last]
    omega)
  rw [hlast, hlast, hlast]
  congr 1
  refine Finset.sum_congr rfl (fun i _ => ?_)
  by_cases hi : i.1 < j.1
  · rw [hs i hi, elem_bare, mech_work_rigid ty (el i) (hL i) (hp i) _ _ (hw i hi),
      mech_work_rigid ty (el i) (hL i) (hp i) _ _ (hw i hi)]
  · have : stacked v i = stacked v' i := by
      funext a
      exact hv _ (by
        simp only [Below]
        omega)
    rw [this]

omit [LinearOrder K] [IsStrictOrderedRing K] in
theorem work_eq_sub {ι : Type} [Fintype ι] (A : Matrix ι ι K) (w u u' : ι → K) :
    w ⬝ᵥ (A *ᵥ u) - w ⬝ᵥ (A *ᵥ u') = work A w (u - u') := by
  unfold work
  rw [mulVec_sub, dotProduct_sub]

omit [LinearOrder K] [IsStrictOrderedRing K] in
/-- The heart of C95: supports only below node `j`, loads that are equivalent for the pile below. -/
theorem solve_equivalent {L : Fin n → K} {j : Fin (n + 1)} {A : Matrix (Fin (3 * n + 3)) (Fin (3 * n + 3)) K}
    (hA : Rides L j A) {F F' U : Fin (3 * n + 3) → K} {r : Fin (3 * n + 3) → Bool} (hr : ∀ i, r i = true → Below j i)
    (hF : SameWork L j F F') {u Q u' Q' : Fin (3 * n + 3) → K} (h : solveEquations A F U r = some (u, Q))
    (h' : solveEquations A F' U r = some (u', Q')) :
    Agree (Below j) u u' ∧ Agree (Below j) Q Q' ∧ SameWork L j Q Q' := by
  obtain ⟨a1, a2, a3, -⟩ := C15_solution A F U r u Q h
  obtain ⟨b1, b2, b3, -⟩ := C15_solution A F' U r u' Q' h'
  have hu : Agree (Below j) u u' := by
    have hz : extend L j (u - u') = 0 := by
      by_contra hne
      have hn : solveEquations A F U r = none := by
        rw [C15_fails_iff]
        refine ⟨extend L j (u - u'), hne, ?_, ?_⟩
        · intro i hi
          rw [extend_below L j _ i (hr i hi), Pi.sub_apply, a2 i hi, b2 i hi, sub_self]
        · intro i hi
          have e1 : (A *ᵥ extend L j (u - u')) i = work A (Pi.single i 1) (extend L j (u - u')) := by
            unfold work
            rw [single_dotProduct, one_mul]
          rw [e1, work_comm A hA.1, hA.2 _ _ _ (extend_rigid L j _) (fun k hk => (extend_below L j (Pi.single i 1) k hk).symm),
            work_comm A hA.1, hA.2 _ _ _ (extend_rigid L j _) (extend_below L j (u - u')), ← work_eq_sub,
            ← sub_eq_zero.2 (hF _ (extend_rigid L j (Pi.single i 1)))]
          simp only [dotProduct]
          rw [← Finset.sum_sub_distrib, ← Finset.sum_sub_distrib]
          refine Finset.sum_congr rfl (fun k _ => ?_)
          by_cases hk : r k = true
          · have hki : k ≠ i := by
              rintro rfl
              rw [hi] at hk
              cases hk
            rw [extend_below L j _ k (hr k hk), Pi.single_eq_of_ne hki]
            ring
          · have hk : r k = false := by simpa using hk
            rw [(a1 k hk).1, (b1 k hk).1]
      rw [h] at hn
      cases hn
    intro i hi
    have := congrFun hz i
    rw [extend_below L j _ i hi, Pi.sub_apply, Pi.zero_apply] at this
    exact sub_eq_zero.1 this
  have hQ : SameWork L j Q Q' := by
    intro w hw
    have e : ∀ (v G R : Fin (3 * n + 3) → K), (∀ i, G i + R i = (A *ᵥ v) i) → w ⬝ᵥ R = work A w v - w ⬝ᵥ G := by
      intro v G R hv
      unfold work
      rw [← funext hv]
      simp only [dotProduct]
      rw [← Finset.sum_sub_distrib]
      exact Finset.sum_congr rfl (fun _ _ => by ring)
    rw [e u F Q a3, e u' F' Q' b3, hF w hw, hA.2 w u u' hw hu]
  refine ⟨hu, fun i hi => ?_, hQ⟩
  have := hQ _ (extend_rigid L j (Pi.single i 1))
  have pick : ∀ R : Fin (3 * n + 3) → K, (∀ k, r k = false → R k = 0) → extend L j (Pi.single i 1) ⬝ᵥ R = R i := by
    intro R hR
    simp only [dotProduct]
    rw [Finset.sum_eq_single i]
    · rw [extend_below L j _ i hi, Pi.single_eq_same, one_mul]
    · intro k _ hk
      by_cases hrk : r k = true
      · rw [extend_below L j _ k (hr k hrk), Pi.single_eq_of_ne hk, zero_mul]
      · rw [hR k (by simpa using hrk), mul_zero]
    · intro hni
      exact absurd (Finset.mem_univ i) hni
  rw [pick Q (fun k hk => (a1 k hk).2), pick Q' (fun k hk => (b1 k hk).2)] at this
  exact this

/-! ### the iteration -/

/-- The stiffness depends on the displacements below node `j` only, and above node `j` there is nothing but the pile. -/
def LocalBelow (L : Fin n → K) (j : Fin (n + 1))
    (b : Kind → (Fin (3 * n + 3) → K) → Option (Matrix (Fin (3 * n + 3)) (Fin (3 * n + 3)) K)) : Prop :=
  ∀ kind d d' A A', Agree (Below j) d d' → b kind d = some A → b kind d' = some A' → A = A' ∧ Rides L j A

omit [IsStrictOrderedRing K] in
theorem loop_equivalent {L : Fin n → K} {j : Fin (n + 1)}
    {b : Kind → (Fin (3 * n + 3) → K) → Option (Matrix (Fin (3 * n + 3)) (Fin (3 * n + 3)) K)} (hloc : LocalBelow L j b)
    {F F' U0 : Fin (3 * n + 3) → K} {sup : Fin (3 * n + 3) → Bool} (hsup : ∀ i, sup i = true → Below j i)
    (hF : SameWork L j F F') (fuel : ℕ) :
    ∀ (fuel' it : ℕ) (d d1 : Fin (3 * n + 3) → K) (A : Matrix (Fin (3 * n + 3)) (Fin (3 * n + 3)) K)
      (U Rg Rg1 Q0 Q01 : Fin (3 * n + 3) → K) (t0 r0 t01 r01 : K) (e Q e' Q' : Fin (3 * n + 3) → K) (k : ℕ) (t r t' r' : K),
      Agree (Below j) d d1 → Rides L j A → SameWork L j Rg Rg1 →
      loop b F U0 sup fuel it d A U Rg Q0 t0 r0 = .converged e Q k t r →
      loop b F' U0 sup fuel' it d1 A U Rg1 Q01 t01 r01 = .converged e' Q' k t' r' →
      Agree (Below j) e e' ∧ Agree (Below j) Q Q' ∧ ∀ i, sup i = false → Q i = 0 ∧ Q' i = 0 := by
  induction fuel with
  | zero => intro fuel' it d d1 A U Rg Rg1 Q0 Q01 t0 r0 t01 r01 e Q e' Q' k t r t' r' _ _ _ h; simp [loop] at h
  | succ fuel ih =>
    intro fuel' it d d1 A U Rg Rg1 Q0 Q01 t0 r0 t01 r01 e Q e' Q' k t r t' r' hd hA hR h h'
    cases fuel' with
    | zero => simp [loop] at h'
    | succ fuel' =>
      rcases hs : solveEquations A Rg U sup with _ | ⟨uInc, Q1⟩
      · simp [loop, hs] at h
      rcases hs' : solveEquations A Rg1 U sup with _ | ⟨uInc', Q1'⟩
      · simp [loop, hs'] at h'
      obtain ⟨g1, -, g2⟩ := solve_equivalent hA hsup hR hs hs'
      rw [loop, hs] at h
      rw [loop, hs'] at h'
      simp only at h h'
      have hd' : Agree (Below j) (fun i => d i + uInc i) (fun i => d1 i + uInc' i) := by
        intro i hi
        simp only [hd i hi, g1 i hi]
      rcases hb : b .secant (fun i => d i + uInc i) with _ | Ks
      · simp [hb] at h
      rcases hb' : b .secant (fun i => d1 i + uInc' i) with _ | Ks'
      · simp [hb'] at h'
      rw [hb] at h
      rw [hb'] at h'
      simp only at h h'
      obtain ⟨rfl, c1⟩ := hloc _ _ _ _ _ hd' hb hb'
      have hR' : SameWork L j (fun i => F i - Q1 i - (Ks *ᵥ fun i => d i + uInc i) i)
          (fun i => F' i - Q1' i - (Ks *ᵥ fun i => d1 i + uInc' i) i) := by
        intro w hw
        have e1 : ∀ (a c x : Fin (3 * n + 3) → K), w ⬝ᵥ (fun i => a i - c i - (Ks *ᵥ x) i)
            = w ⬝ᵥ a - w ⬝ᵥ c - work Ks w x := by
          intro a c x
          unfold work
          rw [← dotProduct_sub, ← dotProduct_sub]
          rfl
        rw [e1, e1, hF w hw, g2 w hw, c1.2 w _ _ hw hd']
      split at h
      · split at h
        · cases h
        · rename_i x uf Qf hf
          cases h
          split at h'
          · split at h'
            · cases h'
            · rename_i x uf' Qf' hf'
              cases h'
              refine ⟨hd', (solve_equivalent c1 hsup hF hf hf').2.1, fun i hi => ?_⟩
              exact ⟨((C15_solution _ _ _ _ _ _ hf).1 i hi).2, ((C15_solution _ _ _ _ _ _ hf').1 i hi).2⟩
          · split at h'
            · cases h'
            · split at h'
              · cases h'
              · have := loop_later _ _ _ _ _ _ _ _ _ _ _ _ _ _ _ _ _ _ h'
                omega
      · split at h
        · cases h
        · split at h
          · cases h
          · rename_i x Kt hkt
            have hk := loop_later _ _ _ _ _ _ _ _ _ _ _ _ _ _ _ _ _ _ h
            split at h'
            · split at h'
              · cases h'
              · cases h'
                omega
            · split at h'
              · cases h'
              · rename_i x' Kt' hkt'
                obtain ⟨rfl, e1⟩ := hloc _ _ _ _ _ hd' hkt hkt'
                exact ih fuel' _ _ _ _ _ _ _ _ _ _ _ _ _ _ _ _ _ _ _ _ _ _ hd' e1 hR' h h'

omit [IsStrictOrderedRing K] in
theorem winkler_equivalent {L : Fin n → K} {j : Fin (n + 1)}
    {b : Kind → (Fin (3 * n + 3) → K) → Option (Matrix (Fin (3 * n + 3)) (Fin (3 * n + 3)) K)} (hloc : LocalBelow L j b)
    {F F' U : Fin (3 * n + 3) → K} {fix : Fin (3 * n + 3) → Bool}
    (hsup : ∀ i, (fix i = true ∨ U i ≠ 0) → Below j i) (hF : SameWork L j F F') {m m' k : ℕ}
    {d Q d' Q' : Fin (3 * n + 3) → K} {t r t' r' : K} (h : winkler b F U fix m = .converged d Q k t r)
    (h' : winkler b F' U fix m' = .converged d' Q' k t' r') : Agree (Below j) d d' ∧ Q = Q' := by
  have hsup' : ∀ i, (fix i || decide (U i ≠ 0)) = true → Below j i := by
    intro i hi
    apply hsup
    simpa using hi
  unfold winkler at h h'
  split at h
  · cases h
  · rename_i A hA
    rw [hA] at h'
    simp only at h'
    obtain ⟨-, c⟩ := hloc _ _ _ _ _ (fun _ _ => rfl) hA hA
    obtain ⟨r1, r2, r3⟩ := loop_equivalent hloc hsup' hF _ _ _ _ _ _ _ _ _ _ _ _ _ _ _ _ _ _ _ _ _ _ _ _ (fun _ _ => rfl) c hF h h'
    refine ⟨r1, funext (fun i => ?_)⟩
    by_cases hi : Below j i
    · exact r2 i hi
    · have : (fix i || decide (U i ≠ 0)) = false := by
        rw [← Bool.not_eq_true]
        exact fun h => hi (hsup' i h)
      rw [(r3 i this).1, (r3 i this).2]

/-! ### piles in soil -/

section soil
open OpenPile.Props.FreeBody

/-- The stiffness of a pile without springs above node `j`. -/
theorem local_below (ty : ElementType) (el : Fin n → Elem ℝ) (hL : ∀ i, (el i).L ≠ 0) (hp : ∀ i, 1 + phi ty (el i) ≠ 0)
    (sp : Springs ℝ n) (j : Fin (n + 1)) (hbare : ∀ i : Fin n, i.1 < j.1 → Bare sp i) :
    LocalBelow (fun i => (el i).L) j (buildStiffness ty el sp) := by
  intro kind d d' A A' hd hA hA'
  obtain ⟨s, h, m, q, p1, p2, p3, p4, rfl⟩ := build_parts ty el sp kind d A hA
  obtain ⟨s', h', m', q', p1', p2', p3', p4', rfl⟩ := build_parts ty el sp kind d' A' hA'
  have hlast : ∀ c, d (dof (Fin.last n) c) = d' (dof (Fin.last n) c) := fun c => hd _ (by
    have := j.2
    simp only [Below, dof, Fin.val_last]
    omega)
  rw [hlast, p2'] at p2
  rw [hlast, p3'] at p3
  rw [hlast, p4'] at p4
  cases p2
  cases p3
  cases p4
  have hs : s = s' := by
    funext e
    by_cases he : e.1 < j.1
    · rw [bare_zero sp kind d e _ (hbare e he) (p1 e), bare_zero sp kind d' e _ (hbare e he) (p1' e)]
    · have hseen : ∀ b c, d (dof (seenNode e b) c) = d' (dof (seenNode e b) c) := by
        intro b c
        refine hd _ ?_
        have : e.1 ≤ (seenNode e b).1 := by
          unfold seenNode
          split_ifs <;> simp
        simp only [Below, dof]
        omega
      have hpy : (s e).py = (s' e).py := by
        refine pair_eq (fun b => ?_)
        cases hl : sp.distributedLateral with
        | false => rw [(p1 e).noLateral b hl, (p1' e).noLateral b hl]
        | true =>
          have e1 := (p1 e).lateral b hl
          rw [hseen, (p1' e).lateral b hl] at e1
          exact (Option.some.inj e1).symm
      have htz : (s e).tz = (s' e).tz := by
        refine pair_eq (fun b => ?_)
        cases hl : sp.distributedAxial with
        | false => rw [(p1 e).noAxial b hl, (p1' e).noAxial b hl]
        | true =>
          have e1 := (p1 e).axial b hl
          rw [hseen, (p1' e).axial b hl] at e1
          exact (Option.some.inj e1).symm
      have hmt : (s e).mt = (s' e).mt := by
        refine pair_eq (fun b => ?_)
        cases hl : sp.distributedMoment with
        | false => rw [(p1 e).noMoment b hl, (p1' e).noMoment b hl]
        | true =>
          obtain ⟨k1, e1, f1⟩ := (p1 e).moment b hl
          obtain ⟨k2, e2, f2⟩ := (p1' e).moment b hl
          rw [hseen, e2] at e1
          cases e1
          rw [hseen, hseen, f2] at f1
          exact (Option.some.inj f1).symm
      have ext : ∀ x y : SoilK ℝ, x.py = y.py → x.tz = y.tz → x.mt = y.mt → x = y := by
        rintro ⟨_, _, _⟩ ⟨_, _, _⟩ rfl rfl rfl
        rfl
      exact ext _ _ hpy htz hmt
  subst hs
  exact ⟨rfl, rides_soil ty el hL hp s h m q j (fun i hi => bare_zero sp kind d i _ (hbare i hi) (p1 i))⟩

/-- **C95, in soil.** No soil, supports or prescribed displacements above node `j`; two sets of loads that agree below node
`j`, and whose resultants and moments about node `j` of what acts on node `j` and above are the same. If both analyses
converge after the same number of iterations, the displacements at node `j` and below, the section forces of all elements below
node `j` and all reactions are the same. Missing: other numbers of iterations (the tolerance depends on the norm of the
loads and reactions). -/
theorem C95_soil_partial (ty : ElementType) (el : Fin n → Elem ℝ) (hL : ∀ i, (el i).L ≠ 0)
    (hp : ∀ i, 1 + phi ty (el i) ≠ 0) (sp : Springs ℝ n) (j : Fin (n + 1)) (hbare : ∀ i : Fin n, i.1 < j.1 → Bare sp i)
    (F F' U : Fin (3 * n + 3) → ℝ) (fix : Fin (3 * n + 3) → Bool)
    (hsup : ∀ k, k < j → ∀ c, fix (dof k c) = false ∧ U (dof k c) = 0)
    (hF : Equivalent (nodeDepth (fun i => (el i).L)) j F F') (m m' it : ℕ) (d Q d' Q' : Fin (3 * n + 3) → ℝ)
    (t r t' r' : ℝ) (h : winkler (buildStiffness ty el sp) F U fix m = .converged d Q it t r)
    (h' : winkler (buildStiffness ty el sp) F' U fix m' = .converged d' Q' it t' r') :
    (∀ k, j ≤ k → ∀ c, d (dof k c) = d' (dof k c)) ∧
    (∀ i : Fin n, j ≤ i.castSucc → listedForces ty el d i = listedForces ty el d' i) ∧ Q = Q' := by
  have hsup' : ∀ i, (fix i = true ∨ U i ≠ 0) → Below j i := by
    intro i hi
    by_contra hb
    unfold Below at hb
    have hk := hsup ⟨i.1 / 3, by have := j.2; omega⟩ (by rw [Fin.lt_def]; simp only; omega) ⟨i.1 % 3, by omega⟩
    have hi' : dof (⟨i.1 / 3, by have := j.2; omega⟩ : Fin (n + 1)) ⟨i.1 % 3, by omega⟩ = i := by
      refine Fin.ext ?_
      simp only [dof]
      omega
    rw [hi'] at hk
    rcases hi with hi | hi
    · rw [hk.1] at hi
      cases hi
    · exact hi hk.2
  obtain ⟨a, b⟩ := winkler_equivalent (local_below ty el hL hp sp j hbare) hsup' (sameWork_of_equivalent _ _ _ _ hF) h h'
  refine ⟨fun k hk c => a _ ?_, fun i hi => ?_, b⟩
  · have := Fin.le_def.1 hk
    simp only [Below, dof]
    omega
  · have hi := Fin.le_def.1 hi
    have : stacked d i = stacked d' i := by
      funext c
      refine a _ ?_
      simp only [Below]
      simp at hi
      omega
    unfold listedForces internalForces
    rw [this]

end soil

/-! ### the tables of an analysis without soil -/

section tables
open OpenPile.BC OpenPile.Mesh OpenPile.Analysis OpenPile.Result OpenPile.Props.Analysis OpenPile.Props.Reported
  OpenPile.Props.Refine OpenPile.Props.FreeBody

variable [FloorRing K]

omit [IsStrictOrderedRing K] [FloorRing K] in
theorem same_elements {pi : K} {p : Pile.Pile K} {z : Fin (n + 1) → K} {el el' : Fin n → Elem K}
    (h : ElementsOn pi p z el) (h' : ElementsOn pi p z el') : el = el' := by
  funext i
  obtain ⟨s, e1, e2⟩ := h i
  obtain ⟨s', e1', e2'⟩ := h' i
  rw [e1] at e1'
  cases e1'
  rw [e2, e2']

/-- **C95, without soil.** Two analyses of the same Model with the same supports and prescribed displacements, none of
them above node `j`. If the loads agree below node `j`, and the loads on node `j` and above have the same resultants and the same
moment about node `j`, then the displacements listed from node `j` downwards, the section forces listed below node `j` and
the table of reactions are the same. -/
theorem C95_tables (pi : K) (ty : ElementType) (p : Pile.Pile K) (top tip : K) (hp : Stack p top tip)
    (hreg : ∀ s ∈ p.sections, ∀ L : K, 0 < L → Regular ty (elemOf pi p.material s L)) (C : Coordinates K)
    (h : MeshOn p top tip C) (bcs bcs' : List (Cond K)) (T T' : Tables K) (hT : solveOn pi ty p C bcs = some T)
    (hT' : solveOn pi ty p C bcs' = some T') (hU : globalDisp C.nodes bcs = globalDisp C.nodes bcs')
    (hR : globalRestrained C.nodes bcs = globalRestrained C.nodes bcs') (j : ℕ) (hj : j < C.nodes.length)
    (hfree : ∀ k < j, ∀ a, Free C.nodes bcs a k) (g g' : Nodal ℤ) (hg : globalForces C.nodes bcs = .ok g)
    (hg' : globalForces C.nodes bcs' = .ok g') (hbelow : ∀ k, j < k → ∀ a, (g.get a)[k]? = (g'.get a)[k]?)
    (hres : loadsAbove C g j (elev C j) = loadsAbove C g' j (elev C j)) :
    T.disp.drop j = T'.disp.drop j ∧ T.forces.drop (2 * j) = T'.forces.drop (2 * j) ∧ T.reactions = T'.reactions := by
  obtain ⟨z, el, F, U, R, g0, gU, gR, n1, hz, hanti, hel, hg0, hgU, hgR, hF, hUv, hRv, hs⟩ :=
    solveOn_read pi ty hp h bcs (valid_of_some pi ty bcs T hT)
  obtain ⟨z', el', F', U', R', g0', gU', gR', -, hz', -, hel', hg0', hgU', hgR', hF', hUv', hRv', hs'⟩ :=
    solveOn_read pi ty hp h bcs' (valid_of_some pi ty bcs' T' hT')
  rw [hg0] at hg
  rw [hg0'] at hg'
  cases hg
  cases hg'
  obtain rfl : z = z' := List.ofFn_injective (hz.symm.trans hz')
  obtain rfl := same_elements hel hel'
  rw [hgU, hgU'] at hU
  rw [hgR, hgR'] at hR
  cases hU
  cases hR
  have vec : ∀ {α : Type} (v v' : Fin (3 * C.elements.length + 3) → α),
      (∀ d : Fin 3, (fun j : Fin (C.elements.length + 1) => v (dof j d)) = fun j => v' (dof j d)) → v = v' := by
    intro α v v' hv
    funext i
    have hi : dof (⟨i.1 / 3, by omega⟩ : Fin (C.elements.length + 1)) ⟨i.1 % 3, by omega⟩ = i := by
      refine Fin.ext ?_
      simp only [dof]
      omega
    rw [← hi]
    exact congrFun (hv _) _
  obtain rfl : U = U' := vec _ _ (fun d => List.ofFn_injective ((hUv d).symm.trans (hUv' d)))
  obtain rfl : R = R' := vec _ _ (fun d => List.ofFn_injective ((hRv d).symm.trans (hRv' d)))
  have hn : C.nodes.length = C.elements.length + 1 := by rw [hz, List.length_ofFn]
  obtain ⟨J, hJ⟩ : ∃ J : Fin (C.elements.length + 1), J.1 = j := ⟨⟨j, by omega⟩, rfl⟩
  have hload : ∀ (g : Nodal ℤ) (F : Fin (3 * C.elements.length + 3) → K),
      (∀ d, (g.get (axisOf d)).map (fun i : ℤ => (i : K)) = List.ofFn (fun j => F (dof j d))) →
      ∀ (k : Fin (C.elements.length + 1)) (d : Fin 3), F (dof k d) = load (g.get (axisOf d)) k.1 := by
    intro g F hF k d
    have := congrArg (fun l => l[k.1]?) (hF d)
    simp only [List.getElem?_map, List.getElem?_ofFn, k.2, dif_pos] at this
    unfold load
    rw [List.getD_eq_getElem?_getD]
    rcases hk : (g.get (axisOf d))[k.1]? with _ | v
    · rw [hk] at this
      cases this
    · rw [hk] at this
      exact (Option.some.inj this).symm
  have helev : ∀ k : Fin (C.elements.length + 1), elev C k.1 = z k := by
    intro k
    unfold elev
    rw [hz, List.getD_eq_getElem?_getD, List.getElem?_ofFn, dif_pos k.2]
    rfl
  have hlen : (fun i : Fin C.elements.length => (el i).L) = fun i => |z i.castSucc - z i.succ| := by
    funext i
    obtain ⟨s, -, e⟩ := hel i
    rw [e]
    rfl
  have hdepth : ∀ k : Fin (C.elements.length + 1), nodeDepth (fun i => (el i).L) J - nodeDepth (fun i => (el i).L) k
      = elev C k.1 - elev C j := by
    intro k
    rw [hlen, depth_of_elevations z hanti, depth_of_elevations z hanti, helev, ← hJ, helev]
    ring
  have sums : ∀ f : ℕ → K, ∑ k ∈ Finset.Iic J, f k.1 = ∑ k ∈ Finset.range (j + 1), f k := by
    intro f
    refine (Finset.sum_map (Finset.Iic J) Fin.valEmbedding f).symm.trans ?_
    congr 1
    ext k
    simp only [Finset.mem_map, Finset.mem_Iic, Fin.valEmbedding_apply, Finset.mem_range]
    constructor
    · rintro ⟨a, ha, rfl⟩
      have := Fin.le_def.1 ha
      omega
    · intro hk
      exact ⟨⟨k, by have := J.2; omega⟩, Fin.le_def.2 (by simp only; omega), rfl⟩
  have hequiv : Equivalent (nodeDepth (fun i => (el i).L)) J F F' := by
    simp only [loadsAbove, Prod.mk.injEq] at hres
    obtain ⟨q0, q1, q2⟩ := hres
    refine ⟨fun k hk c => ?_, ?_, ?_, ?_⟩
    · rw [hload _ _ hF, hload _ _ hF', load, load, List.getD_eq_getElem?_getD, List.getD_eq_getElem?_getD,
        hbelow k.1 (by rw [← hJ]; exact Fin.lt_def.1 hk)]
    · simp only [hload _ _ hF, hload _ _ hF']
      rw [sums (fun k => load (g.get (axisOf 0)) k), sums (fun k => load (g'.get (axisOf 0)) k)]
      exact q0
    · simp only [hload _ _ hF, hload _ _ hF']
      rw [sums (fun k => load (g.get (axisOf 1)) k), sums (fun k => load (g'.get (axisOf 1)) k)]
      exact q1
    · simp only [hload _ _ hF, hload _ _ hF', hdepth]
      rw [sums (fun k => load (g.get (axisOf 2)) k - (elev C k - elev C j) * load (g.get (axisOf 1)) k),
        sums (fun k => load (g'.get (axisOf 2)) k - (elev C k - elev C j) * load (g'.get (axisOf 1)) k)]
      exact q2
  have hsup : ∀ i, (R i || decide (U i ≠ 0)) = true → Below J i := by
    intro i hi
    by_contra hb
    unfold Below at hb
    obtain ⟨kk, hkk⟩ : ∃ kk : Fin (C.elements.length + 1), kk.1 = i.1 / 3 := ⟨⟨i.1 / 3, by omega⟩, rfl⟩
    obtain ⟨cc, hcc⟩ : ∃ cc : Fin 3, cc.1 = i.1 % 3 := ⟨⟨i.1 % 3, by omega⟩, rfl⟩
    have hi' : dof kk cc = i := by
      refine Fin.ext ?_
      simp only [dof]
      omega
    obtain ⟨⟨gr, f1, f2⟩, ⟨gd, f3, f4⟩⟩ := hfree kk.1 (by omega) (axisOf cc)
    rw [hgR] at f1
    rw [hgU] at f3
    cases f1
    cases f3
    rw [hRv, List.getElem?_ofFn, dif_pos kk.2] at f2
    rw [hUv, List.getElem?_ofFn, dif_pos kk.2] at f4
    rw [← hi', Option.some.inj f2, Option.some.inj f4] at hi
    simp at hi
  have hrg := regular_of_elements hreg hanti hel
  have hrides : Rides (fun i => (el i).L) J (beamStiffness ty C.elements.length el) := by
    rw [beam_is_soil]
    exact rides_soil ty el (fun i => (hrg i).L) (fun i => (hrg i).p) _ 0 0 0 J (fun _ _ => rfl)
  rw [hs] at hT
  rw [hs'] at hT'
  obtain ⟨u, Q, f, hb, t1, t2, t3, t4⟩ := tables_of_beam ty n1 z el F U R T hT
  obtain ⟨u', Q', f', hb', t1', t2', t3', t4'⟩ := tables_of_beam ty n1 z el F' U R T' hT'
  unfold beam at hb hb'
  simp only [Option.map_eq_some_iff, Prod.mk.injEq] at hb hb'
  obtain ⟨⟨v, W⟩, hsol, rfl, rfl, rfl⟩ := hb
  obtain ⟨⟨v', W'⟩, hsol', rfl, rfl, rfl⟩ := hb'
  simp only at t1 t1' t3 t3' t4 t4'
  obtain ⟨r1, r2, -⟩ := solve_equivalent hrides hsup (sameWork_of_equivalent _ _ _ _ hequiv) hsol hsol'
  have hW : W = W' := by
    funext i
    by_cases hi : Below J i
    · exact r2 i hi
    · have : (R i || decide (U i ≠ 0)) = false := by
        rw [← Bool.not_eq_true]
        exact fun h => hi (hsup i h)
      rw [((C15_solution _ _ _ _ _ _ hsol).1 i this).2, ((C15_solution _ _ _ _ _ _ hsol').1 i this).2]
  refine ⟨?_, ?_, ?_⟩
  · apply List.ext_getElem?
    intro k
    rw [List.getElem?_drop, List.getElem?_drop, t1, t1', List.getElem?_ofFn, List.getElem?_ofFn]
    by_cases hk : j + k < C.elements.length + 1
    · rw [dif_pos hk, dif_pos hk]
      have e : ∀ c, v (dof ⟨j + k, hk⟩ c) = v' (dof ⟨j + k, hk⟩ c) := fun c => r1 _ (by
        simp only [Below, dof]
        omega)
      rw [e, e, e]
    · rw [dif_neg hk, dif_neg hk]
  · apply List.ext_getElem?
    intro k
    rw [List.getElem?_drop, List.getElem?_drop]
    by_cases hk : 2 * j + k < 2 * C.elements.length
    · have hi : (2 * j + k) / 2 < C.elements.length := by omega
      have hst : stacked v ⟨(2 * j + k) / 2, hi⟩ = stacked v' ⟨(2 * j + k) / 2, hi⟩ := by
        funext c
        refine r1 _ ?_
        simp only [Below]
        omega
      obtain ⟨x1, x2⟩ := t3 ⟨(2 * j + k) / 2, hi⟩
      obtain ⟨y1, y2⟩ := t3' ⟨(2 * j + k) / 2, hi⟩
      have hf : internalForces ty el v ⟨(2 * j + k) / 2, hi⟩ = internalForces ty el v' ⟨(2 * j + k) / 2, hi⟩ := by
        unfold internalForces
        rw [hst]
      rw [hf] at x1 x2
      rcases Nat.mod_two_eq_zero_or_one (2 * j + k) with hm | hm
      · have : 2 * ((2 * j + k) / 2) = 2 * j + k := by omega
        simp only [this] at x1 y1
        rw [x1, y1]
      · have : 2 * ((2 * j + k) / 2) + 1 = 2 * j + k := by omega
        simp only [this] at x2 y2
        rw [x2, y2]
    · rw [List.getElem?_eq_none (by omega), List.getElem?_eq_none (by omega)]
  · rw [t4, t4', hW]

/-- **C95, without soil, as the user meets it.** As `C95_tables`, for the mesh that the Model makes. -/
theorem C95_model (pi : K) (hpi : 0 < pi) (ty : ElementType) (uw E nu : K) (mat : Pile.Material K)
    (hm : Pile.mkMaterial uw E nu = some mat) (hnu : ty = .timoshenko → -(3 / 4) ≤ nu)
    (sections : List (Pile.Section K)) (hb : ∀ s ∈ sections, Spec.Pile.Built s ∧ s.thickness < s.diameter)
    (p : Pile.Pile K) (hp : Pile.mkPile sections mat = .ok p) (top tip : K) (htop : p.topElevation = some top)
    (htip : p.bottomElevation = some tip) (x2 : List K) (c : K) (hc : 1 / 100 ≤ c)
    (hgrid : ∀ r, Spec.Mesh.Required p tip none x2 r → Spec.Mesh.OnGrid r) (hin : ∀ x ∈ x2, tip ≤ x ∧ x ≤ top)
    (bcs bcs' : List (Cond K)) (T T' : Tables K) (hT : solveModel pi ty p x2 c bcs = some T)
    (hT' : solveModel pi ty p x2 c bcs' = some T') :
    ∃ C, getCoordinates p none x2 c = some C ∧ (globalDisp C.nodes bcs = globalDisp C.nodes bcs' →
      globalRestrained C.nodes bcs = globalRestrained C.nodes bcs' → ∀ j < C.nodes.length,
      (∀ k < j, ∀ a, Free C.nodes bcs a k) → ∀ g g', globalForces C.nodes bcs = .ok g →
      globalForces C.nodes bcs' = .ok g' → (∀ k, j < k → ∀ a, (g.get a)[k]? = (g'.get a)[k]?) →
      loadsAbove C g j (elev C j) = loadsAbove C g' j (elev C j) →
      T.disp.drop j = T'.disp.drop j ∧ T.forces.drop (2 * j) = T'.forces.drop (2 * j) ∧ T.reactions = T'.reactions) := by
  obtain ⟨hst, hreg, C, hC, hmesh, hs⟩ := ready pi hpi ty uw E nu mat hm hnu sections hb p hp top tip htop htip x2 c hc
    hgrid hin
  rw [hs] at hT hT'
  exact ⟨C, hC, fun hU hR j hj hfree g g' hg hg' hbelow hres =>
    C95_tables pi ty p top tip hst hreg C hmesh bcs bcs' T T' hT hT' hU hR j hj hfree g g' hg hg' hbelow hres⟩

/-! ### cases that meet the hypotheses -/

/-- The load of `bcsF` moved from the head to elevation -4, with its moment about that point: 100 acting 4 above. -/
def bcsG : List (Cond ℚ) :=
  BC.run [] [.pointload (-4) (some 100) (some (-500)) (some (-400)), .support (-10) (some true) (some true) (some true)]

theorem solvedG (ty : ElementType) : ∃ T, solveOn (22 / 7) ty pileE nodesE bcsG = some T := by
  rw [← Option.ne_none_iff_exists']
  refine (C20_tables (22 / 7) (by norm_num) ty 78 210000000 (3 / 10) pileE (by decide +kernel)
    (fun _ => by norm_num) 0 (-10) stackE builtE nodesE meshE bcsG).2 ⟨?_, ?_, ?_⟩
  · intro cls
    cases cls <;> decide +kernel
  · exact ⟨5, by decide, Or.inl (by decide +kernel)⟩
  · exact ⟨5, by decide, Or.inl (by decide +kernel), Or.inl ⟨5, by decide, Or.inl (by decide +kernel)⟩⟩

/-- A stepped pile loaded at the head, and loaded by the equivalent force and moment 4 m further down: the same results from
there on. -/
example (ty : ElementType) : ∃ T T', solveOn (22 / 7) ty pileE nodesE bcsF = some T ∧
    solveOn (22 / 7) ty pileE nodesE bcsG = some T' ∧ T.disp.drop 2 = T'.disp.drop 2 ∧
    T.forces.drop 4 = T'.forces.drop 4 ∧ T.reactions = T'.reactions := by
  obtain ⟨T, hT⟩ := solvedF ty
  obtain ⟨T', hT'⟩ := solvedG ty
  refine ⟨T, T', hT, hT', C95_tables (22 / 7) ty pileE 0 (-10) stackE (regularF ty) nodesE meshE bcsF bcsG T T' hT hT'
    (by decide +kernel) (by decide +kernel) 2 (by decide) (fun k hk a => freeF k (by simp [nodesE]; omega) a)
    ⟨[0, 0, 0, 0, 0, 0], [100, 0, 0, 0, 0, 0], [-500, 0, 0, 0, 0, 0]⟩
    ⟨[0, 0, -400, 0, 0, 0], [0, 0, 100, 0, 0, 0], [0, 0, -500, 0, 0, 0]⟩ (by decide +kernel) (by decide +kernel) ?_
    (by decide +kernel)⟩
  intro k hk a
  obtain ⟨m, rfl⟩ : ∃ m, k = m + 3 := ⟨k - 3, by omega⟩
  cases a <;> rfl

/-! ### loads that the Model cannot hold -/

/-- One section, one metre long, with a node half way. -/
def pileT : Pile.Pile ℚ := ⟨[⟨0, -1, 1, 1 / 20⟩], Pile.steel⟩

def nodesT : Coordinates ℚ := ⟨[0, -1 / 2, -1], [(0, -1 / 2), (-1 / 2, -1)]⟩

theorem stackT : Stack pileT 0 (-1) := ⟨by simp [pileT], by simp [pileT], rfl, rfl⟩

theorem meshT : MeshOn pileT 0 (-1) nodesT := ⟨by decide +kernel, by decide +kernel, rfl, rfl, by decide +kernel⟩

theorem builtT : ∀ s ∈ pileT.sections, Spec.Pile.Built s ∧ s.thickness < s.diameter := by
  intro s hs
  simp only [pileT, List.mem_singleton] at hs
  subst hs
  exact ⟨⟨0, -1, 1, some (1 / 20), by decide +kernel⟩, by norm_num⟩

/-- A force of 101 at the head. -/
def bcsHead : List (Cond ℚ) :=
  BC.run [] [.pointload 0 (some 101) none none, .support (-1) (some true) (some true) (some true)]

/-- The same force half a metre further down and its moment about that point. -/
def bcsDown : List (Cond ℚ) :=
  BC.run [] [.pointload (-1 / 2) (some 101) none (some (-101 / 2)), .support (-1) (some true) (some true) (some true)]

theorem regularT (ty : ElementType) :
    ∀ s ∈ pileT.sections, ∀ L : ℚ, 0 < L → Regular ty (elemOf (22 / 7) pileT.material s L) :=
  fun s hs L hL => regular_of_built (22 / 7) (by norm_num) ty 78 210000000 (3 / 10) pileT.material
    (by decide +kernel) (fun _ => by norm_num) s (builtT s hs).1 (builtT s hs).2 L hL

theorem solvedT (ty : ElementType) (bcs : List (Cond ℚ)) (h : bcs = bcsHead ∨ bcs = bcsDown) :
    ∃ T, solveOn (22 / 7) ty pileT nodesT bcs = some T := by
  rw [← Option.ne_none_iff_exists']
  refine (C20_tables (22 / 7) (by norm_num) ty 78 210000000 (3 / 10) pileT (by decide +kernel)
    (fun _ => by norm_num) 0 (-1) stackT builtT nodesT meshT bcs).2 ⟨?_, ?_, ?_⟩
  · rcases h with rfl | rfl <;> · intro cls; cases cls <;> decide +kernel
  · refine ⟨2, by decide, Or.inl ?_⟩
    rcases h with rfl | rfl <;> decide +kernel
  · refine ⟨2, by decide, Or.inl ?_, Or.inl ⟨2, by decide, Or.inl ?_⟩⟩ <;> rcases h with rfl | rfl <;> decide +kernel

theorem freeT (bcs : List (Cond ℚ)) (h : bcs = bcsHead ∨ bcs = bcsDown) (k : ℕ) (hk : k ≤ 1) (a : Axis) :
    Free nodesT.nodes bcs a k := by
  have hr : globalRestrained nodesT.nodes bcs = .ok ⟨[false, false, true], [false, false, true], [false, false, true]⟩ := by
    rcases h with rfl | rfl <;> decide +kernel
  have hd : globalDisp nodesT.nodes bcs = .ok ⟨[0, 0, 0], [0, 0, 0], [0, 0, 0]⟩ := by
    rcases h with rfl | rfl <;> decide +kernel
  have hk : k = 0 ∨ k = 1 := by omega
  refine ⟨⟨_, hr, ?_⟩, ⟨_, hd, ?_⟩⟩ <;> rcases hk with rfl | rfl <;> cases a <;> rfl

/-- **C95 is violated by moments that are not whole numbers.** A force of 101 half a metre above a section, and the same force at
the section with the moment -50.5: the Model keeps the moment as -50, and the bending moments below the section differ. -/
theorem C95_violated_truncation (ty : ElementType) : ∃ T T', solveOn (22 / 7) ty pileT nodesT bcsHead = some T ∧
    solveOn (22 / 7) ty pileT nodesT bcsDown = some T' ∧
    T.forces[2]? = some ((-1 / 2, 0, 101, -101 / 2) : ℚ × ℚ × ℚ × ℚ) ∧
    T'.forces[2]? = some ((-1 / 2, 0, 101, -50) : ℚ × ℚ × ℚ × ℚ) := by
  obtain ⟨T, hT⟩ := solvedT ty bcsHead (.inl rfl)
  obtain ⟨T', hT'⟩ := solvedT ty bcsDown (.inr rfl)
  refine ⟨T, T', hT, hT', ?_, ?_⟩
  · obtain ⟨g, hg, h⟩ := C80_tables (22 / 7) ty pileT 0 (-1) stackT (regularT ty) nodesT meshT bcsHead T hT
    obtain ⟨N, V, M, M', a1, -, -, -, -, -, a3⟩ := h 1 (-1 / 2) (-1) rfl rfl
    obtain ⟨a4, -⟩ := a3 (freeT bcsHead (.inl rfl))
    have hgv : globalForces nodesT.nodes bcsHead = .ok ⟨[0, 0, 0], [101, 0, 0], [0, 0, 0]⟩ := by decide +kernel
    rw [hgv] at hg
    cases hg
    rw [a1, a4]
    decide +kernel
  · obtain ⟨g, hg, h⟩ := C80_tables (22 / 7) ty pileT 0 (-1) stackT (regularT ty) nodesT meshT bcsDown T' hT'
    obtain ⟨N, V, M, M', a1, -, -, -, -, -, a3⟩ := h 1 (-1 / 2) (-1) rfl rfl
    obtain ⟨a4, -⟩ := a3 (freeT bcsDown (.inr rfl))
    have hgv : globalForces nodesT.nodes bcsDown = .ok ⟨[0, -50, 0], [0, 101, 0], [0, 0, 0]⟩ := by decide +kernel
    rw [hgv] at hg
    cases hg
    rw [a1, a4]
    decide +kernel

end tables

/-! ### a case with soil -/

section soilCase
open OpenPile.Props.FreeBody OpenPile.Props.LinearRange

/-- The node at the ground moves by 0.05 m, the head by `a`. -/
noncomputable def uH (a : ℝ) : Fin (3 * 2 + 3) → ℝ := fun r => if r.1 = 1 then a else if r.1 = 4 then 1 / 20 else 0

noncomputable def loadH (a : ℝ) : Fin (3 * 2 + 3) → ℝ := matG *ᵥ uH a

theorem solveH (a : ℝ) : solveEquations matG (loadH a) 0 (fun i => fixG i || decide ((0 : Fin (3 * 2 + 3) → ℝ) i ≠ 0))
    = some (uH a, 0) := by
  have hn : solveEquations matG (loadH a) 0 (fun i => fixG i || decide ((0 : Fin (3 * 2 + 3) → ℝ) i ≠ 0)) ≠ none := by
    intro h
    rw [C15_fails_iff, ← C15_fails_iff matG loadG 0, solveG] at h
    cases h
  rw [solve_eq_some matG (loadH a) 0 _ hn (uH a) (fun i _ => rfl)]
  · congr 2
    funext i
    simp [loadH]
  · intro i hi
    have : 6 ≤ i.1 := by simpa [fixG] using hi
    unfold uH
    rw [if_neg (by omega), if_neg (by omega)]
    rfl

theorem smallH (a : ℝ) (ha : |a| ≤ 1) : SmallDisplacements spG (uH a) := by
  refine ⟨fun _ e b => ?_, ?_, rfl, ?_, ?_, ?_⟩
  · have he : e = 0 ∨ e = 1 := by fin_cases e <;> simp
    rcases he with rfl | rfl
    · exact .inl (by simp [spG])
    · refine .inr ⟨1, 210, [], by simp [spG], by simp [spG, Asc], ?_⟩
      unfold uH
      split
      · exact ha
      · split <;> norm_num
  all_goals intro h; cases h

theorem loadH_at (a : ℝ) : loadH a (dof 0 0) = 0 ∧ loadH a (dof 0 1) = 12 * a - 3 / 5 ∧ loadH a (dof 0 2) = 6 * a - 3 / 10 ∧
    loadH a (dof 1 0) = 0 ∧ loadH a (dof 1 1) = 51 / 10 - 12 * a ∧ loadH a (dof 1 2) = 6 * a + 11 / 20 := by
  refine ⟨?_, ?_, ?_, ?_, ?_, ?_⟩ <;>
  · unfold loadH
    simp [matG, soilStiffness, assemble, place, baseMatrix, mulVec, dotProduct, Fin.sum_univ_succ, uH, elemMatrix,
      mechMatrix, beamMatrix, pyMatrix, tzMatrix, mtMatrix, mtPattern, mtCoeffs, elG, kG, phi, kappa, dof]
    try ring

/-- A pile of which the upper half stands above the ground, under two sets of loads on the free part that move the head to
0.15 m and to 0; at the ground and below both analyses give the same. -/
example : ∃ t t', winkler (buildStiffness .eulerBernoulli elG spG) (loadH (3 / 20)) 0 fixG 100 = .converged (uH (3 / 20)) 0 2 t 0 ∧
    winkler (buildStiffness .eulerBernoulli elG spG) (loadH 0) 0 fixG 100 = .converged (uH 0) 0 2 t' 0 ∧
    (∀ i : Fin 2, i.1 < (1 : Fin 3).1 → Bare spG i) ∧
    (∀ k : Fin 3, k < 1 → ∀ c, fixG (dof k c) = false ∧ (0 : Fin (3 * 2 + 3) → ℝ) (dof k c) = 0) ∧
    Equivalent (nodeDepth (fun i => (elG i).L)) 1 (loadH (3 / 20)) (loadH 0) ∧
    loadH (3 / 20) (dof 0 1) = 6 / 5 ∧ loadH 0 (dof 0 1) = -3 / 5 := by
  obtain ⟨a0, a1, a2, a3, a4, a5⟩ := loadH_at (3 / 20)
  obtain ⟨b0, b1, b2, b3, b4, b5⟩ := loadH_at 0
  obtain ⟨t, ht⟩ := C60_linear_partial .eulerBernoulli elG spG (loadH (3 / 20)) 0 fixG matG (uH (3 / 20)) 0 initG
    (solveH _) (smallH _ (by norm_num [abs_of_pos])) ⟨dof 0 1, by rw [a1]; norm_num⟩ 100 (by norm_num)
  obtain ⟨t', ht'⟩ := C60_linear_partial .eulerBernoulli elG spG (loadH 0) 0 fixG matG (uH 0) 0 initG
    (solveH _) (smallH _ (by norm_num)) ⟨dof 0 1, by rw [b1]; norm_num⟩ 100 (by norm_num)
  have hI : Finset.Iic (1 : Fin 3) = {0, 1} := by decide
  refine ⟨t, t', ht, ht', ?_, ?_, ⟨?_, ?_, ?_, ?_⟩, by rw [a1]; norm_num, by rw [b1]; norm_num⟩
  · intro i hi
    have : i = 0 := by
      rw [Fin.ext_iff]
      exact Nat.lt_one_iff.1 hi
    subst this
    exact ⟨fun b q hq => by simp [spG] at hq; rw [hq], fun b q hq => by simp [spG] at hq,
      fun b r hr => by simp [spG] at hr⟩
  · intro k hk c
    have hk0 : k.1 < 1 := Fin.lt_def.1 hk
    have := c.2
    refine ⟨decide_eq_false ?_, rfl⟩
    simp only [dof]
    omega
  · intro k hk c
    have hk2 : k = 2 := by
      have := Fin.lt_def.1 hk
      refine Fin.ext ?_
      simp at this ⊢
      omega
    subst hk2
    have hz : ∀ a, loadH a (dof 2 c) = loadH 0 (dof 2 c) := by
      intro a
      fin_cases c <;>
      · unfold loadH
        simp [matG, soilStiffness, assemble, place, baseMatrix, mulVec, dotProduct, Fin.sum_univ_succ, uH, elemMatrix,
          mechMatrix, beamMatrix, pyMatrix, tzMatrix, mtMatrix, mtPattern, mtCoeffs, elG, kG, phi, kappa, dof]
    exact hz _
  · rw [hI, Finset.sum_pair (by decide), Finset.sum_pair (by decide), a0, a3, b0, b3]
  · rw [hI, Finset.sum_pair (by decide), Finset.sum_pair (by decide), a1, a4, b1, b4]
    norm_num
  · rw [hI, Finset.sum_pair (by decide), Finset.sum_pair (by decide), a1, a2, a4, a5, b1, b2, b4, b5]
    simp [nodeDepth, elG]
    norm_num

end soilCase

end OpenPile.Props.SameBelow

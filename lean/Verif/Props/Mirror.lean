/-
Property C58: reversing the lateral loading reverses the lateral response.
-/
import Verif.Props.Winkler
import Verif.Props.Beam
import Verif.Props.SoilStiffness

namespace OpenPile.Props.Mirror
open OpenPile.Kernel OpenPile.Winkler OpenPile.Spring OpenPile.Props.Solve OpenPile.Spec.Kernel Matrix

variable {K : Type} [Field K] [LinearOrder K] [IsStrictOrderedRing K]

section abstract
variable {ι : Type} [Fintype ι] [DecidableEq ι]

/-- Componentwise sign change. -/
def flip (σ : ι → K) (v : ι → K) : ι → K := fun i => σ i * v i

/-- A vector of signs. -/
def Signs (σ : ι → K) : Prop := ∀ i, σ i = 1 ∨ σ i = -1

/-- A matrix without coupling between components of different sign. -/
def Uncoupled (σ : ι → K) (A : Matrix ι ι K) : Prop := ∀ i j, σ i ≠ σ j → A i j = 0

/-- The same for the result of an analysis. -/
def flipOutcome (σ : ι → K) : Outcome ι K → Outcome ι K
  | .converged d Q it t r => .converged (flip σ d) (flip σ Q) it t r
  | .exhausted d Q it t r => .exhausted (flip σ d) (flip σ Q) it t r
  | .nan it => .nan it
  | .raised => .raised

theorem sq_sign {σ : ι → K} (hσ : Signs σ) (i : ι) : σ i * σ i = 1 := by
  rcases hσ i with h | h <;> rw [h] <;> norm_num

theorem flip_flip {σ : ι → K} (hσ : Signs σ) (v : ι → K) : flip σ (flip σ v) = v := by
  funext i
  unfold flip
  rw [← mul_assoc, sq_sign hσ, one_mul]

theorem mulVec_flip {σ : ι → K} (A : Matrix ι ι K) (hA : Uncoupled σ A) (v : ι → K) :
    A *ᵥ flip σ v = flip σ (A *ᵥ v) := by
  funext i
  unfold flip mulVec dotProduct
  rw [Finset.mul_sum]
  refine Finset.sum_congr rfl (fun j _ => ?_)
  by_cases h : σ i = σ j
  · show A i j * (σ j * v j) = σ i * (A i j * v j)
    rw [h]; ring
  · show A i j * (σ j * v j) = σ i * (A i j * v j)
    rw [hA i j h]; ring

theorem solve_flip {σ : ι → K} (hσ : Signs σ) (A : Matrix ι ι K) (hA : Uncoupled σ A) (F U : ι → K)
    (restr : ι → Bool) :
    solveEquations A (flip σ F) (flip σ U) restr
      = (solveEquations A F U restr).map (fun uq => (flip σ uq.1, flip σ uq.2)) := by
  rcases h : solveEquations A F U restr with _ | ⟨u, Q⟩
  · have := (C15_fails_iff A F U restr).1 h
    exact (C15_fails_iff A _ _ restr).2 this
  · have hn : solveEquations A (flip σ F) (flip σ U) restr ≠ none := by
      intro hn
      have := (C15_fails_iff A F U restr).2 ((C15_fails_iff A _ _ restr).1 hn)
      rw [h] at this
      exact absurd this (by simp)
    obtain ⟨h1, h2, h3⟩ := solve_some A F U restr u Q h
    rw [solve_eq_some A _ _ restr hn (flip σ u) ?_ ?_]
    · simp only [Option.map_some, Option.some.injEq, Prod.mk.injEq, true_and]
      funext i
      rw [mulVec_flip A hA]
      unfold flip
      rw [h3]
      ring
    · intro i hi
      rw [mulVec_flip A hA]
      unfold flip
      rw [h1 i hi]
    · intro i hi
      unfold flip
      rw [h2 i hi]

theorem normSq_flip {σ : ι → K} (hσ : Signs σ) (v : ι → K) : normSq (flip σ v) = normSq v := by
  unfold normSq flip
  refine Finset.sum_congr rfl (fun i _ => ?_)
  rw [mul_pow, pow_two (σ i), sq_sign hσ, one_mul]

theorem normSqFree_flip {σ : ι → K} (hσ : Signs σ) (sup : ι → Bool) (v : ι → K) :
    normSqFree sup (flip σ v) = normSqFree sup v := by
  unfold normSqFree flip
  refine Finset.sum_congr rfl (fun i _ => ?_)
  rw [mul_pow, pow_two (σ i), sq_sign hσ, one_mul]

/-- A stiffness law that does not depend on the direction. -/
structure Even (σ : ι → K) (build : Kind → (ι → K) → Option (Matrix ι ι K)) : Prop where
  same : ∀ kind u, build kind (flip σ u) = build kind u
  uncoupled : ∀ kind u A, build kind u = some A → Uncoupled σ A

theorem loop_flip {σ : ι → K} (hσ : Signs σ) {build : Kind → (ι → K) → Option (Matrix ι ι K)}
    (hb : Even σ build) (F U0 : ι → K) (sup : ι → Bool) (fuel : ℕ) :
    ∀ (it : ℕ) (d : ι → K) (A : Matrix ι ι K) (U Rg Q : ι → K) (t r : K), Uncoupled σ A →
      loop build (flip σ F) (flip σ U0) sup fuel it (flip σ d) A (flip σ U) (flip σ Rg) (flip σ Q) t r
        = flipOutcome σ (loop build F U0 sup fuel it d A U Rg Q t r) := by
  induction fuel with
  | zero => intro it d A U Rg Q t r _; rfl
  | succ fuel ih =>
    intro it d A U Rg Q t r hA
    rw [loop, loop, solve_flip hσ A hA]
    rcases h : solveEquations A Rg U sup with _ | ⟨u, Q1⟩
    · rfl
    · simp only [Option.map_some]
      have e1 : (fun i => flip σ F i - flip σ Q1 i) = flip σ (fun i => F i - Q1 i) := by
        funext i; unfold flip; ring
      have e2 : (fun i => flip σ d i + flip σ u i) = flip σ (fun i => d i + u i) := by
        funext i; unfold flip; ring
      rw [e1, e2, normSq_flip hσ, hb.same]
      rcases hs : build .secant (fun i => d i + u i) with _ | Ks
      · rfl
      · have hKs := hb.uncoupled _ _ _ hs
        have e3 : (fun i => flip σ F i - flip σ Q1 i - (Ks *ᵥ flip σ (fun i => d i + u i)) i)
            = flip σ (fun i => F i - Q1 i - (Ks *ᵥ (fun i => d i + u i)) i) := by
          funext i; rw [mulVec_flip Ks hKs]; unfold flip; ring
        simp only [e3, normSqFree_flip hσ, solve_flip hσ Ks hKs, hb.same]
        by_cases hc : normSqFree sup (fun i => F i - Q1 i - (Ks *ᵥ (fun i => d i + u i)) i)
            < (1 / 10000) ^ 2 * normSq (fun i => F i - Q1 i) ∧ 1 < it + 1
        · rw [if_pos hc, if_pos hc]
          rcases solveEquations Ks F U0 sup with _ | ⟨u', Q'⟩ <;> rfl
        · rw [if_neg hc, if_neg hc]
          by_cases h100 : it + 1 = 100
          · rw [if_pos h100, if_pos h100]; rfl
          · rw [if_neg h100, if_neg h100]
            rcases ht : build .tangent (fun i => d i + u i) with _ | Kt
            · rfl
            · have hz : (0 : ι → K) = flip σ 0 := by funext i; simp [flip]
              have := ih (it + 1) (fun i => d i + u i) Kt 0 (fun i => F i - Q1 i - (Ks *ᵥ (fun i => d i + u i)) i) Q1
                ((1 / 10000) ^ 2 * normSq (fun i => F i - Q1 i))
                (normSqFree sup (fun i => F i - Q1 i - (Ks *ᵥ (fun i => d i + u i)) i)) (hb.uncoupled _ _ _ ht)
              rw [← hz] at this
              exact this

/-- The iteration commutes with the sign change. -/
theorem winkler_flip {σ : ι → K} (hσ : Signs σ) {build : Kind → (ι → K) → Option (Matrix ι ι K)}
    (hb : Even σ build) (F U0 : ι → K) (fix : ι → Bool) (maxIter : ℕ) :
    winkler build (flip σ F) (flip σ U0) fix maxIter = flipOutcome σ (winkler build F U0 fix maxIter) := by
  unfold winkler
  rcases h : build .initial 0 with _ | A
  · rfl
  · have hz : (0 : ι → K) = flip σ 0 := by funext i; simp [flip]
    have hsup : (fun i => fix i || decide (flip σ U0 i ≠ 0)) = fun i => fix i || decide (U0 i ≠ 0) := by
      funext i
      congr 2
      unfold flip
      rcases hσ i with g | g <;> rw [g] <;> simp
    simp only [hsup]
    have := loop_flip hσ hb F U0 (fun i => fix i || decide (U0 i ≠ 0)) (maxIter + 1) 0 0 A U0 F 0 0 0
      (hb.uncoupled _ _ _ h)
    rw [← hz] at this
    exact this

end abstract

/-! ### a pile in soil -/

/-- The mirror image of the lateral direction: settlements and axial forces stay, deflections, rotations, lateral
forces and moments change sign. -/
def mirror {n : ℕ} : Fin (3 * n + 3) → K := fun r => if r.1 % 3 = 0 then 1 else -1

theorem mirror_signs {n : ℕ} : Signs (mirror : Fin (3 * n + 3) → K) := by
  intro i
  unfold mirror
  split <;> simp

theorem mech_uncoupled (ty : ElementType) (e : Elem K) (a b : Fin 6) (h : (a.1 % 3 = 0) ≠ (b.1 % 3 = 0)) :
    mechMatrix ty e a b = 0 := by
  fin_cases a <;> fin_cases b <;> first | (exfalso; revert h; decide) | simp [mechMatrix, beamMatrix]

theorem soil_uncoupled (ty : ElementType) (e : Elem K) (L x y : K) (a b : Fin 6)
    (h : (a.1 % 3 = 0) ≠ (b.1 % 3 = 0)) :
    pyMatrix L x y a b = 0 ∧ tzMatrix L x y a b = 0 ∧ mtMatrix ty e x y a b = 0 := by
  fin_cases a <;> fin_cases b <;>
    first | (exfalso; revert h; decide) | simp [pyMatrix, tzMatrix, mtMatrix, mtPattern]

theorem elem_uncoupled (ty : ElementType) (e : Elem K) (s : SoilK K) (a b : Fin 6)
    (h : (a.1 % 3 = 0) ≠ (b.1 % 3 = 0)) : elemMatrix ty e s a b = 0 := by
  unfold elemMatrix
  simp only [Matrix.add_apply, mech_uncoupled ty e a b h, (soil_uncoupled ty e e.L s.py.1 s.py.2 a b h).1,
    (soil_uncoupled ty e e.L s.tz.1 s.tz.2 a b h).2.1, (soil_uncoupled ty e e.L s.mt.1 s.mt.2 a b h).2.2, add_zero]

theorem mirror_ne {n : ℕ} (r c : Fin (3 * n + 3)) (h : (mirror r : K) ≠ mirror c) :
    (r.1 % 3 = 0) ≠ (c.1 % 3 = 0) := by
  intro he
  apply h
  unfold mirror
  by_cases h1 : r.1 % 3 = 0
  · rw [if_pos h1, if_pos (he ▸ h1)]
  · rw [if_neg h1, if_neg (he ▸ h1)]

/-- Axial and lateral degrees of freedom are not coupled. -/
theorem stiffness_uncoupled (ty : ElementType) {n : ℕ} (el : Fin n → Elem K) (s : Fin n → SoilK K) (h m q : K) :
    Uncoupled (mirror : Fin (3 * n + 3) → K) (soilStiffness ty n el s h m q) := by
  intro r c hrc
  have hne := mirror_ne r c hrc
  unfold soilStiffness assemble
  rw [Matrix.add_apply, Matrix.sum_apply]
  have h1 : ∀ i : Fin n, place n i (elemMatrix ty (el i) (s i)) r c = 0 := by
    intro i
    unfold place
    split
    · apply elem_uncoupled
      simp only
      intro he
      apply hne
      rw [show (r.1 % 3 = 0) = ((r.1 - 3 * i.1) % 3 = 0) by apply propext; constructor <;> intro <;> omega,
        show (c.1 % 3 = 0) = ((c.1 - 3 * i.1) % 3 = 0) by apply propext; constructor <;> intro <;> omega]
      exact he
    · rfl
  rw [Finset.sum_eq_zero (fun i _ => h1 i), zero_add]
  unfold baseMatrix
  rw [if_neg, if_neg, if_neg]
  all_goals
    rintro ⟨a, b⟩
    apply hne
    rw [a, b]

/-- Every spring is evaluated at the displacement of one node. -/
theorem disp_at_node {n : ℕ} (s : Fin 3) (e : Fin n) (b : Bool) :
    ∃ j : Fin (n + 1), ∀ u : Fin (3 * n + 3) → K, springDisp u s e b = some (u (dof j s)) := by
  cases b with
  | false => exact ⟨e.castSucc, fun u => (OpenPile.Props.Winkler.C52_own_node_partial u s e).1⟩
  | true =>
    by_cases h : e.1 + 1 < n
    · exact ⟨e.succ, fun u => (OpenPile.Props.Winkler.C52_own_node_partial u s e).2 h⟩
    · obtain ⟨m, rfl⟩ : ∃ m, n = m + 1 := ⟨n - 1, by have := e.2; omega⟩
      have he : e = Fin.last m := by apply Fin.ext; simp only [Fin.val_last]; omega
      subst he
      exact ⟨(Fin.last m).castSucc, fun u => OpenPile.Props.Winkler.C52_violated u s⟩

theorem flip_dof {n : ℕ} (u : Fin (3 * n + 3) → K) (j : Fin (n + 1)) :
    flip mirror u (dof j 0) = u (dof j 0) ∧ flip mirror u (dof j 1) = -u (dof j 1) ∧
      flip mirror u (dof j 2) = -u (dof j 2) := by
  have h0 : (3 * j.1 + 0) % 3 = 0 := by omega
  have h1 : ¬ (3 * j.1 + 1) % 3 = 0 := by omega
  have h2 : ¬ (3 * j.1 + 2) % 3 = 0 := by omega
  unfold flip mirror dof
  refine ⟨?_, ?_, ?_⟩
  · show (if (3 * j.1 + 0) % 3 = 0 then (1 : K) else -1) * _ = _
    rw [if_pos h0, one_mul]
  · show (if (3 * j.1 + 1) % 3 = 0 then (1 : K) else -1) * _ = _
    rw [if_neg h1, neg_one_mul]
  · show (if (3 * j.1 + 2) % 3 = 0 then (1 : K) else -1) * _ = _
    rw [if_neg h2, neg_one_mul]

/-- The rotational springs do not depend on the mobilised lateral resistance: all rows of the table are equal. -/
def SameRows (rows : MtTable K) : Prop := ∃ row, ∀ r ∈ rows, r.2 = row

theorem interp_flat (x y c : K) (l : List (K × K)) (h : ∀ q ∈ l, q.2 = c) : interp x l = interp y l := by
  rcases l with _ | ⟨q, t⟩
  · rfl
  · obtain ⟨a, ha⟩ := interp_some x (q :: t) (by simp)
    obtain ⟨b, hb⟩ := interp_some y (q :: t) (by simp)
    have h1 := interp_bounds x a c c _ ha (fun q hq => by rw [h q hq]; simp)
    have h2 := interp_bounds y b c c _ hb (fun q hq => by rw [h q hq]; simp)
    rw [ha, hb, le_antisymm h1.2 h1.1, le_antisymm h2.2 h2.1]

theorem mapM_mem {α β : Type} (f : α → Option β) : ∀ (l : List α) (m : List β), l.mapM f = some m →
    ∀ q ∈ m, ∃ r ∈ l, f r = some q
  | [], m, h, q, hq => by
    simp at h; subst h; simp at hq
  | a :: l, m, h, q, hq => by
    rw [List.mapM_cons] at h
    simp only [Option.bind_eq_bind, Option.bind_eq_some_iff, Option.pure_def, Option.some.injEq] at h
    obtain ⟨b, hb, m', hm', rfl⟩ := h
    rcases List.mem_cons.1 hq with rfl | hq
    · exact ⟨a, by simp, hb⟩
    · obtain ⟨r, hr, e⟩ := mapM_mem f l m' hm' q hq
      exact ⟨r, by simp [hr], e⟩

theorem bind_interp (rows : MtTable K) (hs : SameRows rows) (c : ℕ) (g : K × K → K) (x y : K) :
    (rows.mapM (fun r => (r.2[c]?).map (fun q => (r.1, g q)))).bind (interp x)
      = (rows.mapM (fun r => (r.2[c]?).map (fun q => (r.1, g q)))).bind (interp y) := by
  obtain ⟨row, hrow⟩ := hs
  rcases h : rows.mapM (fun r => (r.2[c]?).map (fun q => (r.1, g q))) with _ | ms
  · rw [h]; rfl
  · have hm := mapM_mem _ _ _ h
    rcases hc : row[c]? with _ | q0
    · have : ms = [] := by
        rcases ms with _ | ⟨q, t⟩
        · rfl
        · obtain ⟨r, hr, e⟩ := hm q (by simp)
          rw [hrow r hr, hc] at e
          simp at e
      subst this
      rw [h]; rfl
    · rw [h]
      refine interp_flat x y (g q0) ms (fun q hq => ?_)
      obtain ⟨r, hr, e⟩ := hm q hq
      rw [hrow r hr, hc] at e
      simp only [Option.map_some, Option.some.injEq] at e
      rw [← e]

theorem mtCurve_same (rows : MtTable K) (hs : SameRows rows) (n : ℕ) (x y : K) :
    mtCurve rows n x = mtCurve rows n y := by
  have : ∀ c : ℕ, (do
      let ms ← rows.mapM (fun r => (r.2[c + 1]?).map (fun q => (r.1, q.2)))
      let ts ← rows.mapM (fun r => (r.2[c + 1]?).map (fun q => (r.1, q.1)))
      let m ← interp x ms
      let t ← interp x ts
      return (t, m) : Option (K × K)) = (do
      let ms ← rows.mapM (fun r => (r.2[c + 1]?).map (fun q => (r.1, q.2)))
      let ts ← rows.mapM (fun r => (r.2[c + 1]?).map (fun q => (r.1, q.1)))
      let m ← interp y ms
      let t ← interp y ts
      return (t, m) : Option (K × K)) := by
    intro c
    have h1 := bind_interp rows hs (c + 1) (·.2) x y
    have h2 := bind_interp rows hs (c + 1) (·.1) x y
    revert h1 h2
    generalize rows.mapM (fun r => (r.2[c + 1]?).map (fun q => (r.1, q.2))) = a
    generalize rows.mapM (fun r => (r.2[c + 1]?).map (fun q => (r.1, q.1))) = b
    intro h1 h2
    rcases a with _ | a
    · rfl
    · rcases b with _ | b
      · rfl
      · simp only [Option.bind_some] at h1 h2
        simp only [Option.bind_eq_bind, Option.bind_some, h1, h2]
  unfold mtCurve
  simp only [this]

theorem mt_even (rows : MtTable K) (n : ℕ) (x y u : K) (hs : mtCurve rows n x = mtCurve rows n y) (kind : Kind) :
    mtStiffness rows n x kind (-u) = mtStiffness rows n y kind u := by
  unfold mtStiffness
  rw [hs, abs_neg]
/-- Springs that resist equally in both lateral directions: rotational springs along the shaft are absent or their
strength does not depend on the mobilised lateral resistance. -/
def Symmetric {n : ℕ} (sp : Springs K n) : Prop :=
  sp.distributedMoment = false ∨ ∀ e b, SameRows (sp.mt e b)

/-- Symmetric springs do not depend on the direction. -/
theorem build_even (ty : ElementType) {n : ℕ} (el : Fin n → Elem K) (sp : Springs K n)
    (hm : Symmetric sp) : Even mirror (buildStiffness ty el sp) := by
  constructor
  · intro kind u
    have h1 : ∀ e b, pyAt sp kind (flip mirror u) e b = pyAt sp kind u e b := by
      intro e b
      obtain ⟨j, hj⟩ := disp_at_node (K := K) 1 e b
      unfold pyAt
      simp only [hj, Option.bind_eq_bind, Option.bind_some, (flip_dof u j).2.1,
        (OpenPile.Props.Spring.C24_direction (sp.py e b) kind _).1]
    have h2 : ∀ e b, tzAt sp kind (flip mirror u) e b = tzAt sp kind u e b := by
      intro e b
      obtain ⟨j, hj⟩ := disp_at_node (K := K) 0 e b
      unfold tzAt
      simp only [hj, (flip_dof u j).1]
    have h3 : ∀ e b, mtAt sp kind (flip mirror u) e b = mtAt sp kind u e b := by
      intro e b
      unfold mtAt
      rcases hm with hm | hm
      · rw [hm]
        rfl
      · obtain ⟨j, hj⟩ := disp_at_node (K := K) 1 e b
        obtain ⟨j', hj'⟩ := disp_at_node (K := K) 2 e b
        simp only [hj, hj', Option.bind_eq_bind, Option.bind_some, (flip_dof u j).2.1, (flip_dof u j').2.2,
          (OpenPile.Props.Spring.C24_direction (sp.py e b) _ _).1,
          Option.pure_def]
        split
        · split
          · rcases pyStiffness (sp.py e b) .secant (u (dof j 1)) with _ | ks
            · rfl
            · exact mt_even _ _ _ _ _ (mtCurve_same _ (hm e b) _ _ _) _
          · rfl
        · rfl
    have h4 : soilAt sp kind (flip mirror u) = soilAt sp kind u := by
      funext e
      unfold soilAt
      simp only [h1, h2, h3]
    obtain ⟨g0, g1, g2⟩ := flip_dof u (Fin.last n)
    unfold buildStiffness
    rw [h4]
    have e0 : (⟨3 * n, by omega⟩ : Fin (3 * n + 3)) = dof (Fin.last n) 0 := rfl
    have e1 : (⟨3 * n + 1, by omega⟩ : Fin (3 * n + 3)) = dof (Fin.last n) 1 := rfl
    have e2 : (⟨3 * n + 2, by omega⟩ : Fin (3 * n + 3)) = dof (Fin.last n) 2 := rfl
    rw [e0, e1, e2, g0, g1, g2, (OpenPile.Props.Spring.C24_direction sp.hb kind _).2,
      (OpenPile.Props.Spring.C24_direction sp.mb kind _).2]
  · intro kind u A hA
    obtain ⟨s, h, m, q, -, -, -, -, rfl⟩ := OpenPile.Props.SoilStiffness.build_parts ty el sp kind u A hA
    exact stiffness_uncoupled ty el s h m q

/-- **C58.** If the rotational springs along the shaft are absent or independent of the mobilised lateral resistance
(missing: the others, see `C58_violated_moment`), reversing all lateral loads, moments and prescribed lateral
displacements and rotations of a pile in soil reverses deflections, rotations and lateral reactions and changes
nothing else: same settlements, same number of iterations, same tolerance and error, same failures. -/
theorem C58_mirror_partial (ty : ElementType) {n : ℕ} (el : Fin n → Elem K) (sp : Springs K n)
    (hm : Symmetric sp) (F U : Fin (3 * n + 3) → K) (fix : Fin (3 * n + 3) → Bool) (maxIter : ℕ) :
    winkler (buildStiffness ty el sp) (flip mirror F) (flip mirror U) fix maxIter
      = flipOutcome mirror (winkler (buildStiffness ty el sp) F U fix maxIter) :=
  winkler_flip mirror_signs (build_even ty el sp hm) F U fix maxIter

/-! ### rotational springs that depend on the mobilised lateral resistance -/

/-- One element. -/
def elW : Fin 1 → Elem ℚ := fun _ => ⟨1, 1, 1, 1, 1, 1 / 10, 0⟩

/-- A lateral spring and a rotational spring whose strength grows with the mobilised lateral resistance. -/
def spW : Springs ℚ 1 := ⟨fun _ _ => [(0, 0), (1, 210)], fun _ _ => [],
  fun _ _ => [(0, [(0, 0), (100, 0)]), (210, [(0, 0), (100, 3000)])], 2, [], [], [],
  true, false, true, false, false, false⟩

/-- Its matrix with rotational stiffness `k`. -/
def kW (k : ℚ) : Matrix (Fin (3 * 1 + 3)) (Fin (3 * 1 + 3)) ℚ :=
  soilStiffness .eulerBernoulli 1 elW (fun _ => ⟨(210, 210), (0, 0), (k, k)⟩) 0 0 0

/-- Everything is fixed except the rotation of the head. -/
def fixW : Fin (3 * 1 + 3) → Bool := fun r => decide (r.1 ≠ 2)

/-- Head displacement `y` and head rotation `t`. -/
def dW (y t : ℚ) : Fin (3 * 1 + 3) → ℚ := fun r => if r.1 = 1 then y else if r.1 = 2 then t else 0

theorem soil_of (kind : Kind) (u : Fin (3 * 1 + 3) → ℚ) (k : ℚ)
    (h : soilAt spW kind u 0 = some ⟨(210, 210), (0, 0), (k, k)⟩) :
    buildStiffness .eulerBernoulli elW spW kind u = some (kW k) := by
  have h1 : soilAt spW kind u = fun _ => some ⟨(210, 210), (0, 0), (k, k)⟩ := by
    funext e
    rw [Subsingleton.elim e 0, h]
  have h2 : allSome (soilAt spW kind u) = some (fun _ => ⟨(210, 210), (0, 0), (k, k)⟩) := by
    rw [h1]
    simp [allSome]
  unfold buildStiffness
  rw [h2]
  simp [spW, kW]

theorem kW_row (k y t : ℚ) : (kW k *ᵥ dW y t) ⟨2, by norm_num⟩ = (17 + k / 10) * y + (6 + 2 * k / 15) * t := by
  simp [kW, soilStiffness, assemble, place, baseMatrix, mulVec, dotProduct, Fin.sum_univ_succ, dW, elemMatrix, mechMatrix, beamMatrix, pyMatrix, tzMatrix, mtMatrix, mtPattern, mtCoeffs, elW, phi, kappa]
  ring

theorem kW_row1 (k y t : ℚ) : (kW k *ᵥ dW y t) ⟨1, by norm_num⟩ = (90 + 6 * k / 5) * y + (17 + k / 10) * t := by
  simp [kW, soilStiffness, assemble, place, baseMatrix, mulVec, dotProduct, Fin.sum_univ_succ, dW, elemMatrix,
    mechMatrix, beamMatrix, pyMatrix, tzMatrix, mtMatrix, mtPattern, mtCoeffs, elW, phi, kappa]
  ring

theorem fixW_false (i : Fin (3 * 1 + 3)) (h : fixW i = false) : i = ⟨2, by norm_num⟩ := by
  unfold fixW at h
  simp at h
  exact Fin.ext h

theorem solveW (k : ℚ) (hk : 0 ≤ k) (F : Fin (3 * 1 + 3) → ℚ) (y t : ℚ)
    (h : (17 + k / 10) * y + (6 + 2 * k / 15) * t = F ⟨2, by norm_num⟩) :
    solveEquations (kW k) F (dW y 0) fixW = some (dW y t, fun i => (kW k *ᵥ dW y t) i - F i) := by
  refine solve_eq_some _ _ _ _ ?_ _ ?_ ?_
  · rw [Ne, C15_fails_iff]
    rintro ⟨w, hw, h0, h1⟩
    have e : w = dW 0 (w ⟨2, by norm_num⟩) := by
      funext i
      by_cases hi : fixW i = true
      · rw [h0 i hi]
        unfold dW
        unfold fixW at hi
        simp at hi
        simp [hi]
      · rw [fixW_false i (by simpa using hi)]
        simp [dW]
    have h2 := h1 ⟨2, by norm_num⟩ (by decide)
    rw [e, kW_row] at h2
    have h3 : w ⟨2, by norm_num⟩ = 0 := by
      have : (6 + 2 * k / 15) * w ⟨2, by norm_num⟩ = 0 := by linarith
      rcases mul_eq_zero.1 this with g | g
      · exfalso; linarith
      · exact g
    apply hw
    rw [e, h3]
    funext i
    simp [dW]
  · intro i hi
    rw [fixW_false i hi, kW_row, h]
  · intro i hi
    unfold fixW at hi
    simp at hi
    simp [dW, hi]

theorem runW (y k t1 t2 : ℚ) (hk : 0 ≤ k) (maxIter : ℕ) (hm : 1 ≤ maxIter)
    (h0 : soilAt spW .initial 0 0 = some ⟨(210, 210), (0, 0), (0, 0)⟩)
    (h1 : soilAt spW .secant (dW y t1) 0 = some ⟨(210, 210), (0, 0), (k, k)⟩)
    (h2 : soilAt spW .tangent (dW y t1) 0 = some ⟨(210, 210), (0, 0), (k, k)⟩)
    (h3 : soilAt spW .secant (dW y t2) 0 = some ⟨(210, 210), (0, 0), (k, k)⟩)
    (e1 : 17 * y + 6 * t1 = 0) (e2 : (17 + k / 10) * y + (6 + 2 * k / 15) * t2 = 0)
    (hpos : (90 + 6 * k / 5) * y + (17 + k / 10) * t2 + (90 * y + 17 * t1) ≠ 0) :
    ∃ Q t r, winkler (buildStiffness .eulerBernoulli elW spW) 0 (dW y 0) fixW maxIter
      = .converged (dW y t2) Q 2 t r := by
  obtain ⟨m, rfl⟩ : ∃ m, maxIter = m + 1 := ⟨maxIter - 1, by omega⟩
  have hsup : (fun i => fixW i || decide (dW y 0 i ≠ 0)) = fixW := by
    funext i
    by_cases h : i.1 = 1
    · simp [fixW, h]
    · simp [dW, h]
  unfold winkler
  rw [soil_of _ _ _ h0]
  simp only [hsup]
  rw [loop, solveW 0 le_rfl 0 y t1 (by simp; linarith)]
  have d1 : (fun i => (0 : Fin (3 * 1 + 3) → ℚ) i + dW y t1 i) = dW y t1 := by funext i; simp
  simp only [d1]
  rw [soil_of _ _ _ h1]
  simp only
  rw [if_neg (by simp), if_neg (by norm_num), soil_of _ _ _ h2]
  simp only
  have hz : (0 : Fin (3 * 1 + 3) → ℚ) = dW 0 0 := by funext i; simp [dW]
  have hs2 := solveW k hk (fun i => (0 : Fin (3 * 1 + 3) → ℚ) i
    - ((kW 0 *ᵥ dW y t1) i - (0 : Fin (3 * 1 + 3) → ℚ) i) - (kW k *ᵥ dW y t1) i) 0 (t2 - t1) (by
      simp only [kW_row, Pi.zero_apply]; linarith)
  rw [← hz] at hs2
  rw [loop, hs2]
  have d2 : (fun i => dW y t1 i + dW 0 (t2 - t1) i) = dW y t2 := by
    funext i; unfold dW; split <;> [ring; (split <;> ring)]
  simp only [d2]
  rw [soil_of _ _ _ h3]
  simp only
  have hd : ∀ i, (kW k *ᵥ dW 0 (t2 - t1)) i = (kW k *ᵥ dW y t2) i - (kW k *ᵥ dW y t1) i := by
    intro i
    have : dW 0 (t2 - t1) = dW y t2 - dW y t1 := by
      funext i; simp only [dW, Pi.sub_apply]; split <;> [ring; (split <;> ring)]
    rw [this, mulVec_sub]
    rfl
  have hQ : ∀ i, (kW k *ᵥ dW 0 (t2 - t1)) i - ((0 : Fin (3 * 1 + 3) → ℚ) i
        - ((kW 0 *ᵥ dW y t1) i - (0 : Fin (3 * 1 + 3) → ℚ) i) - (kW k *ᵥ dW y t1) i)
      = (kW k *ᵥ dW y t2) i + (kW 0 *ᵥ dW y t1) i := by
    intro i
    rw [hd]
    simp only [Pi.zero_apply]
    ring
  simp only [hQ]
  rw [if_pos]
  · rw [solveW k hk 0 y t2 (by simp; linarith)]
    exact ⟨_, _, _, rfl⟩
  · refine ⟨?_, by norm_num⟩
    have r0 : normSqFree fixW (fun i => (0 : Fin (3 * 1 + 3) → ℚ) i - ((kW k *ᵥ dW y t2) i + (kW 0 *ᵥ dW y t1) i)
        - (kW k *ᵥ dW y t2) i) = 0 := by
      unfold normSqFree
      apply Finset.sum_eq_zero
      intro i _
      by_cases hi : fixW i = true
      · rw [if_pos hi]
      · rw [if_neg hi, fixW_false i (by simpa using hi)]
        simp only [kW_row, Pi.zero_apply]
        rw [e2]
        have : (17 + (0 : ℚ) / 10) * y + (6 + 2 * 0 / 15) * t1 = 0 := by linarith
        rw [this]
        norm_num
    rw [r0]
    have : 0 < normSq (fun i => (0 : Fin (3 * 1 + 3) → ℚ) i - ((kW k *ᵥ dW y t2) i + (kW 0 *ᵥ dW y t1) i)) := by
      unfold normSq
      apply Finset.sum_pos' (fun i _ => sq_nonneg _)
      refine ⟨⟨1, by norm_num⟩, Finset.mem_univ _, ?_⟩
      apply sq_pos_of_ne_zero
      simp only [kW_row1, Pi.zero_apply]
      intro hh
      apply hpos
      linarith
    positivity

/-- The springs of the counterexample without the rotational ones are symmetric, and so are those with one row
repeated. -/
example : Symmetric { spW with distributedMoment := false } ∧
    Symmetric { spW with mt := fun _ _ => [(0, [(0, 0), (100, 3000)]), (210, [(0, 0), (100, 3000)])] } :=
  ⟨.inl rfl, .inr (fun _ _ => ⟨[(0, 0), (100, 3000)], by simp⟩)⟩

/-- **C58 violated by moment springs.** An element whose head is displaced by 1 m in the positive direction
rotates by -2, displaced by 1 m in the negative direction by 17/6. -/
theorem C58_violated_moment (maxIter : ℕ) (hm : 1 ≤ maxIter) :
    (∃ Q t r, winkler (buildStiffness .eulerBernoulli elW spW) 0 (dW 1 0) fixW maxIter
      = .converged (dW 1 (-2)) Q 2 t r) ∧
    (∃ Q t r, winkler (buildStiffness .eulerBernoulli elW spW) (flip mirror 0) (flip mirror (dW 1 0)) fixW maxIter
      = .converged (dW (-1) (17 / 6)) Q 2 t r) ∧
    flip mirror (dW 1 (-2)) ≠ dW (-1) (17 / 6) := by
  refine ⟨runW 1 30 (-17 / 6) (-2) (by norm_num) maxIter hm ?_ ?_ ?_ ?_ (by norm_num) (by norm_num) (by norm_num),
    ?_, ?_⟩
  · decide +kernel
  · decide +kernel
  · decide +kernel
  · decide +kernel
  · have e1 : flip mirror (0 : Fin (3 * 1 + 3) → ℚ) = 0 := by funext i; simp [flip]
    have e2 : flip mirror (dW 1 0) = dW (-1) 0 := by decide +kernel
    rw [e1, e2]
    refine runW (-1) 0 (17 / 6) (17 / 6) (by norm_num) maxIter hm ?_ ?_ ?_ ?_ (by norm_num) (by norm_num)
      (by norm_num)
    · decide +kernel
    · decide +kernel
    · decide +kernel
    · decide +kernel
  · decide +kernel

end OpenPile.Props.Mirror

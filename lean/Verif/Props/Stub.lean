/-
Property C99: an unloaded part of the pile above everything else does not matter.
-/
import Verif.Props.SameBelow

namespace OpenPile.Props.Stub
open OpenPile.Kernel OpenPile.Winkler OpenPile.Spring OpenPile.Spec.Kernel OpenPile.Props.SoilStiffness
open OpenPile.Props.Solve OpenPile.Props.Element OpenPile.Props.Beam OpenPile.Props.Refine OpenPile.Props.Decouple OpenPile.Props.SameBelow Matrix

variable {K : Type} [Field K] [LinearOrder K] [IsStrictOrderedRing K] {n : ℕ}

/-! ### one element -/

/-- A vector of a pile without the entries of its topmost node. -/
def tail {α : Type} (v : Fin (3 * (n + 1) + 3) → α) : Fin (3 * n + 3) → α := fun r => v ⟨r.1 + 3, by omega⟩

/-- The entries of the topmost node. -/
def head {α : Type} (v : Fin (3 * (n + 1) + 3) → α) : Fin 3 → α := fun c => v ⟨c.1, by omega⟩

omit [Field K] [LinearOrder K] [IsStrictOrderedRing K] in
theorem stacked_tail (v : Fin (3 * (n + 1) + 3) → K) (i : Fin n) : stacked v i.succ = stacked (tail v) i := by
  funext a
  unfold stacked tail
  congr 1
  refine Fin.ext ?_
  simp only [Fin.val_succ]
  omega

omit [Field K] [LinearOrder K] [IsStrictOrderedRing K] in
theorem dof_tail (v : Fin (3 * (n + 1) + 3) → K) (k : Fin (n + 1)) (c : Fin 3) : v (dof k.succ c) = tail v (dof k c) := by
  unfold tail dof
  congr 1
  refine Fin.ext ?_
  simp only [Fin.val_succ]
  omega

omit [Field K] [LinearOrder K] [IsStrictOrderedRing K] in
theorem ext_stub {α : Type} {v v' : Fin (3 * (n + 1) + 3) → α} (h : head v = head v') (t : tail v = tail v') : v = v' := by
  funext i
  by_cases hi : i.1 < 3
  · exact congrFun h ⟨i.1, hi⟩
  · have := congrFun t ⟨i.1 - 3, by omega⟩
    unfold tail at this
    have e : (⟨i.1 - 3 + 3, by omega⟩ : Fin (3 * (n + 1) + 3)) = i := Fin.ext (by simp only; omega)
    simp only [e] at this
    exact this

omit [LinearOrder K] [IsStrictOrderedRing K] in
/-- The work in a pile is that in its first element and that in the rest. -/
theorem work_stub (ty : ElementType) (el : Fin (n + 1) → Elem K) (s : Fin (n + 1) → SoilK K) (h m q : K)
    (w v : Fin (3 * (n + 1) + 3) → K) :
    work (soilStiffness ty (n + 1) el s h m q) w v = work (elemMatrix ty (el 0) (s 0)) (stacked w 0) (stacked v 0)
      + work (soilStiffness ty n (fun i => el i.succ) (fun i => s i.succ) h m q) (tail w) (tail v) := by
  unfold soilStiffness
  rw [work_add, work_add, assemble_work, assemble_work, base_work, base_work, Fin.sum_univ_succ, add_assoc]
  have hl : Fin.last (n + 1) = (Fin.last n).succ := rfl
  simp only [stacked_tail, hl, dof_tail]

/-- The first element is free of forces. -/
def Quiet (ty : ElementType) (el : Fin (n + 1) → Elem K) (v : Fin (3 * (n + 1) + 3) → K) : Prop :=
  mechMatrix ty (el 0) *ᵥ stacked v 0 = 0

/-- No springs in the first element. -/
def NoSpring (s : Fin (n + 1) → SoilK K) : Prop := s 0 = ⟨(0, 0), (0, 0), (0, 0)⟩

omit [LinearOrder K] [IsStrictOrderedRing K] in
theorem row_eq {ι : Type} [Fintype ι] [DecidableEq ι] (A : Matrix ι ι K) (v : ι → K) (i : ι) :
    (A *ᵥ v) i = work A (Pi.single i 1) v := by
  unfold work
  rw [single_dotProduct, one_mul]

omit [LinearOrder K] [IsStrictOrderedRing K] in
theorem tail_single_low (r : Fin (3 * n + 3)) :
    tail (Pi.single (⟨r.1 + 3, by omega⟩ : Fin (3 * (n + 1) + 3)) (1 : K)) = Pi.single r 1 := by
  funext k
  unfold tail
  by_cases h : k = r
  · subst h
    simp
  · rw [Pi.single_eq_of_ne h, Pi.single_eq_of_ne]
    intro e
    apply h
    refine Fin.ext ?_
    have := congrArg Fin.val e
    simp only at this
    omega

omit [LinearOrder K] [IsStrictOrderedRing K] in
theorem tail_single_head (c : Fin 3) : tail (Pi.single (⟨c.1, by omega⟩ : Fin (3 * (n + 1) + 3)) (1 : K)) = 0 := by
  funext k
  unfold tail
  rw [Pi.single_eq_of_ne]
  · rfl
  · intro e
    have := congrArg Fin.val e
    simp only at this
    omega

omit [LinearOrder K] [IsStrictOrderedRing K] in
theorem work_zero_left {ι : Type} [Fintype ι] (A : Matrix ι ι K) (v : ι → K) : work A 0 v = 0 := by
  unfold work
  rw [zero_dotProduct]

omit [LinearOrder K] [IsStrictOrderedRing K] in
/-- If the first element is free of forces, the equations of the pile are those of the pile without it. -/
theorem rows_quiet (ty : ElementType) (el : Fin (n + 1) → Elem K) (s : Fin (n + 1) → SoilK K) (hs : NoSpring s) (h m q : K)
    (v : Fin (3 * (n + 1) + 3) → K) (hv : Quiet ty el v) :
    head (soilStiffness ty (n + 1) el s h m q *ᵥ v) = 0 ∧ tail (soilStiffness ty (n + 1) el s h m q *ᵥ v)
      = soilStiffness ty n (fun i => el i.succ) (fun i => s i.succ) h m q *ᵥ tail v := by
  have key : ∀ w, work (soilStiffness ty (n + 1) el s h m q) w v
      = work (soilStiffness ty n (fun i => el i.succ) (fun i => s i.succ) h m q) (tail w) (tail v) := by
    intro w
    rw [work_stub, hs, elem_bare]
    have : work (mechMatrix ty (el 0)) (stacked w 0) (stacked v 0) = 0 := by
      unfold work
      rw [hv, dotProduct_zero]
    rw [this, zero_add]
  constructor
  · funext c
    unfold head
    rw [row_eq, key, tail_single_head, work_zero_left]
    rfl
  · funext r
    rw [row_eq, ← tail_single_low, ← key, ← row_eq]
    rfl

omit [LinearOrder K] [IsStrictOrderedRing K] in
/-- Without loads on the topmost node the first element is free of forces. -/
theorem quiet_of_head (ty : ElementType) (el : Fin (n + 1) → Elem K) (hL : (el 0).L ≠ 0) (hp : 1 + phi ty (el 0) ≠ 0)
    (s : Fin (n + 1) → SoilK K) (hs : NoSpring s) (h m q : K) (v : Fin (3 * (n + 1) + 3) → K)
    (hv : head (soilStiffness ty (n + 1) el s h m q *ᵥ v) = 0) : Quiet ty el v := by
  have e : ∀ (c : Fin 3), (mechMatrix ty (el 0) *ᵥ stacked v 0) ⟨c.1, by omega⟩ = 0 := by
    intro c
    have := congrFun hv c
    unfold head at this
    rw [row_eq, work_stub, tail_single_head, work_zero_left, add_zero, hs, elem_bare] at this
    rw [row_eq]
    refine Eq.trans ?_ this
    congr 1
    funext a
    unfold stacked
    by_cases h : a = ⟨c.1, by omega⟩
    · subst h
      rw [Pi.single_eq_same]
      have : (⟨3 * (0 : Fin (n + 1)).1 + c.1, by omega⟩ : Fin (3 * (n + 1) + 3)) = ⟨c.1, by omega⟩ :=
        Fin.ext (by simp)
      simp only [this, Pi.single_eq_same]
    · rw [Pi.single_eq_of_ne h, Pi.single_eq_of_ne]
      intro e
      apply h
      refine Fin.ext ?_
      have := congrArg Fin.val e
      simp at this
      simpa using this
  obtain ⟨f1, f2, f3⟩ := C16_end_forces ty (el 0) hL hp (stacked v 0)
  have e0 : (mechMatrix ty (el 0) *ᵥ stacked v 0) 0 = 0 := e 0
  have e1 : (mechMatrix ty (el 0) *ᵥ stacked v 0) 1 = 0 := e 1
  have e2 : (mechMatrix ty (el 0) *ᵥ stacked v 0) 2 = 0 := e 2
  rw [e0, zero_add] at f1
  rw [e1, zero_add] at f2
  rw [e2, f2, mul_zero, zero_add, add_zero] at f3
  funext a
  fin_cases a
  · exact e0
  · exact e1
  · exact e2
  · exact f1
  · exact f2
  · exact f3

/-- An element free of forces moves as a rigid body. -/
theorem rigid_of_free (ty : ElementType) (e : Elem K) (h : Regular ty e) (u : Fin 6 → K) (hu : mechMatrix ty e *ᵥ u = 0) :
    RigidElem e.L u := by
  obtain ⟨hL, hE, hA, hI, hp⟩ := h
  have r0 := congrFun hu 0
  have r1 := congrFun hu 1
  have r2 := congrFun hu 2
  have r5 := congrFun hu 5
  unfold mechMatrix at r0 r1 r2 r5
  rw [beam_mulVec] at r0 r1 r2 r5
  generalize phi ty e = ph at *
  simp at r0 r1 r2 r5
  have h0 : u 3 = u 0 := by
    rcases r0 with ((r | r) | r) | r
    · exact absurd r hA
    · exact absurd r hE
    · exact absurd r hL
    · exact (sub_eq_zero.1 r).symm
  have h2 : u 5 = u 2 := by
    have h : 2 * (e.E * e.I / e.L) * (u 2 - u 5) = 0 := by
      rw [← sub_eq_zero.2 (r2.trans r5.symm)]
      field_simp
      ring
    have : 2 * (e.E * e.I / e.L) ≠ 0 := by positivity
    rcases mul_eq_zero.1 h with r | r
    · exact absurd r this
    · exact (sub_eq_zero.1 r).symm
  refine ⟨h0, h2, ?_⟩
  rw [h2] at r1
  have h : 12 * (e.E * e.I) / ((1 + ph) * e.L ^ 3) * (u 1 - u 4 + e.L * u 2) = 0 := by
    rw [← r1]
    field_simp
    ring
  have : 12 * (e.E * e.I) / ((1 + ph) * e.L ^ 3) ≠ 0 := by positivity
  rcases mul_eq_zero.1 h with r | r
  · exact absurd r this
  · linear_combination -r

/-- A vector of the shorter pile, continued as a rigid motion of an element of length `L` on top. -/
def onTop (L : K) (w : Fin (3 * n + 3) → K) : Fin (3 * (n + 1) + 3) → K := fun i =>
  if h : 3 ≤ i.1 then w ⟨i.1 - 3, by omega⟩
  else if i.1 = 0 then w (dof 0 0) else if i.1 = 1 then w (dof 0 1) - L * w (dof 0 2) else w (dof 0 2)

omit [LinearOrder K] [IsStrictOrderedRing K] in
theorem tail_onTop (L : K) (w : Fin (3 * n + 3) → K) : tail (onTop L w) = w := by
  funext r
  unfold tail onTop
  rw [dif_pos (by simp)]
  rfl

omit [LinearOrder K] [IsStrictOrderedRing K] in
theorem onTop_rigid (L : K) (w : Fin (3 * n + 3) → K) : RigidElem L (stacked (onTop L w) 0) := by
  refine ⟨?_, ?_, ?_⟩ <;> simp [stacked, onTop, dof]

omit [LinearOrder K] [IsStrictOrderedRing K] in
theorem free_of_rigid (ty : ElementType) (e : Elem K) (hL : e.L ≠ 0) (hp : 1 + phi ty e ≠ 0) (u : Fin 6 → K)
    (hu : RigidElem e.L u) : mechMatrix ty e *ᵥ u = 0 := by
  funext a
  rw [row_eq, work_comm _ (C16_symmetric ty e), mech_work_rigid ty e hL hp _ _ hu]
  rfl

/-- A pile with an unloaded, unsupported first element without springs has a solution exactly if the pile without it has one. -/
theorem solve_none (ty : ElementType) (el : Fin (n + 1) → Elem K) (hreg : Regular ty (el 0)) (s : Fin (n + 1) → SoilK K)
    (hs : NoSpring s) (h m q : K) (F U : Fin (3 * (n + 1) + 3) → K) (r : Fin (3 * (n + 1) + 3) → Bool)
    (hr : ∀ c, head r c = false) (F' U' : Fin (3 * n + 3) → K) :
    solveEquations (soilStiffness ty (n + 1) el s h m q) F U r = none ↔
      solveEquations (soilStiffness ty n (fun i => el i.succ) (fun i => s i.succ) h m q) F' U' (tail r) = none := by
  rw [C15_fails_iff, C15_fails_iff]
  constructor
  · rintro ⟨w, h0, h1, h2⟩
    have hq : Quiet ty el w := by
      refine quiet_of_head ty el hreg.L hreg.p s hs h m q w ?_
      funext c
      exact h2 _ (hr c)
    have hrow := (rows_quiet ty el s hs h m q w hq).2
    refine ⟨tail w, fun ht => h0 ?_, fun i hi => h1 _ hi, fun i hi => ?_⟩
    · have hrig := rigid_of_free ty (el 0) hreg _ hq
      have z : ∀ c : Fin 3, w ⟨c.1 + 3, by omega⟩ = 0 := fun c => congrFun ht ⟨c.1, by omega⟩
      have z0 : stacked w 0 3 = 0 := z 0
      have z1 : stacked w 0 4 = 0 := z 1
      have z2 : stacked w 0 5 = 0 := z 2
      obtain ⟨a, b, c⟩ := hrig
      rw [z0] at a
      rw [z2] at b
      rw [z1, ← b, mul_zero, add_zero] at c
      refine ext_stub ?_ ht
      funext k
      fin_cases k
      · exact a.symm
      · exact c.symm
      · exact b.symm
    · rw [← hrow]
      exact h2 _ hi
  · rintro ⟨w, h0, h1, h2⟩
    have hq : Quiet ty el (onTop (el 0).L w) := free_of_rigid ty (el 0) hreg.L hreg.p _ (onTop_rigid _ _)
    obtain ⟨r1, r2⟩ := rows_quiet ty el s hs h m q _ hq
    rw [tail_onTop] at r2
    refine ⟨onTop (el 0).L w, fun e => h0 ?_, fun i hi => ?_, fun i hi => ?_⟩
    · rw [← tail_onTop (el 0).L w, e]
      rfl
    all_goals
      by_cases h3 : i.1 < 3
    · have := hr ⟨i.1, h3⟩
      unfold head at this
      simp only at this
      rw [show (⟨i.1, by omega⟩ : Fin (3 * (n + 1) + 3)) = i from rfl, hi] at this
      cases this
    · have e : (⟨i.1 - 3 + 3, by omega⟩ : Fin (3 * (n + 1) + 3)) = i := Fin.ext (by simp only; omega)
      have k := h1 ⟨i.1 - 3, by omega⟩ (by unfold tail; simp only [e]; exact hi)
      rw [← tail_onTop (el 0).L w] at k
      unfold tail at k
      simp only [e] at k
      exact k
    · exact congrFun r1 ⟨i.1, h3⟩
    · have e : (⟨i.1 - 3 + 3, by omega⟩ : Fin (3 * (n + 1) + 3)) = i := Fin.ext (by simp only; omega)
      have k := h2 ⟨i.1 - 3, by omega⟩ (by unfold tail; simp only [e]; exact hi)
      rw [← r2] at k
      unfold tail at k
      simp only [e] at k
      exact k

/-- The solution of the pile is that of the pile without its unloaded first element. -/
theorem solve_stub (ty : ElementType) (el : Fin (n + 1) → Elem K) (hreg : Regular ty (el 0)) (s : Fin (n + 1) → SoilK K)
    (hs : NoSpring s) (h m q : K) (F U : Fin (3 * (n + 1) + 3) → K) (r : Fin (3 * (n + 1) + 3) → Bool)
    (hF : head F = 0) (hr : ∀ c, head r c = false) {u Q : Fin (3 * (n + 1) + 3) → K}
    (hsol : solveEquations (soilStiffness ty (n + 1) el s h m q) F U r = some (u, Q)) :
    solveEquations (soilStiffness ty n (fun i => el i.succ) (fun i => s i.succ) h m q) (tail F) (tail U) (tail r)
      = some (tail u, tail Q) ∧ Quiet ty el u ∧ head Q = 0 := by
  obtain ⟨a1, a2, a3, -⟩ := C15_solution _ F U r u Q hsol
  have hu : Quiet ty el u := by
    refine quiet_of_head ty el hreg.L hreg.p s hs h m q u ?_
    funext c
    rw [← congrFun hF c]
    exact (a1 _ (hr c)).1
  have hrow := (rows_quiet ty el s hs h m q u hu).2
  refine ⟨?_, hu, ?_⟩
  · rw [solve_eq_some _ _ _ _ ?_ (tail u) ?_ ?_]
    · congr 2
      funext i
      rw [← hrow]
      have := a3 ⟨i.1 + 3, by omega⟩
      unfold tail
      rw [← this]
      ring
    · intro hn
      rw [← solve_none ty el hreg s hs h m q F U r hr, hsol] at hn
      cases hn
    · intro i hi
      rw [← hrow]
      exact (a1 _ hi).1
    · exact fun i hi => a2 _ hi
  · funext c
    exact (a1 _ (hr c)).2

/-! ### the iteration -/

/-- The stiffness `b` of a pile and `b'` of the pile without its first element, which has no springs. -/
def Rest (ty : ElementType) (el : Fin (n + 1) → Elem K)
    (b : Kind → (Fin (3 * (n + 1) + 3) → K) → Option (Matrix (Fin (3 * (n + 1) + 3)) (Fin (3 * (n + 1) + 3)) K))
    (b' : Kind → (Fin (3 * n + 3) → K) → Option (Matrix (Fin (3 * n + 3)) (Fin (3 * n + 3)) K)) : Prop :=
  ∀ kind d, (b kind d = none ∧ b' kind (tail d) = none) ∨ ∃ s h m q, NoSpring s ∧
    b kind d = some (soilStiffness ty (n + 1) el s h m q) ∧
    b' kind (tail d) = some (soilStiffness ty n (fun i => el i.succ) (fun i => s i.succ) h m q)

/-- The end of the analysis of the pile, seen from the pile without its first element. -/
inductive Same (ty : ElementType) (el : Fin (n + 1) → Elem K) :
    Outcome (Fin (3 * (n + 1) + 3)) K → Outcome (Fin (3 * n + 3)) K → Prop
  | converged (d Q : Fin (3 * (n + 1) + 3) → K) (it : ℕ) (t r : K) (hd : Quiet ty el d) (hQ : head Q = 0) :
      Same ty el (.converged d Q it t r) (.converged (tail d) (tail Q) it t r)
  | exhausted (d Q : Fin (3 * (n + 1) + 3) → K) (it : ℕ) (t r : K) (hd : Quiet ty el d) (hQ : head Q = 0) :
      Same ty el (.exhausted d Q it t r) (.exhausted (tail d) (tail Q) it t r)
  | nan (it : ℕ) : Same ty el (.nan it) (.nan it)
  | raised : Same ty el .raised .raised

omit [IsStrictOrderedRing K] [LinearOrder K] in
theorem sum_stub (f : Fin (3 * (n + 1) + 3) → K) (h : head f = 0) : ∑ i, f i = ∑ i, tail f i := by
  have e : 3 * (n + 1) + 3 = 3 + (3 * n + 3) := by ring
  rw [← (finCongr e).symm.sum_comp, Fin.sum_univ_add]
  have z : ∑ i : Fin 3, f ((finCongr e).symm (Fin.castAdd (3 * n + 3) i)) = 0 :=
    Finset.sum_eq_zero (fun c _ => congrFun h c)
  rw [z, zero_add]
  refine Finset.sum_congr rfl (fun i _ => ?_)
  unfold tail
  congr 1
  refine Fin.ext ?_
  simp

omit [LinearOrder K] [IsStrictOrderedRing K] in
theorem normSq_stub (v : Fin (3 * (n + 1) + 3) → K) (h : head v = 0) : normSq v = normSq (tail v) := by
  unfold normSq
  rw [sum_stub (fun i => v i ^ 2)]
  · rfl
  · funext c
    have := congrFun h c
    unfold head at this ⊢
    simp [this]

omit [LinearOrder K] [IsStrictOrderedRing K] in
theorem normSqFree_stub (r : Fin (3 * (n + 1) + 3) → Bool) (v : Fin (3 * (n + 1) + 3) → K) (h : head v = 0) :
    normSqFree r v = normSqFree (tail r) (tail v) := by
  unfold normSqFree
  rw [sum_stub (fun i => if r i = true then 0 else v i ^ 2)]
  · rfl
  · funext c
    have := congrFun h c
    unfold head at this ⊢
    simp [this]

theorem loop_stub (ty : ElementType) (el : Fin (n + 1) → Elem K) (hreg : Regular ty (el 0))
    {b : Kind → (Fin (3 * (n + 1) + 3) → K) → Option (Matrix (Fin (3 * (n + 1) + 3)) (Fin (3 * (n + 1) + 3)) K)}
    {b' : Kind → (Fin (3 * n + 3) → K) → Option (Matrix (Fin (3 * n + 3)) (Fin (3 * n + 3)) K)} (hb : Rest ty el b b')
    {F U0 : Fin (3 * (n + 1) + 3) → K} {sup : Fin (3 * (n + 1) + 3) → Bool} (hF : head F = 0)
    (hsup : ∀ c, head sup c = false) (fuel : ℕ) :
    ∀ (it : ℕ) (d : Fin (3 * (n + 1) + 3) → K) (s : Fin (n + 1) → SoilK K) (h m q : K)
      (U Rg Q : Fin (3 * (n + 1) + 3) → K) (t r : K), NoSpring s → Quiet ty el d → head Rg = 0 → head Q = 0 →
      Same ty el (loop b F U0 sup fuel it d (soilStiffness ty (n + 1) el s h m q) U Rg Q t r)
        (loop b' (tail F) (tail U0) (tail sup) fuel it (tail d)
          (soilStiffness ty n (fun i => el i.succ) (fun i => s i.succ) h m q) (tail U) (tail Rg) (tail Q) t r) := by
  induction fuel with
  | zero =>
    intro it d s h m q U Rg Q t r hs hd hR hQ
    exact .exhausted d Q it t r hd hQ
  | succ fuel ih =>
    intro it d s h m q U Rg Q t r hs hd hR hQ
    rw [loop, loop]
    rcases hsol : solveEquations (soilStiffness ty (n + 1) el s h m q) Rg U sup with _ | ⟨u, Q1⟩
    · rw [(solve_none ty el hreg s hs h m q Rg U sup hsup (tail Rg) (tail U)).1 hsol]
      exact .nan it
    · obtain ⟨k1, k2, k3⟩ := solve_stub ty el hreg s hs h m q Rg U sup hR hsup hsol
      rw [k1]
      simp only
      have ed : (fun i => tail d i + tail u i) = tail (fun i => d i + u i) := rfl
      have hd' : Quiet ty el (fun i => d i + u i) := by
        have e : stacked (fun i => d i + u i) 0 = stacked d 0 + stacked u 0 := rfl
        unfold Quiet
        rw [e, mulVec_add, hd, k2, add_zero]
      rw [ed]
      rcases hb .secant (fun i => d i + u i) with ⟨e, e'⟩ | ⟨s2, h2, m2, q2, hs2, e, e'⟩
      · rw [e, e']
        exact .raised
      · rw [e, e']
        simp only
        obtain ⟨w1, w2⟩ := rows_quiet ty el s2 hs2 h2 m2 q2 _ hd'
        have hfe : head (fun i => F i - Q1 i) = 0 := by
          funext c
          have a := congrFun hF c
          have b := congrFun k3 c
          unfold head at a b ⊢
          simp only [a, b, Pi.zero_apply, sub_zero]
        have ef : (fun i => tail F i - tail Q1 i) = tail (fun i => F i - Q1 i) := rfl
        have hRg : head (fun i => F i - Q1 i - (soilStiffness ty (n + 1) el s2 h2 m2 q2 *ᵥ fun i => d i + u i) i) = 0 := by
          funext c
          have a := congrFun hfe c
          have b := congrFun w1 c
          unfold head at a b ⊢
          simp only at a
          simp only [a, b, Pi.zero_apply, sub_zero]
        have eR : (fun i => tail F i - tail Q1 i - (soilStiffness ty n (fun i => el i.succ) (fun i => s2 i.succ) h2 m2 q2 *ᵥ
            tail (fun i => d i + u i)) i)
            = tail (fun i => F i - Q1 i - (soilStiffness ty (n + 1) el s2 h2 m2 q2 *ᵥ fun i => d i + u i) i) := by
          rw [← w2]
          rfl
        rw [eR, ef, ← normSqFree_stub _ _ hRg, ← normSq_stub _ hfe]
        split
        · rcases hf : solveEquations (soilStiffness ty (n + 1) el s2 h2 m2 q2) F U0 sup with _ | ⟨uf, Qf⟩
          · rw [(solve_none ty el hreg s2 hs2 h2 m2 q2 F U0 sup hsup (tail F) (tail U0)).1 hf]
            exact .raised
          · obtain ⟨f1, -, f3⟩ := solve_stub ty el hreg s2 hs2 h2 m2 q2 F U0 sup hF hsup hf
            rw [f1]
            exact .converged _ _ _ _ _ hd' f3
        · split
          · exact .nan _
          · rcases hb .tangent (fun i => d i + u i) with ⟨e, e'⟩ | ⟨s3, h3, m3, q3, hs3, e, e'⟩
            · rw [e, e']
              exact .raised
            · rw [e, e']
              exact ih _ _ s3 h3 m3 q3 0 _ _ _ _ hs3 hd' hRg k3

theorem winkler_stub (ty : ElementType) (el : Fin (n + 1) → Elem K) (hreg : Regular ty (el 0))
    {b : Kind → (Fin (3 * (n + 1) + 3) → K) → Option (Matrix (Fin (3 * (n + 1) + 3)) (Fin (3 * (n + 1) + 3)) K)}
    {b' : Kind → (Fin (3 * n + 3) → K) → Option (Matrix (Fin (3 * n + 3)) (Fin (3 * n + 3)) K)} (hb : Rest ty el b b')
    {F U : Fin (3 * (n + 1) + 3) → K} {fix : Fin (3 * (n + 1) + 3) → Bool} (hF : head F = 0) (hU : head U = 0)
    (hfix : ∀ c, head fix c = false) (m : ℕ) :
    Same ty el (winkler b F U fix m) (winkler b' (tail F) (tail U) (tail fix) m) := by
  unfold winkler
  rcases hb .initial 0 with ⟨e, e'⟩ | ⟨s, h, k, q, hs, e, e'⟩
  · have e' : b' .initial 0 = none := e'
    rw [e, e']
    exact .raised
  · have e' : b' .initial 0 = _ := e'
    rw [e, e']
    refine loop_stub ty el hreg hb hF (fun c => ?_) (m + 1) 0 0 s h k q U F 0 0 0 hs ?_ hF rfl
    · have a := hfix c
      have b := congrFun hU c
      unfold head at a b ⊢
      simp [a, b]
    · have : stacked (0 : Fin (3 * (n + 1) + 3) → K) 0 = 0 := rfl
      unfold Quiet
      rw [this, mulVec_zero]

/-! ### springs -/

/-- The springs of a pile without its first element. -/
def rest (sp : Springs K (n + 1)) : Springs K n :=
  { sp with py := fun i => sp.py i.succ, tz := fun i => sp.tz i.succ, mt := fun i => sp.mt i.succ }

/-- The spring tables of the first element are filled with zeros, as those of elements above ground. -/
structure Idle (sp : Springs K (n + 1)) : Prop where
  py : ∀ b, ∀ q ∈ sp.py 0 b, q.1 = 0
  tz : ∀ b, ∀ q ∈ sp.tz 0 b, q.1 = 0
  mt : sp.distributedMoment = true → ∀ b, sp.mt 0 b ≠ [] ∧ ∀ r ∈ sp.mt 0 b, ∀ q ∈ r.2, q.1 = 0

omit [LinearOrder K] [IsStrictOrderedRing K] in
theorem seen_succ (e : Fin n) (b : Bool) : seenNode e.succ b = (seenNode e b).succ := by
  unfold seenNode
  simp only [Fin.val_succ, add_lt_add_iff_right]
  split_ifs <;> rfl

omit [LinearOrder K] [IsStrictOrderedRing K] in
theorem disp_rest (u : Fin (3 * (n + 1) + 3) → K) (c : Fin 3) (e : Fin n) (b : Bool) :
    springDisp u c e.succ b = springDisp (tail u) c e b := by
  rw [springDisp_seen, springDisp_seen, seen_succ, dof_tail u]

omit [IsStrictOrderedRing K] in
theorem soil_rest (sp : Springs K (n + 1)) (kind : Kind) (u : Fin (3 * (n + 1) + 3) → K) (e : Fin n) :
    soilAt sp kind u e.succ = soilAt (rest sp) kind (tail u) e := by
  have h1 : ∀ b, pyAt sp kind u e.succ b = pyAt (rest sp) kind (tail u) e b := by
    intro b
    unfold pyAt
    rw [disp_rest]
    rfl
  have h2 : ∀ b, tzAt sp kind u e.succ b = tzAt (rest sp) kind (tail u) e b := by
    intro b
    unfold tzAt
    rw [disp_rest]
    rfl
  have h3 : ∀ b, mtAt sp kind u e.succ b = mtAt (rest sp) kind (tail u) e b := by
    intro b
    unfold mtAt
    rw [disp_rest, disp_rest]
    rfl
  unfold soilAt
  simp only [h1, h2, h3]

theorem soil_idle (sp : Springs K (n + 1)) (hi : Idle sp) (hm : sp.distributedMoment = true → sp.distributedLateral = true)
    (kind : Kind) (u : Fin (3 * (n + 1) + 3) → K) : soilAt sp kind u 0 = some ⟨(0, 0), (0, 0), (0, 0)⟩ := by
  have sum0 : ∀ (l : List (K × K)), (∀ q ∈ l, q.1 = 0) → (l.map (·.1)).sum = 0 := by
    intro l hl
    refine List.sum_eq_zero (fun y hy => ?_)
    obtain ⟨q, hq, rfl⟩ := List.mem_map.1 hy
    exact hl q hq
  have sum1 : ∀ (l : List (K × K)), (∀ q ∈ l, q.1 = 0) → (l.map (fun q => |q.1|)).sum = 0 := by
    intro l hl
    refine List.sum_eq_zero (fun y hy => ?_)
    obtain ⟨q, hq, rfl⟩ := List.mem_map.1 hy
    simp only [hl q hq, abs_zero]
  have p0 : ∀ b k x, pyStiffness (sp.py 0 b) k x = some 0 := by
    intro b k x
    unfold pyStiffness
    rw [if_pos (sum0 _ (hi.py b))]
  have t0 : ∀ b x, tzStiffness (sp.tz 0 b) kind x = some 0 := by
    intro b x
    unfold tzStiffness
    rw [if_pos (sum1 _ (hi.tz b))]
  have m0 : sp.distributedMoment = true → ∀ b x y, mtStiffness (sp.mt 0 b) sp.ncol x kind y = some 0 := by
    intro hd b x y
    obtain ⟨h1, h2⟩ := hi.mt hd b
    unfold mtStiffness
    cases h : sp.mt 0 b with
    | nil => exact absurd h h1
    | cons r rs =>
      rw [h] at h2
      simp [sum0 r.2 (h2 r (by simp))]
  have h1 : ∀ b, pyAt sp kind u 0 b = some 0 := by
    intro b
    unfold pyAt
    split
    · rw [springDisp_seen]
      simp [p0]
    · rfl
  have h2 : ∀ b, tzAt sp kind u 0 b = some 0 := by
    intro b
    unfold tzAt
    split
    · rw [springDisp_seen]
      simp [t0]
    · rfl
  have h3 : ∀ b, mtAt sp kind u 0 b = some 0 := by
    intro b
    unfold mtAt
    split
    · rename_i h
      rw [if_pos (hm h), springDisp_seen, springDisp_seen]
      simp [p0, m0 h]
    · rfl
  unfold soilAt
  simp [h1, h2, h3]

theorem build_rest (ty : ElementType) (el : Fin (n + 1) → Elem K) (sp : Springs K (n + 1)) (hi : Idle sp)
    (hm : sp.distributedMoment = true → sp.distributedLateral = true) :
    Rest ty el (buildStiffness ty el sp) (buildStiffness ty (fun i => el i.succ) (rest sp)) := by
  intro kind d
  have hd : ∀ c : Fin 3, d ⟨3 * (n + 1) + c.1, by omega⟩ = tail d ⟨3 * n + c.1, by omega⟩ := by
    intro c
    unfold tail
    congr 1
    refine Fin.ext ?_
    simp only
    omega
  have hd0 : d ⟨3 * (n + 1), by omega⟩ = tail d ⟨3 * n, by omega⟩ := hd 0
  have hd1 : d ⟨3 * (n + 1) + 1, by omega⟩ = tail d ⟨3 * n + 1, by omega⟩ := hd 1
  have hd2 : d ⟨3 * (n + 1) + 2, by omega⟩ = tail d ⟨3 * n + 2, by omega⟩ := hd 2
  unfold buildStiffness
  rw [hd0, hd1, hd2]
  rcases hs : allSome (soilAt (rest sp) kind (tail d)) with _ | s
  · left
    refine ⟨?_, rfl⟩
    rcases hs' : allSome (soilAt sp kind d) with _ | s'
    · rfl
    · rw [allSome_iff] at hs'
      have : allSome (soilAt (rest sp) kind (tail d)) = some (fun i => s' i.succ) := by
        rw [allSome_iff]
        intro i
        rw [← soil_rest]
        exact hs' i.succ
      rw [hs] at this
      cases this
  · rw [allSome_iff] at hs
    have : allSome (soilAt sp kind d) = some (Fin.cons ⟨(0, 0), (0, 0), (0, 0)⟩ s) := by
      rw [allSome_iff]
      intro i
      refine Fin.cases ?_ (fun i => ?_) i
      · rw [soil_idle sp hi hm, Fin.cons_zero]
      · rw [soil_rest, hs, Fin.cons_succ]
    rw [this]
    simp only [Option.bind_eq_bind, Option.bind_some, Option.pure_def]
    have e1 : (rest sp).baseShear = sp.baseShear := rfl
    have e2 : (rest sp).baseMoment = sp.baseMoment := rfl
    have e3 : (rest sp).baseAxial = sp.baseAxial := rfl
    have e4 : (rest sp).hb = sp.hb := rfl
    have e5 : (rest sp).mb = sp.mb := rfl
    have e6 : (rest sp).qz = sp.qz := rfl
    rw [e1, e2, e3, e4, e5, e6]
    have key : ∀ (a b c : Bool) (x y z : Option K), ∃ o : Option (K × K × K), ∀ {α : Type} (f : K → K → K → α),
        (if a = true then x.bind fun h =>
            if b = true then y.bind fun m => if c = true then z.bind fun q => some (f h m q) else some (f h m 0)
            else if c = true then z.bind fun q => some (f h 0 q) else some (f h 0 0)
          else if b = true then y.bind fun m => if c = true then z.bind fun q => some (f 0 m q) else some (f 0 m 0)
            else if c = true then z.bind fun q => some (f 0 0 q) else some (f 0 0 0))
        = o.map (fun t => f t.1 t.2.1 t.2.2) := by
      intro a b c x y z
      refine ⟨(if a = true then x else some 0).bind fun h => (if b = true then y else some 0).bind fun m =>
        (if c = true then z else some 0).map fun q => (h, m, q), fun f => ?_⟩
      cases a <;> cases b <;> cases c <;> cases x <;> cases y <;> cases z <;> rfl
    obtain ⟨o, ho⟩ := key sp.baseShear sp.baseMoment sp.baseAxial (baseStiffness sp.hb kind (tail d ⟨3 * n + 1, by omega⟩))
      (baseStiffness sp.mb kind (tail d ⟨3 * n + 2, by omega⟩)) (baseAxialStiffness sp.qz kind (tail d ⟨3 * n, by omega⟩))
    rw [ho (fun h m q => soilStiffness ty (n + 1) el (Fin.cons ⟨(0, 0), (0, 0), (0, 0)⟩ s) h m q),
      ho (fun h m q => soilStiffness ty n (fun i => el i.succ) s h m q)]
    rcases o with _ | ⟨h, m, q⟩
    · exact Or.inl ⟨rfl, rfl⟩
    · exact Or.inr ⟨Fin.cons ⟨(0, 0), (0, 0), (0, 0)⟩ s, h, m, q, rfl, rfl, by simp⟩

/-! ### any number of elements -/

/-- A vector of a pile without the entries of its `k` topmost nodes. -/
def drop {α : Type} (k : ℕ) (v : Fin (3 * (n + k) + 3) → α) : Fin (3 * n + 3) → α := fun r => v ⟨r.1 + 3 * k, by omega⟩

/-- The `k` topmost elements are free of forces. -/
def Quiets (ty : ElementType) (k : ℕ) (el : Fin (n + k) → Elem K) (v : Fin (3 * (n + k) + 3) → K) : Prop :=
  ∀ i : Fin (n + k), i.1 < k → mechMatrix ty (el i) *ᵥ stacked v i = 0

/-- The entries of the `k` topmost nodes are `a`. -/
def Top {α : Type} (k : ℕ) (a : α) (v : Fin (3 * (n + k) + 3) → α) : Prop := ∀ r, r.1 < 3 * k → v r = a

omit [Field K] [LinearOrder K] [IsStrictOrderedRing K] in
theorem drop_succ {α : Type} (k : ℕ) (v : Fin (3 * (n + (k + 1)) + 3) → α) :
    drop (k + 1) v = drop k (tail (n := n + k) v) := by
  funext r
  unfold drop tail
  congr 1

omit [Field K] [LinearOrder K] [IsStrictOrderedRing K] in
theorem top_succ {α : Type} (k : ℕ) (a : α) (v : Fin (3 * (n + (k + 1)) + 3) → α) :
    Top (k + 1) a v ↔ (∀ c, head (n := n + k) v c = a) ∧ Top k a (tail (n := n + k) v) := by
  constructor
  · intro h
    exact ⟨fun c => h _ (by simp only; omega), fun r hr => h _ (by simp only; omega)⟩
  · rintro ⟨h1, h2⟩ r hr
    by_cases h3 : r.1 < 3
    · exact h1 ⟨r.1, h3⟩
    · have := h2 ⟨r.1 - 3, by have := r.2; omega⟩ (by simp only; omega)
      unfold tail at this
      rw [← this]
      congr 1
      refine Fin.ext ?_
      simp only
      omega

omit [LinearOrder K] [IsStrictOrderedRing K] in
theorem quiets_succ (ty : ElementType) (k : ℕ) (el : Fin (n + (k + 1)) → Elem K) (v : Fin (3 * (n + (k + 1)) + 3) → K)
    (h0 : Quiet (n := n + k) ty el v) (h1 : Quiets ty k (fun i : Fin (n + k) => el i.succ) (tail (n := n + k) v)) :
    Quiets ty (k + 1) el v := by
  intro i hi
  refine Fin.cases (motive := fun i : Fin (n + k + 1) => i.1 < k + 1 → mechMatrix ty (el i) *ᵥ stacked v i = 0) ?_ ?_ i hi
  · intro _
    exact h0
  · intro i hi
    have := h1 i (by simpa using hi)
    rw [← this, ← stacked_tail]

/-- The end of the analysis of the pile, seen from the pile without its `k` topmost elements. -/
inductive SameEnd (ty : ElementType) (k : ℕ) (el : Fin (n + k) → Elem K) :
    Outcome (Fin (3 * (n + k) + 3)) K → Outcome (Fin (3 * n + 3)) K → Prop
  | converged (d Q : Fin (3 * (n + k) + 3) → K) (it : ℕ) (t r : K) (hd : Quiets ty k el d) (hQ : Top k 0 Q) :
      SameEnd ty k el (.converged d Q it t r) (.converged (drop k d) (drop k Q) it t r)
  | exhausted (d Q : Fin (3 * (n + k) + 3) → K) (it : ℕ) (t r : K) (hd : Quiets ty k el d) (hQ : Top k 0 Q) :
      SameEnd ty k el (.exhausted d Q it t r) (.exhausted (drop k d) (drop k Q) it t r)
  | nan (it : ℕ) : SameEnd ty k el (.nan it) (.nan it)
  | raised : SameEnd ty k el .raised .raised

/-- The springs of a pile without its `k` topmost elements. -/
def below (k : ℕ) (sp : Springs K (n + k)) : Springs K n :=
  { sp with py := fun i => sp.py (i.addNat k), tz := fun i => sp.tz (i.addNat k), mt := fun i => sp.mt (i.addNat k) }

/-- The spring tables of the `k` topmost elements are filled with zeros, as those of elements above ground. -/
structure Idles (k : ℕ) (sp : Springs K (n + k)) : Prop where
  py : ∀ i : Fin (n + k), i.1 < k → ∀ b, ∀ q ∈ sp.py i b, q.1 = 0
  tz : ∀ i : Fin (n + k), i.1 < k → ∀ b, ∀ q ∈ sp.tz i b, q.1 = 0
  mt : sp.distributedMoment = true → ∀ i : Fin (n + k), i.1 < k → ∀ b, sp.mt i b ≠ [] ∧ ∀ r ∈ sp.mt i b, ∀ q ∈ r.2, q.1 = 0

/-- **C99, with soil.** A pile whose `k` topmost elements carry no load, no support and no springs: the analysis ends as
that of the pile without these elements, after the same iterations, with the same displacements and reactions below; the
`k` elements are free of section forces, so that they move as a rigid body. -/
theorem C99_soil (ty : ElementType) (k : ℕ) (el : Fin (n + k) → Elem K) (hreg : ∀ i : Fin (n + k), i.1 < k → Regular ty (el i))
    (sp : Springs K (n + k)) (hi : Idles k sp) (hm : sp.distributedMoment = true → sp.distributedLateral = true)
    (F U : Fin (3 * (n + k) + 3) → K) (fix : Fin (3 * (n + k) + 3) → Bool) (hF : Top k 0 F) (hU : Top k 0 U)
    (hfix : Top k false fix) (m : ℕ) :
    SameEnd ty k el (winkler (buildStiffness ty el sp) F U fix m)
      (winkler (buildStiffness ty (fun i : Fin n => el (i.addNat k)) (below k sp)) (drop k F) (drop k U) (drop k fix) m) := by
  induction k with
  | zero =>
    have e : ∀ {α : Type} (v : Fin (3 * (n + 0) + 3) → α), drop 0 v = v := fun v => rfl
    have eb : below 0 sp = sp := rfl
    rw [e, e, e, eb]
    have q : ∀ d, Quiets ty 0 el d := fun d i hi => absurd hi (Nat.not_lt_zero _)
    have t : ∀ Q : Fin (3 * (n + 0) + 3) → K, Top 0 0 Q := fun Q r hr => absurd hr (by omega)
    change SameEnd ty 0 el _ (winkler (buildStiffness ty el sp) F U fix m)
    cases winkler (buildStiffness ty el sp) F U fix m with
    | converged d Q it t' r => exact .converged d Q it t' r (q d) (t Q)
    | exhausted d Q it t' r => exact .exhausted d Q it t' r (q d) (t Q)
    | nan it => exact .nan it
    | raised => exact .raised
  | succ k ih =>
    have hF' := (top_succ k 0 F).1 hF
    have hU' := (top_succ k 0 U).1 hU
    have hfix' := (top_succ k false fix).1 hfix
    have idle : Idle (n := n + k) sp := ⟨hi.py (0 : Fin (n + k + 1)) (by simp), hi.tz (0 : Fin (n + k + 1)) (by simp),
      fun hd => hi.mt hd (0 : Fin (n + k + 1)) (by simp)⟩
    have one := winkler_stub (n := n + k) ty el (hreg (0 : Fin (n + k + 1)) (by simp)) (build_rest ty el sp idle hm)
      (funext hF'.1) (funext hU'.1) hfix'.1 m
    have more := ih (fun i : Fin (n + k) => el i.succ) (fun i h => hreg i.succ (by simp; omega)) (rest sp)
      ⟨fun i h => hi.py i.succ (by simp; omega), fun i h => hi.tz i.succ (by simp; omega),
        fun hd i h => hi.mt hd i.succ (by simp; omega)⟩ hm _ _ _ hF'.2 hU'.2 hfix'.2
    rw [drop_succ, drop_succ, drop_succ]
    change SameEnd ty (k + 1) el _ (winkler (buildStiffness ty (fun i : Fin n => el (i.addNat k).succ) (below k (rest sp)))
      (drop k (tail F)) (drop k (tail U)) (drop k (tail fix)) m)
    generalize winkler (buildStiffness ty el sp) F U fix m = A at one
    generalize winkler (buildStiffness ty (fun i : Fin (n + k) => el i.succ) (rest sp)) (tail F) (tail U) (tail fix) m = B at one more
    generalize winkler (buildStiffness ty (fun i : Fin n => el (i.addNat k).succ) (below k (rest sp)))
      (drop k (tail F)) (drop k (tail U)) (drop k (tail fix)) m = C at more
    cases one with
    | converged d Q it t r hd hQ =>
      cases more with
      | converged _ _ _ _ _ hd' hQ' =>
        rw [← drop_succ, ← drop_succ]
        exact SameEnd.converged (n := n) (k := k + 1) (el := el) d Q it t r (quiets_succ ty k el d hd hd') ((top_succ k 0 Q).2 ⟨congrFun hQ, hQ'⟩)
    | exhausted d Q it t r hd hQ =>
      cases more with
      | exhausted _ _ _ _ _ hd' hQ' =>
        rw [← drop_succ, ← drop_succ]
        exact SameEnd.exhausted (n := n) (k := k + 1) (el := el) d Q it t r (quiets_succ ty k el d hd hd') ((top_succ k 0 Q).2 ⟨congrFun hQ, hQ'⟩)
    | nan it => cases more; exact .nan it
    | raised => cases more; exact .raised

theorem solve_stubs_none (ty : ElementType) (k : ℕ) (el : Fin (n + k) → Elem K)
    (hreg : ∀ i : Fin (n + k), i.1 < k → Regular ty (el i)) (s : Fin (n + k) → SoilK K)
    (hs : ∀ i : Fin (n + k), i.1 < k → s i = ⟨(0, 0), (0, 0), (0, 0)⟩) (h m q : K) (F U : Fin (3 * (n + k) + 3) → K)
    (r : Fin (3 * (n + k) + 3) → Bool) (hr : Top k false r) :
    solveEquations (soilStiffness ty (n + k) el s h m q) F U r = none ↔
      solveEquations (soilStiffness ty n (fun i => el (i.addNat k)) (fun i => s (i.addNat k)) h m q) (drop k F) (drop k U)
        (drop k r) = none := by
  induction k with
  | zero => exact Iff.rfl
  | succ k ih =>
    obtain ⟨r1, r2⟩ := (top_succ k false r).1 hr
    rw [drop_succ, drop_succ, drop_succ]
    refine (solve_none (n := n + k) ty el (hreg (0 : Fin (n + k + 1)) (by simp)) s (hs (0 : Fin (n + k + 1)) (by simp)) h m q F U
      r r1 (tail F) (tail U)).trans ?_
    exact ih (fun i : Fin (n + k) => el i.succ) (fun i h => hreg i.succ (by simp; omega)) (fun i : Fin (n + k) => s i.succ)
      (fun i h => hs i.succ (by simp; omega)) (tail F) (tail U) (tail r) r2

theorem solve_stubs (ty : ElementType) (k : ℕ) (el : Fin (n + k) → Elem K)
    (hreg : ∀ i : Fin (n + k), i.1 < k → Regular ty (el i)) (s : Fin (n + k) → SoilK K)
    (hs : ∀ i : Fin (n + k), i.1 < k → s i = ⟨(0, 0), (0, 0), (0, 0)⟩) (h m q : K) (F U : Fin (3 * (n + k) + 3) → K)
    (r : Fin (3 * (n + k) + 3) → Bool) (hF : Top k 0 F) (hr : Top k false r) (u Q : Fin (3 * (n + k) + 3) → K)
    (hsol : solveEquations (soilStiffness ty (n + k) el s h m q) F U r = some (u, Q)) :
    solveEquations (soilStiffness ty n (fun i => el (i.addNat k)) (fun i => s (i.addNat k)) h m q) (drop k F) (drop k U)
        (drop k r) = some (drop k u, drop k Q) ∧ Quiets ty k el u ∧ Top k 0 Q := by
  induction k with
  | zero => exact ⟨hsol, fun i hi => absurd hi (Nat.not_lt_zero _), fun r hr => absurd hr (by omega)⟩
  | succ k ih =>
    obtain ⟨r1, r2⟩ := (top_succ k false r).1 hr
    obtain ⟨f1, f2⟩ := (top_succ k 0 F).1 hF
    obtain ⟨a, b, c⟩ := solve_stub (n := n + k) ty el (hreg (0 : Fin (n + k + 1)) (by simp)) s (hs (0 : Fin (n + k + 1)) (by simp))
      h m q F U r (funext f1) r1 hsol
    obtain ⟨x, y, w⟩ := ih (fun i : Fin (n + k) => el i.succ) (fun i h => hreg i.succ (by simp; omega))
      (fun i : Fin (n + k) => s i.succ) (fun i h => hs i.succ (by simp; omega)) (tail F) (tail U) (tail r) f2 r2 _ _ a
    rw [drop_succ, drop_succ, drop_succ, drop_succ, drop_succ]
    exact ⟨x, quiets_succ ty k el u b y, (top_succ k 0 Q).2 ⟨congrFun c, w⟩⟩

/-! ### tables -/

section tables
open OpenPile.BC OpenPile.Mesh OpenPile.Result OpenPile.Analysis OpenPile.Props.Analysis OpenPile.Props.Reported

/-- The tables `T'` of a pile with additional nodes `S` on top, seen from the tables `T` of the pile without them: the same
rows below; above, the displacements are those of a rigid body fixed to the old head, the section forces are zero, and there
are no reactions. -/
structure Seen (S : List K) (T' T : Tables K) : Prop where
  disp : ∃ z w v θ, T.disp.head? = some (z, w, v, θ) ∧ T'.disp = S.map (fun x => (x, w, v - (x - z) * θ, θ)) ++ T.disp
  forces : ∃ X, T'.forces = X ++ T.forces ∧ X.length = 2 * S.length ∧ ∀ r ∈ X, r.2 = (0, 0, 0)
  reactions : T'.reactions = T.reactions

variable [FloorRing K]

theorem tables_stub (ty : ElementType) (hn : 1 ≤ n) (k : ℕ) (z : Fin (n + k + 1) → K) (hz : StrictAnti z)
    (el : Fin (n + k) → Elem K) (hL : ∀ i, (el i).L = |z i.castSucc - z i.succ|) (hreg : ∀ i, Regular ty (el i))
    (u Q : Fin (3 * (n + k) + 3) → K) (hu : Quiets ty k el u) (hQ : Top k 0 Q) :
    ∃ T' T, tables ty (List.ofFn z) el u Q = some T' ∧
      tables ty (List.ofFn (fun j : Fin (n + 1) => z ⟨j.1 + k, by omega⟩)) (fun i : Fin n => el (i.addNat k)) (drop k u) (drop k Q)
        = some T ∧ Seen (List.ofFn (fun j : Fin k => z ⟨j.1, by omega⟩)) T' T := by
  obtain ⟨T', e', a1, a2, a3, a4⟩ := tables_exact ty (by omega) z el u Q
  obtain ⟨T, e, b1, b2, b3, b4⟩ := tables_exact ty hn (fun j : Fin (n + 1) => z ⟨j.1 + k, by omega⟩) (fun i : Fin n => el (i.addNat k))
    (drop k u) (drop k Q)
  refine ⟨T', T, e', e, ?_, ?_, ?_⟩
  · have hr : RigidAbove (fun i => (el i).L) (⟨k, by omega⟩ : Fin (n + k + 1)) u := fun i hi =>
      rigid_of_free ty _ (hreg i) _ (hu i hi)
    have hform := rigidAbove_form _ _ _ hr
    have hd : ∀ j : Fin (n + k + 1), nodeDepth (fun i => (el i).L) j = z 0 - z j := by
      intro j
      have : (fun i => (el i).L) = fun i : Fin (n + k) => |z i.castSucc - z i.succ| := funext hL
      rw [this, depth_of_elevations z hz]
    refine ⟨z ⟨k, by omega⟩, u (dof ⟨k, by omega⟩ 0), u (dof ⟨k, by omega⟩ 1), u (dof ⟨k, by omega⟩ 2), ?_, ?_⟩
    · rw [b1, List.ofFn_succ, List.head?_cons]
      have : ∀ c : Fin 3, drop k u (dof (0 : Fin (n + 1)) c) = u (dof ⟨k, by omega⟩ c) := by
        intro c
        unfold drop
        congr 1
        refine Fin.ext ?_
        simp only [dof, Fin.val_zero]
        omega
      simp only [this, Fin.val_zero, zero_add]
    · rw [a1, b1]
      apply List.ext_getElem?
      intro i
      rw [List.getElem?_append]
      simp only [List.length_map, List.length_ofFn]
      by_cases hi : i < k
      · rw [if_pos hi, List.getElem?_ofFn, dif_pos (by omega), List.getElem?_map, List.getElem?_ofFn, dif_pos hi, Option.map_some]
        obtain ⟨h1, h2, h3⟩ := hform (k - i) ⟨i, by omega⟩ (by simp only; omega)
        rw [h1, h2, h3, hd, hd]
        congr 3
        simp only [Prod.mk.injEq, and_true]
        ring
      · rw [if_neg hi, List.getElem?_ofFn, List.getElem?_ofFn]
        by_cases hi' : i < n + k + 1
        · rw [dif_pos hi', dif_pos (by omega)]
          have ek : i - k + k = i := by omega
          have : ∀ c : Fin 3, drop k u (dof (⟨i - k, by omega⟩ : Fin (n + 1)) c) = u (dof ⟨i, hi'⟩ c) := by
            intro c
            unfold drop
            congr 1
            refine Fin.ext ?_
            simp only [dof]
            omega
          simp only [this, ek]
        · rw [dif_neg hi', dif_neg (by omega)]
  · have hzero : ∀ i : Fin (n + k), i.1 < k → ends ty el u i = ((0, 0, 0), (0, 0, 0)) := by
      intro i hi
      have : internalForces ty el u i = 0 := by
        funext a
        unfold internalForces
        rw [hu i hi]
        simp
      unfold ends sectionForces
      rw [this]
      simp
    have hrow : ∀ m, m < 2 * k → ∃ x, T'.forces[m]? = some (x, 0, 0, 0) := by
      intro m hm
      obtain ⟨x1, x2⟩ := a3 ⟨m / 2, by omega⟩
      rw [hzero _ (by simp only; omega)] at x1 x2
      rcases Nat.mod_two_eq_zero_or_one m with h2 | h2
      · have : 2 * (m / 2) = m := by omega
        simp only [this] at x1
        exact ⟨_, x1⟩
      · have : 2 * (m / 2) + 1 = m := by omega
        simp only [this] at x2
        exact ⟨_, x2⟩
    refine ⟨T'.forces.take (2 * k), ?_, by simp [a2], ?_⟩
    · have : T'.forces.drop (2 * k) = T.forces := by
        apply List.ext_getElem?
        intro m
        rw [List.getElem?_drop]
        by_cases hm : m < 2 * n
        · obtain ⟨x1, x2⟩ := a3 ⟨m / 2 + k, by omega⟩
          obtain ⟨y1, y2⟩ := b3 ⟨m / 2, by omega⟩
          have hends : ends ty (fun i : Fin n => el (i.addNat k)) (drop k u) ⟨m / 2, by omega⟩ = ends ty el u ⟨m / 2 + k, by omega⟩ := by
            unfold ends internalForces
            have : stacked (drop k u) (⟨m / 2, by omega⟩ : Fin n) = stacked u ⟨m / 2 + k, by omega⟩ := by
              funext a
              unfold stacked drop
              congr 1
              refine Fin.ext ?_
              simp only
              omega
            rw [this]
            rfl
          rw [hends] at y1 y2
          rcases Nat.mod_two_eq_zero_or_one m with h2 | h2
          · have r1 : 2 * (m / 2 + k) = 2 * k + m := by omega
            have r2 : 2 * (m / 2) = m := by omega
            simp only [r1] at x1
            simp only [r2] at y1
            rw [x1, y1]
            rfl
          · have r1 : 2 * (m / 2 + k) + 1 = 2 * k + m := by omega
            have r2 : 2 * (m / 2) + 1 = m := by omega
            simp only [r1] at x2
            simp only [r2] at y2
            rw [x2, y2]
            congr 2
            congr 1
            refine Fin.ext ?_
            simp
            omega
        · rw [List.getElem?_eq_none (by omega), List.getElem?_eq_none (by omega)]
      rw [← this, List.take_append_drop]
    · intro r hr
      obtain ⟨m, hm, rfl⟩ := List.getElem_of_mem hr
      have hm' : m < 2 * k := by
        rw [List.length_take] at hm
        omega
      obtain ⟨x, hx⟩ := hrow m hm'
      rw [List.getElem_take]
      rw [List.getElem?_eq_getElem (by omega)] at hx
      rw [Option.some.inj hx]
  · rw [a4, b4]
    have hsplit : List.ofFn (fun j => (z j, shown Q j)) = List.ofFn (fun j : Fin k => (z ⟨j.1, by omega⟩, [0, 0, 0]))
        ++ List.ofFn (fun j : Fin (n + 1) => (z ⟨j.1 + k, by omega⟩, shown (drop k Q) j)) := by
      apply List.ext_getElem?
      intro i
      rw [List.getElem?_append]
      simp only [List.length_ofFn]
      by_cases hi : i < k
      · rw [if_pos hi, List.getElem?_ofFn, dif_pos (by omega), List.getElem?_ofFn, dif_pos hi]
        unfold shown
        rw [hQ _ (by simp only [dof]; omega), hQ _ (by simp only [dof]; omega), hQ _ (by simp only [dof]; omega)]
        have : maskSmall (0 : K) = 0 := by
          unfold maskSmall
          simp
        rw [this]
      · rw [if_neg hi, List.getElem?_ofFn, List.getElem?_ofFn]
        by_cases hi' : i < n + k + 1
        · rw [dif_pos hi', dif_pos (by omega)]
          have ek : i - k + k = i := by omega
          have : ∀ c : Fin 3, drop k Q (dof (⟨i - k, by omega⟩ : Fin (n + 1)) c) = Q (dof ⟨i, hi'⟩ c) := by
            intro c
            unfold drop
            congr 1
            refine Fin.ext ?_
            simp only [dof]
            omega
          unfold shown
          simp only [this, ek]
        · rw [dif_neg hi', dif_neg (by omega)]
    rw [hsplit, List.filter_append]
    have : (List.ofFn (fun j : Fin k => (z ⟨j.1, by omega⟩, [(0 : K), 0, 0]))).filter
        (fun r => r.2.any (fun q => decide (1 / 1000 < |q|))) = [] := by
      rw [List.filter_eq_nil_iff]
      intro r hr
      obtain ⟨j, rfl⟩ := List.mem_ofFn.1 hr
      simp
    rw [this, List.nil_append]

/-! ### boundary conditions -/

omit [IsStrictOrderedRing K] [FloorRing K] in
theorem nodeIdx_stub (S nodes : List K) (e : K) (h : ∀ x ∈ S, isClose x e = false) :
    nodeIdx (S ++ nodes) e = (nodeIdx nodes e).map (· + S.length) := by
  unfold nodeIdx
  rw [List.findIdx?_append, List.findIdx?_eq_none_iff.2 h]
  rfl

omit [IsStrictOrderedRing K] [FloorRing K] in
/-- Conditions that do not concern the nodes `S` on top leave their entries alone. -/
theorem applyBc_stub {β : Type} (store : Val K → β) (S nodes : List K) (cls : Cls) (bcs : List (Cond K))
    (h : ∀ c ∈ bcs, ∀ x ∈ S, isClose x c.elevation = false) :
    ∀ (x y z x' y' z' : List β), x.length = S.length → y.length = S.length → z.length = S.length →
      applyBc store (S ++ nodes) ⟨x ++ x', y ++ y', z ++ z'⟩ bcs cls
        = ⟨x ++ (applyBc store nodes ⟨x', y', z'⟩ bcs cls).x, y ++ (applyBc store nodes ⟨x', y', z'⟩ bcs cls).y,
          z ++ (applyBc store nodes ⟨x', y', z'⟩ bcs cls).z⟩ := by
  induction bcs with
  | nil => intro x y z x' y' z' _ _ _; rfl
  | cons c l ih =>
    intro x y z x' y' z' hx hy hz
    have ih := ih (fun c hc => h c (List.mem_cons_of_mem _ hc))
    have wr : ∀ (w w' : List β) (i : ℕ) (v : Option (Val K)), w.length = S.length →
        writeAxis store (w ++ w') (i + S.length) v = w ++ writeAxis store w' i v := by
      intro w w' i v hw
      unfold writeAxis
      cases v with
      | none => rfl
      | some v =>
        simp only
        split_ifs
        · rw [List.set_append_right _ _ (by omega), hw, Nat.add_sub_cancel]
        · rfl
    unfold applyBc at ih ⊢
    rw [List.foldl_cons, List.foldl_cons]
    unfold applyOne
    by_cases hcls : c.cls = cls
    · rw [if_pos hcls, if_pos hcls, nodeIdx_stub S nodes _ (h c (by simp))]
      cases hi : nodeIdx nodes c.elevation with
      | none => exact ih x y z x' y' z' hx hy hz
      | some i =>
        simp only [Option.map_some]
        rw [wr x x' i _ hx, wr y y' i _ hy, wr z z' i _ hz]
        exact ih x y z _ _ _ hx hy hz
    · rw [if_neg hcls, if_neg hcls]
      exact ih x y z x' y' z' hx hy hz

omit [IsStrictOrderedRing K] [FloorRing K] in
theorem column_stub {β : Type} (store : Val K → β) (init : β) (S nodes : List K) (cls : Cls) (bcs : List (Cond K))
    (h : ∀ c ∈ bcs, ∀ x ∈ S, isClose x c.elevation = false) (a : Axis) :
    (applyBc store (S ++ nodes) ⟨(S ++ nodes).map (fun _ => init), (S ++ nodes).map (fun _ => init),
      (S ++ nodes).map (fun _ => init)⟩ bcs cls).get a
      = S.map (fun _ => init) ++ (applyBc store nodes ⟨nodes.map (fun _ => init), nodes.map (fun _ => init),
        nodes.map (fun _ => init)⟩ bcs cls).get a := by
  rw [List.map_append, applyBc_stub store S nodes cls bcs h _ _ _ _ _ _ (by simp) (by simp) (by simp)]
  cases a <;> rfl

omit [Field K] [LinearOrder K] [IsStrictOrderedRing K] [FloorRing K] in
/-- The nodal columns of both piles as vectors. -/
theorem vector_stub {α : Type} (k : ℕ) (a : α) (v' : Fin (3 * (n + k) + 3) → α) (v : Fin (3 * n + 3) → α)
    (h : ∀ d : Fin 3, List.ofFn (fun j : Fin (n + k + 1) => v' (dof j d)) = List.replicate k a
      ++ List.ofFn (fun j : Fin (n + 1) => v (dof j d))) : Top k a v' ∧ drop k v' = v := by
  have hat : ∀ (d : Fin 3) (i : ℕ), (List.ofFn (fun j : Fin (n + k + 1) => v' (dof j d)))[i]?
      = (List.replicate k a ++ List.ofFn (fun j : Fin (n + 1) => v (dof j d)))[i]? := fun d i => by rw [h d]
  constructor
  · intro r hr
    have := hat ⟨r.1 % 3, by omega⟩ (r.1 / 3)
    rw [List.getElem?_append_left (by simp; omega), List.getElem?_ofFn, dif_pos (by omega),
      List.getElem?_replicate, if_pos (by omega)] at this
    rw [← Option.some.inj this]
    congr 1
    refine Fin.ext ?_
    simp only [dof]
    omega
  · funext r
    have := hat ⟨r.1 % 3, by omega⟩ (r.1 / 3 + k)
    rw [List.getElem?_append_right (by simp), List.getElem?_ofFn, dif_pos (by omega), List.getElem?_ofFn,
      dif_pos (by simp; omega)] at this
    have hr : dof (⟨r.1 / 3 + k - (List.replicate k a).length, by simp; omega⟩ : Fin (n + 1)) ⟨r.1 % 3, by omega⟩ = r := by
      refine Fin.ext ?_
      simp only [dof, List.length_replicate]
      omega
    rw [hr] at this
    rw [← Option.some.inj this]
    unfold drop
    congr 1
    refine Fin.ext ?_
    simp only [dof]
    omega

omit [IsStrictOrderedRing K] in
/-- What the analyses of both piles read of nodes, elements and boundary conditions. -/
theorem read_stub (pi : K) (p p' : Pile.Pile K) (E : List (Pile.Section K)) (hE : p'.sections = E ++ p.sections)
    (hmat : p'.material = p.material) (C C' : Coordinates K) (S : List K) (hS : C'.nodes = S ++ C.nodes) (bcs : List (Cond K))
    (hclear : ∀ c ∈ bcs, ∀ x ∈ S, isClose x c.elevation = false) (hv : ∀ cls, validateBc bcs cls = .ok ()) (k : ℕ) (hk : S.length = k)
    (z : Fin (n + 1) → K) (el : Fin n → Elem K) (F U : Fin (3 * n + 3) → K) (R : Fin (3 * n + 3) → Bool)
    (g : Nodal ℤ) (gU : Nodal K) (gR : Nodal Bool) (hz : C.nodes = List.ofFn z) (hel : ElementsOn pi p z el)
    (hg : globalForces C.nodes bcs = .ok g) (hgU : globalDisp C.nodes bcs = .ok gU) (hgR : globalRestrained C.nodes bcs = .ok gR)
    (hF : ∀ d, (g.get (axisOf d)).map (fun i : ℤ => (i : K)) = List.ofFn (fun j => F (dof j d)))
    (hUv : ∀ d, gU.get (axisOf d) = List.ofFn (fun j => U (dof j d)))
    (hRv : ∀ d, gR.get (axisOf d) = List.ofFn (fun j => R (dof j d)))
    (z' : Fin (n + k + 1) → K) (el' : Fin (n + k) → Elem K) (F' U' : Fin (3 * (n + k) + 3) → K) (R' : Fin (3 * (n + k) + 3) → Bool)
    (g' : Nodal ℤ) (gU' : Nodal K) (gR' : Nodal Bool) (hz' : C'.nodes = List.ofFn z') (hel' : ElementsOn pi p' z' el')
    (hg' : globalForces C'.nodes bcs = .ok g') (hgU' : globalDisp C'.nodes bcs = .ok gU') (hgR' : globalRestrained C'.nodes bcs = .ok gR')
    (hF' : ∀ d, (g'.get (axisOf d)).map (fun i : ℤ => (i : K)) = List.ofFn (fun j => F' (dof j d)))
    (hUv' : ∀ d, gU'.get (axisOf d) = List.ofFn (fun j => U' (dof j d)))
    (hRv' : ∀ d, gR'.get (axisOf d) = List.ofFn (fun j => R' (dof j d))) :
    List.ofFn (fun j : Fin k => z' ⟨j.1, by omega⟩) = S ∧ (fun j : Fin (n + 1) => z' ⟨j.1 + k, by omega⟩) = z ∧
    (fun i : Fin n => el' (i.addNat k)) = el ∧ (Top k 0 F' ∧ drop k F' = F) ∧ (Top k 0 U' ∧ drop k U' = U) ∧
    Top k false R' ∧ drop k R' = R := by
  -- nodes
  have hnode : ∀ j : Fin (n + 1), z' ⟨j.1 + k, by omega⟩ = z j := by
    intro j
    have : C'.nodes[j.1 + k]? = C.nodes[j.1]? := by
      rw [hS, List.getElem?_append_right (by omega), hk, Nat.add_sub_cancel]
    rw [hz', hz, List.getElem?_ofFn, List.getElem?_ofFn, dif_pos (by omega), dif_pos j.2] at this
    exact Option.some.inj this
  have hzS : List.ofFn (fun j : Fin k => z' ⟨j.1, by omega⟩) = S := by
    apply List.ext_getElem?
    intro i
    rw [List.getElem?_ofFn]
    by_cases hi : i < k
    · have : C'.nodes[i]? = S[i]? := by rw [hS, List.getElem?_append_left (by omega)]
      rw [dif_pos hi, ← this, hz', List.getElem?_ofFn, dif_pos (by omega)]
    · rw [dif_neg hi, List.getElem?_eq_none (by omega)]
  have hz0 : (fun j : Fin (n + 1) => z' ⟨j.1 + k, by omega⟩) = z := funext hnode
  -- elements
  have helem : (fun i : Fin n => el' (i.addNat k)) = el := by
    funext i
    obtain ⟨s, h1, h2⟩ := hel i
    obtain ⟨s', h1', h2'⟩ := hel' (i.addNat k)
    have c1 : z' (i.addNat k).castSucc = z i.castSucc := hnode i.castSucc
    have c2 : z' (i.addNat k).succ = z i.succ := by
      rw [← hnode i.succ]
      congr 1
      refine Fin.ext ?_
      simp
      omega
    rw [c1, c2, hE, List.filter_append, h1] at h1'
    have : s' = s := by
      have h0 := congrArg List.getLast? h1'
      rw [List.getLast?_append] at h0
      simpa using h0.symm
    rw [h2', h2, c1, c2, this, hmat]
  -- boundary conditions
  have cols : ∀ {β γ : Type} (store : Val K → β) (init : β) (cls : Cls) (f : β → γ) (v' : Fin (3 * (n + k) + 3) → γ)
      (v : Fin (3 * n + 3) → γ),
      (∀ d, ((applyBc store C'.nodes ⟨C'.nodes.map (fun _ => init), C'.nodes.map (fun _ => init),
        C'.nodes.map (fun _ => init)⟩ bcs cls).get (axisOf d)).map f = List.ofFn (fun j => v' (dof j d))) →
      (∀ d, ((applyBc store C.nodes ⟨C.nodes.map (fun _ => init), C.nodes.map (fun _ => init),
        C.nodes.map (fun _ => init)⟩ bcs cls).get (axisOf d)).map f = List.ofFn (fun j => v (dof j d))) →
      Top k (f init) v' ∧ drop k v' = v := by
    intro β γ store init cls f v' v e' e
    refine vector_stub k (f init) v' v (fun d => ?_)
    rw [← e' d, ← e d, hS, column_stub store init S C.nodes cls bcs hclear, List.map_append, List.map_map]
    congr 1
    rw [← hk]
    exact List.map_const'
  have hgv : g = applyBc storeInt C.nodes ⟨C.nodes.map (fun _ => 0), C.nodes.map (fun _ => 0), C.nodes.map (fun _ => 0)⟩ bcs .force := by
    unfold globalForces at hg
    rw [hv] at hg
    cases hg
    rfl
  have hgv' : g' = applyBc storeInt C'.nodes ⟨C'.nodes.map (fun _ => 0), C'.nodes.map (fun _ => 0), C'.nodes.map (fun _ => 0)⟩ bcs .force := by
    unfold globalForces at hg'
    rw [hv] at hg'
    cases hg'
    rfl
  have hgUv : gU = applyBc storeFloat C.nodes ⟨C.nodes.map (fun _ => 0), C.nodes.map (fun _ => 0), C.nodes.map (fun _ => 0)⟩ bcs .displacement := by
    unfold globalDisp at hgU
    rw [hv] at hgU
    cases hgU
    rfl
  have hgUv' : gU' = applyBc storeFloat C'.nodes ⟨C'.nodes.map (fun _ => 0), C'.nodes.map (fun _ => 0), C'.nodes.map (fun _ => 0)⟩ bcs .displacement := by
    unfold globalDisp at hgU'
    rw [hv] at hgU'
    cases hgU'
    rfl
  have hgRv : gR = applyBc storeBool C.nodes ⟨C.nodes.map (fun _ => false), C.nodes.map (fun _ => false), C.nodes.map (fun _ => false)⟩ bcs .fixation := by
    unfold globalRestrained at hgR
    rw [hv] at hgR
    cases hgR
    rfl
  have hgRv' : gR' = applyBc storeBool C'.nodes ⟨C'.nodes.map (fun _ => false), C'.nodes.map (fun _ => false), C'.nodes.map (fun _ => false)⟩ bcs .fixation := by
    unfold globalRestrained at hgR'
    rw [hv] at hgR'
    cases hgR'
    rfl
  obtain ⟨fT, fD⟩ := cols storeInt 0 .force (fun i : ℤ => (i : K)) F' F (fun d => by rw [← hgv']; exact hF' d) (fun d => by rw [← hgv]; exact hF d)
  obtain ⟨uT, uD⟩ := cols storeFloat 0 .displacement id U' U (fun d => by rw [← hgUv', List.map_id]; exact hUv' d)
    (fun d => by rw [← hgUv, List.map_id]; exact hUv d)
  obtain ⟨rT, rD⟩ := cols storeBool false .fixation id R' R (fun d => by rw [← hgRv', List.map_id]; exact hRv' d)
    (fun d => by rw [← hgRv, List.map_id]; exact hRv d)
  simp only [Int.cast_zero, id] at fT uT rT
  exact ⟨hzS, hz0, helem, ⟨fT, fD⟩, ⟨uT, uD⟩, rT, rD⟩

/-- **C99, without soil.** A pile `p'` with further sections `E` on top of those of `p`, meshed with further nodes `S`, under
conditions that concern none of these nodes: its analysis fails exactly if that of `p` fails, and otherwise shows the same
results below; the additional part moves as a rigid body, without section forces and reactions. -/
theorem C99_tables (pi : K) (ty : ElementType) (p p' : Pile.Pile K) (E : List (Pile.Section K)) (top top' tip : K)
    (hp : Stack p top tip) (hp' : Stack p' top' tip) (hE : p'.sections = E ++ p.sections) (hmat : p'.material = p.material)
    (hreg : ∀ s ∈ p'.sections, ∀ L : K, 0 < L → Regular ty (elemOf pi p'.material s L)) (C C' : Coordinates K)
    (h : MeshOn p top tip C) (h' : MeshOn p' top' tip C') (S : List K) (hS : C'.nodes = S ++ C.nodes) (bcs : List (Cond K))
    (hclear : ∀ c ∈ bcs, ∀ x ∈ S, isClose x c.elevation = false) :
    (solveOn pi ty p' C' bcs = none ↔ solveOn pi ty p C bcs = none) ∧
    ∀ T', solveOn pi ty p' C' bcs = some T' → ∃ T, solveOn pi ty p C bcs = some T ∧ Seen S T' T := by
  by_cases hv : ∀ cls, validateBc bcs cls = .ok ()
  swap
  · rw [solveOn_raises pi ty p C bcs hv, solveOn_raises pi ty p' C' bcs hv]
    exact ⟨Iff.rfl, fun T' hT' => by cases hT'⟩
  obtain ⟨z, el, F, U, R, g, gU, gR, n1, hz, hanti, hel, hg, hgU, hgR, hF, hUv, hRv, hs⟩ := solveOn_read pi ty hp h bcs hv
  have read' := solveOn_read pi ty hp' h' bcs hv
  have hn : C.nodes.length = C.elements.length + 1 := by rw [hz, List.length_ofFn]
  have hlen : C'.elements.length = C.elements.length + S.length := by
    obtain ⟨z', _, _, _, _, _, _, _, _, hz', _⟩ := read'
    have : C'.nodes.length = C'.elements.length + 1 := by rw [hz', List.length_ofFn]
    rw [hS, List.length_append] at this
    omega
  rw [hlen] at read'
  obtain ⟨z', el', F', U', R', g', gU', gR', -, hz', hanti', hel', hg', hgU', hgR', hF', hUv', hRv', hs'⟩ := read'
  generalize hk : S.length = k at *
  generalize hm : C.elements.length = n at *
  obtain ⟨hzS, hz0, helem, ⟨fT, fD⟩, ⟨uT, uD⟩, rT, rD⟩ := read_stub pi p p' E hE hmat C C' S hS bcs hclear hv k hk z el F U R g gU gR
    hz hel hg hgU hgR hF hUv hRv z' el' F' U' R' g' gU' gR' hz' hel' hg' hgU' hgR' hF' hUv' hRv'
  -- solution
  have hrg := regular_of_elements hreg hanti' hel'
  have hrT : Top k false (fun i => R' i || decide (U' i ≠ 0)) := by
    intro i hi
    have h1 := rT i hi
    have h2 := uT i hi
    simp [h1, h2]
  have hrD : drop k (fun i => R' i || decide (U' i ≠ 0)) = fun i => R i || decide (U i ≠ 0) := by
    rw [← uD, ← rD]
    rfl
  have none' := solve_stubs_none ty k el' (fun i _ => hrg i) (fun _ => ⟨(0, 0), (0, 0), (0, 0)⟩) (fun _ _ => rfl) 0 0 0 F' U' _ hrT
  rw [← beam_is_soil, ← beam_is_soil, hrD, fD, uD, helem] at none'
  have some' := solve_stubs ty k el' (fun i _ => hrg i) (fun _ => ⟨(0, 0), (0, 0), (0, 0)⟩) (fun _ _ => rfl) 0 0 0 F' U' _ fT hrT
  rw [← beam_is_soil, ← beam_is_soil, hrD, fD, uD, helem] at some'
  rw [hs, hs']
  unfold beam
  rcases hsol : solveEquations (beamStiffness ty (n + k) el') F' U' (fun i => R' i || decide (U' i ≠ 0)) with _ | ⟨u, Q⟩
  · rw [none'.1 hsol]
    exact ⟨Iff.rfl, fun T' hT' => by cases hT'⟩
  · obtain ⟨s1, s2, s3⟩ := some' u Q hsol
    rw [s1]
    simp only [Option.map_some, Option.bind_some]
    obtain ⟨T', T, t1, t2, t3⟩ := tables_stub ty n1 k z' hanti' el' (length_of_elementsOn hel') hrg u Q s2 s3
    rw [helem, hz0] at t2
    rw [hzS] at t3
    rw [t1, t2]
    refine ⟨by simp, fun T'' hT => ⟨T, rfl, ?_⟩⟩
    cases hT
    exact t3

/-! ### mesh -/

theorem refine_append (c : K) (hc : 0 < c) (b : K) (B : List K) : ∀ A : List K, (A ++ b :: B).Pairwise (· > ·) →
    ∃ X, Mesh.refine c (A ++ b :: B) = X ++ Mesh.refine c (b :: B) ∧ ∀ x ∈ X, b < x := by
  intro A
  induction A with
  | nil => intro _; exact ⟨[], rfl, by simp⟩
  | cons a A ih =>
    intro hd
    obtain ⟨X, hX, -⟩ := ih (List.pairwise_cons.1 hd).2
    have hpw := refine_pairwise c _ hc hd
    obtain ⟨Y, hY⟩ : ∃ Y, Mesh.refine c (a :: A ++ b :: B) = Y ++ Mesh.refine c (A ++ b :: B) := by
      cases A with
      | nil => exact ⟨_, rfl⟩
      | cons a' A => exact ⟨_, rfl⟩
    rw [hX, ← List.append_assoc] at hY
    refine ⟨Y ++ X, hY, ?_⟩
    intro x hx
    rw [hY] at hpw
    refine (List.pairwise_append.1 hpw).2.2 x hx b ?_
    have := refine_head c b B hc ((List.pairwise_append.1 hd).2.1)
    exact List.mem_of_mem_head? this

/-- The mesh of a pile with additional required elevations above the old ones: additional nodes on top. -/
theorem mesh_stub (p p' : Pile.Pile K) (soil : Option (Soil.Profile K)) (x2 x2' : List K) (c top tip : K) (hc : 0 < c)
    (ht : p.bottomElevation = some tip) (ht' : p'.bottomElevation = some tip)
    (hreq : ∀ r, Spec.Mesh.Required p tip soil x2 r ↔ Spec.Mesh.Required p' tip soil x2' r ∧ r ≤ top)
    (htop : Spec.Mesh.Required p tip soil x2 top) :
    ∃ X z, exactNodes p soil x2 c = some z ∧ exactNodes p' soil x2' c = some (X ++ z) ∧ ∀ x ∈ X, top < x := by
  have d := Py.uniqueDesc_pairwise (pileElevations p ++ soilElevations tip soil ++ x2)
  have d' := Py.uniqueDesc_pairwise (pileElevations p' ++ soilElevations tip soil ++ x2')
  change (primary p tip soil x2).Pairwise _ at d
  change (primary p' tip soil x2').Pairwise _ at d'
  have m := mem_primary p soil x2 tip (hpb := ht)
  have m' := mem_primary p' soil x2' tip (hpb := ht')
  have hhead := head_eq_max _ d top ((m top).2 htop) (fun x hx => ((hreq x).1 ((m x).1 hx)).2)
  obtain ⟨B, hB⟩ : ∃ B, primary p tip soil x2 = top :: B := by
    cases hpr : primary p tip soil x2 with
    | nil => rw [hpr] at hhead; cases hhead
    | cons a B =>
      rw [hpr, List.head?_cons, Option.some.injEq] at hhead
      exact ⟨B, by rw [hhead]⟩
  have hsplit : primary p' tip soil x2' = (primary p' tip soil x2').filter (fun x => decide (top < x)) ++ primary p tip soil x2 := by
    have dsum : ((primary p' tip soil x2').filter (fun x => decide (top < x)) ++ primary p tip soil x2).Pairwise (· > ·) := by
      refine List.pairwise_append.2 ⟨d'.sublist List.filter_sublist, d, ?_⟩
      intro a ha b hb
      have h1 : top < a := by simpa using (List.mem_filter.1 ha).2
      exact lt_of_le_of_lt ((hreq b).1 ((m b).1 hb)).2 h1
    have hperm : (primary p' tip soil x2').Perm ((primary p' tip soil x2').filter (fun x => decide (top < x)) ++ primary p tip soil x2) := by
      rw [List.perm_ext_iff_of_nodup (d'.imp fun h => h.ne') (dsum.imp fun h => h.ne')]
      intro x
      rw [List.mem_append, List.mem_filter, m, m', hreq]
      by_cases hx : top < x
      · simp [hx, not_le.2 hx]
      · simp [hx, not_lt.1 hx]
    exact hperm.eq_of_pairwise (fun a b _ _ hab hba => absurd hab (not_lt.2 (le_of_lt hba))) d' dsum
  rw [exactNodes_eq p soil x2 c tip hc ht, exactNodes_eq p' soil x2' c tip hc ht']
  rw [hsplit] at d'
  rw [hsplit]
  rw [hB] at d' ⊢
  obtain ⟨X, hX, hX'⟩ := refine_append c hc top B _ d'
  exact ⟨X, _, rfl, congrArg some hX, hX'⟩

omit [Field K] [IsStrictOrderedRing K] [FloorRing K] in
theorem above_stack (f : Pile.Section K) (l : List (Pile.Section K)) : ∀ E : List (Pile.Section K),
    (E ++ f :: l).IsChain (fun u v => v.top = u.bottom) → (∀ s ∈ E, s.bottom < s.top) → ∀ s ∈ E, f.top ≤ s.bottom := by
  intro E
  induction E with
  | nil => intro _ _ s hs; cases hs
  | cons a E ih =>
    intro hc hb s hs
    have hE := ih hc.tail (fun s hs => hb s (List.mem_cons_of_mem _ hs))
    rcases List.mem_cons.1 hs with rfl | hs
    · cases E with
      | nil => exact (List.isChain_cons_cons.1 hc).1.le
      | cons b E =>
        rw [← (List.isChain_cons_cons.1 hc).1]
        exact (hE b (by simp)).trans (hb b (by simp)).le
    · exact hE s hs

/-- **C99, without soil, as the user meets it.** Two piles of the same material, the second one with further sections `E`
on top and further elevations `y` for the mesh in that part. -/
theorem C99_model (pi : K) (hpi : 0 < pi) (ty : ElementType) (uw Em nu : K) (mat : Pile.Material K)
    (hm : Pile.mkMaterial uw Em nu = some mat) (hnu : ty = .timoshenko → -(3 / 4) ≤ nu)
    (sections sections' E : List (Pile.Section K)) (hb : ∀ s ∈ sections', Spec.Pile.Built s ∧ s.thickness < s.diameter)
    (p p' : Pile.Pile K) (hp : Pile.mkPile sections mat = .ok p) (hp' : Pile.mkPile sections' mat = .ok p')
    (hE : p'.sections = E ++ p.sections) (top top' tip : K) (htop : p.topElevation = some top)
    (htip : p.bottomElevation = some tip) (htop' : p'.topElevation = some top') (x2 y : List K) (c : K) (hc : 1 / 100 ≤ c)
    (hgrid : ∀ r, Spec.Mesh.Required p' tip none (y ++ x2) r → Spec.Mesh.OnGrid r)
    (hin : ∀ x ∈ x2, tip ≤ x ∧ x ≤ top) (hy : ∀ x ∈ y, top ≤ x ∧ x ≤ top') (bcs : List (Cond K))
    (hclear : ∀ C', getCoordinates p' none (y ++ x2) c = some C' → ∀ b ∈ bcs, ∀ x ∈ C'.nodes, top < x →
      isClose x b.elevation = false) :
    ∃ S C C', getCoordinates p none x2 c = some C ∧ getCoordinates p' none (y ++ x2) c = some C' ∧ C'.nodes = S ++ C.nodes ∧
      (∀ x ∈ S, top < x) ∧
      (solveModel pi ty p' (y ++ x2) c bcs = none ↔ solveModel pi ty p x2 c bcs = none) ∧
      ∀ T', solveModel pi ty p' (y ++ x2) c bcs = some T' → ∃ T, solveModel pi ty p x2 c bcs = some T ∧ Seen S T' T := by
  obtain ⟨hst, hmem⟩ := mkPile_sections sections mat p hp
  obtain ⟨hst', hmem'⟩ := mkPile_sections sections' mat p' hp'
  have hmat : ∀ {l q}, Pile.mkPile l mat = .ok q → q.material = mat := by
    intro l q hq
    obtain ⟨-, -, rfl⟩ := (Pile.mkPile_ok_iff _ _ _).1 hq
    rfl
  obtain ⟨f, l, hfl⟩ : ∃ f l, p.sections = f :: l := by
    cases hs : p.sections with
    | nil =>
      unfold Pile.Pile.topElevation at htop
      rw [hs] at htop
      cases htop
    | cons f l => exact ⟨f, l, rfl⟩
  have hftop : f.top = top := by
    unfold Pile.Pile.topElevation at htop
    rw [hfl] at htop
    simpa using htop
  have htip' : p'.bottomElevation = some tip := by
    unfold Pile.Pile.bottomElevation at htip ⊢
    rw [hE, hfl, List.getLast?_append]
    rw [hfl] at htip
    cases hg : (f :: l).getLast? with
    | none => rw [hg] at htip; cases htip
    | some g => rw [hg] at htip; simpa using htip
  have hb' : ∀ s ∈ p'.sections, s.bottom < s.top := fun s hs => ((Pile.built_iff s).1 (hb s ((hmem' s).1 hs)).1).1
  have hbp : ∀ s ∈ p.sections, s.bottom < s.top := fun s hs => hb' s (by rw [hE]; exact List.mem_append_right _ hs)
  have hEtop : ∀ s ∈ E, top ≤ s.bottom := by
    rw [hE, hfl] at hst'
    rw [← hftop]
    exact above_stack f l E hst' (fun s hs => hb' s (by rw [hE]; exact List.mem_append_left _ hs))
  have hptop : ∀ s ∈ p.sections, s.top ≤ top := by
    intro s hs
    obtain ⟨f', hf', _, _, h1, _⟩ := stack_bounds p.sections hbp hst s hs
    rw [hfl, List.head?_cons] at hf'
    rw [← hftop, Option.some.inj hf']
    exact h1
  have htt : top ≤ top' := by
    cases E with
    | nil =>
      unfold Pile.Pile.topElevation at htop htop'
      rw [hE, List.nil_append] at htop'
      rw [htop] at htop'
      exact (Option.some.inj htop').le
    | cons e E =>
      unfold Pile.Pile.topElevation at htop'
      rw [hE] at htop'
      have : e.top = top' := by simpa using htop'
      rw [← this]
      exact (hEtop e (by simp)).trans (hb' e (by rw [hE]; simp)).le
  have hreqtop : Spec.Mesh.Required p tip none x2 top := Or.inl ⟨f, by rw [hfl]; simp, Or.inl hftop.symm⟩
  have hreq : ∀ r, Spec.Mesh.Required p tip none x2 r ↔ Spec.Mesh.Required p' tip none (y ++ x2) r ∧ r ≤ top := by
    intro r
    constructor
    · rintro (⟨s, hs, h⟩ | ⟨sp, h, -⟩ | h)
      · refine ⟨Or.inl ⟨s, by rw [hE]; exact List.mem_append_right _ hs, h⟩, ?_⟩
        rcases h with rfl | rfl
        · exact hptop s hs
        · exact (hbp s hs).le.trans (hptop s hs)
      · cases h
      · exact ⟨Or.inr (Or.inr (List.mem_append_right _ h)), (hin r h).2⟩
    · rintro ⟨⟨s, hs, h⟩ | ⟨sp, h, -⟩ | h, hr⟩
      · rw [hE, List.mem_append] at hs
        rcases hs with hs | hs
        · have h1 := hEtop s hs
          have h2 := hb' s (by rw [hE]; exact List.mem_append_left _ hs)
          have : r = top := by
            rcases h with rfl | rfl
            · exact absurd hr (not_le.2 (lt_of_le_of_lt h1 h2))
            · exact le_antisymm hr h1
          rw [this]
          exact hreqtop
        · exact Or.inl ⟨s, hs, h⟩
      · cases h
      · rcases List.mem_append.1 h with h | h
        · rw [le_antisymm hr (hy r h).1]
          exact hreqtop
        · exact Or.inr (Or.inr h)
  obtain ⟨X, z, hz, hz', -⟩ := mesh_stub p p' none x2 (y ++ x2) c top tip (by linarith) htip htip' hreq hreqtop
  obtain ⟨k1, k2, C, hC, hmesh, hs⟩ := ready pi hpi ty uw Em nu mat hm hnu sections
    (fun s hs => hb s ((hmem' s).1 (by rw [hE]; exact List.mem_append_right _ ((hmem s).2 hs)))) p hp top tip htop htip x2 c hc
    (fun r hr => hgrid r ((hreq r).1 hr).1) hin
  have htiptop : tip ≤ top := by
    obtain ⟨_, _, g, hg, _, h2⟩ := stack_bounds p.sections hbp hst f (by rw [hfl]; simp)
    unfold Pile.Pile.bottomElevation at htip
    rw [hg, Option.map_some, Option.some.injEq] at htip
    have := hbp f (by rw [hfl]; simp)
    rw [← htip, ← hftop]
    exact h2.trans this.le
  obtain ⟨k1', k2', C', hC', hmesh', hs'⟩ := ready pi hpi ty uw Em nu mat hm hnu sections' hb p' hp' top' tip htop' htip' (y ++ x2) c hc
    hgrid (fun x hx => by
      rcases List.mem_append.1 hx with hx | hx
      · exact ⟨htiptop.trans (hy x hx).1, (hy x hx).2⟩
      · exact ⟨(hin x hx).1, (hin x hx).2.trans htt⟩)
  have hnodes : C.nodes = z.map round4 ∧ C'.nodes = X.map round4 ++ z.map round4 := by
    unfold getCoordinates at hC hC'
    rw [hz] at hC
    rw [hz'] at hC'
    cases hC
    cases hC'
    exact ⟨rfl, List.map_append⟩
  have hS : C'.nodes = X.map round4 ++ C.nodes := by rw [hnodes.1, hnodes.2]
  have hSt : ∀ x ∈ X.map round4, top < x := by
    intro x hx
    have := hmesh'.dec
    rw [hS] at this
    exact (List.pairwise_append.1 this).2.2 x hx top (List.mem_of_mem_head? hmesh.first)
  have key := C99_tables pi ty p p' E top top' tip k1 k1' hE (by rw [hmat hp, hmat hp']) k2' C C' hmesh hmesh' (X.map round4) hS bcs
    (fun b hb x hx => hclear C' hC' b hb x (by rw [hS]; exact List.mem_append_left _ hx) (hSt x hx))
  rw [hs, hs']
  exact ⟨X.map round4, C, C', hC, hC', hS, hSt, key.1, key.2⟩

/-! ### cases that meet the hypotheses -/

/-- The pile `pileT` with a wider section of one metre on top. -/
def pileV : Pile.Pile ℚ := ⟨[⟨1, 0, 2, 1 / 10⟩, ⟨0, -1, 1, 1 / 20⟩], Pile.steel⟩

def nodesV : Coordinates ℚ := ⟨[1, 1 / 2, 0, -1 / 2, -1], [(1, 1 / 2), (1 / 2, 0), (0, -1 / 2), (-1 / 2, -1)]⟩

theorem stackV : Stack pileV 1 (-1) := ⟨by simp [pileV], by simp [pileV], rfl, rfl⟩

theorem meshV : MeshOn pileV 1 (-1) nodesV := ⟨by decide +kernel, by decide +kernel, rfl, rfl, by decide +kernel⟩

theorem builtV : ∀ s ∈ pileV.sections, Spec.Pile.Built s ∧ s.thickness < s.diameter := by
  intro s hs
  simp only [pileV, List.mem_cons, List.not_mem_nil, or_false] at hs
  rcases hs with rfl | rfl
  · exact ⟨⟨1, 0, 2, some (1 / 10), by decide +kernel⟩, by norm_num⟩
  · exact ⟨⟨0, -1, 1, some (1 / 20), by decide +kernel⟩, by norm_num⟩

theorem regularV (ty : ElementType) :
    ∀ s ∈ pileV.sections, ∀ L : ℚ, 0 < L → Regular ty (elemOf (22 / 7) pileV.material s L) :=
  fun s hs L hL => regular_of_built (22 / 7) (by norm_num) ty 78 210000000 (3 / 10) pileV.material
    (by decide +kernel) (fun _ => by norm_num) s (builtV s hs).1 (builtV s hs).2 L hL

/-- The pile with the wider section on top, loaded at the old head: the results of the pile without it below, and no section
forces above. -/
example (ty : ElementType) : ∃ T T', solveOn (22 / 7) ty pileT nodesT bcsHead = some T ∧
    solveOn (22 / 7) ty pileV nodesV bcsHead = some T' ∧ T'.disp.length = 5 ∧ Seen [1, 1 / 2] T' T := by
  obtain ⟨T, hT⟩ := solvedT ty bcsHead (.inl rfl)
  obtain ⟨h1, h2⟩ := C99_tables (22 / 7) ty pileT pileV [⟨1, 0, 2, 1 / 10⟩] 0 1 (-1) stackT stackV rfl rfl (regularV ty) nodesT
    nodesV meshT meshV [1, 1 / 2] rfl bcsHead (by decide +kernel)
  cases hT' : solveOn (22 / 7) ty pileV nodesV bcsHead with
  | none => rw [h1.1 hT'] at hT; cases hT
  | some T' =>
    obtain ⟨T2, e, hs⟩ := h2 T' hT'
    rw [hT] at e
    cases e
    obtain ⟨z, w, v, θ, -, hd⟩ := hs.disp
    refine ⟨T, T', hT, rfl, ?_, hs⟩
    obtain ⟨z', el, F, U, R, g, gU, gR, n1, hz, hanti, hel, hg, hgU, hgR, hF, hUv, hRv, hs'⟩ := solveOn_read (22 / 7) ty stackT meshT
      bcsHead (valid_of_some _ ty bcsHead T hT)
    rw [hs'] at hT
    obtain ⟨_, _, _, _, t1, _⟩ := tables_of_beam ty n1 z' el F U R T hT
    rw [hd, t1]
    simp [nodesT]

/-- From the public calls: the wider section on top of `pileT`, an elevation asked for within it, the load at the old head. -/
example (ty : ElementType) : ∃ S C C', getCoordinates pileT none [] (1 / 2) = some C ∧
    getCoordinates pileV none [1 / 2] (1 / 2) = some C' ∧ C'.nodes = S ++ C.nodes ∧ S.length = 2 ∧
    (solveModel (22 / 7) ty pileV [1 / 2] (1 / 2) bcsHead = none ↔ solveModel (22 / 7) ty pileT [] (1 / 2) bcsHead = none) ∧
    ∀ T', solveModel (22 / 7) ty pileV [1 / 2] (1 / 2) bcsHead = some T' →
      ∃ T, solveModel (22 / 7) ty pileT [] (1 / 2) bcsHead = some T ∧ Seen S T' T := by
  have hC' : getCoordinates pileV none [1 / 2] (1 / 2) = some nodesV := by decide +kernel
  have hgrid : ∀ r, Spec.Mesh.Required pileV (-1) none ([1 / 2] ++ []) r → Spec.Mesh.OnGrid r := by
    rintro r (⟨s, hs, h⟩ | ⟨sp, h, -⟩ | h)
    · simp only [pileV, List.mem_cons, List.not_mem_nil, or_false] at hs
      rcases hs with rfl | rfl <;> rcases h with rfl | rfl
      exacts [⟨10000, by norm_num⟩, ⟨0, by norm_num⟩, ⟨0, by norm_num⟩, ⟨-10000, by norm_num⟩]
    · cases h
    · simp only [List.append_nil, List.mem_singleton] at h
      exact ⟨5000, by rw [h]; norm_num⟩
  have hclear : ∀ C', getCoordinates pileV none ([1 / 2] ++ []) (1 / 2) = some C' → ∀ b ∈ bcsHead, ∀ x ∈ C'.nodes, (0 : ℚ) < x →
      isClose x b.elevation = false := by
    intro C' e
    rw [List.append_nil, hC'] at e
    cases e
    decide +kernel
  obtain ⟨S, C, C', e, e', hS, hab, r⟩ := C99_model (22 / 7) (by norm_num) ty 78 210000000 (3 / 10) Pile.steel (by decide +kernel)
    (fun _ => by norm_num) pileT.sections pileV.sections [⟨1, 0, 2, 1 / 10⟩] builtV pileT pileV (by decide +kernel) (by decide +kernel)
    rfl 0 1 (-1) (by decide +kernel) (by decide +kernel) (by decide +kernel) [] [1 / 2] (1 / 2) (by norm_num) hgrid (by simp)
    (by simp; norm_num) bcsHead hclear
  refine ⟨S, C, C', e, by simpa using e', hS, ?_, by simpa using r.1, by simpa using r.2⟩
  have h1 : getCoordinates pileT none [] (1 / 2) = some nodesT := by decide +kernel
  rw [h1] at e
  cases e
  rw [List.append_nil, hC'] at e'
  cases e'
  have := congrArg List.length hS
  simp [nodesV, nodesT] at this
  omega

end tables

section soilCase
open OpenPile.Props.FreeBody OpenPile.Props.LinearRange

/-- A pile of which the upper half stands above the ground and is not loaded: the analysis converges, and it ends as that of
the lower half alone. -/
example : ∃ t, winkler (buildStiffness .eulerBernoulli elG spG) (loadH (1 / 20)) 0 fixG 100 = .converged (uH (1 / 20)) 0 2 t 0 ∧
    uH (1 / 20) (dof 1 1) = 1 / 20 ∧
    SameEnd (n := 1) .eulerBernoulli 1 elG (winkler (buildStiffness .eulerBernoulli elG spG) (loadH (1 / 20)) 0 fixG 100)
      (winkler (buildStiffness .eulerBernoulli (fun i : Fin 1 => elG (i.addNat 1)) (below (n := 1) 1 spG)) (drop (n := 1) 1 (loadH (1 / 20)))
        (drop (n := 1) 1 0) (drop (n := 1) 1 fixG) 100) := by
  obtain ⟨a0, a1, a2, a3, a4, a5⟩ := loadH_at (1 / 20)
  obtain ⟨t, ht⟩ := C60_linear_partial .eulerBernoulli elG spG (loadH (1 / 20)) 0 fixG matG (uH (1 / 20)) 0 initG
    (solveH _) (smallH _ (by norm_num [abs_of_pos])) ⟨dof 1 1, by rw [a4]; norm_num⟩ 100 (by norm_num)
  refine ⟨t, ht, by simp [uH, dof], ?_⟩
  refine C99_soil (n := 1) .eulerBernoulli 1 elG (fun i _ => ⟨?_, ?_, ?_, ?_, ?_⟩) spG ⟨?_, ?_, ?_⟩ (by simp [spG]) (loadH (1 / 20)) 0 fixG
    ?_ (fun _ _ => rfl) ?_ 100
  · simp [elG]
  · simp [elG]
  · simp [elG]
  · simp [elG]
  · simp [phi, kappa]
  · intro i hi b q hq
    have : i = (0 : Fin 2) := Fin.ext (by simp; omega)
    subst this
    simp [spG] at hq
    rw [hq]
  · intro i hi b q hq
    simp [spG] at hq
  · intro hd
    simp [spG] at hd
  · intro r hr
    have hr' : r.1 = 0 ∨ r.1 = 1 ∨ r.1 = 2 := by omega
    rcases hr' with h | h | h
    · rw [show r = dof (0 : Fin 3) 0 from Fin.ext h, a0]
    · rw [show r = dof (0 : Fin 3) 1 from Fin.ext h, a1]
      norm_num
    · rw [show r = dof (0 : Fin 3) 2 from Fin.ext h, a2]
      norm_num
  · intro r hr
    exact decide_eq_false (by omega)

end soilCase

end OpenPile.Props.Stub

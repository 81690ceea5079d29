/-
C21, C22 and C23 as seen in the tables a user reads.
-/
import Verif.Props.Analysis

namespace OpenPile.Props.Reported
open OpenPile.Analysis OpenPile.BC OpenPile.Spec.BC OpenPile.Mesh OpenPile.Spec.Mesh OpenPile.Kernel
  OpenPile.Spec.Kernel OpenPile.Winkler OpenPile.Result OpenPile.Props.Analysis OpenPile.Props.Refine
  OpenPile.Props.Element OpenPile.Props.Solve OpenPile.Props.Beam OpenPile.Props.Mesh

section lists
variable {K : Type} [Field K] [LinearOrder K] [IsStrictOrderedRing K]

/-- Forces at the ends of an element as listed. -/
def ends {n : ℕ} (ty : ElementType) (el : Fin n → Elem K) (u : Fin (3 * n + 3) → K) (i : Fin n) :
    (K × K × K) × (K × K × K) := sectionForces (el i).L (internalForces ty el u i)

/-- The reactions of a node as listed. -/
def shown {n : ℕ} (Q : Fin (3 * n + 3) → K) (j : Fin (n + 1)) : List K :=
  [maskSmall (Q (dof j 0)), maskSmall (Q (dof j 1)), maskSmall (Q (dof j 2))]

theorem reactionRows_exact {n : ℕ} (z : Fin (n + 1) → K) (Q : Fin (3 * n + 3) → K) :
    reactionRows (List.ofFn z) (List.ofFn Q) = some ((List.ofFn (fun j => (z j, shown Q j))).filter
      (fun r => r.2.any (fun q => decide (1 / 1000 < |q|)))) := by
  obtain ⟨rows, h1, h2, h3⟩ := Result.reshape_get 3 (List.ofFn Q) (n + 1) (by omega) (by simp; ring)
  have hrows : (List.ofFn z).zip (rows.map (·.map maskSmall)) = List.ofFn (fun j => (z j, shown Q j)) := by
    apply List.ext_getElem?
    intro j
    by_cases hj : j < n + 1
    · obtain ⟨row, e1, e2, e3⟩ := h3 j hj
      rw [List.getElem?_ofFn, dif_pos hj, List.getElem?_zip_eq_some, List.getElem?_ofFn, dif_pos hj,
        List.getElem?_map, e1]
      refine ⟨rfl, ?_⟩
      rw [Option.map_some, Option.some.injEq]
      have g : ∀ a, (ha : a < 3) → row[a]? = some (Q (dof ⟨j, hj⟩ ⟨a, ha⟩)) := by
        intro a ha
        rw [e3 a ha, List.getElem?_ofFn, dif_pos (by omega)]
        rfl
      rcases row with _ | ⟨v0, _ | ⟨v1, _ | ⟨v2, _ | ⟨v3, v⟩⟩⟩⟩
      · simp at e2
      · simp at e2
      · simp at e2
      · have g0 := g 0 (by omega)
        have g1 := g 1 (by omega)
        have g2 := g 2 (by omega)
        simp only [List.getElem?_cons_zero, List.getElem?_cons_succ, Option.some.injEq] at g0 g1 g2
        rw [g0, g1, g2]
        rfl
      · simp at e2
    · rw [List.getElem?_eq_none (by simp; omega), List.getElem?_eq_none (by simp; omega)]
  unfold reactionRows
  rw [h1]
  simp only [Option.bind_eq_bind, Option.bind_some]
  rw [if_neg (by simp [h2]), hrows]
  rfl

/-- All three tables, row by row. -/
theorem tables_exact (ty : ElementType) {n : ℕ} (hn : 1 ≤ n) (z : Fin (n + 1) → K)
    (el : Fin n → Elem K) (u Q : Fin (3 * n + 3) → K) :
    ∃ T, tables ty (List.ofFn z) el u Q = some T ∧
      T.disp = List.ofFn (fun j => (z j, u (dof j 0), u (dof j 1), u (dof j 2))) ∧
      T.forces.length = 2 * n ∧
      (∀ i : Fin n, T.forces[2 * i.1]? = some (z i.castSucc, (ends ty el u i).1) ∧
        T.forces[2 * i.1 + 1]? = some (z i.succ, (ends ty el u i).2)) ∧
      T.reactions = (List.ofFn (fun j => (z j, shown Q j))).filter
        (fun r => r.2.any (fun q => decide (1 / 1000 < |q|))) := by
  obtain ⟨d, d1, d2, d3⟩ := Result.C43_displacements (List.ofFn z) (List.ofFn u) (n + 1) (by simp)
    (by simp; ring)
  obtain ⟨f, f1, f2, f3⟩ := Result.C43_forces (List.ofFn z)
    (List.ofFn (fun i => List.ofFn (internalForces ty el u i))) (List.ofFn (fun i => (el i).L)) n hn (by simp)
    (by simp) (by simp) (by
      intro r hr
      obtain ⟨i, rfl⟩ := List.mem_ofFn.1 hr
      simp)
  refine ⟨⟨d, f, _⟩, by unfold tables; rw [d1, f1, reactionRows_exact]; rfl, ?_, f2, ?_, rfl⟩
  · apply List.ext_getElem?
    intro j
    by_cases hj : j < n + 1
    · show d[j]? = _
      rw [d3 j hj, List.getElem?_ofFn, dif_pos hj]
      simp only [List.getElem_ofFn]
      rfl
    · rw [List.getElem?_eq_none (by show d.length ≤ j; omega), List.getElem?_eq_none (by simp; omega)]
  · have hq : ∀ e (he : e < n), (List.ofFn (fun i => List.ofFn (internalForces ty el u i)))[e]'(by simpa using he)
        = [internalForces ty el u ⟨e, he⟩ 0, internalForces ty el u ⟨e, he⟩ 1, internalForces ty el u ⟨e, he⟩ 2,
          internalForces ty el u ⟨e, he⟩ 3, internalForces ty el u ⟨e, he⟩ 4, internalForces ty el u ⟨e, he⟩ 5] := by
      intro e he
      rw [List.getElem_ofFn]
      rfl
    intro i
    obtain ⟨h1, h2⟩ := f3 i.1 i.2 _ _ _ _ _ _ (hq i.1 i.2)
    show f[2 * i.1]? = _ ∧ f[2 * i.1 + 1]? = _
    rw [h1, h2]
    simp only [List.getElem_ofFn]
    exact ⟨rfl, rfl⟩

/-- Component `a` of a row of the reaction table. -/
def comp (a : ℕ) (r : K × List K) : K := r.2.getD a 0

theorem sum_filter {α : Type} (l : List α) (P : α → Bool) (f : α → K) :
    ((l.filter P).map f).sum = (l.map (fun x => if P x then f x else 0)).sum := by
  induction l with
  | nil => rfl
  | cons x l ih =>
    rw [List.filter_cons]
    by_cases h : P x
    · simp [h, ih]
    · simp [h, ih]

/-- What a row contributes for a reaction: the reaction up to `1/1000`. -/
theorem kept {n : ℕ} (Q : Fin (3 * n + 3) → K) (j : Fin (n + 1)) (d : Fin 3) :
    |(if (shown Q j).any (fun q => decide (1 / 1000 < |q|)) then (shown Q j).getD d.1 0 else 0) - Q (dof j d)|
      ≤ 1 / 1000 := by
  have hget : (shown Q j).getD d.1 0 = maskSmall (Q (dof j d)) := by
    fin_cases d <;> rfl
  have hmask : |maskSmall (Q (dof j d)) - Q (dof j d)| ≤ 1 / 1000 := by
    unfold maskSmall
    split_ifs with h
    · rw [zero_sub, abs_neg]
      exact h.le
    · rw [sub_self, abs_zero]
      norm_num
  split_ifs with h
  · rw [hget]
    exact hmask
  · have hd : ¬ 1 / 1000 < |maskSmall (Q (dof j d))| := by
      intro h1
      apply h
      rw [List.any_eq_true]
      refine ⟨maskSmall (Q (dof j d)), ?_, by simpa using h1⟩
      fin_cases d <;> simp [shown]
    rw [zero_sub, abs_neg]
    unfold maskSmall at hd
    split_ifs at hd with h1
    · exact h1.le
    · exact not_lt.1 hd

/-- Weighted sums over the reaction table. -/
theorem sum_reactions {n : ℕ} (z : Fin (n + 1) → K) (Q : Fin (3 * n + 3) → K) (w v : K → K) (a b : Fin 3) :
    |((((List.ofFn (fun j => (z j, shown Q j))).filter (fun r => r.2.any (fun q => decide (1 / 1000 < |q|)))).map
      (fun r => w r.1 * comp a.1 r + v r.1 * comp b.1 r)).sum
      - ∑ j, (w (z j) * Q (dof j a) + v (z j) * Q (dof j b)))| ≤ ∑ j, (|w (z j)| + |v (z j)|) / 1000 := by
  rw [sum_filter, List.map_ofFn, List.sum_ofFn, ← Finset.sum_sub_distrib]
  refine (Finset.abs_sum_le_sum_abs _ _).trans (Finset.sum_le_sum fun j _ => ?_)
  have ha := kept Q j a
  have hb := kept Q j b
  simp only [Function.comp_apply, comp]
  set P := (shown Q j).any (fun q => decide (1 / 1000 < |q|))
  set sa := (shown Q j).getD a.1 0
  set sb := (shown Q j).getD b.1 0
  have e : (if P = true then w (z j) * sa + v (z j) * sb else 0) - (w (z j) * Q (dof j a) + v (z j) * Q (dof j b))
      = w (z j) * ((if P = true then sa else 0) - Q (dof j a)) + v (z j) * ((if P = true then sb else 0) - Q (dof j b)) := by
    split_ifs <;> ring
  rw [e]
  refine (abs_add_le _ _).trans ?_
  rw [abs_mul, abs_mul]
  have h1 := mul_le_mul_of_nonneg_left ha (abs_nonneg (w (z j)))
  have h2 := mul_le_mul_of_nonneg_left hb (abs_nonneg (v (z j)))
  linarith

end lists

section calls
variable {K : Type} [Field K] [LinearOrder K] [IsStrictOrderedRing K] [FloorRing K]

/-- A nodal column of `apply_bc`, written as a function of the node. -/
theorem column_ofFn {β : Type} (store : Val K → β) (init : β) {n : ℕ} (z : Fin (n + 1) → K) (bcs : List (Cond K))
    (cls : Cls) (a : Axis) :
    (applyBc store (List.ofFn z) ⟨(List.ofFn z).map (fun _ => init), (List.ofFn z).map (fun _ => init),
      (List.ofFn z).map (fun _ => init)⟩ bcs cls).get a
      = List.ofFn (fun j : Fin (n + 1) => left store init (List.ofFn z) bcs cls a j.1) := by
  apply List.ext_getElem?
  intro i
  rw [List.getElem?_ofFn]
  by_cases hi : i < n + 1
  · rw [dif_pos hi, applyBc_left store init (List.ofFn z) bcs cls a i (by simpa using hi)]
  · rw [dif_neg hi, List.getElem?_eq_none]
    rw [applyBc_length]
    cases a <;> simp [Nodal.get] <;> omega

/-- What an analysis reads, as columns. -/
theorem solveOn_read (pi : K) (ty : ElementType) {p : Pile.Pile K} {top tip : K} (hp : Stack p top tip)
    {C : Coordinates K} (h : MeshOn p top tip C) (bcs : List (Cond K)) (hv : ∀ cls, validateBc bcs cls = .ok ()) :
    ∃ (z : Fin (C.elements.length + 1) → K) (el : Fin C.elements.length → Elem K)
      (F U : Fin (3 * C.elements.length + 3) → K) (R : Fin (3 * C.elements.length + 3) → Bool)
      (g : Nodal ℤ) (gU : Nodal K) (gR : Nodal Bool),
      1 ≤ C.elements.length ∧ C.nodes = List.ofFn z ∧ StrictAnti z ∧ ElementsOn pi p z el ∧
      globalForces C.nodes bcs = .ok g ∧ globalDisp C.nodes bcs = .ok gU ∧ globalRestrained C.nodes bcs = .ok gR ∧
      (∀ d, (g.get (axisOf d)).map (fun i : ℤ => (i : K)) = List.ofFn (fun j => F (dof j d))) ∧
      (∀ d, gU.get (axisOf d) = List.ofFn (fun j => U (dof j d))) ∧
      (∀ d, gR.get (axisOf d) = List.ofFn (fun j => R (dof j d))) ∧
      solveOn pi ty p C bcs = (beam ty el F U R).bind (fun r => tables ty (List.ofFn z) el r.1 r.2.1) := by
  obtain ⟨z', el', F', U', R', b1, b2, b3, -, -, b6, b7, b8, b9, hs⟩ := solveOn_eq pi ty hp h bcs hv
  have hzz : C.nodes = List.ofFn z' := by
    have hperm : C.nodes.Perm (List.ofFn z') := by
      rw [List.perm_ext_iff_of_nodup (h.dec.imp fun h => h.ne') (List.nodup_ofFn.2 b2.injective)]
      intro x
      rw [b3, List.mem_ofFn']
    refine hperm.eq_of_pairwise (le := (· > ·)) ?_ h.dec ?_
    · intro a b _ _ hab hba
      exact absurd hab (not_lt.2 (le_of_lt hba))
    · rw [List.pairwise_ofFn]
      intro i j hij
      exact b2 hij
  refine ⟨z', el', F', U', R', _, _, _, b1, hzz, b2, b6,
    by unfold globalForces; rw [hv]; rfl, by unfold globalDisp; rw [hv]; rfl,
    by unfold globalRestrained; rw [hv]; rfl, ?_, ?_, ?_, hs⟩
  · intro d
    rw [hzz, column_ofFn, List.map_ofFn]
    congr 1
    funext j
    rw [b7]
    rfl
  · intro d
    rw [hzz, column_ofFn]
    congr 1
    funext j
    rw [b8]
  · intro d
    rw [hzz, column_ofFn]
    congr 1
    funext j
    rw [b9]

theorem valid_of_some (pi : K) (ty : ElementType) {p : Pile.Pile K} {C : Coordinates K} (bcs : List (Cond K))
    (T : Tables K) (hT : solveOn pi ty p C bcs = some T) : ∀ cls, validateBc bcs cls = .ok () := by
  by_contra hv
  rw [solveOn_raises pi ty p C bcs hv] at hT
  cases hT

/-- The tables in terms of the solution. -/
theorem tables_of_beam (ty : ElementType) {n : ℕ} (hn : 1 ≤ n) (z : Fin (n + 1) → K) (el : Fin n → Elem K)
    (F U : Fin (3 * n + 3) → K) (R : Fin (3 * n + 3) → Bool) (T : Tables K)
    (hT : (beam ty el F U R).bind (fun r => tables ty (List.ofFn z) el r.1 r.2.1) = some T) :
    ∃ (u Q : Fin (3 * n + 3) → K) (f : Fin n → (K × K × K) × (K × K × K)), beam ty el F U R = some (u, Q, f) ∧
      T.disp = List.ofFn (fun j => (z j, u (dof j 0), u (dof j 1), u (dof j 2))) ∧
      T.forces.length = 2 * n ∧
      (∀ i : Fin n, T.forces[2 * i.1]? = some (z i.castSucc, (f i).1) ∧
        T.forces[2 * i.1 + 1]? = some (z i.succ, (f i).2)) ∧
      T.reactions = (List.ofFn (fun j => (z j, shown Q j))).filter
        (fun r => r.2.any (fun q => decide (1 / 1000 < |q|))) := by
  cases hb : beam ty el F U R with
  | none => rw [hb] at hT; cases hT
  | some r =>
    obtain ⟨u, Q, f⟩ := r
    rw [hb, Option.bind_some] at hT
    obtain ⟨T', t1, t2, t3, t4, t5⟩ := tables_exact ty hn z el u Q
    rw [t1, Option.some.injEq] at hT
    subst hT
    have hf : ∀ i, f i = ends ty el u i := by
      intro i
      unfold beam at hb
      simp only [Option.map_eq_some_iff, Prod.mk.injEq] at hb
      obtain ⟨⟨u', Q'⟩, -, rfl, rfl, rfl⟩ := hb
      rfl
    refine ⟨u, Q, f, rfl, t2, t3, ?_, t5⟩
    intro i
    rw [hf]
    exact t4 i

/-- The reading of an analysis that gave tables. -/
theorem solveOn_some (pi : K) (ty : ElementType) {p : Pile.Pile K} {top tip : K} (hp : Stack p top tip)
    {C : Coordinates K} (h : MeshOn p top tip C) (bcs : List (Cond K)) (T : Tables K)
    (hT : solveOn pi ty p C bcs = some T) :
    ∃ (n : ℕ) (z : Fin (n + 1) → K) (el : Fin n → Elem K) (F U : Fin (3 * n + 3) → K)
      (R : Fin (3 * n + 3) → Bool) (u Q : Fin (3 * n + 3) → K) (f : Fin n → (K × K × K) × (K × K × K))
      (g : Nodal ℤ) (gU : Nodal K) (gR : Nodal Bool),
      1 ≤ n ∧ C.nodes = List.ofFn z ∧ StrictAnti z ∧ ElementsOn pi p z el ∧
      globalForces C.nodes bcs = .ok g ∧ globalDisp C.nodes bcs = .ok gU ∧ globalRestrained C.nodes bcs = .ok gR ∧
      (∀ d, (g.get (axisOf d)).map (fun i : ℤ => (i : K)) = List.ofFn (fun j => F (dof j d))) ∧
      (∀ d, gU.get (axisOf d) = List.ofFn (fun j => U (dof j d))) ∧
      (∀ d, gR.get (axisOf d) = List.ofFn (fun j => R (dof j d))) ∧
      beam ty el F U R = some (u, Q, f) ∧
      T.disp = List.ofFn (fun j => (z j, u (dof j 0), u (dof j 1), u (dof j 2))) ∧
      T.forces.length = 2 * n ∧
      (∀ i : Fin n, T.forces[2 * i.1]? = some (z i.castSucc, (f i).1) ∧
        T.forces[2 * i.1 + 1]? = some (z i.succ, (f i).2)) ∧
      T.reactions = (List.ofFn (fun j => (z j, shown Q j))).filter
        (fun r => r.2.any (fun q => decide (1 / 1000 < |q|))) := by
  obtain ⟨z, el, F, U, R, g, gU, gR, a1, a2, a3, a4, a5, a6, a7, a8, a9, a10, hs⟩ :=
    solveOn_read pi ty hp h bcs (valid_of_some pi ty bcs T hT)
  rw [hs] at hT
  obtain ⟨u, Q, f, hb, t⟩ := tables_of_beam ty a1 z el F U R T hT
  exact ⟨_, z, el, F, U, R, u, Q, f, g, gU, gR, a1, a2, a3, a4, a5, a6, a7, a8, a9, a10, hb, t⟩

/-- **C21, from the tables.** Let an analysis without soil give tables. The loads of `global_forces` and the listed
reactions balance along the axis and across it up to 1/1000 per node, and in moment about any elevation `e0` up to
1/1000 per node for the moment and per node and unit of lever arm for the force: the table leaves out no more. -/
theorem C21_tables (pi : K) (ty : ElementType) (p : Pile.Pile K) (top tip : K) (hp : Stack p top tip)
    (hreg : ∀ s ∈ p.sections, ∀ L : K, 0 < L → Regular ty (elemOf pi p.material s L)) (C : Coordinates K)
    (h : MeshOn p top tip C) (bcs : List (Cond K)) (T : Tables K) (hT : solveOn pi ty p C bcs = some T) :
    ∃ g, globalForces C.nodes bcs = .ok g ∧ (∀ r ∈ T.reactions, r.1 ∈ C.nodes ∧ r.2.length = 3) ∧
      |(g.z.map (fun i : ℤ => (i : K))).sum + (T.reactions.map (comp 0)).sum| ≤ C.nodes.length / 1000 ∧
      |(g.y.map (fun i : ℤ => (i : K))).sum + (T.reactions.map (comp 1)).sum| ≤ C.nodes.length / 1000 ∧
      ∀ e0 : K, |((C.nodes.zip (g.y.zip g.x)).map (fun r => (r.2.2 : K) + (e0 - r.1) * r.2.1)).sum
        + (T.reactions.map (fun r => comp 2 r + (e0 - r.1) * comp 1 r)).sum|
        ≤ (C.nodes.map (fun e => (1 + |e0 - e|) / 1000)).sum := by
  obtain ⟨n, z, el, F, U, R, u, Q, f, g, gU, gR, n1, hz, hanti, hel, hg, -, -, hF, -, -, hb, -, -, -, hr⟩ :=
    solveOn_some pi ty hp h bcs T hT
  have hL : ∀ i, (el i).L ≠ 0 := fun i => (regular_of_elements hreg hanti hel i).L
  have hphi : ∀ i, 1 + phi ty (el i) ≠ 0 := fun i => (regular_of_elements hreg hanti hel i).p
  obtain ⟨q0, q1, q2⟩ := C21_equilibrium ty el hL hphi F U R u Q f hb
  refine ⟨g, hg, ?_, ?_, ?_, ?_⟩
  · intro r hrm
    rw [hr] at hrm
    obtain ⟨j, rfl⟩ := List.mem_ofFn.1 (List.mem_filter.1 hrm).1
    exact ⟨by rw [hz]; exact List.mem_ofFn.2 ⟨j, rfl⟩, rfl⟩
  · have hs := sum_reactions z Q (fun _ => 1) (fun _ => 0) 0 0
    rw [hz, hr]
    have hz0 := hF 0
    rw [show g.get (axisOf 0) = g.z from rfl] at hz0
    rw [hz0, List.sum_ofFn]
    simp only [one_mul, zero_mul, add_zero, abs_one, abs_zero] at hs
    rw [Finset.sum_add_distrib] at q0
    rw [show (comp (K := K) 0) = fun r => comp ((0 : Fin 3) : ℕ) r from rfl]
    rw [show ∑ j, F (dof j 0) = - ∑ j, Q (dof j 0) by linarith]
    rw [neg_add_eq_sub]
    refine hs.trans (le_of_eq ?_)
    simp
    ring
  · have hs := sum_reactions z Q (fun _ => 1) (fun _ => 0) 1 1
    rw [hz, hr]
    have hz0 := hF 1
    rw [show g.get (axisOf 1) = g.y from rfl] at hz0
    rw [hz0, List.sum_ofFn]
    simp only [one_mul, zero_mul, add_zero, abs_one, abs_zero] at hs
    rw [Finset.sum_add_distrib] at q1
    rw [show (comp (K := K) 1) = fun r => comp ((1 : Fin 3) : ℕ) r from rfl]
    rw [show ∑ j, F (dof j 1) = - ∑ j, Q (dof j 1) by linarith]
    rw [neg_add_eq_sub]
    refine hs.trans (le_of_eq ?_)
    simp
    ring
  · intro e0
    have hs := sum_reactions z Q (fun _ => 1) (fun e => e0 - e) 2 1
    have hq := q2 (z 0 - e0)
    have hdep : ∀ j, nodeDepth (fun i => (el i).L) j = z 0 - z j := by
      intro j
      rw [show (fun i => (el i).L) = fun i : Fin n => |z i.castSucc - z i.succ| from
        funext fun i => length_of_elementsOn hel i]
      exact depth_of_elevations z hanti j
    have hy := hF 1
    have hx := hF 2
    rw [show g.get (axisOf 1) = g.y from rfl] at hy
    rw [show g.get (axisOf 2) = g.x from rfl] at hx
    have hload : ((C.nodes.zip (g.y.zip g.x)).map (fun r => (r.2.2 : K) + (e0 - r.1) * r.2.1)).sum
        = ∑ j, (F (dof j 2) + (e0 - z j) * F (dof j 1)) := by
      have e1 : (C.nodes.zip (g.y.zip g.x)).map (fun r => (r.2.2 : K) + (e0 - r.1) * r.2.1)
          = (C.nodes.zip ((g.y.map (fun i : ℤ => (i : K))).zip (g.x.map (fun i : ℤ => (i : K))))).map
            (fun r => r.2.2 + (e0 - r.1) * r.2.1) := by
        rw [List.zip_map, List.zip_map_right, List.map_map]
        rfl
      have e2 : ∀ (a : Fin (n + 1) → K) (b c : Fin (n + 1) → K),
          (List.ofFn a).zip ((List.ofFn b).zip (List.ofFn c)) = List.ofFn (fun j => (a j, b j, c j)) := by
        intro a b c
        apply List.ext_getElem?
        intro i
        by_cases hi : i < n + 1
        · have hx : ((List.ofFn a).zip ((List.ofFn b).zip (List.ofFn c)))[i]? = some (a ⟨i, hi⟩, b ⟨i, hi⟩, c ⟨i, hi⟩) := by
            rw [List.getElem?_zip_eq_some, List.getElem?_zip_eq_some]
            simp only [List.getElem?_ofFn, dif_pos hi]
            exact ⟨trivial, trivial, trivial⟩
          rw [hx, List.getElem?_ofFn, dif_pos hi]
        · rw [List.getElem?_eq_none (by simp; omega), List.getElem?_eq_none (by simp; omega)]
      rw [e1, hy, hx, hz, e2, List.map_ofFn, List.sum_ofFn]
      rfl
    rw [hload, hr, hz, List.map_ofFn, List.sum_ofFn]
    simp only [one_mul, abs_one] at hs
    have hsum : ∑ j, (F (dof j 2) + (e0 - z j) * F (dof j 1)) = - ∑ j, (Q (dof j 2) + (e0 - z j) * Q (dof j 1)) := by
      rw [eq_neg_iff_add_eq_zero, ← Finset.sum_add_distrib, ← hq]
      apply Finset.sum_congr rfl
      intro j _
      rw [hdep]
      ring
    rw [hsum, neg_add_eq_sub]
    exact hs

/-- Section forces listed directly above node `i` (nothing above the head). -/
def above (T : Tables K) : ℕ → K × K × K
  | 0 => 0
  | i + 1 => ((T.forces[2 * i + 1]?).map (·.2)).getD 0

/-- Section forces listed directly below node `i` (nothing below the tip). -/
def below (T : Tables K) (i : ℕ) : K × K × K := ((T.forces[2 * i]?).map (·.2)).getD 0

/-- Reaction component `a` listed at elevation `e`. -/
def listed (T : Tables K) (e : K) (a : ℕ) : K := ((T.reactions.find? (fun r => decide (r.1 = e))).map (comp a)).getD 0

/-- No condition holds degree of freedom `a` of node `i`. -/
def Free (nodes : List K) (bcs : List (Cond K)) (a : Axis) (i : ℕ) : Prop :=
  (∃ g, globalRestrained nodes bcs = .ok g ∧ (g.get a)[i]? = some false) ∧
  ∃ g, globalDisp nodes bcs = .ok g ∧ (g.get a)[i]? = some 0

/-- The reaction listed at a node is the reaction up to 1/1000. -/
theorem listed_close {n : ℕ} (z : Fin (n + 1) → K) (hz : StrictAnti z) (Q : Fin (3 * n + 3) → K) (T : Tables K)
    (hr : T.reactions = (List.ofFn (fun j => (z j, shown Q j))).filter
      (fun r => r.2.any (fun q => decide (1 / 1000 < |q|)))) (j : Fin (n + 1)) (d : Fin 3) :
    |listed T (z j) d.1 - Q (dof j d)| ≤ 1 / 1000 := by
  have hk := kept Q j d
  suffices hl : listed T (z j) d.1 = if (shown Q j).any (fun q => decide (1 / 1000 < |q|)) then
      (shown Q j).getD d.1 0 else 0 by rw [hl]; exact hk
  unfold listed
  have only : ∀ r ∈ T.reactions, r.1 = z j → r = (z j, shown Q j) ∧
      (shown Q j).any (fun q => decide (1 / 1000 < |q|)) = true := by
    intro r hrm he
    rw [hr, List.mem_filter] at hrm
    obtain ⟨h1, h2⟩ := hrm
    obtain ⟨k, rfl⟩ := List.mem_ofFn.1 h1
    have : k = j := hz.injective he
    subst this
    exact ⟨rfl, h2⟩
  split_ifs with hP
  · have hmem : (z j, shown Q j) ∈ T.reactions := by
      rw [hr, List.mem_filter]
      exact ⟨List.mem_ofFn.2 ⟨j, rfl⟩, hP⟩
    cases hf : T.reactions.find? (fun r => decide (r.1 = z j)) with
    | none =>
      have := List.find?_eq_none.1 hf _ hmem
      simp at this
    | some r =>
      have h1 := List.mem_of_find?_eq_some hf
      have h2 := List.find?_some hf
      rw [(only r h1 (by simpa using h2)).1]
      rfl
  · cases hf : T.reactions.find? (fun r => decide (r.1 = z j)) with
    | none => rfl
    | some r =>
      have h1 := List.mem_of_find?_eq_some hf
      have h2 := List.find?_some hf
      exact absurd (only r h1 (by simpa using h2)).2 hP

theorem above_eq {n : ℕ} (z : Fin (n + 1) → K) (f : Fin n → (K × K × K) × (K × K × K)) (T : Tables K)
    (hf : ∀ i : Fin n, T.forces[2 * i.1]? = some (z i.castSucc, (f i).1) ∧
        T.forces[2 * i.1 + 1]? = some (z i.succ, (f i).2)) (hl : T.forces.length = 2 * n) (j : Fin (n + 1)) :
    (below T j.1 - above T j.1).1 = jump f (·.1) j ∧ (below T j.1 - above T j.1).2.1 = jump f (·.2.1) j ∧
    (below T j.1 - above T j.1).2.2 = jump f (·.2.2) j := by
  have hb : below T j.1 = if h : j.1 < n then (f ⟨j.1, h⟩).1 else 0 := by
    unfold below
    split_ifs with h
    · rw [(hf ⟨j.1, h⟩).1]
      rfl
    · rw [List.getElem?_eq_none (by omega)]
      rfl
  have ha : above T j.1 = if h : 0 < j.1 then (f ⟨j.1 - 1, by omega⟩).2 else 0 := by
    obtain ⟨j, hj⟩ := j
    cases j with
    | zero => rfl
    | succ j =>
      rw [dif_pos (by simp)]
      show ((T.forces[2 * j + 1]?).map (·.2)).getD 0 = _
      rw [(hf ⟨j, by omega⟩).2]
      rfl
  unfold jump
  rw [hb, ha]
  by_cases h1 : j.1 < n <;> by_cases h2 : 0 < j.1 <;> simp [h1, h2]

/-- **C22, from the tables.** The table of section forces of an analysis without soil has two rows per element: `N` and
`V` are the same in both, and the moment changes by `V` times the length.  From the row above a node to the row below
it, the forces change by the load of `global_forces` plus the listed reaction up to 1/1000, and exactly by the load in
a direction that is not held. -/
theorem C22_tables (pi : K) (ty : ElementType) (p : Pile.Pile K) (top tip : K) (hp : Stack p top tip)
    (hreg : ∀ s ∈ p.sections, ∀ L : K, 0 < L → Regular ty (elemOf pi p.material s L)) (C : Coordinates K)
    (h : MeshOn p top tip C) (bcs : List (Cond K)) (T : Tables K) (hT : solveOn pi ty p C bcs = some T) :
    T.forces.length + 2 = 2 * C.nodes.length ∧
    (∀ i e e', C.nodes[i]? = some e → C.nodes[i + 1]? = some e' → ∃ N V M M' : K,
      T.forces[2 * i]? = some (e, N, V, M) ∧ T.forces[2 * i + 1]? = some (e', N, V, M') ∧ M - M' = V * (e - e')) ∧
    ∃ g, globalForces C.nodes bcs = .ok g ∧ ∀ i e (pz py mx : ℤ), C.nodes[i]? = some e → g.z[i]? = some pz →
      g.y[i]? = some py → g.x[i]? = some mx →
      |(below T i - above T i).1 - pz - listed T e 0| ≤ 1 / 1000 ∧
      |(below T i - above T i).2.1 - py - listed T e 1| ≤ 1 / 1000 ∧
      |(below T i - above T i).2.2 - mx - listed T e 2| ≤ 1 / 1000 ∧
      (Free C.nodes bcs .z i → (below T i - above T i).1 = pz) ∧
      (Free C.nodes bcs .y i → (below T i - above T i).2.1 = py) ∧
      (Free C.nodes bcs .x i → (below T i - above T i).2.2 = mx) := by
  obtain ⟨n, z, el, F, U, R, u, Q, f, g, gU, gR, n1, hz, hanti, hel, hg, hgU, hgR, hF, hU, hR, hb, -, hlen, hf, hr⟩ :=
    solveOn_some pi ty hp h bcs T hT
  have hL : ∀ i, (el i).L ≠ 0 := fun i => (regular_of_elements hreg hanti hel i).L
  have hphi : ∀ i, 1 + phi ty (el i) ≠ 0 := fun i => (regular_of_elements hreg hanti hel i).p
  have hff : ∀ i, f i = ends ty el u i := by
    intro i
    unfold beam at hb
    simp only [Option.map_eq_some_iff, Prod.mk.injEq] at hb
    obtain ⟨⟨u', Q'⟩, -, rfl, rfl, rfl⟩ := hb
    rfl
  have hnode : ∀ i e, C.nodes[i]? = some e → ∃ hi : i < n + 1, e = z ⟨i, hi⟩ := by
    intro i e he
    rw [hz, List.getElem?_ofFn] at he
    split_ifs at he with hi
    exact ⟨hi, (Option.some.inj he).symm⟩
  refine ⟨by rw [hlen, hz]; simp; ring, ?_, g, hg, ?_⟩
  · intro i e e' he he'
    obtain ⟨-, rfl⟩ := hnode i e he
    obtain ⟨hi, rfl⟩ := hnode _ e' he'
    have hi' : i < n := by omega
    obtain ⟨c1, c2, c3, c4⟩ := C22_element ty el u ⟨i, hi'⟩ (hL _) (hphi _)
    obtain ⟨f1, f2⟩ := hf ⟨i, hi'⟩
    rw [hff] at f1 f2
    refine ⟨(ends ty el u ⟨i, hi'⟩).1.1, (ends ty el u ⟨i, hi'⟩).1.2.1, (ends ty el u ⟨i, hi'⟩).1.2.2,
      (ends ty el u ⟨i, hi'⟩).2.2.2, f1, ?_, ?_⟩
    · rw [f2]
      show some (_, (ends ty el u ⟨i, hi'⟩).2.1, (ends ty el u ⟨i, hi'⟩).2.2.1, _) = _
      unfold ends
      rw [← c1, ← c2]
      rfl
    · have hlen : (el ⟨i, hi'⟩).L = z (⟨i, hi'⟩ : Fin n).castSucc - z (⟨i, hi'⟩ : Fin n).succ := by
        rw [length_of_elementsOn hel]
        exact abs_of_pos (sub_pos.2 (hanti Fin.castSucc_lt_succ))
      rw [div_eq_iff (hL _)] at c3
      exact c3.trans (congrArg _ hlen)
  · intro i e pz py mx he hpz hpy hpx
    obtain ⟨hi, rfl⟩ := hnode i e he
    obtain ⟨j1, j2, j3, j4⟩ := C22_jumps ty el hL hphi F U R u Q f hb ⟨i, hi⟩
    obtain ⟨b1, b2, b3⟩ := above_eq z f T hf hlen ⟨i, hi⟩
    have load : ∀ (d : Fin 3) (v : ℤ), (g.get (axisOf d))[i]? = some v → F (dof ⟨i, hi⟩ d) = v := by
      intro d v hv
      have := congrArg (·[i]?) (hF d)
      simp only [List.getElem?_map, hv, List.getElem?_ofFn, dif_pos hi, Option.map_some, Option.some.injEq] at this
      exact this.symm
    have free : ∀ d : Fin 3, Free C.nodes bcs (axisOf d) i → Q (dof ⟨i, hi⟩ d) = 0 := by
      rintro d ⟨⟨g1, e1, e2⟩, g2, e3, e4⟩
      rw [hgR] at e1
      rw [hgU] at e3
      cases e1
      cases e3
      rw [hR, List.getElem?_ofFn, dif_pos hi, Option.some.injEq] at e2
      rw [hU, List.getElem?_ofFn, dif_pos hi, Option.some.injEq] at e4
      exact j4 d e2 e4
    have k0 := listed_close z hanti Q T hr ⟨i, hi⟩ 0
    have k1 := listed_close z hanti Q T hr ⟨i, hi⟩ 1
    have k2 := listed_close z hanti Q T hr ⟨i, hi⟩ 2
    rw [abs_sub_comm] at k0 k1 k2
    have l0 := load 0 pz hpz
    have l1 := load 1 py hpy
    have l2 := load 2 mx hpx
    rw [j1, l0] at b1
    rw [j2, l1] at b2
    rw [j3, l2] at b3
    rw [b1, b2, b3]
    refine ⟨?_, ?_, ?_, ?_, ?_, ?_⟩
    · rw [add_sub_cancel_left]
      exact k0
    · rw [add_sub_cancel_left]
      exact k1
    · rw [add_sub_cancel_left]
      exact k2
    · intro hfr
      rw [free 0 hfr, add_zero]
    · intro hfr
      rw [free 1 hfr, add_zero]
    · intro hfr
      rw [free 2 hfr, add_zero]

/-! ### superposition -/

theorem elementsOn_unique {pi : K} {p : Pile.Pile K} {n : ℕ} {z : Fin (n + 1) → K} {el el' : Fin n → Elem K}
    (h : ElementsOn pi p z el) (h' : ElementsOn pi p z el') : el = el' := by
  funext i
  obtain ⟨s, hs, e⟩ := h i
  obtain ⟨s', hs', e'⟩ := h' i
  rw [hs] at hs'
  cases hs'
  rw [e, e']

/-- Entry of a nodal column; every column has one entry per node. -/
def At {β : Type} (g : Nodal β) (a : Axis) (i : ℕ) (v : β) : Prop := (g.get a)[i]? = some v

/-- **C23, superposition in the tables.** Three analyses without soil on the same mesh of the same pile, with conditions
that hold the same degrees of freedom.  If the nodal loads and prescribed displacements of the third are `a` times
those of the first plus `b` times those of the second, then so are the listed displacements and section forces, row
by row, and the listed reactions up to rounding in the table. -/
theorem C23_tables (pi : K) (ty : ElementType) (p : Pile.Pile K) (top tip : K) (hp : Stack p top tip)
    (C : Coordinates K) (h : MeshOn p top tip C) (bcs₁ bcs₂ bcs₃ : List (Cond K)) (a b : K)
    (T₁ T₂ : Tables K) (h₁ : solveOn pi ty p C bcs₁ = some T₁) (h₂ : solveOn pi ty p C bcs₂ = some T₂)
    (g₃ : Nodal ℤ) (hF : globalForces C.nodes bcs₃ = .ok g₃) (w₃ : Nodal K) (hU : globalDisp C.nodes bcs₃ = .ok w₃)
    (r₃ : Nodal Bool) (hR : globalRestrained C.nodes bcs₃ = .ok r₃)
    (hload : ∀ g₁ g₂, globalForces C.nodes bcs₁ = .ok g₁ → globalForces C.nodes bcs₂ = .ok g₂ →
      ∀ ax i (v₁ v₂ v₃ : ℤ), At g₁ ax i v₁ → At g₂ ax i v₂ → At g₃ ax i v₃ → (v₃ : K) = a * v₁ + b * v₂)
    (hdisp : ∀ w₁ w₂, globalDisp C.nodes bcs₁ = .ok w₁ → globalDisp C.nodes bcs₂ = .ok w₂ →
      ∀ ax i (v₁ v₂ v₃ : K), At w₁ ax i v₁ → At w₂ ax i v₂ → At w₃ ax i v₃ → v₃ = a * v₁ + b * v₂)
    (hheld : ∀ ax i, (Free C.nodes bcs₁ ax i ↔ Free C.nodes bcs₃ ax i) ∧
      (Free C.nodes bcs₂ ax i ↔ Free C.nodes bcs₃ ax i)) :
    ∃ T₃, solveOn pi ty p C bcs₃ = some T₃ ∧
      (∀ (k : ℕ) (e₁ : K) (r₁ : K × K × K) (e₂ : K) (r₂ : K × K × K), T₁.disp[k]? = some (e₁, r₁) → T₂.disp[k]? = some (e₂, r₂) →
        e₁ = e₂ ∧ T₃.disp[k]? = some (e₁, a • r₁ + b • r₂)) ∧
      (∀ (k : ℕ) (e₁ : K) (r₁ : K × K × K) (e₂ : K) (r₂ : K × K × K), T₁.forces[k]? = some (e₁, r₁) → T₂.forces[k]? = some (e₂, r₂) →
        e₁ = e₂ ∧ T₃.forces[k]? = some (e₁, a • r₁ + b • r₂)) ∧
      T₁.disp.length = T₃.disp.length ∧ T₂.disp.length = T₃.disp.length ∧
      T₁.forces.length = T₃.forces.length ∧ T₂.forces.length = T₃.forces.length ∧
      ∀ e ∈ C.nodes, ∀ x < 3, |listed T₃ e x - (a * listed T₁ e x + b * listed T₂ e x)| ≤ (1 + |a| + |b|) / 1000 := by
  have hv₃ : ∀ cls, validateBc bcs₃ cls = .ok () := by
    have key : ∀ cls, (∃ f, validateBc bcs₃ cls = .error f) ∨ validateBc bcs₃ cls = .ok () := by
      intro cls
      cases h : validateBc bcs₃ cls with
      | error f => exact Or.inl ⟨f, rfl⟩
      | ok u => exact Or.inr rfl
    intro cls
    rcases key cls with ⟨f, hf⟩ | hok
    · exfalso
      cases cls
      · unfold globalRestrained at hR; rw [hf] at hR; cases hR
      · unfold globalDisp at hU; rw [hf] at hU; cases hU
      · unfold globalForces at hF; rw [hf] at hF; cases hF
    · exact hok
  obtain ⟨z, el, F₁, U₁, R₁, g₁, w₁, r₁, n1, hz, anti, hel, gF₁, gU₁, gR₁, cF₁, cU₁, cR₁, s₁⟩ :=
    solveOn_read pi ty hp h bcs₁ (valid_of_some pi ty bcs₁ T₁ h₁)
  obtain ⟨z', el', F₂, U₂, R₂, g₂, w₂, r₂, -, hz', -, hel', gF₂, gU₂, gR₂, cF₂, cU₂, cR₂, s₂⟩ :=
    solveOn_read pi ty hp h bcs₂ (valid_of_some pi ty bcs₂ T₂ h₂)
  obtain ⟨z'', el'', F₃, U₃, R₃, g₃', w₃', r₃', -, hz'', -, hel'', gF₃, gU₃, gR₃, cF₃, cU₃, cR₃, s₃⟩ :=
    solveOn_read pi ty hp h bcs₃ hv₃
  obtain rfl : z = z' := List.ofFn_injective (hz ▸ hz')
  obtain rfl : z = z'' := List.ofFn_injective (hz ▸ hz'')
  obtain rfl := elementsOn_unique hel hel'
  obtain rfl := elementsOn_unique hel hel''
  rw [gF₃] at hF
  cases hF
  rw [gU₃] at hU
  cases hU
  rw [gR₃] at hR
  cases hR
  rw [s₁] at h₁
  rw [s₂] at h₂
  obtain ⟨u₁, Q₁, f₁, b₁, d₁, l₁, t₁, q₁⟩ := tables_of_beam ty n1 z el F₁ U₁ R₁ T₁ h₁
  obtain ⟨u₂, Q₂, f₂, b₂, d₂, l₂, t₂, q₂⟩ := tables_of_beam ty n1 z el F₂ U₂ R₂ T₂ h₂
  have dofs : ∀ r : Fin (3 * C.elements.length + 3), ∃ j d, r = dof j d := by
    intro r
    refine ⟨⟨r.1 / 3, by omega⟩, ⟨r.1 % 3, by omega⟩, Fin.ext ?_⟩
    show r.1 = 3 * (r.1 / 3) + r.1 % 3
    omega
  have eF : F₃ = a • F₁ + b • F₂ := by
    funext r
    obtain ⟨j, d, rfl⟩ := dofs r
    have en : ∀ (g : Nodal ℤ) (F : Fin (3 * C.elements.length + 3) → K),
        (∀ d, (g.get (axisOf d)).map (fun i : ℤ => (i : K)) = List.ofFn (fun j => F (dof j d))) →
        ∃ v : ℤ, At g (axisOf d) j.1 v ∧ (v : K) = F (dof j d) := by
      intro g F hg
      have := congrArg (·[j.1]?) (hg d)
      simp only [List.getElem?_map, List.getElem?_ofFn, dif_pos j.2, Option.map_eq_some_iff] at this
      exact this
    obtain ⟨v₁, a₁, e₁⟩ := en g₁ F₁ cF₁
    obtain ⟨v₂, a₂, e₂⟩ := en g₂ F₂ cF₂
    obtain ⟨v₃, a₃, e₃⟩ := en g₃ F₃ cF₃
    rw [Pi.add_apply, Pi.smul_apply, Pi.smul_apply, smul_eq_mul, smul_eq_mul, ← e₁, ← e₂, ← e₃]
    exact hload g₁ g₂ gF₁ gF₂ _ _ _ _ _ a₁ a₂ a₃
  have eU : U₃ = a • U₁ + b • U₂ := by
    funext r
    obtain ⟨j, d, rfl⟩ := dofs r
    have en : ∀ (g : Nodal K) (U : Fin (3 * C.elements.length + 3) → K), (∀ d, g.get (axisOf d) = List.ofFn (fun j => U (dof j d))) →
        At g (axisOf d) j.1 (U (dof j d)) := by
      intro g U hg
      unfold At
      rw [hg, List.getElem?_ofFn, dif_pos j.2]
    exact hdisp w₁ w₂ gU₁ gU₂ _ _ _ _ _ (en w₁ U₁ cU₁) (en w₂ U₂ cU₂) (en w₃ U₃ cU₃)
  have free : ∀ (bcs : List (Cond K)) (w : Nodal K) (r : Nodal Bool) (U : Fin (3 * C.elements.length + 3) → K)
      (R : Fin (3 * C.elements.length + 3) → Bool), globalDisp C.nodes bcs = .ok w → globalRestrained C.nodes bcs = .ok r →
      (∀ d, w.get (axisOf d) = List.ofFn (fun j => U (dof j d))) →
      (∀ d, r.get (axisOf d) = List.ofFn (fun j => R (dof j d))) → ∀ j d,
      (Free C.nodes bcs (axisOf d) j.1 ↔ (R (dof j d) || decide (U (dof j d) ≠ 0)) = false) := by
    intro bcs w r U R hw hr cw cr j d
    unfold Free
    rw [hw, hr]
    have e1 : (r.get (axisOf d))[j.1]? = some (R (dof j d)) := by rw [cr, List.getElem?_ofFn, dif_pos j.2]
    have e2 : (w.get (axisOf d))[j.1]? = some (U (dof j d)) := by rw [cw, List.getElem?_ofFn, dif_pos j.2]
    rw [Bool.or_eq_false_iff, decide_eq_false_iff_not, not_not]
    constructor
    · rintro ⟨⟨g, hg, h1⟩, g', hg', h2⟩
      cases hg
      cases hg'
      rw [e1] at h1
      rw [e2] at h2
      exact ⟨Option.some.inj h1, Option.some.inj h2⟩
    · rintro ⟨h1, h2⟩
      exact ⟨⟨r, rfl, by rw [e1, h1]⟩, w, rfl, by rw [e2, h2]⟩
  have eR₁ : (fun r => R₁ r || decide (U₁ r ≠ 0)) = fun r => R₃ r || decide (U₃ r ≠ 0) := by
    funext r
    obtain ⟨j, d, rfl⟩ := dofs r
    have := (free bcs₁ w₁ r₁ U₁ R₁ gU₁ gR₁ cU₁ cR₁ j d).symm.trans
      ((hheld (axisOf d) j.1).1.trans (free bcs₃ w₃ r₃ U₃ R₃ gU₃ gR₃ cU₃ cR₃ j d))
    exact Bool.eq_iff_iff.2 (by rw [← not_iff_not, Bool.not_eq_true, Bool.not_eq_true]; exact this)
  have eR₂ : (fun r => R₂ r || decide (U₂ r ≠ 0)) = fun r => R₃ r || decide (U₃ r ≠ 0) := by
    funext r
    obtain ⟨j, d, rfl⟩ := dofs r
    have := (free bcs₂ w₂ r₂ U₂ R₂ gU₂ gR₂ cU₂ cR₂ j d).symm.trans
      ((hheld (axisOf d) j.1).2.trans (free bcs₃ w₃ r₃ U₃ R₃ gU₃ gR₃ cU₃ cR₃ j d))
    exact Bool.eq_iff_iff.2 (by rw [← not_iff_not, Bool.not_eq_true, Bool.not_eq_true]; exact this)
  unfold beam at b₁ b₂
  rw [eR₁] at b₁
  rw [eR₂] at b₂
  simp only [Option.map_eq_some_iff, Prod.mk.injEq] at b₁ b₂
  obtain ⟨⟨u₁', Q₁'⟩, x₁, rfl, rfl, rfl⟩ := b₁
  obtain ⟨⟨u₂', Q₂'⟩, x₂, rfl, rfl, rfl⟩ := b₂
  have hsol := C23_superposition _ _ _ _ _ _ _ _ _ _ a b x₁ x₂
  rw [← eF, ← eU] at hsol
  have hbeam : beam ty el F₃ U₃ R₃ = some (a • u₁' + b • u₂', a • Q₁' + b • Q₂',
      fun i => sectionForces (el i).L (internalForces ty el (a • u₁' + b • u₂') i)) := by
    unfold beam
    rw [hsol]
    rfl
  obtain ⟨T₃, hT₃, d₃, l₃, t₃, q₃⟩ := tables_exact ty n1 z el (a • u₁' + b • u₂') (a • Q₁' + b • Q₂')
  have hint : ∀ i c, internalForces ty el (a • u₁' + b • u₂') i c
      = a * internalForces ty el u₁' i c + b * internalForces ty el u₂' i c := by
    intro i c
    have hst : stacked (a • u₁' + b • u₂') i = a • stacked u₁' i + b • stacked u₂' i := by
      funext c
      fin_cases c <;> rfl
    unfold internalForces
    rw [hst, Matrix.mulVec_add, Matrix.mulVec_smul, Matrix.mulVec_smul]
    simp only [Pi.add_apply, Pi.smul_apply, smul_eq_mul]
    ring
  have hends : ∀ i, ends ty el (a • u₁' + b • u₂') i
      = a • sectionForces (el i).L (internalForces ty el u₁' i) + b • sectionForces (el i).L (internalForces ty el u₂' i) := by
    intro i
    unfold ends sectionForces
    simp only [hint, Prod.smul_mk, Prod.mk_add_mk, smul_eq_mul, Prod.mk.injEq]
    refine ⟨⟨?_, ?_, ?_⟩, ?_, ?_, ?_⟩ <;> first | trivial | ring
  refine ⟨T₃, by rw [s₃, hbeam, Option.bind_some]; exact hT₃, ?_, ?_, by rw [d₁, d₃]; simp, by rw [d₂, d₃]; simp,
    by rw [l₁, l₃], by rw [l₂, l₃], ?_⟩
  · intro k e₁ r₁ e₂ r₂ k₁ k₂
    rw [d₁, List.getElem?_ofFn] at k₁
    rw [d₂, List.getElem?_ofFn] at k₂
    rw [d₃, List.getElem?_ofFn]
    split_ifs at k₁ k₂ ⊢ with hk
    cases k₁
    cases k₂
    exact ⟨rfl, rfl⟩
  · intro k e₁ r₁ e₂ r₂ k₁ k₂
    have hkn : k < 2 * C.elements.length := by
      rw [← l₁]
      exact (List.getElem?_eq_some_iff.1 k₁).1
    rcases Nat.even_or_odd' k with ⟨i, rfl | rfl⟩
    · have hi : i < C.elements.length := by omega
      rw [(t₁ ⟨i, hi⟩).1] at k₁
      rw [(t₂ ⟨i, hi⟩).1] at k₂
      rw [(t₃ ⟨i, hi⟩).1, hends]
      cases k₁
      cases k₂
      exact ⟨rfl, rfl⟩
    · have hi : i < C.elements.length := by omega
      rw [(t₁ ⟨i, hi⟩).2] at k₁
      rw [(t₂ ⟨i, hi⟩).2] at k₂
      rw [(t₃ ⟨i, hi⟩).2, hends]
      cases k₁
      cases k₂
      exact ⟨rfl, rfl⟩
  · intro e he x hx
    rw [hz, List.mem_ofFn'] at he
    obtain ⟨j, rfl⟩ := he
    have c₁ := listed_close z anti Q₁' T₁ q₁ j ⟨x, hx⟩
    have c₂ := listed_close z anti Q₂' T₂ q₂ j ⟨x, hx⟩
    have c₃ := listed_close z anti _ T₃ q₃ j ⟨x, hx⟩
    simp only [Pi.add_apply, Pi.smul_apply, smul_eq_mul] at c₃
    set s₁ := listed T₁ (z j) x
    set s₂ := listed T₂ (z j) x
    set s₃ := listed T₃ (z j) x
    set p₁ := Q₁' (dof j ⟨x, hx⟩)
    set p₂ := Q₂' (dof j ⟨x, hx⟩)
    have e : s₃ - (a * s₁ + b * s₂) = (s₃ - (a * p₁ + b * p₂)) - a * (s₁ - p₁) - b * (s₂ - p₂) := by ring
    rw [e]
    have m₁ : |a * (s₁ - p₁)| ≤ |a| * (1 / 1000) := by
      rw [abs_mul]
      exact mul_le_mul_of_nonneg_left c₁ (abs_nonneg a)
    have m₂ : |b * (s₂ - p₂)| ≤ |b| * (1 / 1000) := by
      rw [abs_mul]
      exact mul_le_mul_of_nonneg_left c₂ (abs_nonneg b)
    have := abs_sub (s₃ - (a * p₁ + b * p₂)) (a * (s₁ - p₁))
    have := abs_sub (s₃ - (a * p₁ + b * p₂) - a * (s₁ - p₁)) (b * (s₂ - p₂))
    linarith

/-- A value times `k`. -/
def scaleVal (k : K) : Val K → Val K
  | .num q => .num (k * q)
  | .flag b => .flag b

/-- All loads and prescribed displacements times `k`; supports stay as they are. -/
def scale (k : K) (c : Cond K) : Cond K :=
  ⟨c.cls, c.elevation, c.x.map (scaleVal k), c.y.map (scaleVal k), c.z.map (scaleVal k)⟩

omit [IsStrictOrderedRing K] [FloorRing K] [LinearOrder K] in
theorem scale_get (k : K) (c : Cond K) (a : Axis) : (scale k c).get a = (c.get a).map (scaleVal k) := by
  cases a <;> rfl

omit [IsStrictOrderedRing K] [FloorRing K] in
theorem truthy_scale (k : K) (hk : k ≠ 0) (v : Val K) : (scaleVal k v).truthy = v.truthy := by
  cases v with
  | flag b => rfl
  | num q => simp [scaleVal, Val.truthy, hk]

theorem lastWrite_map {α β : Type} (f : α → β) (l : List (Option α)) (init : Option α) :
    lastWrite (init.map f) (l.map (Option.map f)) = (lastWrite init l).map f := by
  induction l generalizing init with
  | nil => rfl
  | cons w l ih =>
    cases w with
    | none => exact ih init
    | some v => exact ih (some v)

omit [IsStrictOrderedRing K] [FloorRing K] in
theorem written_scale (k : K) (hk : k ≠ 0) (nodes : List K) (bcs : List (Cond K)) (cls : Cls) (i : ℕ) (a : Axis) :
    lastWrite none ((bcs.map (scale k)).map (writeTo nodes cls i a))
      = (lastWrite none (bcs.map (writeTo nodes cls i a))).map (scaleVal k) := by
  rw [← lastWrite_map, List.map_map, List.map_map, Option.map_none]
  congr 1
  apply List.map_congr_left
  intro c _
  unfold Function.comp writeTo
  rw [scale_get]
  show (if c.cls = cls ∧ nodeIdx nodes c.elevation = some i then _ else _) = _
  split_ifs
  · cases c.get a with
    | none => rfl
    | some v =>
      rw [Option.map_some, Option.filter_some, Option.filter_some, truthy_scale k hk]
      split_ifs <;> rfl
  · rfl

omit [IsStrictOrderedRing K] [FloorRing K] in
/-- The value left is one that some condition asks for. -/
theorem written_mem (nodes : List K) (bcs : List (Cond K)) (cls : Cls) (i : ℕ) (a : Axis) (v : Val K)
    (h : lastWrite none (bcs.map (writeTo nodes cls i a)) = some v) : ∃ c ∈ bcs, c.cls = cls ∧ c.get a = some v := by
  have gen : ∀ (l : List (Option (Val K))) (init : Option (Val K)), lastWrite init l = some v →
      init = some v ∨ some v ∈ l := by
    intro l
    induction l with
    | nil => intro init h; exact Or.inl h
    | cons w l ih =>
      intro init h
      cases w with
      | none => exact (ih init h).imp id (fun h => List.mem_cons_of_mem _ h)
      | some x =>
        rcases ih (some x) h with h | h
        · exact Or.inr (by rw [← h]; simp)
        · exact Or.inr (List.mem_cons_of_mem _ h)
  rcases gen _ _ h with h | h
  · cases h
  · obtain ⟨c, hc, hw⟩ := List.mem_map.1 h
    unfold writeTo at hw
    split_ifs at hw with h1
    refine ⟨c, hc, h1.1, ?_⟩
    rw [Option.filter_eq_some_iff] at hw
    exact hw.1

omit [IsStrictOrderedRing K] [FloorRing K] in
theorem validate_scale (k : K) (hk : k ≠ 0) (bcs : List (Cond K)) (cls : Cls) :
    validateBc (bcs.map (scale k)) cls = validateBc bcs cls := by
  have hinj : Function.Injective (fun p : K × Option (Val K) => (p.1, p.2.map (scaleVal k))) := by
    have h1 : Function.Injective (scaleVal k) := by
      intro v w h
      cases v <;> cases w <;> simp_all [scaleVal]
    rintro ⟨a, b⟩ ⟨c, d⟩ h
    simp only [Prod.mk.injEq] at h ⊢
    exact ⟨h.1, Option.map_injective h1 h.2⟩
  have key : ∀ a, axisConflict (bcs.map (scale k)) cls a = axisConflict bcs cls a := by
    intro a
    have e : (((bcs.map (scale k)).filter (fun c => decide (c.cls = cls))).map (fun c => (c.elevation, c.get a)))
        = (((bcs.filter (fun c => decide (c.cls = cls))).map (fun c => (c.elevation, c.get a)))).map
          (fun p : K × Option (Val K) => (p.1, p.2.map (scaleVal k))) := by
      rw [List.filter_map, List.map_map, List.map_map]
      apply List.map_congr_left
      intro c _
      simp only [Function.comp_apply, scale_get]
      rfl
    unfold axisConflict
    rw [e, List.dedup_map_of_injective hinj]
    simp only [List.length_map, List.map_map]
    rfl
  unfold validateBc
  simp only [key]

/-- **C23, scaled conditions.** All loads and prescribed displacements of an analysis without soil are multiplied by a
whole number `k ≠ 0`. If the loads are whole numbers, all listed displacements and section forces are multiplied by
`k`, in every row. -/
theorem C23_scaled (pi : K) (ty : ElementType) (p : Pile.Pile K) (top tip : K) (hp : Stack p top tip)
    (C : Coordinates K) (h : MeshOn p top tip C) (bcs : List (Cond K)) (k : ℤ) (hk : k ≠ 0)
    (hload : ∀ c ∈ bcs, c.cls = .force → ∀ a v, c.get a = some v → ∃ i : ℤ, v = .num (i : K))
    (hdisp : ∀ c ∈ bcs, c.cls = .displacement → ∀ a v, c.get a = some v → ∃ q : K, v = .num q)
    (T : Tables K) (hT : solveOn pi ty p C bcs = some T) :
    ∃ T', solveOn pi ty p C (bcs.map (scale (k : K))) = some T' ∧
      T'.disp = T.disp.map (fun r => (r.1, (k : K) • r.2)) ∧
      T'.forces = T.forces.map (fun r => (r.1, (k : K) • r.2)) ∧
      ∀ e ∈ C.nodes, ∀ x < 3, |listed T' e x - k * listed T e x| ≤ (1 + |(k : K)|) / 1000 := by
  have hk' : (k : K) ≠ 0 := Int.cast_ne_zero.2 hk
  have hv := valid_of_some pi ty bcs T hT
  have hv' : ∀ cls, validateBc (bcs.map (scale (k : K))) cls = .ok () := by
    intro cls
    rw [validate_scale _ hk', hv]
  obtain ⟨z, el, F, U, R, g, w, r, n1, hz, anti, hel, gF, gU, gR, cF, cU, cR, s⟩ := solveOn_read pi ty hp h bcs hv
  obtain ⟨z', el', F', U', R', g', w', r', -, -, -, -, gF', gU', gR', cF', cU', cR', s'⟩ :=
    solveOn_read pi ty hp h _ hv'
  have col : ∀ {β : Type} (store : Val K → β) (init : β) (bcs : List (Cond K)) (cls : Cls) (a : Axis) (i : ℕ) (v : β),
      At (applyBc store C.nodes ⟨C.nodes.map (fun _ => init), C.nodes.map (fun _ => init),
        C.nodes.map (fun _ => init)⟩ bcs cls) a i v → v = left store init C.nodes bcs cls a i := by
    intro β store init bcs cls a i v hat
    have hi : i < C.nodes.length := by
      have := (List.getElem?_eq_some_iff.1 hat).1
      rw [applyBc_length] at this
      cases a <;> simpa [Nodal.get] using this
    unfold At at hat
    rw [applyBc_left store init C.nodes bcs cls a i hi] at hat
    exact (Option.some.inj hat).symm
  have okF : ∀ bcs g, globalForces C.nodes bcs = .ok g → (∀ cls, validateBc bcs cls = .ok ()) →
      g = applyBc storeInt C.nodes ⟨C.nodes.map (fun _ => 0), C.nodes.map (fun _ => 0), C.nodes.map (fun _ => 0)⟩
        bcs .force := by
    intro bcs g hg hv
    unfold globalForces at hg
    rw [hv] at hg
    cases hg
    rfl
  have okU : ∀ bcs g, globalDisp C.nodes bcs = .ok g → (∀ cls, validateBc bcs cls = .ok ()) →
      g = applyBc storeFloat C.nodes ⟨C.nodes.map (fun _ => 0), C.nodes.map (fun _ => 0), C.nodes.map (fun _ => 0)⟩
        bcs .displacement := by
    intro bcs g hg hv
    unfold globalDisp at hg
    rw [hv] at hg
    cases hg
    rfl
  have okR : ∀ bcs g, globalRestrained C.nodes bcs = .ok g → (∀ cls, validateBc bcs cls = .ok ()) →
      g = applyBc storeBool C.nodes ⟨C.nodes.map (fun _ => false), C.nodes.map (fun _ => false),
        C.nodes.map (fun _ => false)⟩ bcs .fixation := by
    intro bcs g hg hv
    unfold globalRestrained at hg
    rw [hv] at hg
    cases hg
    rfl
  have sF : ∀ a i, left storeInt 0 C.nodes (bcs.map (scale (k : K))) .force a i = k * left storeInt 0 C.nodes bcs .force a i := by
    intro a i
    unfold left
    rw [written_scale _ hk']
    cases hw : lastWrite none (bcs.map (writeTo C.nodes .force i a)) with
    | none => simp
    | some v =>
      obtain ⟨c, hc, h1, h2⟩ := written_mem _ _ _ _ _ _ hw
      obtain ⟨m, rfl⟩ := hload c hc h1 a v h2
      show storeInt (.num ((k : K) * m)) = k * storeInt (.num (m : K))
      unfold storeInt
      rw [← Int.cast_mul]
      simp only [Int.floor_intCast, Int.ceil_intCast, ite_self]
  have sU : ∀ a i, left storeFloat 0 C.nodes (bcs.map (scale (k : K))) .displacement a i
      = k * left storeFloat 0 C.nodes bcs .displacement a i := by
    intro a i
    unfold left
    rw [written_scale _ hk']
    cases hw : lastWrite none (bcs.map (writeTo C.nodes .displacement i a)) with
    | none => simp
    | some v =>
      obtain ⟨c, hc, h1, h2⟩ := written_mem _ _ _ _ _ _ hw
      obtain ⟨m, rfl⟩ := hdisp c hc h1 a v h2
      rfl
  have sR : ∀ a i, left storeBool false C.nodes (bcs.map (scale (k : K))) .fixation a i
      = left storeBool false C.nodes bcs .fixation a i := by
    intro a i
    unfold left
    rw [written_scale _ hk']
    cases hw : lastWrite none (bcs.map (writeTo C.nodes .fixation i a)) with
    | none => rfl
    | some v => exact truthy_scale _ hk' v
  have hfree : ∀ a i, Free C.nodes bcs a i ↔ Free C.nodes (bcs.map (scale (k : K))) a i := by
    intro a i
    have len : ∀ {β : Type} (store : Val K → β) (init : β) (bcs : List (Cond K)) (cls : Cls) (v : β),
        (((applyBc store C.nodes ⟨C.nodes.map (fun _ => init), C.nodes.map (fun _ => init),
        C.nodes.map (fun _ => init)⟩ bcs cls).get a)[i]? = some v ↔
          i < C.nodes.length ∧ left store init C.nodes bcs cls a i = v) := by
      intro β store init bcs cls v
      constructor
      · intro h1
        have hi : i < C.nodes.length := by
          have := (List.getElem?_eq_some_iff.1 h1).1
          rw [applyBc_length] at this
          cases a <;> simpa [Nodal.get] using this
        exact ⟨hi, (col store init bcs cls a i v h1).symm⟩
      · rintro ⟨hi, rfl⟩
        exact applyBc_left store init C.nodes bcs cls a i hi
    have e : ∀ bcs, (∀ cls, validateBc bcs cls = .ok ()) → (Free C.nodes bcs a i ↔ i < C.nodes.length ∧
        left storeBool false C.nodes bcs .fixation a i = false ∧ left storeFloat 0 C.nodes bcs .displacement a i = 0) := by
      intro bcs hv
      unfold Free globalRestrained globalDisp
      rw [hv, hv]
      constructor
      · rintro ⟨⟨g1, e1, e2⟩, g2, e3, e4⟩
        cases e1
        cases e3
        obtain ⟨hi, h1⟩ := (len storeBool false bcs .fixation false).1 e2
        exact ⟨hi, h1, ((len storeFloat 0 bcs .displacement 0).1 e4).2⟩
      · rintro ⟨hi, h1, h2⟩
        exact ⟨⟨_, rfl, (len storeBool false bcs .fixation false).2 ⟨hi, h1⟩⟩, _, rfl,
          (len storeFloat 0 bcs .displacement 0).2 ⟨hi, h2⟩⟩
    rw [e bcs hv, e _ hv', sR, sU]
    simp [hk]
  obtain ⟨T', t0, t1, t2, t3, -, t4, -, t5⟩ := C23_tables pi ty p top tip hp C h bcs bcs (bcs.map (scale (k : K))) k 0 T T
    hT hT g' gF' w' gU' r' gR' (by
      intro g₁ g₂ e₁ e₂ a i v₁ v₂ v₃ a₁ a₂ a₃
      rw [okF _ _ e₁ hv] at a₁
      rw [okF _ _ gF' hv'] at a₃
      rw [col _ _ _ _ _ _ _ a₁, col _ _ _ _ _ _ _ a₃, sF]
      push_cast
      ring) (by
      intro w₁ w₂ e₁ e₂ a i v₁ v₂ v₃ a₁ a₂ a₃
      rw [okU _ _ e₁ hv] at a₁
      rw [okU _ _ gU' hv'] at a₃
      rw [col _ _ _ _ _ _ _ a₁, col _ _ _ _ _ _ _ a₃, sU]
      ring) (fun a i => ⟨hfree a i, hfree a i⟩)
  have ext : ∀ (l l' : List (K × K × K × K)), l.length = l'.length →
      (∀ (j : ℕ) (e₁ : K) (r₁ : K × K × K) (e₂ : K) (r₂ : K × K × K), l[j]? = some (e₁, r₁) → l[j]? = some (e₂, r₂) →
        e₁ = e₂ ∧ l'[j]? = some (e₁, (k : K) • r₁ + (0 : K) • r₂)) → l' = l.map (fun r => (r.1, (k : K) • r.2)) := by
    intro l l' hl hr
    apply List.ext_getElem?
    intro j
    rw [List.getElem?_map]
    cases hj : l[j]? with
    | none =>
      rw [List.getElem?_eq_none_iff] at hj
      rw [List.getElem?_eq_none (by omega)]
      rfl
    | some r =>
      rw [(hr j r.1 r.2 r.1 r.2 hj hj).2, zero_smul, add_zero]
      rfl
  refine ⟨T', t0, ext _ _ t3 t1, ext _ _ t4 t2, ?_⟩
  intro e he x hx
  have := t5 e he x hx
  simp only [zero_mul, add_zero, abs_zero] at this
  exact this

/-- Work of nodal loads on listed displacements. -/
def virtualWork (g : Nodal ℤ) (d : List (K × K × K × K)) : K :=
  (((g.z.zip (g.y.zip g.x)).zip d).map
    (fun r => (r.1.1 : K) * r.2.2.1 + (r.1.2.1 : K) * r.2.2.2.1 + (r.1.2.2 : K) * r.2.2.2.2)).sum

omit [LinearOrder K] [IsStrictOrderedRing K] [FloorRing K] in
theorem virtualWork_eq {n : ℕ} (z : Fin (n + 1) → K) (g : Nodal ℤ) (F u : Fin (3 * n + 3) → K)
    (hF : ∀ d, (g.get (axisOf d)).map (fun i : ℤ => (i : K)) = List.ofFn (fun j => F (dof j d))) :
    virtualWork g (List.ofFn (fun j => (z j, u (dof j 0), u (dof j 1), u (dof j 2)))) = ∑ r, F r * u r := by
  have hlen : ∀ d, (g.get (axisOf d)).length = n + 1 := by
    intro d
    have := congrArg List.length (hF d)
    simpa using this
  have hz : g.z.length = n + 1 := hlen 0
  have hy : g.y.length = n + 1 := hlen 1
  have hx : g.x.length = n + 1 := hlen 2
  have e : (g.z.zip (g.y.zip g.x)).zip (List.ofFn (fun j => (z j, u (dof j 0), u (dof j 1), u (dof j 2))))
      = List.ofFn (fun j : Fin (n + 1) => ((g.z[j.1]'(by omega), g.y[j.1]'(by omega), g.x[j.1]'(by omega)),
        (z j, u (dof j 0), u (dof j 1), u (dof j 2)))) := by
    apply List.ext_getElem
    · simp [hz, hy, hx]
    · intro i h1 h2
      simp only [List.getElem_zip, List.getElem_ofFn]
  have val : ∀ (d : Fin 3) (j : Fin (n + 1)) (hj : j.1 < (g.get (axisOf d)).length),
      ((g.get (axisOf d))[j.1] : K) = F (dof j d) := by
    intro d j hj
    have := congrArg (·[j.1]?) (hF d)
    simp only [List.getElem?_map, List.getElem?_ofFn, dif_pos j.2, List.getElem?_eq_getElem hj, Option.map_some,
      Option.some.injEq] at this
    exact this
  unfold virtualWork
  rw [e, List.map_ofFn, List.sum_ofFn, sum_dof]
  apply Finset.sum_congr rfl
  intro j _
  rw [Fin.sum_univ_three, ← val 0 j (by rw [hlen]; exact j.2), ← val 1 j (by rw [hlen]; exact j.2),
    ← val 2 j (by rw [hlen]; exact j.2)]
  rfl

/-- **C23, reciprocity in the tables.** Two load cases on the same mesh with the same supports and no prescribed
displacement: the loads of the first do the same work on the listed displacements of the second as the other way
round. -/
theorem C23_reciprocal_tables (pi : K) (ty : ElementType) (p : Pile.Pile K) (top tip : K) (hp : Stack p top tip)
    (C : Coordinates K) (h : MeshOn p top tip C) (bcs₁ bcs₂ : List (Cond K)) (T₁ T₂ : Tables K)
    (h₁ : solveOn pi ty p C bcs₁ = some T₁) (h₂ : solveOn pi ty p C bcs₂ = some T₂)
    (hfix : globalRestrained C.nodes bcs₁ = globalRestrained C.nodes bcs₂)
    (hno : ∀ c ∈ bcs₁ ++ bcs₂, c.cls ≠ .displacement) :
    ∃ g₁ g₂, globalForces C.nodes bcs₁ = .ok g₁ ∧ globalForces C.nodes bcs₂ = .ok g₂ ∧
      virtualWork g₁ T₂.disp = virtualWork g₂ T₁.disp := by
  obtain ⟨z, el, F₁, U₁, R₁, g₁, w₁, r₁, n1, hz, anti, hel, gF₁, gU₁, gR₁, cF₁, cU₁, cR₁, s₁⟩ :=
    solveOn_read pi ty hp h bcs₁ (valid_of_some pi ty bcs₁ T₁ h₁)
  obtain ⟨z', el', F₂, U₂, R₂, g₂, w₂, r₂, -, hz', -, hel', gF₂, gU₂, gR₂, cF₂, cU₂, cR₂, s₂⟩ :=
    solveOn_read pi ty hp h bcs₂ (valid_of_some pi ty bcs₂ T₂ h₂)
  obtain rfl : z = z' := List.ofFn_injective (hz ▸ hz')
  obtain rfl := elementsOn_unique hel hel'
  rw [s₁] at h₁
  rw [s₂] at h₂
  obtain ⟨u₁, Q₁, f₁, b₁, d₁, -⟩ := tables_of_beam ty n1 z el F₁ U₁ R₁ T₁ h₁
  obtain ⟨u₂, Q₂, f₂, b₂, d₂, -⟩ := tables_of_beam ty n1 z el F₂ U₂ R₂ T₂ h₂
  have dofs : ∀ r : Fin (3 * C.elements.length + 3), ∃ j d, r = dof j d := by
    intro r
    refine ⟨⟨r.1 / 3, by omega⟩, ⟨r.1 % 3, by omega⟩, Fin.ext ?_⟩
    show r.1 = 3 * (r.1 / 3) + r.1 % 3
    omega
  have zero : ∀ (bcs : List (Cond K)) (w : Nodal K) (U : Fin (3 * C.elements.length + 3) → K),
      (∀ c ∈ bcs, c.cls ≠ .displacement) → globalDisp C.nodes bcs = .ok w →
      (∀ d, w.get (axisOf d) = List.ofFn (fun j => U (dof j d))) → U = 0 := by
    intro bcs w U hno hw cw
    have gen : ∀ (l : List (Cond K)) (g : Nodal K), (∀ c ∈ l, c.cls ≠ .displacement) →
        l.foldl (applyOne storeFloat C.nodes .displacement) g = g := by
      intro l
      induction l with
      | nil => intro g _; rfl
      | cons c l ih =>
        intro g hl
        have : applyOne storeFloat C.nodes .displacement g c = g := by
          unfold applyOne
          rw [if_neg (hl c (by simp))]
        rw [List.foldl_cons, this]
        exact ih g (fun c hc => hl c (List.mem_cons_of_mem _ hc))
    have hsame : ∀ (g : Nodal K), applyBc storeFloat C.nodes g bcs .displacement = g := fun g => gen bcs g hno
    have hz0 : ∀ d j, U (dof j d) = 0 := by
      intro d j
      have hw' : w = ⟨C.nodes.map (fun _ => (0 : K)), C.nodes.map (fun _ => (0 : K)), C.nodes.map (fun _ => (0 : K))⟩ := by
        unfold globalDisp at hw
        cases hv : validateBc bcs .displacement with
        | error f => rw [hv] at hw; cases hw
        | ok q =>
          rw [hv] at hw
          have : w = applyBc storeFloat C.nodes ⟨C.nodes.map (fun _ => (0 : K)), C.nodes.map (fun _ => (0 : K)),
              C.nodes.map (fun _ => (0 : K))⟩ bcs .displacement := by
            cases hw
            rfl
          rw [this, hsame]
      have := congrArg (·[j.1]?) (cw d)
      rw [hw'] at this
      simp only [List.getElem?_ofFn, dif_pos j.2] at this
      have hm : ∀ a : Axis, ((⟨C.nodes.map (fun _ => (0 : K)), C.nodes.map (fun _ => (0 : K)),
          C.nodes.map (fun _ => (0 : K))⟩ : Nodal K).get a) = C.nodes.map (fun _ => (0 : K)) := by
        intro a
        cases a <;> rfl
      rw [hm, List.getElem?_map, Option.map_eq_some_iff] at this
      obtain ⟨_, _, h0⟩ := this
      exact h0.symm
    funext r
    obtain ⟨j, d, rfl⟩ := dofs r
    exact hz0 d j
  have zU₁ := zero bcs₁ w₁ U₁ (fun c hc => hno c (List.mem_append_left _ hc)) gU₁ cU₁
  have zU₂ := zero bcs₂ w₂ U₂ (fun c hc => hno c (List.mem_append_right _ hc)) gU₂ cU₂
  have eR : R₁ = R₂ := by
    rw [gR₁, gR₂] at hfix
    cases hfix
    funext r
    obtain ⟨j, d, rfl⟩ := dofs r
    have := (cR₁ d).symm.trans (cR₂ d)
    exact congrFun (List.ofFn_injective this) j
  subst zU₁ zU₂ eR
  unfold beam at b₁ b₂
  simp only [Option.map_eq_some_iff, Prod.mk.injEq] at b₁ b₂
  obtain ⟨⟨u₁', Q₁'⟩, x₁, rfl, rfl, rfl⟩ := b₁
  obtain ⟨⟨u₂', Q₂'⟩, x₂, rfl, rfl, rfl⟩ := b₂
  refine ⟨g₁, g₂, gF₁, gF₂, ?_⟩
  rw [d₁, d₂, virtualWork_eq z g₁ F₁ u₂' cF₁, virtualWork_eq z g₂ F₂ u₁' cF₂]
  exact (C23_reciprocity _ (C19_symmetric ty el (fun _ => ⟨(0, 0), (0, 0), (0, 0)⟩) 0 0 0).2 _ _ _ _ _ _ _ _ _ x₁ x₂).2
    (fun i _ => ⟨rfl, rfl⟩)

/-! ### from the public calls -/

/-- An accepted pile, meshed as asked, is ready for the theorems above. -/
theorem ready (pi : K) (hpi : 0 < pi) (ty : ElementType) (uw E nu : K) (mat : Pile.Material K)
    (hm : Pile.mkMaterial uw E nu = some mat) (hnu : ty = .timoshenko → -(3 / 4) ≤ nu)
    (sections : List (Pile.Section K)) (hb : ∀ s ∈ sections, Spec.Pile.Built s ∧ s.thickness < s.diameter)
    (p : Pile.Pile K) (hp : Pile.mkPile sections mat = .ok p) (top tip : K) (htop : p.topElevation = some top)
    (htip : p.bottomElevation = some tip) (x2 : List K) (c : K) (hc : 1 / 100 ≤ c)
    (hgrid : ∀ r, Required p tip none x2 r → OnGrid r) (hin : ∀ x ∈ x2, tip ≤ x ∧ x ≤ top) :
    Stack p top tip ∧ (∀ s ∈ p.sections, ∀ L : K, 0 < L → Regular ty (elemOf pi p.material s L)) ∧
    ∃ C, getCoordinates p none x2 c = some C ∧ MeshOn p top tip C ∧
      ∀ bcs, solveModel pi ty p x2 c bcs = solveOn pi ty p C bcs := by
  obtain ⟨hch, hmem⟩ := mkPile_sections sections mat p hp
  have hmat : p.material = mat := by
    unfold Pile.mkPile at hp
    split at hp
    · cases hp
    · simp only at hp
      split at hp
      · cases hp; rfl
      · cases hp
  refine ⟨⟨hch, fun s hs => ((Pile.built_iff s).1 (hb s ((hmem s).1 hs)).1).1, htop, htip⟩, ?_, ?_⟩
  · intro s hs L hL
    rw [hmat]
    obtain ⟨h1, h2⟩ := hb s ((hmem s).1 hs)
    exact regular_of_built pi hpi ty uw E nu mat hm hnu s h1 h2 L hL
  · obtain ⟨C, e, m⟩ := meshOn_model sections mat p hp (fun s hs => (hb s hs).1) x2 c top tip hc htop htip hgrid hin
    refine ⟨C, e, m, ?_⟩
    intro bcs
    unfold solveModel
    rw [e]
    rfl

/-- **C21, from the public calls.** -/
theorem C21_model (pi : K) (hpi : 0 < pi) (ty : ElementType) (uw E nu : K) (mat : Pile.Material K)
    (hm : Pile.mkMaterial uw E nu = some mat) (hnu : ty = .timoshenko → -(3 / 4) ≤ nu)
    (sections : List (Pile.Section K)) (hb : ∀ s ∈ sections, Spec.Pile.Built s ∧ s.thickness < s.diameter)
    (p : Pile.Pile K) (hp : Pile.mkPile sections mat = .ok p) (top tip : K) (htop : p.topElevation = some top)
    (htip : p.bottomElevation = some tip) (x2 : List K) (c : K) (hc : 1 / 100 ≤ c)
    (hgrid : ∀ r, Required p tip none x2 r → OnGrid r) (hin : ∀ x ∈ x2, tip ≤ x ∧ x ≤ top) (bcs : List (Cond K))
    (T : Tables K) (hT : solveModel pi ty p x2 c bcs = some T) :
    ∃ C g, getCoordinates p none x2 c = some C ∧ globalForces C.nodes bcs = .ok g ∧
      (∀ r ∈ T.reactions, r.1 ∈ C.nodes ∧ r.2.length = 3) ∧
      |(g.z.map (fun i : ℤ => (i : K))).sum + (T.reactions.map (comp 0)).sum| ≤ C.nodes.length / 1000 ∧
      |(g.y.map (fun i : ℤ => (i : K))).sum + (T.reactions.map (comp 1)).sum| ≤ C.nodes.length / 1000 ∧
      ∀ e0 : K, |((C.nodes.zip (g.y.zip g.x)).map (fun r => (r.2.2 : K) + (e0 - r.1) * r.2.1)).sum
        + (T.reactions.map (fun r => comp 2 r + (e0 - r.1) * comp 1 r)).sum|
        ≤ (C.nodes.map (fun e => (1 + |e0 - e|) / 1000)).sum := by
  obtain ⟨hst, hreg, C, hC, hmesh, hs⟩ := ready pi hpi ty uw E nu mat hm hnu sections hb p hp top tip htop htip x2 c hc
    hgrid hin
  rw [hs] at hT
  obtain ⟨g, h⟩ := C21_tables pi ty p top tip hst hreg C hmesh bcs T hT
  exact ⟨C, g, hC, h⟩

/-- **C22, from the public calls.** -/
theorem C22_model (pi : K) (hpi : 0 < pi) (ty : ElementType) (uw E nu : K) (mat : Pile.Material K)
    (hm : Pile.mkMaterial uw E nu = some mat) (hnu : ty = .timoshenko → -(3 / 4) ≤ nu)
    (sections : List (Pile.Section K)) (hb : ∀ s ∈ sections, Spec.Pile.Built s ∧ s.thickness < s.diameter)
    (p : Pile.Pile K) (hp : Pile.mkPile sections mat = .ok p) (top tip : K) (htop : p.topElevation = some top)
    (htip : p.bottomElevation = some tip) (x2 : List K) (c : K) (hc : 1 / 100 ≤ c)
    (hgrid : ∀ r, Required p tip none x2 r → OnGrid r) (hin : ∀ x ∈ x2, tip ≤ x ∧ x ≤ top) (bcs : List (Cond K))
    (T : Tables K) (hT : solveModel pi ty p x2 c bcs = some T) :
    ∃ C g, getCoordinates p none x2 c = some C ∧ globalForces C.nodes bcs = .ok g ∧
      T.forces.length + 2 = 2 * C.nodes.length ∧
      (∀ i e e', C.nodes[i]? = some e → C.nodes[i + 1]? = some e' → ∃ N V M M' : K,
        T.forces[2 * i]? = some (e, N, V, M) ∧ T.forces[2 * i + 1]? = some (e', N, V, M') ∧ M - M' = V * (e - e')) ∧
      ∀ i e (pz py mx : ℤ), C.nodes[i]? = some e → g.z[i]? = some pz → g.y[i]? = some py → g.x[i]? = some mx →
        |(below T i - above T i).1 - pz - listed T e 0| ≤ 1 / 1000 ∧
        |(below T i - above T i).2.1 - py - listed T e 1| ≤ 1 / 1000 ∧
        |(below T i - above T i).2.2 - mx - listed T e 2| ≤ 1 / 1000 ∧
        (Free C.nodes bcs .z i → (below T i - above T i).1 = pz) ∧
        (Free C.nodes bcs .y i → (below T i - above T i).2.1 = py) ∧
        (Free C.nodes bcs .x i → (below T i - above T i).2.2 = mx) := by
  obtain ⟨hst, hreg, C, hC, hmesh, hs⟩ := ready pi hpi ty uw E nu mat hm hnu sections hb p hp top tip htop htip x2 c hc
    hgrid hin
  rw [hs] at hT
  obtain ⟨h1, h2, g, hg, h3⟩ := C22_tables pi ty p top tip hst hreg C hmesh bcs T hT
  exact ⟨C, g, hC, hg, h1, h2, h3⟩

end calls

/-! ### a case that meets the hypotheses -/

/-- The nodes of the pile `pileE` with an extra node and elements of at most two metres. -/
def nodesE : Coordinates ℚ := ⟨[0, -2, -4, -6, -8, -10], [(0, -2), (-2, -4), (-4, -6), (-6, -8), (-8, -10)]⟩

theorem stackE : Stack pileE 0 (-10) := ⟨by simp [pileE], by simp [pileE]; norm_num, rfl, rfl⟩

theorem meshE : MeshOn pileE 0 (-10) nodesE := ⟨by decide +kernel, by decide +kernel, rfl, rfl, by decide +kernel⟩

theorem builtE : ∀ s ∈ pileE.sections, Spec.Pile.Built s ∧ s.thickness < s.diameter := by
  simp only [Pile.built_iff, pileE]
  norm_num

theorem regularE : ∀ s ∈ pileE.sections, ∀ L : ℚ, 0 < L → Regular .timoshenko (elemOf (22 / 7) pileE.material s L) :=
  fun s hs L hL => regular_of_built (22 / 7) (by norm_num) .timoshenko 78 210000000 (3 / 10) pileE.material
    (by decide +kernel) (fun _ => by norm_num) s (builtE s hs).1 (builtE s hs).2 L hL

theorem solvedE : ∃ T, solveOn (22 / 7) .timoshenko pileE nodesE bcsE = some T := by
  rw [← Option.ne_none_iff_exists']
  refine (C20_tables (22 / 7) (by norm_num) .timoshenko 78 210000000 (3 / 10) pileE (by decide +kernel)
    (fun _ => by norm_num) 0 (-10) stackE builtE nodesE meshE bcsE).2 ⟨?_, ?_, ?_⟩
  · intro cls
    cases cls <;> decide +kernel
  · exact ⟨5, by decide, Or.inl (by decide +kernel)⟩
  · exact ⟨5, by decide, Or.inl (by decide +kernel), Or.inl ⟨5, by decide, Or.inl (by decide +kernel)⟩⟩

/-- The head is loaded by 100 across the axis and -500 along it and nothing holds it: the first row shows just that. -/
example : ∃ T, solveOn (22 / 7) .timoshenko pileE nodesE bcsE = some T ∧
    (below T 0).1 = -500 ∧ (below T 0).2.1 = 100 ∧ (below T 0).2.2 = 0 ∧
    |-500 + (T.reactions.map (comp 0)).sum| ≤ 6 / 1000 ∧ |100 + (T.reactions.map (comp 1)).sum| ≤ 6 / 1000 := by
  obtain ⟨T, hT⟩ := solvedE
  obtain ⟨g, hg, -, a1, a2, -⟩ := C21_tables (22 / 7) .timoshenko pileE 0 (-10) stackE regularE nodesE meshE bcsE T hT
  obtain ⟨-, -, g', hg', hj⟩ := C22_tables (22 / 7) .timoshenko pileE 0 (-10) stackE regularE nodesE meshE bcsE T hT
  have hgv : globalForces nodesE.nodes bcsE
      = .ok ⟨[0, 0, 0, 0, 0, 0], [100, 0, 0, 0, 0, 0], [-500, 0, 0, 0, 0, 0]⟩ := by decide +kernel
  rw [hgv] at hg hg'
  cases hg
  cases hg'
  obtain ⟨-, -, -, f1, f2, f3⟩ := hj 0 0 (-500) 100 0 rfl rfl rfl rfl
  have hfree : ∀ a, Free nodesE.nodes bcsE a 0 := by
    intro a
    refine ⟨⟨_, (rfl : _ = Except.ok _), ?_⟩, ⟨_, (rfl : _ = Except.ok _), ?_⟩⟩ <;> cases a <;> decide +kernel
  have h0 : above T 0 = 0 := rfl
  rw [h0, sub_zero] at f1 f2 f3
  refine ⟨T, hT, by simpa using f1 (hfree _), by simpa using f2 (hfree _), by simpa using f3 (hfree _), ?_, ?_⟩
  · simpa [nodesE] using a1
  · simpa [nodesE] using a2

/-- Three times the loads and the prescribed displacement. -/
example : ∃ T T', solveOn (22 / 7) .timoshenko pileE nodesE bcsE = some T ∧
    solveOn (22 / 7) .timoshenko pileE nodesE (bcsE.map (scale 3)) = some T' ∧
    T'.disp = T.disp.map (fun r => (r.1, (3 : ℚ) • r.2)) := by
  obtain ⟨T, hT⟩ := solvedE
  obtain ⟨T', h1, h2, -⟩ := C23_scaled (22 / 7) .timoshenko pileE 0 (-10) stackE nodesE meshE bcsE 3 (by norm_num)
    (by
      intro c hc hcls a v hv
      simp only [bcsE, List.mem_cons, List.not_mem_nil, or_false] at hc
      rcases hc with rfl | rfl | rfl
      · cases a
        · cases hv
        · exact ⟨100, by cases hv; norm_num⟩
        · exact ⟨-500, by cases hv; norm_num⟩
      · cases hcls
      · cases hcls) (by
      intro c hc hcls a v hv
      simp only [bcsE, List.mem_cons, List.not_mem_nil, or_false] at hc
      rcases hc with rfl | rfl | rfl
      · cases hcls
      · cases a
        · cases hv
        · exact ⟨1 / 10, by cases hv; norm_num⟩
        · cases hv
      · cases hcls) T hT
  refine ⟨T, T', hT, ?_, ?_⟩
  · simpa using h1
  · simpa using h2

/-- Two load cases on a pile fixed at its tip: the deflection of the head under a unit load two metres below is the
deflection of that point under a unit load at the head. -/
example : ∃ T₁ T₂ r₁ r₂,
    solveOn (22 / 7) .timoshenko pileE nodesE [⟨.force, 0, none, some (.num 1), none⟩,
      ⟨.fixation, -10, some (.flag true), some (.flag true), some (.flag true)⟩] = some T₁ ∧
    solveOn (22 / 7) .timoshenko pileE nodesE [⟨.force, -2, none, some (.num 1), none⟩,
      ⟨.fixation, -10, some (.flag true), some (.flag true), some (.flag true)⟩] = some T₂ ∧
    T₁.disp[1]? = some r₁ ∧ T₂.disp[0]? = some r₂ ∧ r₁.2.2.1 = r₂.2.2.1 := by
  have solved : ∀ e : ℚ, e = 0 ∨ e = -2 → ∃ T, solveOn (22 / 7) .timoshenko pileE nodesE [⟨.force, e, none, some (.num 1), none⟩,
      ⟨.fixation, -10, some (.flag true), some (.flag true), some (.flag true)⟩] = some T := by
    intro e he
    rw [← Option.ne_none_iff_exists']
    refine (C20_tables (22 / 7) (by norm_num) .timoshenko 78 210000000 (3 / 10) pileE (by decide +kernel)
      (fun _ => by norm_num) 0 (-10) stackE builtE nodesE meshE _).2 ⟨?_, ?_, ?_⟩
    · intro cls
      cases cls <;> rfl
    · refine ⟨5, by decide, Or.inl ?_⟩
      rcases he with rfl | rfl <;> decide +kernel
    · refine ⟨5, by decide, Or.inl ?_, Or.inl ⟨5, by decide, Or.inl ?_⟩⟩ <;>
        rcases he with rfl | rfl <;> decide +kernel
  obtain ⟨T₁, h₁⟩ := solved 0 (by simp)
  obtain ⟨T₂, h₂⟩ := solved (-2) (by simp)
  obtain ⟨g₁, g₂, e₁, e₂, hw⟩ := C23_reciprocal_tables (22 / 7) .timoshenko pileE 0 (-10) stackE nodesE meshE _ _ T₁ T₂
    h₁ h₂ (by decide +kernel) (by decide +kernel)
  have v₁ : globalForces nodesE.nodes [⟨.force, 0, none, some (.num 1), none⟩,
      ⟨.fixation, -10, some (.flag true), some (.flag true), some (.flag true)⟩]
      = .ok ⟨[0, 0, 0, 0, 0, 0], [1, 0, 0, 0, 0, 0], [0, 0, 0, 0, 0, 0]⟩ := by decide +kernel
  have v₂ : globalForces nodesE.nodes [⟨.force, -2, none, some (.num 1), none⟩,
      ⟨.fixation, -10, some (.flag true), some (.flag true), some (.flag true)⟩]
      = .ok ⟨[0, 0, 0, 0, 0, 0], [0, 1, 0, 0, 0, 0], [0, 0, 0, 0, 0, 0]⟩ := by decide +kernel
  rw [v₁] at e₁
  rw [v₂] at e₂
  cases e₁
  cases e₂
  obtain ⟨n, z₁, el₁, -, -, -, u₁, -, -, -, -, -, n1, hz₁, -, -, -, -, -, -, -, -, -, d₁, -⟩ :=
    solveOn_some (22 / 7) .timoshenko stackE meshE _ T₁ h₁
  obtain ⟨m, z₂, el₂, -, -, -, u₂, -, -, -, -, -, m1, hz₂, -, -, -, -, -, -, -, -, -, d₂, -⟩ :=
    solveOn_some (22 / 7) .timoshenko stackE meshE _ T₂ h₂
  have ln : n = 5 := by
    have := congrArg List.length hz₁
    simp [nodesE] at this
    omega
  have lm : m = 5 := by
    have := congrArg List.length hz₂
    simp [nodesE] at this
    omega
  subst ln lm
  refine ⟨T₁, T₂, _, _, h₁, h₂, by rw [d₁]; rfl, by rw [d₂]; rfl, ?_⟩
  rw [d₁, d₂] at hw
  simp [virtualWork, List.ofFn_succ] at hw
  exact hw.symm

end OpenPile.Props.Reported

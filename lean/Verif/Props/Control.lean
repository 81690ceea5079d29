/-
C85: load control and displacement control agree.

`winkler.py` 449-499 (`beam`), `kernel.py` 790-852 (`solve_equations`), `construct.py` 1522-1623 (boundary
conditions).  An analysis without soil under a load at a node gives some displacement there.  An analysis in which
that displacement is prescribed instead of the load gives the same tables, and lists the load as a reaction.
-/
import Verif.Props.SoilSupport

namespace OpenPile.Props.Control
open Matrix
open OpenPile.Kernel OpenPile.Spec.Kernel OpenPile.Props.Solve OpenPile.Props.Beam
open OpenPile.Winkler OpenPile.Analysis OpenPile.Props.Analysis OpenPile.Props.Reported OpenPile.Result
open OpenPile.Mesh OpenPile.BC OpenPile.Props.BC OpenPile.Spec.BC OpenPile.Props.Compliance

section solver
variable {K : Type} [Field K] [LinearOrder K] [IsStrictOrderedRing K]

/-- One more support keeps a beam solvable. -/
theorem more_support {n : ℕ} (ty : ElementType) (el : Fin n → Elem K) (hel : GoodElems ty el)
    (F U F' U' : Fin (3 * n + 3) → K) (S S' : Fin (3 * n + 3) → Bool) (hS : ∀ i, S i = true → S' i = true)
    (h : solveEquations (beamStiffness ty n el) F U S ≠ none) :
    solveEquations (beamStiffness ty n el) F' U' S' ≠ none := by
  rw [C20_beam_supports ty el hel] at h ⊢
  obtain ⟨⟨j, hj⟩, i, hi, h2⟩ := h
  refine ⟨⟨j, hS _ hj⟩, i, hS _ hi, ?_⟩
  rcases h2 with ⟨k, hk⟩ | ⟨k, hk, hk'⟩
  · exact .inl ⟨k, hS _ hk⟩
  · exact .inr ⟨k, hk, hS _ hk'⟩

/-- **C85, beam.** The load at degree of freedom `k` is taken away and the displacement it caused is prescribed:
the displacements stay, the reaction at `k` is the load. -/
theorem exchange {n : ℕ} (ty : ElementType) (el : Fin n → Elem K) (hel : GoodElems ty el)
    (F U F' U' : Fin (3 * n + 3) → K) (S S' : Fin (3 * n + 3) → Bool) (k : Fin (3 * n + 3)) (u Q : Fin (3 * n + 3) → K)
    (h : solveEquations (beamStiffness ty n el) F U S = some (u, Q)) (hk : S k = false)
    (hF : ∀ i, i ≠ k → F' i = F i) (hF' : F' k = 0) (hU : ∀ i, i ≠ k → U' i = U i) (hU' : U' k = u k)
    (hS : ∀ i, i ≠ k → S' i = S i) (hS' : S' k = true) :
    ∃ Q', solveEquations (beamStiffness ty n el) F' U' S' = some (u, Q') ∧ (∀ i, i ≠ k → Q' i = Q i) ∧ Q k = 0 ∧
      Q' k = F k := by
  obtain ⟨a1, a2, a3, -⟩ := C15_solution _ _ _ _ _ _ h
  have hne : solveEquations (beamStiffness ty n el) F' U' S' ≠ none := by
    refine more_support ty el hel F U F' U' S S' ?_ (by rw [h]; simp)
    intro i hi
    by_cases e : i = k
    · rw [e]
      exact hS'
    · rw [hS i e]
      exact hi
  refine ⟨_, solve_eq_some _ F' U' S' hne u ?_ ?_, ?_, (a1 k hk).2, ?_⟩
  · intro i hi
    have e : i ≠ k := by
      rintro rfl
      rw [hS'] at hi
      cases hi
    rw [hF i e]
    exact (a1 i (by rw [← hS i e]; exact hi)).1
  · intro i hi
    by_cases e : i = k
    · rw [e, hU']
    · rw [hU i e]
      exact a2 i (by rw [← hS i e]; exact hi)
  · intro i e
    rw [hF i e, ← a3]
    ring
  · rw [hF', sub_zero]
    exact (a1 k hk).1

end solver

section tables
variable {K : Type} [Field K] [LinearOrder K] [IsStrictOrderedRing K] [FloorRing K]

/-- Position of an axis in a row of the displacement and the reaction table: axial, lateral, rotation. -/
def place : Axis → Fin 3
  | .z => 0
  | .y => 1
  | .x => 2

theorem axisOf_place (a : Axis) : axisOf (place a) = a := by
  cases a <;> rfl

theorem place_axisOf (d : Fin 3) : place (axisOf d) = d := by
  fin_cases d <;> rfl

/-- A component of a row of the displacement table. -/
def listed (r : K × K × K × K) : Axis → K
  | .z => r.2.1
  | .y => r.2.2.1
  | .x => r.2.2.2

/-- At node `j`, in direction `a`, the load `q` of the conditions `bcs` is taken away in `bcs'` and the displacement `w`
is prescribed; there is no support there, and everything else is the same. -/
structure Exchanged (nodes : List K) (bcs bcs' : List (Cond K)) (j : ℕ) (a : Axis) (q : ℤ) (w : K) : Prop where
  loads : ∀ g g', globalForces nodes bcs = .ok g → globalForces nodes bcs' = .ok g' →
    (g.get a)[j]? = some q ∧ (g'.get a)[j]? = some 0 ∧
      ∀ b i, ¬ (b = a ∧ i = j) → (g'.get b)[i]? = (g.get b)[i]?
  displacements : ∀ g g', globalDisp nodes bcs = .ok g → globalDisp nodes bcs' = .ok g' →
    (g.get a)[j]? = some 0 ∧ (g'.get a)[j]? = some w ∧
      ∀ b i, ¬ (b = a ∧ i = j) → (g'.get b)[i]? = (g.get b)[i]?
  supports : ∀ g g', globalRestrained nodes bcs = .ok g → globalRestrained nodes bcs' = .ok g' →
    (g.get a)[j]? = some false ∧ g' = g

theorem elements_unique {pi : K} {p : Pile.Pile K} {n : ℕ} {z : Fin (n + 1) → K} {el el' : Fin n → Elem K}
    (h : ElementsOn pi p z el) (h' : ElementsOn pi p z el') : el = el' := by
  funext i
  obtain ⟨s, h1, e1⟩ := h i
  obtain ⟨s', h2, e2⟩ := h' i
  rw [h1, List.cons.injEq] at h2
  rw [e1, e2, h2.1]

/-- **C85, from the tables.** An analysis without soil of an accepted pile lists the displacement `w` at node `j` in
direction `a`, where the load `q` acts. In a second analysis that load is taken away and the displacement `w ≠ 0` is
prescribed. The second analysis gives a result; displacements and section forces are the same; the reactions at the
other nodes are the same; at node `j` the load `q` is listed as the reaction in direction `a`, beside the reactions that
were listed there in the other directions. -/
theorem C85_tables_partial (pi : K) (hpi : 0 < pi) (ty : ElementType) (p : Pile.Pile K) (top tip : K)
    (hp : Accepted ty p top tip) (C : Coordinates K) (h : MeshOn p top tip C) (bcs bcs' : List (Cond K))
    (hv' : ∀ cls, validateBc bcs' cls = .ok ()) (T : Tables K) (hT : solveOn pi ty p C bcs = some T)
    (j : ℕ) (a : Axis) (q : ℤ) (row : K × K × K × K) (hrow : T.disp[j]? = some row) (hw : listed row a ≠ 0)
    (hex : Exchanged C.nodes bcs bcs' j a q (listed row a)) :
    ∃ T', solveOn pi ty p C bcs' = some T' ∧ T'.disp = T.disp ∧ T'.forces = T.forces ∧
      (∀ r, r.1 ≠ row.1 → (r ∈ T'.reactions ↔ r ∈ T.reactions)) ∧
      (q = 0 → T'.reactions = T.reactions) ∧
      (q ≠ 0 → ∃ r' ∈ T'.reactions, r'.1 = row.1 ∧ comp (place a).1 r' = q ∧
        ∀ r ∈ T.reactions, r.1 = row.1 → ∀ b, b ≠ a → comp (place b).1 r' = comp (place b).1 r) := by
  obtain ⟨z, el, F, U, R, g, gU, gR, n1, hz, hanti, hel, hg, hgU, hgR, cF, cU, cR, hs⟩ :=
    solveOn_read pi ty hp.stack h bcs (valid_of_some pi ty bcs T hT)
  obtain ⟨z', el', F', U', R', g', gU', gR', -, hz', -, hel', hg', hgU', hgR', cF', cU', cR', hs'⟩ :=
    solveOn_read pi ty hp.stack h bcs' hv'
  have ez : z' = z := List.ofFn_injective (by rw [← hz, ← hz'])
  subst ez
  obtain rfl := elements_unique hel hel'
  have hgood := good_of_accepted hpi hp hanti hel
  rw [hs] at hT
  obtain ⟨u, Q, f, hb, t2, t3, t4, t5⟩ := tables_of_beam ty n1 z' el F U R T hT
  have hj : j < C.elements.length + 1 := by
    have := (List.getElem?_eq_some_iff.1 hrow).1
    rw [t2] at this
    simpa using this
  obtain ⟨k, rfl⟩ : ∃ k : Fin (C.elements.length + 1), k.1 = j := ⟨⟨j, hj⟩, rfl⟩
  have hrow' : row = (z' k, u (dof k 0), u (dof k 1), u (dof k 2)) := by
    rw [t2, List.getElem?_ofFn, dif_pos k.2, Option.some.injEq] at hrow
    exact hrow.symm
  have hlist : listed row a = u (dof k (place a)) := by
    rw [hrow']
    cases a <;> rfl
  have hr1 : row.1 = z' k := by rw [hrow']
  set d := place a with hd
  have had : axisOf d = a := axisOf_place a
  -- entries of the columns
  have eF : ∀ (c : Fin 3) (i : Fin (C.elements.length + 1)), ((g.get (axisOf c))[i.1]?).map (fun x : ℤ => (x : K))
      = some (F (dof i c)) := by
    intro c i
    rw [← List.getElem?_map, cF, List.getElem?_ofFn, dif_pos i.2]
  have eF' : ∀ (c : Fin 3) (i : Fin (C.elements.length + 1)), ((g'.get (axisOf c))[i.1]?).map (fun x : ℤ => (x : K))
      = some (F' (dof i c)) := by
    intro c i
    rw [← List.getElem?_map, cF', List.getElem?_ofFn, dif_pos i.2]
  have eU : ∀ (c : Fin 3) (i : Fin (C.elements.length + 1)), (gU.get (axisOf c))[i.1]? = some (U (dof i c)) := by
    intro c i
    rw [cU, List.getElem?_ofFn, dif_pos i.2]
  have eU' : ∀ (c : Fin 3) (i : Fin (C.elements.length + 1)), (gU'.get (axisOf c))[i.1]? = some (U' (dof i c)) := by
    intro c i
    rw [cU', List.getElem?_ofFn, dif_pos i.2]
  have eR : ∀ (c : Fin 3) (i : Fin (C.elements.length + 1)), (gR.get (axisOf c))[i.1]? = some (R (dof i c)) := by
    intro c i
    rw [cR, List.getElem?_ofFn, dif_pos i.2]
  have eR' : ∀ (c : Fin 3) (i : Fin (C.elements.length + 1)), (gR'.get (axisOf c))[i.1]? = some (R' (dof i c)) := by
    intro c i
    rw [cR', List.getElem?_ofFn, dif_pos i.2]
  obtain ⟨l1, l2, l3⟩ := hex.loads g g' hg hg'
  obtain ⟨m1, m2, m3⟩ := hex.displacements gU gU' hgU hgU'
  obtain ⟨s1, s2⟩ := hex.supports gR gR' hgR hgR'
  subst s2
  have hFk : F (dof k d) = q := by
    have := eF d k
    rw [had, l1, Option.map_some, Option.some.injEq] at this
    exact this.symm
  have hFk' : F' (dof k d) = 0 := by
    have := eF' d k
    rw [had, l2, Option.map_some, Option.some.injEq, Int.cast_zero] at this
    exact this.symm
  have hUk : U (dof k d) = 0 := by
    have := eU d k
    rw [had, m1, Option.some.injEq] at this
    exact this.symm
  have hUk' : U' (dof k d) = u (dof k d) := by
    have := eU' d k
    rw [had, m2, Option.some.injEq] at this
    rw [← this, hlist]
  have hRk : R (dof k d) = false := by
    have := eR d k
    rw [had, s1, Option.some.injEq] at this
    exact this.symm
  have hother : ∀ (i : Fin (C.elements.length + 1)) (c : Fin 3), dof i c ≠ dof k d → ¬ (axisOf c = a ∧ i.1 = k.1) := by
    rintro i c hne ⟨h1, h2⟩
    apply hne
    rw [Fin.ext h2, hd, ← h1, place_axisOf]
  have hFo : ∀ i, i ≠ dof k d → F' i = F i := by
    intro i hi
    obtain ⟨i, c, rfl⟩ := dof_surjective i
    have e1 := eF c i
    have e2 := eF' c i
    rw [l3 _ _ (hother i c hi), e1, Option.some.injEq] at e2
    exact e2.symm
  have hUo : ∀ i, i ≠ dof k d → U' i = U i := by
    intro i hi
    obtain ⟨i, c, rfl⟩ := dof_surjective i
    have e1 := eU c i
    have e2 := eU' c i
    rw [m3 _ _ (hother i c hi), e1, Option.some.injEq] at e2
    exact e2.symm
  have hRo : R' = R := by
    funext i
    obtain ⟨i, c, rfl⟩ := dof_surjective i
    have e1 := eR c i
    rw [eR' c i, Option.some.injEq] at e1
    exact e1
  subst hRo
  -- the solver
  have hbs : solveEquations (beamStiffness ty C.elements.length el) F U (fun i => R' i || decide (U i ≠ 0)) = some (u, Q) ∧
      f = ends ty el u := by
    unfold beam at hb
    simp only [Option.map_eq_some_iff, Prod.mk.injEq] at hb
    obtain ⟨⟨u', Q'⟩, e, rfl, rfl, rfl⟩ := hb
    exact ⟨e, rfl⟩
  obtain ⟨Q', hsol, q1, q2, q3⟩ := exchange ty el hgood F U F' U' _ (fun i => R' i || decide (U' i ≠ 0)) (dof k d) u Q
    hbs.1 (by simp [hRk, hUk]) hFo hFk' hUo hUk' (fun i hi => by simp only [hUo i hi])
    (by
      rw [hUk']
      rw [hlist] at hw
      simp [hw])
  rw [hFk] at q3
  have hb' : beam ty el F' U' R' = some (u, Q', ends ty el u) := by
    unfold beam
    rw [hsol]
    rfl
  obtain ⟨T', t1', t2', t3', t4', t5'⟩ := tables_exact ty n1 z' el u Q'
  have hinj : Function.Injective z' := hanti.injective
  have hshown : ∀ i, i ≠ k → shown Q' i = shown Q i := by
    intro i hi
    have : ∀ c, Q' (dof i c) = Q (dof i c) := fun c => q1 _ (fun e => hi (congrArg Prod.fst (dof_injective (a₁ := (i, c)) (a₂ := (k, d)) e)))
    unfold shown
    rw [this, this, this]
  refine ⟨T', by rw [hs', hb']; exact t1', by rw [t2', t2], ?_, ?_, ?_, ?_⟩
  · apply List.ext_getElem?
    intro i
    by_cases hi : i < 2 * C.elements.length
    · obtain ⟨m, hm⟩ : ∃ m, i = 2 * m ∨ i = 2 * m + 1 := ⟨i / 2, by omega⟩
      have hm' : m < C.elements.length := by omega
      obtain ⟨x1, x2⟩ := t4 ⟨m, hm'⟩
      obtain ⟨y1, y2⟩ := t4' ⟨m, hm'⟩
      rw [hbs.2] at x1 x2
      rcases hm with rfl | rfl
      · rw [y1, x1]
      · rw [y2, x2]
    · rw [List.getElem?_eq_none (by omega), List.getElem?_eq_none (by omega)]
  · intro r hr
    rw [t5', t5, List.mem_filter, List.mem_filter]
    refine and_congr_left fun _ => ?_
    rw [List.mem_ofFn, List.mem_ofFn]
    constructor
    · rintro ⟨i, rfl⟩
      have hi : i ≠ k := by
        rintro rfl
        exact hr hr1.symm
      exact ⟨i, by simp only [hshown i hi]⟩
    · rintro ⟨i, rfl⟩
      have hi : i ≠ k := by
        rintro rfl
        exact hr hr1.symm
      exact ⟨i, by simp only [hshown i hi]⟩
  · intro hq
    have : Q' = Q := by
      funext i
      by_cases e : i = dof k d
      · rw [e, q3, q2, hq, Int.cast_zero]
      · exact q1 i e
    rw [t5', t5, this]
  · intro hq
    have hbig : 1 ≤ |(q : K)| := by
      rw [← Int.cast_abs, ← Int.cast_one, Int.cast_le]
      exact Int.one_le_abs hq
    have hmask : maskSmall (q : K) = q := by
      unfold maskSmall
      rw [if_neg]
      rw [not_lt]
      refine le_trans ?_ hbig
      norm_num
    have hcomp : ∀ (P : Fin (3 * C.elements.length + 3) → K) (c : Fin 3), comp c.1 (z' k, shown P k) = maskSmall (P (dof k c)) := by
      intro P c
      fin_cases c <;> rfl
    refine ⟨(z' k, shown Q' k), ?_, hr1.symm, ?_, ?_⟩
    · rw [t5', List.mem_filter]
      refine ⟨List.mem_ofFn.2 ⟨k, rfl⟩, ?_⟩
      rw [List.any_eq_true]
      refine ⟨maskSmall (Q' (dof k d)), ?_, ?_⟩
      · generalize d = c
        fin_cases c <;> simp [shown]
      · rw [q3, hmask, decide_eq_true_eq]
        refine lt_of_lt_of_le ?_ hbig
        norm_num
    · rw [hcomp, q3, hmask]
    · intro r hr hrz b hba
      rw [t5, List.mem_filter, List.mem_ofFn] at hr
      obtain ⟨⟨i, rfl⟩, -⟩ := hr
      have hi : i = k := hinj (by rw [← hr1]; exact hrz)
      subst hi
      rw [hcomp, hcomp, q1]
      intro e
      have : place b = d := congrArg Prod.snd (dof_injective (a₁ := (i, place b)) (a₂ := (i, d)) e)
      rw [hd] at this
      apply hba
      rw [← axisOf_place a, ← axisOf_place b, this]

end tables

/-! ### from the public calls -/

section calls
variable {K : Type} [Field K] [LinearOrder K] [IsStrictOrderedRing K] [FloorRing K]

/-- `set_pointload` with a load in one direction. -/
def loadCall (e : K) : Axis → K → Call K
  | .y, q => .pointload e (some q) none none
  | .z, q => .pointload e none (some q) none
  | .x, q => .pointload e none none (some q)

/-- `set_pointdisplacement` with a displacement in one direction. -/
def dispCall (e : K) : Axis → K → Call K
  | .y, q => .pointdisplacement e (some q) none none
  | .z, q => .pointdisplacement e none (some q) none
  | .x, q => .pointdisplacement e none none (some q)

omit [LinearOrder K] [IsStrictOrderedRing K] [FloorRing K] in
theorem load_call (e : K) (a : Axis) (q : K) : kind (loadCall e a q) = .force ∧ elev (loadCall e a q) = e ∧
    arg (loadCall e a q) a = some (.num q) ∧ ∀ b, b ≠ a → arg (loadCall e a q) b = none := by
  refine ⟨by cases a <;> rfl, by cases a <;> rfl, by cases a <;> rfl, ?_⟩
  intro b hb
  cases a <;> cases b <;> first | rfl | exact absurd rfl hb

omit [LinearOrder K] [IsStrictOrderedRing K] [FloorRing K] in
theorem disp_call (e : K) (a : Axis) (q : K) : kind (dispCall e a q) = .displacement ∧ elev (dispCall e a q) = e ∧
    arg (dispCall e a q) a = some (.num q) ∧ ∀ b, b ≠ a → arg (dispCall e a q) b = none := by
  refine ⟨by cases a <;> rfl, by cases a <;> rfl, by cases a <;> rfl, ?_⟩
  intro b hb
  cases a <;> cases b <;> first | rfl | exact absurd rfl hb

omit [IsStrictOrderedRing K] in
theorem acts_unique {nodes : List K} {e : K} {i j : ℕ} (hi : ActsAt nodes e i) (hj : ActsAt nodes e j) : i = j := by
  have h1 := ((C14_node_choice nodes e).1 i).2 hi
  have h2 := ((C14_node_choice nodes e).1 j).2 hj
  rw [h1, Option.some.injEq] at h2
  exact h2

omit [IsStrictOrderedRing K] in
/-- A call about one direction at one node leaves all other entries alone. -/
theorem left_other {β : Type} (store : Val K → β) (init : β) (nodes : List K) (bcs : List (Cond K)) (k : Call K)
    (a : Axis) (hk : ∀ b, b ≠ a → arg k b = none) (j : ℕ) (hj : ActsAt nodes (elev k) j) (cls : Cls) (b : Axis) (i : ℕ)
    (hne : ¬ (kind k = cls ∧ b = a ∧ i = j)) :
    left store init nodes (BC.step bcs k) cls b i = left store init nodes bcs cls b i := by
  have hnone : ∀ c : Cond K, c.cls = kind k → c.elevation = elev k → b = a → writeTo nodes cls i b c = none := by
    intro c h1 h2 h3
    rw [Option.eq_none_iff_forall_not_mem]
    intro v hv
    obtain ⟨e1, e2, -⟩ := (writeTo_eq_some nodes cls i b c v).1 hv
    rw [h2] at e2
    exact hne ⟨by rw [← h1, e1], h3, acts_unique e2 hj⟩
  have key : lastWrite none ((BC.step bcs k).map (writeTo nodes cls i b)) = lastWrite none (bcs.map (writeTo nodes cls i b)) := by
    rw [step_eq]
    unfold updateBc
    split
    · congr 1
      rw [List.map_map]
      apply List.map_congr_left
      intro c _
      simp only [Function.comp_apply]
      split
      · rename_i hat
        have hat' : c.elevation = elev k ∧ c.cls = kind k := by simpa [Cond.isAt] using hat
        by_cases hb : b = a
        · rw [hnone c hat'.2 hat'.1 hb]
          exact hnone _ hat'.2 hat'.1 hb
        · have hget : (c.overwrite (arg k .x) (arg k .y) (arg k .z)).get b = c.get b := by
            have := hk b hb
            cases b <;> simp [Cond.get, Cond.overwrite, this]
          unfold writeTo
          rw [hget]
          rfl
      · rfl
    · rw [List.map_append, lastWrite_append]
      have hw : ([({ cls := kind k, elevation := elev k, x := arg k .x, y := arg k .y, z := arg k .z } : Cond K)].map
          (writeTo nodes cls i b)) = [none] := by
        rw [List.map_singleton]
        congr 1
        by_cases hb : b = a
        · exact hnone _ rfl rfl hb
        · have hget : ({ cls := kind k, elevation := elev k, x := arg k .x, y := arg k .y, z := arg k .z } : Cond K).get b
              = none := by
            have := hk b hb
            cases b <;> simpa [Cond.get] using this
          rw [Option.eq_none_iff_forall_not_mem]
          intro v hv
          obtain ⟨-, -, e3, -⟩ := (writeTo_eq_some nodes cls i b _ v).1 hv
          rw [hget] at e3
          cases e3
      rw [hw]
      rfl
  unfold left
  rw [key]

omit [IsStrictOrderedRing K] in
/-- Every condition comes from a call. -/
theorem mem_run (h : List (Call K)) (c : Cond K) (hc : c ∈ run [] h) : ∃ k ∈ h, kind k = c.cls ∧ elev k = c.elevation := by
  by_contra hno
  push Not at hno
  have h0 := C12_isolated [] h c.cls c.elevation (fun k hk => fun ⟨h1, h2⟩ => hno k hk h1 h2)
  have : c ∈ (run [] h).filter (fun d => d.isAt c.cls c.elevation) := List.mem_filter.2 ⟨hc, by simp [Cond.isAt]⟩
  rw [h0] at this
  simp at this

/-- Nothing was said about direction `a` at node `j`. -/
def Silent (nodes : List K) (h : List (Call K)) (cls : Cls) (e : K) (j : ℕ) (a : Axis) : Prop :=
  ∀ k ∈ h, kind k = cls → ActsAt nodes (elev k) j → elev k = e ∧ arg k a = none

theorem left_silent {β : Type} (store : Val K → β) (init : β) (nodes : List K) (h : List (Call K)) (cls : Cls) (e : K)
    (j : ℕ) (hj : ActsAt nodes e j) (a : Axis) (hs : Silent nodes h cls e j a) :
    left store init nodes (run [] h) cls a j = init := by
  have hjl : j < nodes.length := by
    obtain ⟨⟨n, hn, -⟩, -⟩ := hj
    exact (List.getElem?_eq_some_iff.1 hn).1
  have h1 := applyBc_left store init nodes (run [] h) cls a j hjl
  have h2 := (C14_nodal_value store nodes ⟨nodes.map (fun _ => init), nodes.map (fun _ => init), nodes.map (fun _ => init)⟩
    (run [] h) cls a j (by cases a <;> simpa [Nodal.get] using hjl)).2 (by
      intro c hc hcls hact w hw
      exfalso
      obtain ⟨k, hk, k1, k2⟩ := mem_run h c hc
      have he : c.elevation = e := by rw [← k2]; exact (hs k hk (by rw [k1, hcls]) (by rw [k2]; exact hact)).1
      have hne : about h cls e ≠ [] := by
        intro h0
        have : k ∈ about h cls e := List.mem_filter.2 ⟨hk, by simp [k1, hcls, k2, he]⟩
        rw [h0] at this
        simp at this
      obtain ⟨c', hf, hget⟩ := (C12_last_write_wins h cls e).2 hne
      have hcc : c = c' := by
        have : c ∈ (run [] h).filter (fun c => decide (c.cls = cls) && decide (c.elevation = e)) :=
          List.mem_filter.2 ⟨hc, by simp [hcls, he]⟩
        rw [hf] at this
        simpa using this
      subst hcc
      rw [hget] at hw
      have hl : ∀ l : List (Call K), (∀ k ∈ l, arg k a = none) → lastWrite none (l.map (fun k => arg k a)) = none := by
        intro l
        induction l with
        | nil => intro _; rfl
        | cons k l ih =>
          intro hl
          rw [List.map_cons, hl k (by simp)]
          exact ih (fun k' hk' => hl k' (List.mem_cons_of_mem _ hk'))
      unfold expected at hw
      rw [hl] at hw
      · cases hw
      · intro k' hk'
        obtain ⟨m1, m2⟩ := List.mem_filter.1 hk'
        simp only [Bool.and_eq_true, decide_eq_true_eq] at m2
        exact (hs k' m1 m2.1 (by rw [m2.2]; exact hj)).2)
  rw [h1] at h2
  have h3 : ((⟨nodes.map (fun _ => init), nodes.map (fun _ => init), nodes.map (fun _ => init)⟩ : Nodal β).get a)[j]? = some init := by
    cases a <;> simp [Nodal.get, hjl]
  rw [h3, Option.some.injEq] at h2
  exact h2

theorem left_last {β : Type} (store : Val K → β) (init : β) (nodes : List K) (h : List (Call K)) (cls : Cls) (e : K)
    (j : ℕ) (hj : ActsAt nodes e j) (a : Axis) (hs : Silent nodes h cls e j a) (k : Call K) (hk : kind k = cls)
    (he : elev k = e) (q : K) (hq : q ≠ 0) (hka : arg k a = some (.num q)) :
    left store init nodes (run [] (h ++ [k])) cls a j = store (.num q) := by
  have hjl : j < nodes.length := by
    obtain ⟨⟨n, hn, -⟩, -⟩ := hj
    exact (List.getElem?_eq_some_iff.1 hn).1
  have h1 := applyBc_left store init nodes (run [] (h ++ [k])) cls a j hjl
  have h2 := C14_history_value store nodes (h ++ [k]) ⟨nodes.map (fun _ => init), nodes.map (fun _ => init), nodes.map (fun _ => init)⟩
    cls e (.num q) j a (by cases a <;> simp [Nodal.get]) hj hq (by
      unfold expected about
      rw [List.filter_append, List.map_append, lastWrite_append]
      simp [hk, he, hka, lastWrite]) (by
      intro k' hk' c1 c2
      rcases List.mem_append.1 hk' with h3 | h3
      · exact (hs k' h3 c1 c2).1
      · rw [List.mem_singleton] at h3
        rw [h3, he])
  rw [h1, Option.some.injEq] at h2
  exact h2

omit [Field K] [IsStrictOrderedRing K] [FloorRing K] in
theorem run_last (h : List (Call K)) (k : Call K) : run [] (h ++ [k]) = BC.step (run [] h) k := by
  unfold run
  rw [List.foldl_append]
  rfl

theorem column {β : Type} (store : Val K → β) (init : β) (nodes : List K) (bcs : List (Cond K)) (cls : Cls) (a : Axis)
    (i : ℕ) : ((applyBc store nodes ⟨nodes.map (fun _ => init), nodes.map (fun _ => init), nodes.map (fun _ => init)⟩
      bcs cls).get a)[i]? = if i < nodes.length then some (left store init nodes bcs cls a i) else none := by
  split
  · rename_i hi
    exact applyBc_left store init nodes bcs cls a i hi
  · rename_i hi
    rw [List.getElem?_eq_none]
    rw [applyBc_length]
    cases a <;> simp [Nodal.get] <;> omega

theorem forces_left {nodes : List K} {h : List (Call K)} {g : Nodal ℤ} (hg : globalForces nodes (run [] h) = .ok g) (a : Axis)
    (i : ℕ) : (g.get a)[i]? = if i < nodes.length then some (left storeInt 0 nodes (run [] h) .force a i) else none := by
  unfold globalForces at hg
  rw [C13_histories_never_raise] at hg
  cases hg
  exact column storeInt 0 nodes _ _ a i

theorem disp_left {nodes : List K} {h : List (Call K)} {g : Nodal K} (hg : globalDisp nodes (run [] h) = .ok g) (a : Axis)
    (i : ℕ) : (g.get a)[i]? = if i < nodes.length then some (left storeFloat 0 nodes (run [] h) .displacement a i) else none := by
  unfold globalDisp at hg
  rw [C13_histories_never_raise] at hg
  cases hg
  exact column storeFloat 0 nodes _ _ a i

theorem held_left {nodes : List K} {h : List (Call K)} {g : Nodal Bool} (hg : globalRestrained nodes (run [] h) = .ok g) (a : Axis)
    (i : ℕ) : (g.get a)[i]? = if i < nodes.length then some (left storeBool false nodes (run [] h) .fixation a i) else none := by
  unfold globalRestrained at hg
  rw [C13_histories_never_raise] at hg
  cases hg
  exact column storeBool false nodes _ _ a i

/-- A load of a whole number of kilonewtons at one node, or a displacement there. -/
theorem exchanged_calls (nodes : List K) (h : List (Call K)) (e : K) (j : ℕ) (hj : ActsAt nodes e j) (a : Axis) (q : ℤ)
    (hq : q ≠ 0) (w : K) (hw : w ≠ 0) (hs : ∀ cls, Silent nodes h cls e j a) :
    Exchanged nodes (run [] (h ++ [loadCall e a q])) (run [] (h ++ [dispCall e a w])) j a q w := by
  have hjl : j < nodes.length := by
    obtain ⟨⟨n, hn, -⟩, -⟩ := hj
    exact (List.getElem?_eq_some_iff.1 hn).1
  obtain ⟨c1, c2, c3, c4⟩ := load_call e a (q : K)
  obtain ⟨d1, d2, d3, d4⟩ := disp_call e a w
  have hqK : (q : K) ≠ 0 := Int.cast_ne_zero.2 hq
  have hj1 : ActsAt nodes (elev (loadCall e a (q : K))) j := by rw [c2]; exact hj
  have hj2 : ActsAt nodes (elev (dispCall e a w)) j := by rw [d2]; exact hj
  refine ⟨?_, ?_, ?_⟩
  · intro g g' hg hg'
    refine ⟨?_, ?_, ?_⟩
    · rw [forces_left hg, if_pos hjl, left_last storeInt 0 nodes h .force e j hj a (hs _) _ c1 c2 q hqK c3]
      simp [storeInt]
    · rw [forces_left hg', if_pos hjl, run_last, left_other storeInt 0 nodes _ _ a d4 j hj2 .force a j (by rw [d1]; simp),
        left_silent storeInt 0 nodes h .force e j hj a (hs _)]
    · intro b i hne
      rw [forces_left hg, forces_left hg', run_last, run_last,
        left_other storeInt 0 nodes _ _ a d4 j hj2 .force b i (by rw [d1]; simp),
        left_other storeInt 0 nodes _ _ a c4 j hj1 .force b i (fun hh => hne hh.2)]
  · intro g g' hg hg'
    refine ⟨?_, ?_, ?_⟩
    · rw [disp_left hg, if_pos hjl, run_last, left_other storeFloat 0 nodes _ _ a c4 j hj1 .displacement a j (by rw [c1]; simp),
        left_silent storeFloat 0 nodes h .displacement e j hj a (hs _)]
    · rw [disp_left hg', if_pos hjl, left_last storeFloat 0 nodes h .displacement e j hj a (hs _) _ d1 d2 w hw d3]
      rfl
    · intro b i hne
      rw [disp_left hg, disp_left hg', run_last, run_last,
        left_other storeFloat 0 nodes _ _ a d4 j hj2 .displacement b i (fun hh => hne hh.2),
        left_other storeFloat 0 nodes _ _ a c4 j hj1 .displacement b i (by rw [c1]; simp)]
  · intro g g' hg hg'
    have hcol : ∀ (b : Axis) (i : ℕ), (g'.get b)[i]? = (g.get b)[i]? := by
      intro b i
      rw [held_left hg, held_left hg', run_last, run_last,
        left_other storeBool false nodes _ _ a d4 j hj2 .fixation b i (by rw [d1]; simp),
        left_other storeBool false nodes _ _ a c4 j hj1 .fixation b i (by rw [c1]; simp)]
    refine ⟨?_, ?_⟩
    · rw [held_left hg, if_pos hjl, run_last, left_other storeBool false nodes _ _ a c4 j hj1 .fixation a j (by rw [c1]; simp),
        left_silent storeBool false nodes h .fixation e j hj a (hs _)]
    · have ex := List.ext_getElem? (hcol .x)
      have ey := List.ext_getElem? (hcol .y)
      have ez := List.ext_getElem? (hcol .z)
      rcases g with ⟨x, y, z⟩
      rcases g' with ⟨x', y', z'⟩
      simp only [Nodal.get] at ex ey ez
      rw [ex, ey, ez]

/-- **C85, from the public calls.** After any history `h` of calls that says nothing about direction `a` at node `j`, the
call `set_pointload` with a load of `q` (a whole number) leads to the displacement `listed row a ≠ 0` at that node; the
call `set_pointdisplacement` with that displacement instead leads to the same displacements and section forces, and to
the reaction `q`. -/
theorem C85_calls_partial (pi : K) (hpi : 0 < pi) (ty : ElementType) (p : Pile.Pile K) (top tip : K)
    (hp : Accepted ty p top tip) (C : Coordinates K) (hm : MeshOn p top tip C) (h : List (Call K)) (e : K) (j : ℕ)
    (hj : ActsAt C.nodes e j) (a : Axis) (q : ℤ) (hq : q ≠ 0) (hs : ∀ cls, Silent C.nodes h cls e j a) (T : Tables K)
    (hT : solveOn pi ty p C (run [] (h ++ [loadCall e a q])) = some T) (row : K × K × K × K)
    (hrow : T.disp[j]? = some row) (hw : listed row a ≠ 0) :
    ∃ T', solveOn pi ty p C (run [] (h ++ [dispCall e a (listed row a)])) = some T' ∧ T'.disp = T.disp ∧
      T'.forces = T.forces ∧ (∀ r, r.1 ≠ row.1 → (r ∈ T'.reactions ↔ r ∈ T.reactions)) ∧
      ∃ r' ∈ T'.reactions, r'.1 = row.1 ∧ comp (place a).1 r' = q ∧
        ∀ r ∈ T.reactions, r.1 = row.1 → ∀ b, b ≠ a → comp (place b).1 r' = comp (place b).1 r := by
  obtain ⟨T', t1, t2, t3, t4, -, t5⟩ := C85_tables_partial pi hpi ty p top tip hp C hm _ _
    (C13_histories_never_raise (h ++ [dispCall e a (listed row a)])) T hT j a q row hrow hw
    (exchanged_calls C.nodes h e j hj a q hq (listed row a) hw hs)
  exact ⟨T', t1, t2, t3, t4, t5 hq⟩

/-- Two lists of conditions with the same nodal values give the same analysis. -/
theorem solveOn_congr (pi : K) (ty : ElementType) (p : Pile.Pile K) (C : Coordinates K) (h h' : List (Call K))
    (hF : ∀ (a : Axis) (i : ℕ), left storeInt 0 C.nodes (run [] h) .force a i = left storeInt 0 C.nodes (run [] h') .force a i)
    (hU : ∀ (a : Axis) (i : ℕ), left storeFloat 0 C.nodes (run [] h) .displacement a i
      = left storeFloat 0 C.nodes (run [] h') .displacement a i)
    (hR : ∀ (a : Axis) (i : ℕ), left storeBool false C.nodes (run [] h) .fixation a i
      = left storeBool false C.nodes (run [] h') .fixation a i) :
    solveOn pi ty p C (run [] h) = solveOn pi ty p C (run [] h') := by
  have ext : ∀ {β : Type} (g g' : Nodal β), (∀ (a : Axis) (i : ℕ), (g.get a)[i]? = (g'.get a)[i]?) → g = g' := by
    intro β g g' hg
    have ex := List.ext_getElem? (hg .x)
    have ey := List.ext_getElem? (hg .y)
    have ez := List.ext_getElem? (hg .z)
    rcases g with ⟨x, y, z⟩
    rcases g' with ⟨x', y', z'⟩
    simp only [Nodal.get] at ex ey ez
    rw [ex, ey, ez]
  have e1 : globalForces C.nodes (run [] h) = globalForces C.nodes (run [] h') := by
    unfold globalForces
    rw [C13_histories_never_raise, C13_histories_never_raise]
    refine congrArg Except.ok (ext _ _ fun a i => ?_)
    rw [column, column, hF]
  have e2 : globalDisp C.nodes (run [] h) = globalDisp C.nodes (run [] h') := by
    unfold globalDisp
    rw [C13_histories_never_raise, C13_histories_never_raise]
    refine congrArg Except.ok (ext _ _ fun a i => ?_)
    rw [column, column, hU]
  have e3 : globalRestrained C.nodes (run [] h) = globalRestrained C.nodes (run [] h') := by
    unfold globalRestrained
    rw [C13_histories_never_raise, C13_histories_never_raise]
    refine congrArg Except.ok (ext _ _ fun a i => ?_)
    rw [column, column, hR]
  unfold solveOn
  rw [e1, e2, e3]

theorem left_zero {β : Type} (store : Val K → β) (init : β) (nodes : List K) (h : List (Call K)) (cls : Cls) (e : K)
    (j : ℕ) (hj : ActsAt nodes e j) (a : Axis) (hs : Silent nodes h cls e j a) (k : Call K) (he : elev k = e)
    (hka : arg k a = some (.num 0)) : left store init nodes (run [] (h ++ [k])) cls a j = init := by
  have hjl : j < nodes.length := by
    obtain ⟨⟨n, hn, -⟩, -⟩ := hj
    exact (List.getElem?_eq_some_iff.1 hn).1
  by_cases hk : kind k = cls
  · have h1 := applyBc_left store init nodes (run [] (h ++ [k])) cls a j hjl
    have h2 := (C14_nodal_value store nodes ⟨nodes.map (fun _ => init), nodes.map (fun _ => init), nodes.map (fun _ => init)⟩
      (run [] (h ++ [k])) cls a j (by cases a <;> simpa [Nodal.get] using hjl)).2 (by
        intro c hc hcls hact w hw
        obtain ⟨k', hk', k1, k2⟩ := mem_run _ c hc
        have he' : c.elevation = e := by
          rw [← k2]
          rcases List.mem_append.1 hk' with h3 | h3
          · exact (hs k' h3 (by rw [k1, hcls]) (by rw [k2]; exact hact)).1
          · rw [List.mem_singleton] at h3
            rw [h3, he]
        have hne : about (h ++ [k]) cls e ≠ [] := by
          intro h0
          have : k ∈ about (h ++ [k]) cls e := List.mem_filter.2 ⟨by simp, by simp [hk, he]⟩
          rw [h0] at this
          simp at this
        obtain ⟨c', hf, hget⟩ := (C12_last_write_wins (h ++ [k]) cls e).2 hne
        have hcc : c = c' := by
          have : c ∈ (run [] (h ++ [k])).filter (fun c => decide (c.cls = cls) && decide (c.elevation = e)) :=
            List.mem_filter.2 ⟨hc, by simp [hcls, he']⟩
          rw [hf] at this
          simpa using this
        subst hcc
        rw [hget] at hw
        unfold expected about at hw
        rw [List.filter_append, List.map_append, lastWrite_append] at hw
        simp [hk, he, hka, lastWrite] at hw
        rw [← hw]
        simp [Effective])
    rw [h1] at h2
    have h3 : ((⟨nodes.map (fun _ => init), nodes.map (fun _ => init), nodes.map (fun _ => init)⟩ : Nodal β).get a)[j]? = some init := by
      cases a <;> simp [Nodal.get, hjl]
    rw [h3, Option.some.injEq] at h2
    exact h2
  · have hall : ∀ b i, ¬ (kind k = cls ∧ b = a ∧ i = j) := fun b i hh => hk hh.1
    have hsil : Silent nodes (h ++ [k]) cls e j a := by
      intro k' hk' c1 c2
      rcases List.mem_append.1 hk' with h3 | h3
      · exact hs k' h3 c1 c2
      · rw [List.mem_singleton] at h3
        rw [h3] at c1
        exact absurd c1 hk
    exact left_silent store init nodes _ cls e j hj a hsil

/-- **C85, violated by a displacement of zero.** Prescribing a displacement of zero at a node changes nothing: the
analysis is that of the remaining calls, with the node free. So where a load `q ≠ 0` leads to a displacement of zero,
prescribing that displacement instead gives other displacements. -/
theorem C85_violated_zero (pi : K) (ty : ElementType) (p : Pile.Pile K) (top tip : K) (hp : Stack p top tip)
    (C : Coordinates K) (hm : MeshOn p top tip C) (h : List (Call K)) (e : K) (j : ℕ) (hj : ActsAt C.nodes e j) (a : Axis)
    (hs : ∀ cls, Silent C.nodes h cls e j a) :
    solveOn pi ty p C (run [] (h ++ [dispCall e a 0])) = solveOn pi ty p C (run [] h) ∧
    ∀ (q : ℤ) (T T' : Tables K), q ≠ 0 → solveOn pi ty p C (run [] (h ++ [loadCall e a q])) = some T →
      solveOn pi ty p C (run [] (h ++ [dispCall e a 0])) = some T' → T'.disp ≠ T.disp := by
  obtain ⟨d1, d2, d3, d4⟩ := disp_call e a (0 : K)
  have hj2 : ActsAt C.nodes (elev (dispCall e a (0 : K))) j := by rw [d2]; exact hj
  have hsame : solveOn pi ty p C (run [] (h ++ [dispCall e a 0])) = solveOn pi ty p C (run [] h) := by
    refine solveOn_congr pi ty p C _ _ (fun b i => ?_) (fun b i => ?_) (fun b i => ?_)
    · rw [run_last, left_other storeInt 0 C.nodes _ _ a d4 j hj2 .force b i (by rw [d1]; simp)]
    · by_cases hb : b = a ∧ i = j
      · rw [hb.1, hb.2, left_zero storeFloat 0 C.nodes h .displacement e j hj a (hs _) _ d2 d3,
          left_silent storeFloat 0 C.nodes h .displacement e j hj a (hs _)]
      · rw [run_last, left_other storeFloat 0 C.nodes _ _ a d4 j hj2 .displacement b i (fun hh => hb hh.2)]
    · rw [run_last, left_other storeBool false C.nodes _ _ a d4 j hj2 .fixation b i (by rw [d1]; simp)]
  refine ⟨hsame, ?_⟩
  intro q T T' hq hT hT' heq
  rw [hsame] at hT'
  obtain ⟨z, el, F, U, R, g, gU, gR, n1, hz, hanti, hel, hg, hgU, hgR, cF, cU, cR, hss⟩ :=
    solveOn_read pi ty hp hm _ (valid_of_some pi ty _ T hT)
  obtain ⟨z', el', F', U', R', g', gU', gR', -, hz', -, hel', hg', hgU', hgR', cF', cU', cR', hss'⟩ :=
    solveOn_read pi ty hp hm _ (valid_of_some pi ty _ T' hT')
  have ez : z' = z := List.ofFn_injective (by rw [← hz, ← hz'])
  subst ez
  obtain rfl := elements_unique hel hel'
  rw [hss] at hT
  rw [hss'] at hT'
  obtain ⟨u, Q, f, hb, t2, -⟩ := tables_of_beam ty n1 z' el F U R T hT
  obtain ⟨u', Q', f', hb', t2', -⟩ := tables_of_beam ty n1 z' el F' U' R' T' hT'
  have hu : u' = u := by
    rw [t2, t2'] at heq
    have h1 := List.ofFn_injective heq
    funext i
    obtain ⟨i, c, rfl⟩ := dof_surjective i
    have h2 := congrFun h1 i
    simp only [Prod.mk.injEq, true_and] at h2
    fin_cases c
    · exact h2.1
    · exact h2.2.1
    · exact h2.2.2
  have hjl : j < C.nodes.length := by
    obtain ⟨⟨n, hn, -⟩, -⟩ := hj
    exact (List.getElem?_eq_some_iff.1 hn).1
  have hj' : j < C.elements.length + 1 := by
    rw [hz] at hjl
    simpa using hjl
  obtain ⟨k, rfl⟩ : ∃ k : Fin (C.elements.length + 1), k.1 = j := ⟨⟨j, hj'⟩, rfl⟩
  obtain ⟨c1, c2, c3, c4⟩ := load_call e a (q : K)
  have hqK : (q : K) ≠ 0 := Int.cast_ne_zero.2 hq
  have hj1 : ActsAt C.nodes (elev (loadCall e a (q : K))) k.1 := by rw [c2]; exact hj
  have hFk : F (dof k (place a)) = q := by
    have h1 := congrArg (fun l => l[k.1]?) (cF (place a))
    simp only [List.getElem?_map, List.getElem?_ofFn, dif_pos k.2] at h1
    rw [axisOf_place, forces_left hg, if_pos hjl, left_last storeInt 0 C.nodes h .force e k.1 hj a (hs _) _ c1 c2 q hqK c3] at h1
    simpa [storeInt] using h1.symm
  have hFk' : F' (dof k (place a)) = 0 := by
    have h1 := congrArg (fun l => l[k.1]?) (cF' (place a))
    simp only [List.getElem?_map, List.getElem?_ofFn, dif_pos k.2] at h1
    rw [axisOf_place, forces_left hg', if_pos hjl, left_silent storeInt 0 C.nodes h .force e k.1 hj a (hs _)] at h1
    simpa using h1.symm
  have hfree : R (dof k (place a)) = false ∧ U (dof k (place a)) = 0 := by
    have h1 := congrArg (fun l => l[k.1]?) (cR (place a))
    have h2 := congrArg (fun l => l[k.1]?) (cU (place a))
    simp only [List.getElem?_ofFn, dif_pos k.2] at h1 h2
    rw [axisOf_place, held_left hgR, if_pos hjl, run_last,
      left_other storeBool false C.nodes _ _ a c4 k.1 hj1 .fixation a k.1 (by rw [c1]; simp),
      left_silent storeBool false C.nodes h .fixation e k.1 hj a (hs _)] at h1
    rw [axisOf_place, disp_left hgU, if_pos hjl, run_last,
      left_other storeFloat 0 C.nodes _ _ a c4 k.1 hj1 .displacement a k.1 (by rw [c1]; simp),
      left_silent storeFloat 0 C.nodes h .displacement e k.1 hj a (hs _)] at h2
    exact ⟨by simpa using h1.symm, by simpa using h2.symm⟩
  have hfree' : R' (dof k (place a)) = false ∧ U' (dof k (place a)) = 0 := by
    have h1 := congrArg (fun l => l[k.1]?) (cR' (place a))
    have h2 := congrArg (fun l => l[k.1]?) (cU' (place a))
    simp only [List.getElem?_ofFn, dif_pos k.2] at h1 h2
    rw [axisOf_place, held_left hgR', if_pos hjl, left_silent storeBool false C.nodes h .fixation e k.1 hj a (hs _)] at h1
    rw [axisOf_place, disp_left hgU', if_pos hjl, left_silent storeFloat 0 C.nodes h .displacement e k.1 hj a (hs _)] at h2
    exact ⟨by simpa using h1.symm, by simpa using h2.symm⟩
  have sol : ∀ {F U : Fin (3 * C.elements.length + 3) → K} {R : Fin (3 * C.elements.length + 3) → Bool}
      {u Q : Fin (3 * C.elements.length + 3) → K} {f}, beam ty el F U R = some (u, Q, f) → R (dof k (place a)) = false →
      U (dof k (place a)) = 0 → (beamStiffness ty C.elements.length el *ᵥ u) (dof k (place a)) = F (dof k (place a)) := by
    intro F U R u Q f hb r1 r2
    unfold beam at hb
    simp only [Option.map_eq_some_iff, Prod.mk.injEq] at hb
    obtain ⟨⟨u', Q'⟩, e, rfl, rfl, rfl⟩ := hb
    exact ((C15_solution _ _ _ _ _ _ e).1 _ (by simp [r1, r2])).1
  have g1 := sol hb hfree.1 hfree.2
  have g2 := sol hb' hfree'.1 hfree'.2
  rw [hu, g1, hFk, hFk'] at g2
  exact hqK g2

end calls

/-! ### a cantilever of one element -/

section witness
open OpenPile.Props.SoilTables OpenPile.Props.SoilSupport

/-- The tip is held. -/
def fixC : Fin (3 * 1 + 3) → Bool := ![false, false, false, true, true, true]

theorem rowsC (y θ : ℝ) : (beamStiffness .eulerBernoulli 1 elS *ᵥ ![0, y, θ, 0, 0, 0]) 0 = 0 ∧
    (beamStiffness .eulerBernoulli 1 elS *ᵥ ![0, y, θ, 0, 0, 0]) 1 = (elS 0).E * (elS 0).I * (12 * y + 6 * θ) ∧
    (beamStiffness .eulerBernoulli 1 elS *ᵥ ![0, y, θ, 0, 0, 0]) 2 = (elS 0).E * (elS 0).I * (6 * y + 4 * θ) := by
  have hL : ∀ i, (elS i).L = 1 := fun i => rfl
  refine ⟨?_, ?_, ?_⟩ <;> unfold beamStiffness <;>
    simp [assemble, Kernel.place, mulVec, dotProduct, Fin.sum_univ_succ, mechMatrix, beamMatrix, hL, phi, kappa] <;> ring

theorem flexC (a b c d : ℝ) : (elS 0).E * (elS 0).I * (a * (c / ((elS 0).E * (elS 0).I)) + b * (d / ((elS 0).E * (elS 0).I)))
    = a * c + b * d := by
  have h := stiffT.ne'
  generalize (elS 0).E * (elS 0).I = k at h
  field_simp

theorem solvedC (bcs : List (Cond ℝ)) (H M : ℤ) (y θ : ℝ) (hH : (elS 0).E * (elS 0).I * (12 * y + 6 * θ) = H)
    (hM : (elS 0).E * (elS 0).I * (6 * y + 4 * θ) = M) (h1 : globalForces meshS.nodes bcs = .ok ⟨[M, 0], [H, 0], [0, 0]⟩)
    (h2 : globalDisp meshS.nodes bcs = .ok ⟨[0, 0], [0, 0], [0, 0]⟩)
    (h3 : globalRestrained meshS.nodes bcs = .ok ⟨[false, true], [false, true], [false, true]⟩) :
    ∃ T, solveOn Real.pi .eulerBernoulli pileS meshS bcs = some T ∧ T.disp = [(1, 0, y, θ), (0, 0, 0, 0)] := by
  obtain ⟨-, hU, -, hel⟩ := readT
  have hF : asVec 1 ((dofList (⟨[M, 0], [H, 0], [0, 0]⟩ : Nodal ℤ)).map (fun i : ℤ => (i : ℝ)))
      = some ![0, (H : ℝ), (M : ℝ), 0, 0, 0] := by
    unfold asVec dofList
    rw [dif_pos (by simp)]
    congr 1
    funext i
    fin_cases i <;> simp
  have hR : asVec 1 (dofList (⟨[false, true], [false, true], [false, true]⟩ : Nodal Bool)) = some fixC := by
    unfold asVec dofList
    rw [dif_pos (by simp)]
    congr 1
    funext i
    fin_cases i <;> simp [fixC]
  have hsup : (fun i => fixC i || decide ((0 : Fin (3 * 1 + 3) → ℝ) i ≠ 0)) = fixC := by
    funext i
    simp
  have hsol : solveEquations (beamStiffness .eulerBernoulli 1 elS) ![0, (H : ℝ), (M : ℝ), 0, 0, 0] 0
      (fun i => fixC i || decide ((0 : Fin (3 * 1 + 3) → ℝ) i ≠ 0)) = some (![0, y, θ, 0, 0, 0], fun i => (beamStiffness .eulerBernoulli 1 elS *ᵥ ![0, y, θ, 0, 0, 0]) i
        - ![0, (H : ℝ), (M : ℝ), 0, 0, 0] i) := by
    rw [hsup]
    refine solve_eq_some _ _ _ _ ?_ ![0, y, θ, 0, 0, 0] ?_ ?_
    · exact (C20_beam_supports .eulerBernoulli elS goodS _ _ fixC).2 ⟨⟨1, rfl⟩, 1, rfl, .inl ⟨1, rfl⟩⟩
    · intro i hi
      obtain ⟨r0, r1, r2⟩ := rowsC y θ
      fin_cases i
      · exact r0
      · exact r1.trans hH
      · exact r2.trans hM
      all_goals cases hi
    · intro i hi
      fin_cases i
      · cases hi
      · cases hi
      · cases hi
      all_goals rfl
  generalize (fun i => (beamStiffness .eulerBernoulli 1 elS *ᵥ ![0, y, θ, 0, 0, 0]) i - ![0, (H : ℝ), (M : ℝ), 0, 0, 0] i) = Q at hsol
  obtain ⟨T, t1, t2, -⟩ := tables_exact .eulerBernoulli (le_refl 1) (![1, 0] : Fin 2 → ℝ) elS ![0, y, θ, 0, 0, 0] Q
  have hn : meshS.nodes = List.ofFn (![1, 0] : Fin 2 → ℝ) := by simp [meshS]
  have hb : beam .eulerBernoulli elS ![0, (H : ℝ), (M : ℝ), 0, 0, 0] 0 fixC = some (![0, y, θ, 0, 0, 0], Q,
      fun i => sectionForces (elS i).L (internalForces .eulerBernoulli elS ![0, y, θ, 0, 0, 0] i)) := by
    unfold beam
    rw [hsol]
    rfl
  refine ⟨T, ?_, ?_⟩
  · rw [← hn] at t1
    exact solveOn_of (C := meshS) h1 h2 h3 hF hU hR hel hb t1
  · rw [t2]
    simp [dof]

theorem acts_head : ActsAt meshS.nodes (1 : ℝ) 0 := ((C14_node_choice _ _).1 0).1 idx1

theorem not_acts_head : ¬ ActsAt meshS.nodes (0 : ℝ) 0 := by
  intro h
  have := ((C14_node_choice _ _).1 0).2 h
  rw [show nodeIdx meshS.nodes (0 : ℝ) = some 1 from idx0] at this
  cases this

/-- Held at the tip. -/
noncomputable def tipC : List (Call ℝ) := [.support 0 (some true) (some true) (some true)]

/-- Held at the tip, moment of 2 kNm at the head. -/
noncomputable def tipM : List (Call ℝ) := [.support 0 (some true) (some true) (some true), .pointload 1 none none (some 2)]

theorem silentC (cls : Cls) : Silent meshS.nodes tipC cls 1 0 .y := by
  intro k hk _ hact
  simp only [tipC, List.mem_cons, List.not_mem_nil, or_false] at hk
  subst hk
  exact absurd hact not_acts_head

theorem silentM (cls : Cls) : Silent meshS.nodes tipM cls 1 0 .y := by
  intro k hk _ hact
  simp only [tipM, List.mem_cons, List.not_mem_nil, or_false] at hk
  rcases hk with rfl | rfl
  · exact absurd hact not_acts_head
  · exact ⟨rfl, rfl⟩

theorem readC (h : List (Call ℝ)) (M : ℤ) (H : ℤ) (hh : run [] h = [⟨.fixation, 0, some (.flag true), some (.flag true), some (.flag true)⟩,
    ⟨.force, 1, if M = 0 then none else some (.num M), some (.num H), none⟩]) :
    globalForces meshS.nodes (run [] h) = .ok ⟨[M, 0], [H, 0], [0, 0]⟩ ∧
    globalDisp meshS.nodes (run [] h) = .ok ⟨[0, 0], [0, 0], [0, 0]⟩ ∧
    globalRestrained meshS.nodes (run [] h) = .ok ⟨[false, true], [false, true], [false, true]⟩ := by
  refine ⟨?_, ?_, ?_⟩
  · unfold globalForces
    rw [C13_histories_never_raise, hh]
    by_cases hH : H = 0 <;> by_cases hM : M = 0 <;>
      simp [meshS, applyBc, applyOne, idx1, writeAxis, Val.truthy, storeInt, hM, hH]
  · unfold globalDisp
    rw [C13_histories_never_raise, hh]
    simp [meshS, applyBc, applyOne]
  · unfold globalRestrained
    rw [C13_histories_never_raise, hh]
    simp [meshS, applyBc, applyOne, idx0, writeAxis, Val.truthy, storeBool]

/-- The hypotheses of C85 are met: 12 kN at the head of the cantilever. -/
example : ∃ (T : Tables ℝ) (row : ℝ × ℝ × ℝ × ℝ), Accepted .eulerBernoulli pileS 1 0 ∧ MeshOn pileS 1 0 meshS ∧
    ActsAt meshS.nodes 1 0 ∧ (∀ cls, Silent meshS.nodes tipC cls 1 0 .y) ∧
    solveOn Real.pi .eulerBernoulli pileS meshS (run [] (tipC ++ [loadCall 1 .y ((12 : ℤ) : ℝ)])) = some T ∧
    T.disp[0]? = some row ∧ listed row .y ≠ 0 := by
  have hEI := stiffT
  obtain ⟨h1, h2, h3⟩ := readC (tipC ++ [loadCall 1 .y ((12 : ℤ) : ℝ)]) 0 12 (by
    simp [run, tipC, loadCall, BC.step, setPointload, setSupport, updateBc])
  obtain ⟨T, hT, hd⟩ := solvedC _ 12 0 (4 / ((elS 0).E * (elS 0).I)) (-6 / ((elS 0).E * (elS 0).I)) (by
    rw [flexC]
    norm_num) (by
    rw [flexC]
    norm_num) h1 h2 h3
  refine ⟨T, (1, 0, 4 / ((elS 0).E * (elS 0).I), -6 / ((elS 0).E * (elS 0).I)), acceptedT, meshOnS, acts_head, silentC, hT, by rw [hd]; rfl, ?_⟩
  show 4 / ((elS 0).E * (elS 0).I) ≠ 0
  positivity

/-- 3 kN beside the moment of 2 kNm hold the head in place; a displacement of zero prescribed there does not. -/
example : ∃ T T' : Tables ℝ,
    solveOn Real.pi .eulerBernoulli pileS meshS (run [] (tipM ++ [loadCall 1 .y ((3 : ℤ) : ℝ)])) = some T ∧
    (∃ row, T.disp[0]? = some row ∧ listed row .y = 0) ∧
    solveOn Real.pi .eulerBernoulli pileS meshS (run [] (tipM ++ [dispCall 1 .y 0])) = some T' ∧
    (∃ row, T'.disp[0]? = some row ∧ listed row .y ≠ 0) ∧ ∀ cls, Silent meshS.nodes tipM cls 1 0 .y := by
  have hEI := stiffT
  obtain ⟨h1, h2, h3⟩ := readC (tipM ++ [loadCall 1 .y ((3 : ℤ) : ℝ)]) 2 3 (by
    simp [run, tipM, loadCall, BC.step, setPointload, setSupport, updateBc, Cond.isAt, Cond.overwrite])
  obtain ⟨T, hT, hd⟩ := solvedC _ 3 2 (0 / ((elS 0).E * (elS 0).I)) (1 / 2 / ((elS 0).E * (elS 0).I)) (by
    rw [flexC]
    norm_num) (by
    rw [flexC]
    norm_num) h1 h2 h3
  have hsame := (C85_violated_zero Real.pi .eulerBernoulli pileS 1 0 stackS meshS meshOnS tipM 1 0 acts_head .y silentM).1
  have hM : globalForces meshS.nodes (run [] tipM) = .ok ⟨[2, 0], [0, 0], [0, 0]⟩ ∧
      globalDisp meshS.nodes (run [] tipM) = .ok ⟨[0, 0], [0, 0], [0, 0]⟩ ∧
      globalRestrained meshS.nodes (run [] tipM) = .ok ⟨[false, true], [false, true], [false, true]⟩ := by
    have hh : run [] tipM = [⟨.fixation, 0, some (.flag true), some (.flag true), some (.flag true)⟩,
        ⟨.force, 1, some (.num 2), none, none⟩] := by
      simp [run, tipM, BC.step, setPointload, setSupport, updateBc, Cond.isAt]
    refine ⟨?_, ?_, ?_⟩
    · unfold globalForces
      rw [C13_histories_never_raise, hh]
      simp [meshS, applyBc, applyOne, idx1, writeAxis, Val.truthy, storeInt]
    · unfold globalDisp
      rw [C13_histories_never_raise, hh]
      simp [meshS, applyBc, applyOne]
    · unfold globalRestrained
      rw [C13_histories_never_raise, hh]
      simp [meshS, applyBc, applyOne, idx0, writeAxis, Val.truthy, storeBool]
  obtain ⟨T', hT', hd'⟩ := solvedC (run [] tipM) 0 2 (-1 / ((elS 0).E * (elS 0).I)) (2 / ((elS 0).E * (elS 0).I)) (by
    rw [flexC]
    norm_num) (by
    rw [flexC]
    norm_num) hM.1 hM.2.1 hM.2.2
  refine ⟨T, T', hT, ⟨_, by rw [hd]; rfl, zero_div _⟩, by rw [hsame]; exact hT', ⟨_, by rw [hd']; rfl, ?_⟩, silentM⟩
  show -1 / ((elS 0).E * (elS 0).I) ≠ 0
  have : (elS 0).E * (elS 0).I ≠ 0 := hEI.ne'
  rw [div_ne_zero_iff]
  exact ⟨by norm_num, this⟩

end witness

end OpenPile.Props.Control

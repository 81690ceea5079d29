/-
C104: a support can be replaced by its reaction.

`winkler.py` 449-499 (`beam`), `kernel.py` 790-852 (`solve_equations`), `construct.py` 1522-1623 (boundary conditions).  An analysis
without soil lists a reaction at a support.  If the support is not set and that reaction is applied as a load instead, the analysis
gives the same tables, without the reaction.
-/
import Verif.Props.Control

namespace OpenPile.Props.Release
open Matrix
open OpenPile.Kernel OpenPile.Spec.Kernel OpenPile.Props.Solve OpenPile.Props.Beam
open OpenPile.Winkler OpenPile.Analysis OpenPile.Props.Analysis OpenPile.Props.Reported OpenPile.Result
open OpenPile.Mesh OpenPile.BC OpenPile.Props.BC OpenPile.Spec.BC OpenPile.Props.Compliance OpenPile.Props.Control

variable {K : Type} [Field K] [LinearOrder K] [IsStrictOrderedRing K]

omit [LinearOrder K] [IsStrictOrderedRing K] in
/-- The support of degree of freedom `k` is taken away and its reaction is applied. -/
theorem release {ι : Type} [Fintype ι] [DecidableEq ι] (A : Matrix ι ι K) (F U F' U' : ι → K) (S S' : ι → Bool) (k : ι) (u Q : ι → K)
    (h : solveEquations A F U S = some (u, Q)) (hF : ∀ i, i ≠ k → F' i = F i) (hF' : F' k = F k + Q k) (hU : ∀ i, i ≠ k → U' i = U i)
    (hS : ∀ i, i ≠ k → S' i = S i) (hS' : S' k = false) (hne : solveEquations A F' U' S' ≠ none) :
    ∃ Q', solveEquations A F' U' S' = some (u, Q') ∧ (∀ i, i ≠ k → Q' i = Q i) ∧ Q' k = 0 := by
  obtain ⟨a1, a2, a3, -⟩ := C15_solution _ _ _ _ _ _ h
  refine ⟨_, solve_eq_some _ F' U' S' hne u ?_ ?_, ?_, ?_⟩
  · intro i hi
    by_cases e : i = k
    · rw [e, hF', ← a3]
    · rw [hF i e]
      exact (a1 i (by rw [← hS i e]; exact hi)).1
  · intro i hi
    have e : i ≠ k := by
      rintro rfl
      rw [hS'] at hi
      cases hi
    rw [hU i e]
    exact a2 i (by rw [← hS i e]; exact hi)
  · intro i e
    rw [hF i e, ← a3]
    ring
  · rw [hF', ← a3]
    ring

section calls
variable [FloorRing K]

/-- `set_support` in one direction. -/
def supportCall (e : K) : Axis → Call K
  | .y => .support e (some true) none none
  | .z => .support e none (some true) none
  | .x => .support e none none (some true)

omit [LinearOrder K] [IsStrictOrderedRing K] [FloorRing K] [Field K] in
theorem support_call (e : K) (a : Axis) : kind (supportCall e a) = .fixation ∧ elev (supportCall e a) = e ∧
    arg (supportCall e a) a = some (.flag true) ∧ ∀ b, b ≠ a → arg (supportCall e a) b = none := by
  refine ⟨by cases a <;> rfl, by cases a <;> rfl, by cases a <;> rfl, ?_⟩
  intro b hb
  cases a <;> cases b <;> first | rfl | exact absurd rfl hb

theorem left_value {β : Type} (store : Val K → β) (init : β) (nodes : List K) (h : List (Call K)) (cls : Cls) (e : K)
    (j : ℕ) (hj : ActsAt nodes e j) (a : Axis) (hs : Silent nodes h cls e j a) (k : Call K) (hk : kind k = cls)
    (he : elev k = e) (v : Val K) (hv : Effective v) (hka : arg k a = some v) :
    left store init nodes (run [] (h ++ [k])) cls a j = store v := by
  have hjl : j < nodes.length := by
    obtain ⟨⟨n, hn, -⟩, -⟩ := hj
    exact (List.getElem?_eq_some_iff.1 hn).1
  have h1 := applyBc_left store init nodes (run [] (h ++ [k])) cls a j hjl
  have h2 := C14_history_value store nodes (h ++ [k]) ⟨nodes.map (fun _ => init), nodes.map (fun _ => init), nodes.map (fun _ => init)⟩
    cls e v j a (by cases a <;> simp [Nodal.get]) hj hv (by
      unfold expected about
      rw [List.filter_append, List.map_append, lastWrite_append]
      simp [hk, he, hka, lastWrite]) (by
      intro k' hk' c1 c2
      rcases List.mem_append.1 hk' with h3 | h3
      · exact (hs k' h3 c1 c2).1
      · rw [List.mem_singleton] at h3
        rw [h3, he])
  rw [h1, Option.some.injEq] at h2
  exact h2

/-- What an analysis without soil reads from a history of calls. -/
theorem read_left (pi : K) (ty : ElementType) {p : Pile.Pile K} {top tip : K} (hp : Stack p top tip) {C : Coordinates K}
    (hm : MeshOn p top tip C) (h : List (Call K)) :
    ∃ (z : Fin (C.elements.length + 1) → K) (el : Fin C.elements.length → Elem K)
      (F U : Fin (3 * C.elements.length + 3) → K) (R : Fin (3 * C.elements.length + 3) → Bool),
      1 ≤ C.elements.length ∧ C.nodes = List.ofFn z ∧ StrictAnti z ∧ ElementsOn pi p z el ∧
      (∀ k c, F (dof k c) = (left storeInt 0 C.nodes (run [] h) .force (axisOf c) k.1 : ℤ)) ∧
      (∀ k c, U (dof k c) = left storeFloat 0 C.nodes (run [] h) .displacement (axisOf c) k.1) ∧
      (∀ k c, R (dof k c) = left storeBool false C.nodes (run [] h) .fixation (axisOf c) k.1) ∧
      solveOn pi ty p C (run [] h) = (beam ty el F U R).bind (fun r => tables ty (List.ofFn z) el r.1 r.2.1) := by
  obtain ⟨z, el, F, U, R, g, gU, gR, n1, hz, hanti, hel, hg, hgU, hgR, cF, cU, cR, hss⟩ :=
    solveOn_read pi ty hp hm _ (C13_histories_never_raise h)
  have hlen : ∀ k : Fin (C.elements.length + 1), k.1 < C.nodes.length := by
    intro k
    rw [hz]
    simp [k.2]
  refine ⟨z, el, F, U, R, n1, hz, hanti, hel, ?_, ?_, ?_, hss⟩
  · intro k c
    have h1 := congrArg (fun l => l[k.1]?) (cF c)
    simp only [List.getElem?_map, List.getElem?_ofFn, dif_pos k.2] at h1
    rw [forces_left hg, if_pos (hlen k)] at h1
    simpa using h1.symm
  · intro k c
    have h1 := congrArg (fun l => l[k.1]?) (cU c)
    simp only [List.getElem?_ofFn, dif_pos k.2] at h1
    rw [disp_left hgU, if_pos (hlen k)] at h1
    simpa using h1.symm
  · intro k c
    have h1 := congrArg (fun l => l[k.1]?) (cR c)
    simp only [List.getElem?_ofFn, dif_pos k.2] at h1
    rw [held_left hgR, if_pos (hlen k)] at h1
    simpa using h1.symm

/-- Nodal values after a support in direction `a` at node `k`, and after a load there instead. -/
structure Swapped {n : ℕ} (F F' U U' : Fin (3 * n + 3) → K) (R R' : Fin (3 * n + 3) → Bool) (k : Fin (3 * n + 3)) (q : ℤ) : Prop where
  load : F k = 0
  load' : F' k = q
  loads : ∀ i, i ≠ k → F' i = F i
  disp : U' = U
  free : U k = 0
  held : R k = true
  held' : R' k = false
  supports : ∀ i, i ≠ k → R' i = R i

theorem swapped {nodes : List K} {n : ℕ} (h : List (Call K)) (e w : K) (hw : w ≠ 0) (k : Fin (n + 1)) (hk : ActsAt nodes e k.1) (a : Axis)
    (hs : ∀ cls, Silent nodes h cls e k.1 a) {F F' U U' : Fin (3 * n + 3) → K} {R R' : Fin (3 * n + 3) → Bool}
    (hF : ∀ k c, F (dof k c) = (left storeInt 0 nodes (run [] (h ++ [supportCall e a])) .force (axisOf c) k.1 : ℤ))
    (hU : ∀ k c, U (dof k c) = left storeFloat 0 nodes (run [] (h ++ [supportCall e a])) .displacement (axisOf c) k.1)
    (hR : ∀ k c, R (dof k c) = left storeBool false nodes (run [] (h ++ [supportCall e a])) .fixation (axisOf c) k.1)
    (hF' : ∀ k c, F' (dof k c) = (left storeInt 0 nodes (run [] (h ++ [loadCall e a w])) .force (axisOf c) k.1 : ℤ))
    (hU' : ∀ k c, U' (dof k c) = left storeFloat 0 nodes (run [] (h ++ [loadCall e a w])) .displacement (axisOf c) k.1)
    (hR' : ∀ k c, R' (dof k c) = left storeBool false nodes (run [] (h ++ [loadCall e a w])) .fixation (axisOf c) k.1) :
    Swapped F F' U U' R R' (dof k (place a)) (storeInt (.num w)) := by
  obtain ⟨s1, s2, s3, s4⟩ := support_call e a
  obtain ⟨c1, c2, c3, c4⟩ := load_call e a w
  have hjs : ActsAt nodes (elev (supportCall e a)) k.1 := by rw [s2]; exact hk
  have hjc : ActsAt nodes (elev (loadCall e a w)) k.1 := by rw [c2]; exact hk
  have hother : ∀ (i : Fin (n + 1)) (c : Fin 3), dof i c ≠ dof k (place a) → ¬ (axisOf c = a ∧ i.1 = k.1) := by
    rintro i c hne ⟨h1, h2⟩
    apply hne
    rw [Fin.ext h2, ← h1, place_axisOf]
  refine ⟨?_, ?_, ?_, ?_, ?_, ?_, ?_, ?_⟩
  · rw [hF, axisOf_place, run_last, left_other storeInt 0 nodes _ _ a s4 k.1 hjs .force a k.1 (by rw [s1]; simp),
      left_silent storeInt 0 nodes h .force e k.1 hk a (hs _), Int.cast_zero]
  · rw [hF', axisOf_place, left_value storeInt 0 nodes h .force e k.1 hk a (hs _) _ c1 c2 (.num w) hw c3]
  · intro i hi
    obtain ⟨i, c, rfl⟩ := dof_surjective i
    rw [hF, hF', run_last, run_last, left_other storeInt 0 nodes _ _ a s4 k.1 hjs .force _ _ (by rw [s1]; simp),
      left_other storeInt 0 nodes _ _ a c4 k.1 hjc .force _ _ (fun hh => hother i c hi hh.2)]
  · funext i
    obtain ⟨i, c, rfl⟩ := dof_surjective i
    rw [hU, hU', run_last, run_last, left_other storeFloat 0 nodes _ _ a s4 k.1 hjs .displacement _ _ (by rw [s1]; simp),
      left_other storeFloat 0 nodes _ _ a c4 k.1 hjc .displacement _ _ (by rw [c1]; simp)]
  · rw [hU, axisOf_place, run_last, left_other storeFloat 0 nodes _ _ a s4 k.1 hjs .displacement a k.1 (by rw [s1]; simp),
      left_silent storeFloat 0 nodes h .displacement e k.1 hk a (hs _)]
  · rw [hR, axisOf_place, left_value storeBool false nodes h .fixation e k.1 hk a (hs _) _ s1 s2 (.flag true) rfl s3]
    rfl
  · rw [hR', axisOf_place, run_last, left_other storeBool false nodes _ _ a c4 k.1 hjc .fixation a k.1 (by rw [c1]; simp),
      left_silent storeBool false nodes h .fixation e k.1 hk a (hs _)]
  · intro i hi
    obtain ⟨i, c, rfl⟩ := dof_surjective i
    rw [hR, hR', run_last, run_last, left_other storeBool false nodes _ _ a s4 k.1 hjs .fixation _ _ (fun hh => hother i c hi hh.2),
      left_other storeBool false nodes _ _ a c4 k.1 hjc .fixation _ _ (by rw [c1]; simp)]

omit [IsStrictOrderedRing K] [FloorRing K] in
theorem comp_shown {n : ℕ} (z : K) (P : Fin (3 * n + 3) → K) (k : Fin (n + 1)) (c : Fin 3) :
    comp c.1 (z, shown P k) = maskSmall (P (dof k c)) := by
  fin_cases c <;> rfl

omit [IsStrictOrderedRing K] [FloorRing K] in
theorem mask_of_ne {x w : K} (hw : w ≠ 0) (h : maskSmall x = w) : x = w := by
  unfold maskSmall at h
  split at h
  · exact absurd h.symm hw
  · exact h

/-- **C104, from the public calls.** After any history `h` of calls that says nothing about direction `a` at node `j`, the call
`set_support` in that direction leads to the reaction `q`, a whole number, listed for the node. The call `set_pointload` with the load
`q` instead leads, if it still leads to a result, to the same displacements and section forces and to the same reactions at other nodes;
for node `j` no reaction is listed in direction `a`, and the same in the other directions. -/
theorem C104_calls_partial (pi : K) (ty : ElementType) (p : Pile.Pile K) (top tip : K) (hp : Stack p top tip) (C : Coordinates K)
    (hm : MeshOn p top tip C) (h : List (Call K)) (e : K) (j : ℕ) (hj : ActsAt C.nodes e j) (a : Axis)
    (hs : ∀ cls, Silent C.nodes h cls e j a) (T T' : Tables K)
    (hT : solveOn pi ty p C (run [] (h ++ [supportCall e a])) = some T) (q : ℤ) (hq : q ≠ 0) (r : K × List K) (hr : r ∈ T.reactions)
    (hrj : C.nodes[j]? = some r.1) (hrq : comp (place a).1 r = q)
    (hT' : solveOn pi ty p C (run [] (h ++ [loadCall e a q])) = some T') :
    T'.disp = T.disp ∧ T'.forces = T.forces ∧ (∀ r', r'.1 ≠ r.1 → (r' ∈ T'.reactions ↔ r' ∈ T.reactions)) ∧
      (∀ r' ∈ T'.reactions, r'.1 = r.1 → comp (place a).1 r' = 0 ∧ ∀ b, b ≠ a → comp (place b).1 r' = comp (place b).1 r) ∧
      (∀ b, b ≠ a → 1 / 1000 < |comp (place b).1 r| → ∃ r' ∈ T'.reactions, r'.1 = r.1) := by
  obtain ⟨z, el, F, U, R, n1, hz, hanti, hel, hF, hU, hR, hss⟩ := read_left pi ty hp hm (h ++ [supportCall e a])
  obtain ⟨z', el', F', U', R', -, hz', -, hel', hF', hU', hR', hss'⟩ := read_left pi ty hp hm (h ++ [loadCall e a q])
  have ez : z' = z := List.ofFn_injective (by rw [← hz, ← hz'])
  subst ez
  obtain rfl := elements_unique hel hel'
  have hjl : j < C.nodes.length := (List.getElem?_eq_some_iff.1 hrj).1
  have hj' : j < C.elements.length + 1 := by
    rw [hz] at hjl
    simpa using hjl
  obtain ⟨k, rfl⟩ : ∃ k : Fin (C.elements.length + 1), k.1 = j := ⟨⟨j, hj'⟩, rfl⟩
  have hqK : (q : K) ≠ 0 := Int.cast_ne_zero.2 hq
  obtain ⟨w1, w2, w3, w4, w5, w6, w7, w8⟩ := swapped h e (q : K) hqK k hj a hs hF hU hR hF' hU' hR'
  have hst : storeInt (.num (q : K)) = q := by simp [storeInt]
  rw [hst] at w2
  rw [hss] at hT
  rw [hss'] at hT'
  obtain ⟨u, Q, f, hb, t2, t3, t4, t5⟩ := tables_of_beam ty n1 z' el F U R T hT
  obtain ⟨u', Q', f', hb', t2', t3', t4', t5'⟩ := tables_of_beam ty n1 z' el F' U' R' T' hT'
  have hinj : Function.Injective z' := hanti.injective
  have hr1 : r.1 = z' k := by
    rw [hz, List.getElem?_ofFn, dif_pos k.2, Option.some.injEq] at hrj
    exact hrj.symm
  obtain ⟨i, hri⟩ : ∃ i, (z' i, shown Q i) = r := by
    rw [t5, List.mem_filter, List.mem_ofFn] at hr
    exact hr.1
  have hik : i = k := by
    apply hinj
    rw [← hr1, ← hri]
  subst hik
  have hQk : Q (dof i (place a)) = q := by
    rw [← hri, comp_shown] at hrq
    exact mask_of_ne hqK hrq
  have solved : ∀ {F U : Fin (3 * C.elements.length + 3) → K} {R : Fin (3 * C.elements.length + 3) → Bool}
      {u Q : Fin (3 * C.elements.length + 3) → K} {f}, beam ty el F U R = some (u, Q, f) →
      solveEquations (beamStiffness ty C.elements.length el) F U (fun i => R i || decide (U i ≠ 0)) = some (u, Q) ∧
        f = ends ty el u := by
    intro F U R u Q f hb
    unfold beam at hb
    simp only [Option.map_eq_some_iff, Prod.mk.injEq] at hb
    obtain ⟨⟨u', Q'⟩, e, rfl, rfl, rfl⟩ := hb
    exact ⟨e, rfl⟩
  obtain ⟨e1, f1⟩ := solved hb
  obtain ⟨e2, f2⟩ := solved hb'
  obtain ⟨Q2, g1, g2, g3⟩ := release _ F U F' U' _ (fun i => R' i || decide (U' i ≠ 0)) (dof i (place a)) u Q e1 w3
    (by rw [w1, w2, hQk, zero_add]) (fun _ _ => by rw [w4]) (fun l hl => by simp only [w8 l hl, w4]) (by simp [w4, w5, w7])
    (by rw [e2]; simp)
  rw [e2, Option.some.injEq, Prod.mk.injEq] at g1
  obtain ⟨rfl, rfl⟩ := g1
  have hshown : ∀ l, l ≠ i → shown Q' l = shown Q l := by
    intro l hl
    have : ∀ c, Q' (dof l c) = Q (dof l c) := fun c => g2 _ (fun e => hl (congrArg Prod.fst (dof_injective (a₁ := (l, c)) (a₂ := (i, place a)) e)))
    unfold shown
    rw [this, this, this]
  have hbdir : ∀ b, b ≠ a → Q' (dof i (place b)) = Q (dof i (place b)) := by
    intro b hba
    apply g2
    intro e
    have : place b = place a := congrArg Prod.snd (dof_injective (a₁ := (i, place b)) (a₂ := (i, place a)) e)
    apply hba
    rw [← axisOf_place a, ← axisOf_place b, this]
  refine ⟨by rw [t2, t2'], ?_, ?_, ?_, ?_⟩
  · apply List.ext_getElem?
    intro l
    by_cases hl : l < 2 * C.elements.length
    · obtain ⟨m, hm⟩ : ∃ m, l = 2 * m ∨ l = 2 * m + 1 := ⟨l / 2, by omega⟩
      have hm' : m < C.elements.length := by omega
      obtain ⟨x1, x2⟩ := t4 ⟨m, hm'⟩
      obtain ⟨y1, y2⟩ := t4' ⟨m, hm'⟩
      rw [f1] at x1 x2
      rw [f2] at y1 y2
      rcases hm with rfl | rfl
      · rw [y1, x1]
      · rw [y2, x2]
    · rw [List.getElem?_eq_none (by omega), List.getElem?_eq_none (by omega)]
  · intro r' hr'
    rw [t5', t5, List.mem_filter, List.mem_filter]
    refine and_congr_left fun _ => ?_
    rw [List.mem_ofFn, List.mem_ofFn]
    constructor
    · rintro ⟨l, rfl⟩
      have hl : l ≠ i := by
        rintro rfl
        exact hr' hr1.symm
      exact ⟨l, by simp only [hshown l hl]⟩
    · rintro ⟨l, rfl⟩
      have hl : l ≠ i := by
        rintro rfl
        exact hr' hr1.symm
      exact ⟨l, by simp only [hshown l hl]⟩
  · intro r' hr' hz1
    rw [t5', List.mem_filter, List.mem_ofFn] at hr'
    obtain ⟨⟨l, rfl⟩, -⟩ := hr'
    have hl : l = i := hinj (by rw [← hr1]; exact hz1)
    subst hl
    refine ⟨?_, ?_⟩
    · rw [comp_shown, g3]
      simp [maskSmall]
    · intro b hba
      rw [← hri, comp_shown, comp_shown, hbdir b hba]
  · intro b hba hb0
    refine ⟨(z' i, shown Q' i), ?_, hr1.symm⟩
    rw [t5', List.mem_filter]
    refine ⟨List.mem_ofFn.2 ⟨i, rfl⟩, ?_⟩
    rw [List.any_eq_true]
    rw [← hri, comp_shown, ← hbdir b hba] at hb0
    refine ⟨maskSmall (Q' (dof i (place b))), ?_, ?_⟩
    · generalize place b = c
      fin_cases c <;> simp [shown]
    · simpa using hb0

/-- **C104 is violated by reactions that are not whole numbers.** The load is truncated, so that the displacements change, always. -/
theorem C104_violated_fraction (pi : K) (ty : ElementType) (p : Pile.Pile K) (top tip : K) (hp : Stack p top tip) (C : Coordinates K)
    (hm : MeshOn p top tip C) (h : List (Call K)) (e : K) (j : ℕ) (hj : ActsAt C.nodes e j) (a : Axis)
    (hs : ∀ cls, Silent C.nodes h cls e j a) (T T' : Tables K)
    (hT : solveOn pi ty p C (run [] (h ++ [supportCall e a])) = some T) (r : K × List K) (hr : r ∈ T.reactions)
    (hrj : C.nodes[j]? = some r.1) (hfr : ∀ q : ℤ, comp (place a).1 r ≠ q)
    (hT' : solveOn pi ty p C (run [] (h ++ [loadCall e a (comp (place a).1 r)])) = some T') : T'.disp ≠ T.disp := by
  intro heq
  have hw : comp (place a).1 r ≠ 0 := by
    have := hfr 0
    rwa [Int.cast_zero] at this
  obtain ⟨z, el, F, U, R, n1, hz, hanti, hel, hF, hU, hR, hss⟩ := read_left pi ty hp hm (h ++ [supportCall e a])
  obtain ⟨z', el', F', U', R', -, hz', -, hel', hF', hU', hR', hss'⟩ := read_left pi ty hp hm (h ++ [loadCall e a (comp (place a).1 r)])
  have ez : z' = z := List.ofFn_injective (by rw [← hz, ← hz'])
  subst ez
  obtain rfl := elements_unique hel hel'
  have hjl : j < C.nodes.length := (List.getElem?_eq_some_iff.1 hrj).1
  have hj' : j < C.elements.length + 1 := by
    rw [hz] at hjl
    simpa using hjl
  obtain ⟨k, rfl⟩ : ∃ k : Fin (C.elements.length + 1), k.1 = j := ⟨⟨j, hj'⟩, rfl⟩
  obtain ⟨w1, w2, w3, w4, w5, w6, w7, w8⟩ := swapped h e (comp (place a).1 r) hw k hj a hs hF hU hR hF' hU' hR'
  rw [hss] at hT
  rw [hss'] at hT'
  obtain ⟨u, Q, f, hb, t2, t3, t4, t5⟩ := tables_of_beam ty n1 z' el F U R T hT
  obtain ⟨u', Q', f', hb', t2', t3', t4', t5'⟩ := tables_of_beam ty n1 z' el F' U' R' T' hT'
  have hinj : Function.Injective z' := hanti.injective
  have hr1 : r.1 = z' k := by
    rw [hz, List.getElem?_ofFn, dif_pos k.2, Option.some.injEq] at hrj
    exact hrj.symm
  obtain ⟨i, hri⟩ : ∃ i, (z' i, shown Q i) = r := by
    rw [t5, List.mem_filter, List.mem_ofFn] at hr
    exact hr.1
  have hik : i = k := by
    apply hinj
    rw [← hr1, ← hri]
  subst hik
  have hQk : Q (dof i (place a)) = comp (place a).1 r := by
    have : comp (place a).1 r = maskSmall (Q (dof i (place a))) := by rw [← hri, comp_shown]
    exact mask_of_ne hw this.symm
  have hu : u' = u := by
    rw [t2, t2'] at heq
    have h1 := List.ofFn_injective heq
    funext l
    obtain ⟨l, c, rfl⟩ := dof_surjective l
    have h2 := congrFun h1 l
    simp only [Prod.mk.injEq, true_and] at h2
    fin_cases c
    · exact h2.1
    · exact h2.2.1
    · exact h2.2.2
  subst hu
  have solved : ∀ {F U : Fin (3 * C.elements.length + 3) → K} {R : Fin (3 * C.elements.length + 3) → Bool}
      {u Q : Fin (3 * C.elements.length + 3) → K} {f}, beam ty el F U R = some (u, Q, f) →
      solveEquations (beamStiffness ty C.elements.length el) F U (fun i => R i || decide (U i ≠ 0)) = some (u, Q) := by
    intro F U R u Q f hb
    unfold beam at hb
    simp only [Option.map_eq_some_iff, Prod.mk.injEq] at hb
    obtain ⟨⟨u', Q'⟩, e, rfl, rfl, rfl⟩ := hb
    exact e
  obtain ⟨-, -, a3, -⟩ := C15_solution _ _ _ _ _ _ (solved hb)
  obtain ⟨b1, -, -, -⟩ := C15_solution _ _ _ _ _ _ (solved hb')
  have g1 := (b1 (dof i (place a)) (by simp [w4, w5, w7])).1
  rw [← a3, w1, hQk, w2, zero_add] at g1
  exact hfr _ g1

end calls

/-! ### a propped cantilever of one element -/

section witness
open OpenPile.Props.SoilTables OpenPile.Props.SoilSupport

/-- The tip is held, the head laterally. -/
def fixP : Fin (3 * 1 + 3) → Bool := ![false, true, false, true, true, true]

/-- The tip is held and a moment acts at the head. -/
noncomputable def tipN (M : ℤ) : List (Call ℝ) := [.support 0 (some true) (some true) (some true), .pointload 1 none none (some M)]

theorem silentN (M : ℤ) (cls : Cls) : Silent meshS.nodes (tipN M) cls 1 0 .y := by
  intro k hk _ hact
  simp only [tipN, List.mem_cons, List.not_mem_nil, or_false] at hk
  rcases hk with rfl | rfl
  · exact absurd hact not_acts_head
  · exact ⟨rfl, rfl⟩

/-- The load leads to a result, whatever it is. -/
theorem loadedN (M : ℤ) (hM : M ≠ 0) (w : ℝ) :
    ∃ T, solveOn Real.pi .eulerBernoulli pileS meshS (run [] (tipN M ++ [loadCall 1 .y w])) = some T := by
  have hEI := stiffT
  have hh : run [] (tipN M ++ [loadCall 1 .y w]) = [⟨.fixation, 0, some (.flag true), some (.flag true), some (.flag true)⟩,
      ⟨.force, 1, some (.num M), some (.num w), none⟩] := by
    simp [run, tipN, loadCall, BC.step, setPointload, setSupport, updateBc, Cond.isAt, Cond.overwrite]
  have k1 : globalForces meshS.nodes (run [] (tipN M ++ [loadCall 1 .y w])) = .ok ⟨[M, 0], [storeInt (.num w), 0], [0, 0]⟩ := by
    unfold globalForces
    rw [C13_histories_never_raise, hh]
    by_cases hw : w = 0 <;> simp [meshS, applyBc, applyOne, idx1, writeAxis, Val.truthy, storeInt, hM, hw]
  have k2 : globalDisp meshS.nodes (run [] (tipN M ++ [loadCall 1 .y w])) = .ok ⟨[0, 0], [0, 0], [0, 0]⟩ := by
    unfold globalDisp
    rw [C13_histories_never_raise, hh]
    simp [meshS, applyBc, applyOne]
  have k3 : globalRestrained meshS.nodes (run [] (tipN M ++ [loadCall 1 .y w]))
      = .ok ⟨[false, true], [false, true], [false, true]⟩ := by
    unfold globalRestrained
    rw [C13_histories_never_raise, hh]
    simp [meshS, applyBc, applyOne, idx0, writeAxis, Val.truthy, storeBool]
  generalize storeInt (.num w) = H at k1
  obtain ⟨T, hT, -⟩ := solvedC _ H M ((4 * H - 6 * M) / 12 / ((elS 0).E * (elS 0).I)) ((12 * M - 6 * H) / 12 / ((elS 0).E * (elS 0).I))
    (by
      rw [flexC]
      ring) (by
      rw [flexC]
      ring) k1 k2 k3
  exact ⟨T, hT⟩

/-- The reaction that holds the head is one and a half times the moment over the length. -/
theorem propped (M : ℤ) (hM : M ≠ 0) : ∃ (T : Tables ℝ) (r : ℝ × List ℝ),
    solveOn Real.pi .eulerBernoulli pileS meshS (run [] (tipN M ++ [supportCall 1 .y])) = some T ∧ r ∈ T.reactions ∧
    meshS.nodes[0]? = some r.1 ∧ comp (place .y).1 r = 3 / 2 * M := by
  have hEI := stiffT
  have hMr : (M : ℝ) ≠ 0 := Int.cast_ne_zero.2 hM
  have hh : run [] (tipN M ++ [supportCall 1 .y]) = [⟨.fixation, 0, some (.flag true), some (.flag true), some (.flag true)⟩,
      ⟨.force, 1, some (.num (M : ℝ)), none, none⟩, ⟨.fixation, 1, none, some (.flag true), none⟩] := by
    simp [run, tipN, supportCall, BC.step, setPointload, setSupport, updateBc, Cond.isAt]
  have k1 : globalForces meshS.nodes (run [] (tipN M ++ [supportCall 1 .y])) = .ok ⟨[M, 0], [0, 0], [0, 0]⟩ := by
    unfold globalForces
    rw [C13_histories_never_raise, hh]
    simp [meshS, applyBc, applyOne, idx1, writeAxis, Val.truthy, storeInt, hM]
  have k2 : globalDisp meshS.nodes (run [] (tipN M ++ [supportCall 1 .y])) = .ok ⟨[0, 0], [0, 0], [0, 0]⟩ := by
    unfold globalDisp
    rw [C13_histories_never_raise, hh]
    simp [meshS, applyBc, applyOne]
  have k3 : globalRestrained meshS.nodes (run [] (tipN M ++ [supportCall 1 .y]))
      = .ok ⟨[false, true], [true, true], [false, true]⟩ := by
    unfold globalRestrained
    rw [C13_histories_never_raise, hh]
    simp [meshS, applyBc, applyOne, idx0, idx1, writeAxis, Val.truthy, storeBool]
  obtain ⟨-, hU, -, hel⟩ := readT
  have hF : asVec 1 ((dofList (⟨[M, 0], [0, 0], [0, 0]⟩ : Nodal ℤ)).map (fun i : ℤ => (i : ℝ))) = some ![0, 0, (M : ℝ), 0, 0, 0] := by
    unfold asVec dofList
    rw [dif_pos (by simp)]
    congr 1
    funext i
    fin_cases i <;> simp
  have hR : asVec 1 (dofList (⟨[false, true], [true, true], [false, true]⟩ : Nodal Bool)) = some fixP := by
    unfold asVec dofList
    rw [dif_pos (by simp)]
    congr 1
    funext i
    fin_cases i <;> simp [fixP]
  have hsup : (fun i => fixP i || decide ((0 : Fin (3 * 1 + 3) → ℝ) i ≠ 0)) = fixP := by
    funext i
    simp
  obtain ⟨r0, r1, r2⟩ := rowsC 0 (M / 4 / ((elS 0).E * (elS 0).I))
  have e1 : (elS 0).E * (elS 0).I * (12 * 0 + 6 * (M / 4 / ((elS 0).E * (elS 0).I))) = 3 / 2 * M := by
    have := hEI.ne'
    generalize (elS 0).E * (elS 0).I = x at this
    field_simp
    ring
  have e2 : (elS 0).E * (elS 0).I * (6 * 0 + 4 * (M / 4 / ((elS 0).E * (elS 0).I))) = M := by
    have := hEI.ne'
    generalize (elS 0).E * (elS 0).I = x at this
    field_simp
    norm_num
  rw [e1] at r1
  rw [e2] at r2
  have hsol : solveEquations (beamStiffness .eulerBernoulli 1 elS) ![0, 0, (M : ℝ), 0, 0, 0] 0
      (fun i => fixP i || decide ((0 : Fin (3 * 1 + 3) → ℝ) i ≠ 0)) = some (![0, 0, M / 4 / ((elS 0).E * (elS 0).I), 0, 0, 0],
        fun i => (beamStiffness .eulerBernoulli 1 elS *ᵥ ![0, 0, M / 4 / ((elS 0).E * (elS 0).I), 0, 0, 0]) i
        - ![0, 0, (M : ℝ), 0, 0, 0] i) := by
    rw [hsup]
    refine solve_eq_some _ _ _ _ ?_ ![0, 0, M / 4 / ((elS 0).E * (elS 0).I), 0, 0, 0] ?_ ?_
    · exact (C20_beam_supports .eulerBernoulli elS goodS _ _ fixP).2 ⟨⟨1, rfl⟩, 1, rfl, .inl ⟨1, rfl⟩⟩
    · intro i hi
      fin_cases i
      · exact r0
      · cases hi
      · exact r2
      all_goals cases hi
    · intro i hi
      fin_cases i
      · cases hi
      · rfl
      · cases hi
      all_goals rfl
  have hQ1 : (fun i => (beamStiffness .eulerBernoulli 1 elS *ᵥ ![0, 0, M / 4 / ((elS 0).E * (elS 0).I), 0, 0, 0]) i
        - ![0, 0, (M : ℝ), 0, 0, 0] i) (dof (0 : Fin 2) 1) = 3 / 2 * M := by
    show (beamStiffness .eulerBernoulli 1 elS *ᵥ ![0, 0, M / 4 / ((elS 0).E * (elS 0).I), 0, 0, 0]) 1 - 0 = 3 / 2 * M
    rw [r1, sub_zero]
  generalize (fun i => (beamStiffness .eulerBernoulli 1 elS *ᵥ ![0, 0, M / 4 / ((elS 0).E * (elS 0).I), 0, 0, 0]) i
        - ![0, 0, (M : ℝ), 0, 0, 0] i) = Q at hsol hQ1
  obtain ⟨T, t1, t2, -, -, t5⟩ := tables_exact .eulerBernoulli (le_refl 1) (![1, 0] : Fin 2 → ℝ) elS
    ![0, 0, M / 4 / ((elS 0).E * (elS 0).I), 0, 0, 0] Q
  have hn : meshS.nodes = List.ofFn (![1, 0] : Fin 2 → ℝ) := by simp [meshS]
  have hb : beam .eulerBernoulli elS ![0, 0, (M : ℝ), 0, 0, 0] 0 fixP = some (![0, 0, M / 4 / ((elS 0).E * (elS 0).I), 0, 0, 0], Q,
      fun i => sectionForces (elS i).L (internalForces .eulerBernoulli elS ![0, 0, M / 4 / ((elS 0).E * (elS 0).I), 0, 0, 0] i)) := by
    unfold beam
    rw [hsol]
    rfl
  have habs : (3 / 2 : ℝ) ≤ |3 / 2 * (M : ℝ)| := by
    rw [abs_mul, abs_of_pos (by norm_num : (0 : ℝ) < 3 / 2), ← Int.cast_abs]
    have : (1 : ℝ) ≤ ((|M| : ℤ) : ℝ) := by exact_mod_cast Int.one_le_abs hM
    linarith
  have hmask : maskSmall (3 / 2 * M : ℝ) = 3 / 2 * M := by
    unfold maskSmall
    rw [if_neg]
    exact not_lt.2 (le_trans (by norm_num) habs)
  refine ⟨T, (1, shown Q (0 : Fin 2)), ?_, ?_, rfl, ?_⟩
  · rw [← hn] at t1
    exact solveOn_of (C := meshS) k1 k2 k3 hF hU hR hel hb t1
  · rw [t5, List.mem_filter]
    refine ⟨List.mem_ofFn.2 ⟨0, rfl⟩, ?_⟩
    rw [List.any_eq_true]
    refine ⟨maskSmall (Q (dof (0 : Fin 2) 1)), by simp [shown], ?_⟩
    rw [hQ1, hmask, decide_eq_true_iff]
    exact lt_of_lt_of_le (by norm_num) habs
  · show comp (1 : Fin 3).1 _ = _
    rw [comp_shown, hQ1, hmask]

/-- The hypotheses of `C104_calls_partial` are met: a moment of 2 kNm leads to a reaction of 3 kN. -/
example : ∃ (T T' : Tables ℝ) (r : ℝ × List ℝ), Stack pileS 1 0 ∧ MeshOn pileS 1 0 meshS ∧ ActsAt meshS.nodes 1 0 ∧
    (∀ cls, Silent meshS.nodes (tipN 2) cls 1 0 .y) ∧
    solveOn Real.pi .eulerBernoulli pileS meshS (run [] (tipN 2 ++ [supportCall 1 .y])) = some T ∧ r ∈ T.reactions ∧
    meshS.nodes[0]? = some r.1 ∧ comp (place .y).1 r = ((3 : ℤ) : ℝ) ∧
    solveOn Real.pi .eulerBernoulli pileS meshS (run [] (tipN 2 ++ [loadCall 1 .y ((3 : ℤ) : ℝ)])) = some T' := by
  obtain ⟨T, r, h1, h2, h3, h4⟩ := propped 2 (by norm_num)
  obtain ⟨T', hT'⟩ := loadedN 2 (by norm_num) ((3 : ℤ) : ℝ)
  exact ⟨T, T', r, stackS, meshOnS, acts_head, silentN 2, h1, h2, h3, by rw [h4]; norm_num, hT'⟩

/-- The hypotheses of `C104_violated_fraction` are met: a moment of 1 kNm leads to a reaction of 1.5 kN. -/
example : ∃ (T T' : Tables ℝ) (r : ℝ × List ℝ),
    solveOn Real.pi .eulerBernoulli pileS meshS (run [] (tipN 1 ++ [supportCall 1 .y])) = some T ∧ r ∈ T.reactions ∧
    (∀ q : ℤ, comp (place .y).1 r ≠ q) ∧
    solveOn Real.pi .eulerBernoulli pileS meshS (run [] (tipN 1 ++ [loadCall 1 .y (comp (place .y).1 r)])) = some T' ∧
    T'.disp ≠ T.disp := by
  obtain ⟨T, r, h1, h2, h3, h4⟩ := propped 1 one_ne_zero
  obtain ⟨T', hT'⟩ := loadedN 1 one_ne_zero (comp (place .y).1 r)
  have hfr : ∀ q : ℤ, comp (place .y).1 r ≠ q := by
    intro q hq
    rw [h4] at hq
    have h5 : (3 : ℝ) = 2 * q := by
      push_cast at hq
      linarith
    have h6 : (3 : ℤ) = 2 * q := by exact_mod_cast h5
    omega
  exact ⟨T, T', r, h1, h2, hfr, hT', C104_violated_fraction Real.pi .eulerBernoulli pileS 1 0 stackS meshS meshOnS (tipN 1) 1 0 acts_head .y
    (silentN 1) T T' h1 r h2 h3 hfr hT'⟩

end witness

end OpenPile.Props.Release

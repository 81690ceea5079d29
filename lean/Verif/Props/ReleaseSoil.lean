/-
C104 with soil: a support can be replaced by its reaction.

`winkler.py` 502-637 (`winkler`), `kernel.py` 717-787 (stiffness) and 790-852 (`solve_equations`), from the tables of results.
While every spring stays on its first branch, a support may be exchanged for its reaction.
-/
import Verif.Props.Release
import Verif.Props.ControlSoil

namespace OpenPile.Props.ReleaseSoil
open OpenPile.SoilAnalysis OpenPile.Analysis OpenPile.BC OpenPile.Mesh OpenPile.Kernel OpenPile.Winkler OpenPile.Spring
  OpenPile.Result OpenPile.Assemble OpenPile.Props.SoilAnalysis OpenPile.Props.Analysis OpenPile.Props.SoilTables
  OpenPile.Spec.Kernel OpenPile.Props.Beam OpenPile.Props.LinearRange
open OpenPile.Props.Reported (shown tables_exact elementsOn_unique comp)
open OpenPile.Props.BC OpenPile.Spec.BC
open OpenPile.Props.Control (place axisOf_place place_axisOf loadCall dispCall Silent forces_left disp_left held_left)
open OpenPile.Props.Release (supportCall swapped comp_shown mask_of_ne release)
open OpenPile.Props.Superpose (OnFirstBranch soil_read' rows_injective linear_of)
open Matrix

/-- An analysis that gives numbers got through its first pass. -/
theorem first_solved {n : ℕ} {build : Kind → (Fin n → ℝ) → Option (Matrix (Fin n) (Fin n) ℝ)} {B : Matrix (Fin n) (Fin n) ℝ}
    (hB : build .initial 0 = some B) {F U : Fin n → ℝ} {R : Fin n → Bool} {m : ℕ} {d Q : Fin n → ℝ} {it : ℕ} {tolSq resSq : ℝ}
    (h : winkler build F U R m = .converged d Q it tolSq resSq) :
    solveEquations B F U (fun i => R i || decide (U i ≠ 0)) ≠ none := by
  intro h0
  unfold winkler at h
  rw [hB] at h
  simp only at h
  unfold loop at h
  rw [h0] at h
  cases h

/-- The nodal values that an analysis with soil reads from a history of calls. -/
theorem read_left {C : Coordinates ℝ} {n : ℕ} {z : Fin (n + 1) → ℝ} (hz : C.nodes = List.ofFn z) (h : List (Call ℝ))
    {F U : Fin (3 * n + 3) → ℝ} {R : Fin (3 * n + 3) → Bool} {g : Nodal ℤ} {gU : Nodal ℝ} {gR : Nodal Bool}
    (hg : globalForces C.nodes (run [] h) = .ok g) (hgU : globalDisp C.nodes (run [] h) = .ok gU)
    (hgR : globalRestrained C.nodes (run [] h) = .ok gR)
    (cF : ∀ c, (g.get (axisOf c)).map (fun i : ℤ => (i : ℝ)) = List.ofFn (fun j => F (dof j c)))
    (cU : ∀ c, gU.get (axisOf c) = List.ofFn (fun j => U (dof j c))) (cR : ∀ c, gR.get (axisOf c) = List.ofFn (fun j => R (dof j c))) :
    (∀ k c, F (dof k c) = (left storeInt 0 C.nodes (run [] h) .force (axisOf c) k.1 : ℤ)) ∧
    (∀ k c, U (dof k c) = left storeFloat 0 C.nodes (run [] h) .displacement (axisOf c) k.1) ∧
    (∀ k c, R (dof k c) = left storeBool false C.nodes (run [] h) .fixation (axisOf c) k.1) := by
  have hlen : ∀ k : Fin (n + 1), k.1 < C.nodes.length := by
    intro k
    rw [hz]
    simp [k.2]
  refine ⟨?_, ?_, ?_⟩
  · intro k c
    have h1 := congrArg (fun l => l[k.1]?) (cF c)
    simp only [List.getElem?_map, List.getElem?_ofFn, dif_pos k.2] at h1
    rw [forces_left hg, if_pos (hlen k)] at h1
    simpa using h1.symm
  · intro k c
    have h1 := congrArg (fun l => l[k.1]?) (cU c)
    simp only [List.getElem?_ofFn, dif_pos k.2] at h1
    rw [disp_left hgU, if_pos (hlen k)] at h1
    simpa using h1.symm
  · intro k c
    have h1 := congrArg (fun l => l[k.1]?) (cR c)
    simp only [List.getElem?_ofFn, dif_pos k.2] at h1
    rw [held_left hgR, if_pos (hlen k)] at h1
    simpa using h1.symm

/-- The reading of an analysis with soil, with the mobilised springs. -/
theorem soil_read_mob {ty : ElementType} {p : Pile.Pile ℝ} {top tip : ℝ} (hp : Stack p top tip) {C : Coordinates ℝ}
    (h : MeshOn p top tip C) {w : Switches} {A : Arrays} {bcs : List (Cond ℝ)} {t : SoilTables}
    (ht : solveSoilOn ty p C w A bcs 100 = some (.numbers t)) :
    ∃ u : Fin (3 * C.elements.length + 3) → ℝ, t.disp.map (·.2) = List.ofFn (fun j => (u (dof j 0), u (dof j 1), u (dof j 2))) ∧
      springsMob C.nodes (component u 1) (component u 2) (flat C.elements.length (springsOf w A C.elements.length).py)
        (flat C.elements.length (springsOf w A C.elements.length).mt) 15 = some t.mob ∧
      baseMob A.hb (u ⟨3 * C.elements.length + 1, by omega⟩) = some t.hbMob ∧
      baseMob A.mb (u ⟨3 * C.elements.length + 2, by omega⟩) = some t.mbMob := by
  obtain ⟨z, -, -, -, -, -, -, -, -, -, -, -, n1, hz, -⟩ := soil_read' hp h ht
  obtain ⟨-, -, -, el, u, Q, -, -, -, -, -, -, -, htab, mob, hb, mb, -, -⟩ := solveSoilOn_numbers (by norm_num) ht
  obtain ⟨T, y, s2, -⟩ := tables_exact ty n1 z el u Q
  rw [hz] at htab
  obtain rfl : T = t.toTables := Option.some.inj (y.symm.trans htab)
  refine ⟨u, ?_, mob, hb, mb⟩
  rw [s2, List.map_ofFn]
  rfl

/-- **C104, with soil, from the public calls.** After any history `h` of calls that says nothing about direction `a` at node `j`, the
call `set_support` in that direction leads to a result without error and with every spring on its first branch, in which the reaction
`q`, a whole number, is listed for the node.  The call `set_pointload` with the load `q` instead leads, if it still leads to
numbers, to a result without error with the same displacements, section forces and mobilised springs and the same reactions at other
nodes; for node `j` no reaction is listed in direction `a`, and the same in the other directions.  Partial: only the first
branches, and whole numbers. -/
theorem C104_soil_partial (ty : ElementType) (p : Pile.Pile ℝ) (top tip : ℝ) (hp : Stack p top tip) (C : Coordinates ℝ)
    (hm : MeshOn p top tip C) (w : Switches) (A : Arrays) (h : List (Call ℝ)) (e : ℝ) (j : ℕ) (hj : ActsAt C.nodes e j) (a : Axis)
    (hs : ∀ cls, Silent C.nodes h cls e j a) (t t' : SoilTables)
    (ht : solveSoilOn ty p C w A (run [] (h ++ [supportCall e a])) 100 = some (.numbers t)) (e0 : t.error = 0)
    (first : OnFirstBranch w A C.elements.length (t.disp.map (·.2))) (q : ℤ) (hq : q ≠ 0) (r : ℝ × List ℝ) (hr : r ∈ t.reactions)
    (hrj : C.nodes[j]? = some r.1) (hrq : comp (place a).1 r = q)
    (ht' : solveSoilOn ty p C w A (run [] (h ++ [loadCall e a q])) 100 = some (.numbers t')) :
    t'.error = 0 ∧ t'.disp = t.disp ∧ t'.forces = t.forces ∧ t'.mob = t.mob ∧ t'.hbMob = t.hbMob ∧ t'.mbMob = t.mbMob ∧
      (∀ r', r'.1 ≠ r.1 → (r' ∈ t'.reactions ↔ r' ∈ t.reactions)) ∧
      (∀ r' ∈ t'.reactions, r'.1 = r.1 → comp (place a).1 r' = 0 ∧ ∀ b, b ≠ a → comp (place b).1 r' = comp (place b).1 r) ∧
      (∀ b, b ≠ a → 1 / 1000 < |comp (place b).1 r| → ∃ r' ∈ t'.reactions, r'.1 = r.1) := by
  obtain ⟨z, el, F, U, R, g, gU, gR, u, Q, tolSq, resSq, n1, hz, hanti, hel, hg, hgU, hgR, cF, cU, cR, hc, htab, er, p0⟩ :=
    soil_read' hp hm ht
  obtain ⟨z', el', F', U', R', g', gU', gR', u', Q', tolSq', resSq', -, hz', -, hel', hg', hgU', hgR', cF', cU', cR', hc', htab', er', p0'⟩ :=
    soil_read' hp hm ht'
  obtain rfl : z = z' := List.ofFn_injective (hz ▸ hz')
  obtain rfl := elementsOn_unique hel hel'
  obtain ⟨v, v1, mob, hb, mb⟩ := soil_read_mob hp hm ht
  obtain ⟨v', v1', mob', hb', mb'⟩ := soil_read_mob hp hm ht'
  obtain ⟨hF, hU, hR⟩ := read_left hz _ hg hgU hgR cF cU cR
  obtain ⟨hF', hU', hR'⟩ := read_left hz _ hg' hgU' hgR' cF' cU' cR'
  obtain ⟨T, y, t2, t3, t4, t5⟩ := tables_exact ty n1 z el u Q
  obtain ⟨T', y', t2', t3', t4', t5'⟩ := tables_exact ty n1 z el u' Q'
  rw [hz] at htab htab'
  obtain rfl : T = t.toTables := Option.some.inj (y.symm.trans htab)
  obtain rfl : T' = t'.toTables := Option.some.inj (y'.symm.trans htab')
  obtain rfl : u = v := by
    rw [t2, List.map_ofFn] at v1
    exact rows_injective v1
  obtain rfl : u' = v' := by
    rw [t2', List.map_ofFn] at v1'
    exact rows_injective v1'
  obtain rfl : resSq = 0 := (Real.sqrt_eq_zero p0).1 (er ▸ e0)
  have small : SmallMotions (springsOf w A C.elements.length) u := by
    obtain ⟨d, hd, hs⟩ := first
    rw [t2, List.map_ofFn] at hd
    exact rows_injective hd ▸ hs
  obtain ⟨B, hB, e1⟩ := linear_of hc small
  have hjl : j < C.nodes.length := (List.getElem?_eq_some_iff.1 hrj).1
  have hj' : j < C.elements.length + 1 := by
    rw [hz] at hjl
    simpa using hjl
  obtain ⟨k, rfl⟩ : ∃ k : Fin (C.elements.length + 1), k.1 = j := ⟨⟨j, hj'⟩, rfl⟩
  have hqK : (q : ℝ) ≠ 0 := Int.cast_ne_zero.2 hq
  obtain ⟨w1, w2, w3, w4, w5, w6, w7, w8⟩ := swapped h e (q : ℝ) hqK k hj a hs hF hU hR hF' hU' hR'
  have hst : storeInt (.num (q : ℝ)) = q := by simp [storeInt]
  rw [hst] at w2
  have hinj : Function.Injective z := hanti.injective
  have hr1 : r.1 = z k := by
    rw [hz, List.getElem?_ofFn, dif_pos k.2, Option.some.injEq] at hrj
    exact hrj.symm
  obtain ⟨i, hri⟩ : ∃ i, (z i, shown Q i) = r := by
    rw [t5, List.mem_filter, List.mem_ofFn] at hr
    exact hr.1
  have hik : i = k := by
    apply hinj
    rw [← hr1, ← hri]
  subst hik
  have hQk : Q (dof i (place a)) = q := by
    rw [← hri, comp_shown] at hrq
    exact mask_of_ne hqK hrq
  obtain ⟨Q2, g1, g2, g3⟩ := release _ F U F' U' _ (fun i => R' i || decide (U' i ≠ 0)) (dof i (place a)) u Q e1 w3
    (by rw [w1, w2, hQk, zero_add]) (fun _ _ => by rw [w4]) (fun l hl => by simp only [w8 l hl, w4]) (by simp [w4, w5, w7])
    (first_solved hB hc')
  have hfin : u' = u ∧ Q' = Q2 ∧ resSq' = 0 := by
    obtain ⟨c1, c2⟩ := NoModels.C60_linear_exactly ty el (springsOf w A C.elements.length) F' U' R' B u Q2 hB g1 small
    by_cases h0 : F' = 0 ∧ Q2 = 0
    · rw [c1 h0] at hc'
      cases hc'
    · obtain ⟨it, tol, -, hcc⟩ := c2 h0
      rw [hcc, Outcome.converged.injEq] at hc'
      exact ⟨hc'.1.symm, hc'.2.1.symm, hc'.2.2.2.2.symm⟩
  obtain ⟨rfl, rfl, rfl⟩ := hfin
  have hshown : ∀ l, l ≠ i → shown Q' l = shown Q l := by
    intro l hl
    have : ∀ c, Q' (dof l c) = Q (dof l c) := fun c => g2 _ (fun e => hl (congrArg Prod.fst (dof_injective (a₁ := (l, c)) (a₂ := (i, place a)) e)))
    unfold shown
    rw [this, this, this]
  have hbdir : ∀ b, b ≠ a → Q' (dof i (place b)) = Q (dof i (place b)) := by
    intro b hba
    apply g2
    intro e
    have : place b = place a := congrArg Prod.snd (dof_injective (a₁ := (i, place b)) (a₂ := (i, place a)) e)
    apply hba
    rw [← axisOf_place a, ← axisOf_place b, this]
  refine ⟨by rw [er', Real.sqrt_zero], t2'.trans t2.symm, ?_, Option.some.inj (mob'.symm.trans mob), Option.some.inj (hb'.symm.trans hb),
    Option.some.inj (mb'.symm.trans mb), ?_, ?_, ?_⟩
  · apply List.ext_getElem?
    intro l
    by_cases hl : l < 2 * C.elements.length
    · obtain ⟨m, hm⟩ : ∃ m, l = 2 * m ∨ l = 2 * m + 1 := ⟨l / 2, by omega⟩
      have hm' : m < C.elements.length := by omega
      obtain ⟨x1, x2⟩ := t4 ⟨m, hm'⟩
      obtain ⟨y1, y2⟩ := t4' ⟨m, hm'⟩
      rcases hm with rfl | rfl
      · rw [y1, x1]
      · rw [y2, x2]
    · rw [List.getElem?_eq_none (by omega), List.getElem?_eq_none (by omega)]
  · intro r' hr'
    rw [t5', t5, List.mem_filter, List.mem_filter]
    refine and_congr_left fun _ => ?_
    rw [List.mem_ofFn, List.mem_ofFn]
    constructor
    · rintro ⟨l, rfl⟩
      have hl : l ≠ i := by
        rintro rfl
        exact hr' hr1.symm
      exact ⟨l, by simp only [hshown l hl]⟩
    · rintro ⟨l, rfl⟩
      have hl : l ≠ i := by
        rintro rfl
        exact hr' hr1.symm
      exact ⟨l, by simp only [hshown l hl]⟩
  · intro r' hr' hz1
    rw [t5', List.mem_filter, List.mem_ofFn] at hr'
    obtain ⟨⟨l, rfl⟩, -⟩ := hr'
    have hl : l = i := hinj (by rw [← hr1]; exact hz1)
    subst hl
    refine ⟨?_, ?_⟩
    · rw [comp_shown, g3]
      simp [maskSmall]
    · intro b hba
      rw [← hri, comp_shown, comp_shown, hbdir b hba]
  · intro b hba hb0
    refine ⟨(z i, shown Q' i), ?_, hr1.symm⟩
    rw [t5', List.mem_filter]
    refine ⟨List.mem_ofFn.2 ⟨i, rfl⟩, ?_⟩
    rw [List.any_eq_true]
    rw [← hri, comp_shown, ← hbdir b hba] at hb0
    refine ⟨maskSmall (Q' (dof i (place b))), ?_, ?_⟩
    · generalize place b = c
      fin_cases c <;> simp [shown]
    · simpa using hb0

/-! ### an analysis that meets the hypotheses -/

open OpenPile.Props.SoilSupport (idx0 idx1 acceptedT stiffT readT)
open OpenPile.Props.Control (acts_head not_acts_head)

/-- The pile of one element in lateral springs, analysed with displacements up to 1 m and no rotation of the head. -/
theorem numbersS (bcs : List (Cond ℝ)) {g : Nodal ℤ} {gU : Nodal ℝ} {gR : Nodal Bool} {F U u Q : Fin (3 * 1 + 3) → ℝ}
    {R : Fin (3 * 1 + 3) → Bool} (h1 : globalForces meshS.nodes bcs = .ok g) (h2 : globalDisp meshS.nodes bcs = .ok gU)
    (h3 : globalRestrained meshS.nodes bcs = .ok gR) (h4 : asVec 1 ((dofList g).map (fun i : ℤ => (i : ℝ))) = some F)
    (h5 : asVec 1 (dofList gU) = some U) (h6 : asVec 1 (dofList gR) = some R)
    (hsol : solveEquations matS F U (fun i => R i || decide (U i ≠ 0)) = some (u, Q)) (hu : ∀ i, |u i| ≤ 1) (h0 : u 2 = 0)
    (hne : ¬ (F = 0 ∧ Q = 0)) :
    ∃ t, solveSoilOn .eulerBernoulli pileS meshS switchesS arraysS bcs 100 = some (.numbers t) ∧ t.error = 0 ∧
      SmallMotions (springsOf switchesS arraysS 1) u ∧
      t.disp = List.ofFn (fun j : Fin 2 => (![1, 0] j, u (dof j 0), u (dof j 1), u (dof j 2))) ∧
      t.reactions = (List.ofFn (fun j : Fin 2 => ((![1, 0] : Fin 2 → ℝ) j, shown Q j))).filter
        (fun r => r.2.any (fun q => decide (1 / 1000 < |q|))) := by
  obtain ⟨-, -, -, hel⟩ := readT
  obtain ⟨z1, z2, z3, z4⟩ := NoModels.zeros_sums
  have small : SmallMotions (springsOf switchesS arraysS 1) u := by
    refine ⟨⟨fun _ e b => .inr ⟨1, 1200, [], rfl, ?_, hu _⟩, fun _ _ _ => .inl z3, rfl, fun _ => .inl z2, fun _ => .inl z2, ?_⟩,
      fun h => by cases h⟩
    · simp [springsOf, arraysS, Asc]
    · refine fun _ => .inr ⟨[], 1, 10, 1, 10, [], rfl, rfl, rfl, ?_, rfl, ?_, ?_⟩
      · simp [springsOf, arraysS]
      · exact (abs_le.1 (hu _)).1
      · exact (abs_le.1 (hu _)).2
  obtain ⟨it, tol, -, hw⟩ := (NoModels.C60_linear_exactly .eulerBernoulli elS (springsOf switchesS arraysS 1) F U R matS _ _ initS hsol
    small).2 hne
  obtain ⟨T, t1, t2, -, -, t5⟩ := tables_exact .eulerBernoulli (le_refl 1) (![1, 0] : Fin 2 → ℝ) elS u Q
  have hn : meshS.nodes = List.ofFn (![1, 0] : Fin 2 → ℝ) := by simp [meshS]
  have hres : ∃ t, results .eulerBernoulli meshS.nodes elS (springsOf switchesS arraysS 1) u Q it tol 0 = some t ∧
      t.toTables = T ∧ t.error = 0 := by
    have hpy : pyStiffness [((0 : ℝ), (0 : ℝ)), (1, 1200)] .secant (u 1) = some 1200 := by
      rw [LinearRange.py_first _ _ (.inr ⟨1, 1200, [], rfl, by simp [Asc], hu 1⟩) .secant]
      simp [pyStiffness, curveStiffness, absQuot]
    have hrow : ∀ e : ℝ, ∃ r, mobRow e (u 1) 0 [((0 : ℝ), (0 : ℝ)), (1, 1200)]
        (([((0 : ℝ), (0 : ℝ)), (1, 1200)].map (·.2)).zip [[(0, 0)], [(0, 0)]]) 15 = some r := by
      intro e
      have hm : mtStiffness (([((0 : ℝ), (0 : ℝ)), (1, 1200)].map (·.2)).zip [[(0, 0)], [(0, 0)]]) 15
          (u 1 * 1200) .secant 0 = some 0 := by
        unfold mtStiffness
        simp
      unfold mobRow
      rw [hpy]
      simp only [Option.bind_eq_bind, Option.bind_some, hm]
      simp [maxOf]
    obtain ⟨r1, hr1⟩ := hrow 1
    have hmob : ∃ rows, springsMob (List.ofFn (![1, 0] : Fin 2 → ℝ)) (component u 1) (component u 2)
        (flat 1 (springsOf switchesS arraysS 1).py) (flat 1 (springsOf switchesS arraysS 1).mt) 15 = some rows := by
      have c1 : component u 1 = [u 1, u 4] := by simp [component]
      have c2 : component u 2 = [0, u 5] := by
        rw [← h0]
        simp [component]
      have c3 : List.ofFn (![1, 0] : Fin 2 → ℝ) = [1, 0] := by simp
      have f1 : flat 1 (springsOf switchesS arraysS 1).py = [[(0, 0), (1, 1200)], [(0, 0), (1, 1200)]] := by
        simp [flat, springsOf, arraysS]
      have f2 : flat 1 (springsOf switchesS arraysS 1).mt
          = [(([((0 : ℝ), (0 : ℝ)), (1, 1200)].map (·.2)).zip [[(0, 0)], [(0, 0)]]),
            (([((0 : ℝ), (0 : ℝ)), (1, 1200)].map (·.2)).zip [[(0, 0)], [(0, 0)]])] := by
        simp [flat, springsOf, arraysS]
      unfold springsMob
      rw [c1, c2, c3, f1, f2, two_nodes, two_nodes, two_nodes]
      simp only [Option.bind_eq_bind, Option.bind_some]
      refine ⟨[r1, r1], ?_⟩
      have hrange : List.range ([(1 : ℝ), 1].length) = [0, 1] := by decide
      rw [hrange]
      simp only [List.mapM_cons, List.mapM_nil, List.getElem?_cons_zero, List.getElem?_cons_succ, Option.bind_some, hr1,
        Option.bind_eq_bind, Option.pure_def]
    obtain ⟨rows, hmob⟩ := hmob
    have e1 : (springsOf switchesS arraysS 1).hb = zeros := rfl
    have e2 : (springsOf switchesS arraysS 1).mb = zeros := rfl
    have e3 : (springsOf switchesS arraysS 1).ncol = 15 := rfl
    unfold results
    rw [hn, t1]
    refine ⟨⟨T, rows, (0, 0), (0, 0), it, Real.sqrt 0, Real.sqrt tol⟩, ?_, rfl, Real.sqrt_zero⟩
    simp only [e3, hmob, e1, e2, NoModels.baseMob_zero, Option.bind_eq_bind, Option.bind_some]
    rfl
  obtain ⟨t, ht, e, e0⟩ := hres
  subst e
  exact ⟨t, solveSoilOn_of (C := meshS) h1 h2 h3 h4 h5 h6 hel hw ht, e0, small, t2, t5⟩

/-- Off-diagonal stiffness between the lateral displacements of head and tip. -/
noncomputable def offK : ℝ := -12 * ((elS 0).E * (elS 0).I) + 1080 / 7

theorem offK_range : offK ≤ -1 := by
  have hI : (elS 0).E * (elS 0).I = 210000000 * (Real.pi * (2 ^ 4 - (19 / 10) ^ 4) / 64) := by
    simp [elS, elemOf, Pile.steel, Pile.Section.inertia]
    ring
  unfold offK
  rw [hI]
  have := Real.two_le_pi
  nlinarith

/-- The tip moves by `δ`, the head stays. -/
def tipU (δ : ℝ) : Fin (3 * 1 + 3) → ℝ := ![0, 0, 0, 0, δ, 0]

theorem rowsU (δ : ℝ) : (matS *ᵥ tipU δ) 0 = 0 ∧ (matS *ᵥ tipU δ) 1 = offK * δ := by
  have hL : ∀ i, (elS i).L = 1 := fun i => rfl
  refine ⟨?_, ?_⟩
  · unfold matS soilStiffness
    simp [assemble, Kernel.place, baseMatrix, mulVec, dotProduct, Fin.sum_univ_succ, tipU, elemMatrix,
      mechMatrix, beamMatrix, pyMatrix, tzMatrix, mtMatrix, mtPattern, mtCoeffs, hL]
  · unfold matS soilStiffness offK
    simp [assemble, Kernel.place, baseMatrix, mulVec, dotProduct, Fin.sum_univ_succ, tipU, elemMatrix,
      mechMatrix, beamMatrix, pyMatrix, tzMatrix, mtMatrix, mtPattern, mtCoeffs, hL, phi, kappa]
    left
    ring

/-- Both ends held against rotation, the tip axially, the tip moved laterally by `δ`. -/
noncomputable def movedP (δ : ℝ) : List (Call ℝ) :=
  [.support 1 none none (some true), .support 0 none (some true) (some true), .pointdisplacement 0 (some δ) none none]

theorem silentU (δ : ℝ) (cls : Cls) : Silent meshS.nodes (movedP δ) cls 1 0 .y := by
  intro k hk _ hact
  simp only [movedP, List.mem_cons, List.not_mem_nil, or_false] at hk
  rcases hk with rfl | rfl | rfl
  · exact ⟨rfl, rfl⟩
  · exact absurd hact not_acts_head
  · exact absurd hact not_acts_head

theorem heldU (F U : Fin (3 * 1 + 3) → ℝ) (S : Fin (3 * 1 + 3) → Bool) (h2 : S 2 = true) (h3 : S 3 = true) (h4 : S 4 = true)
    (h5 : S 5 = true) : solveEquations matS F U S ≠ none := by
  refine ControlSoil.more_support (Superpose.build_symmetric initS) (fun v => le_trans
    (C19_nonneg_partial .eulerBernoulli elS (fun _ => ⟨(0, 0), (0, 0), (0, 0)⟩) 0 0 0 goodS
      ⟨fun _ => ⟨⟨le_rfl, le_rfl⟩, ⟨le_rfl, le_rfl⟩, ⟨le_rfl, le_rfl⟩, fun _ => .inl ⟨rfl, rfl⟩⟩, le_rfl, le_rfl, le_rfl⟩ v).2
    (SoilSupport.springs_add goodS (.inl rfl) initS v)) SoilSupport.loadT 0 F U SoilSupport.fixT S ?_ ?_
  · intro i hi
    fin_cases i
    · cases hi
    · cases hi
    · exact h2
    · exact h3
    · exact h4
    · exact h5
  · have := SoilSupport.solveT
    rw [SoilSupport.supT] at this
    rw [this]
    simp

/-- The head is held while the tip is moved: the reaction is 1 kN.  With a load of 1 kN instead of the support nothing changes. -/
example : ∃ δ t t' r, solveSoilOn .eulerBernoulli pileS meshS switchesS arraysS (run [] (movedP δ ++ [supportCall 1 .y])) 100
      = some (.numbers t) ∧
    solveSoilOn .eulerBernoulli pileS meshS switchesS arraysS (run [] (movedP δ ++ [loadCall 1 .y ((1 : ℤ) : ℝ)])) 100
      = some (.numbers t') ∧ δ ≠ 0 ∧ r ∈ t.reactions ∧ comp (place .y).1 r = 1 ∧ t'.disp = t.disp := by
  have hk := offK_range
  have k0 : offK ≠ 0 := by linarith
  set δ : ℝ := 1 / offK with hδ
  have d0 : δ ≠ 0 := one_div_ne_zero k0
  have d1 : |δ| ≤ 1 := by
    rw [hδ, abs_div, abs_one, div_le_one (abs_pos.2 k0)]
    rw [abs_of_neg (by linarith)]
    linarith
  obtain ⟨w0, w1⟩ := rowsU δ
  have w1 : (matS *ᵥ tipU δ) 1 = 1 := by
    rw [w1, hδ]
    field_simp
  have hrun : run [] (movedP δ ++ [supportCall 1 .y]) = [⟨.fixation, 1, some (.flag true), some (.flag true), none⟩,
      ⟨.fixation, 0, some (.flag true), none, some (.flag true)⟩, ⟨.displacement, 0, none, some (.num δ), none⟩] := by
    simp [run, movedP, supportCall, BC.step, setPointdisplacement, setSupport, updateBc, Cond.isAt, Cond.overwrite]
  have hrun' : run [] (movedP δ ++ [loadCall 1 .y ((1 : ℤ) : ℝ)]) = [⟨.fixation, 1, some (.flag true), none, none⟩,
      ⟨.fixation, 0, some (.flag true), none, some (.flag true)⟩, ⟨.displacement, 0, none, some (.num δ), none⟩,
      ⟨.force, 1, none, some (.num 1), none⟩] := by
    simp [run, movedP, loadCall, BC.step, setPointdisplacement, setSupport, setPointload, updateBc, Cond.isAt]
  have vU : asVec 1 (dofList (⟨[0, 0], [0, δ], [0, 0]⟩ : Nodal ℝ)) = some (tipU δ) := by
    unfold asVec dofList
    rw [dif_pos (by simp)]
    congr 1
    funext i
    fin_cases i <;> simp [tipU]
  have hu : ∀ i, |tipU δ i| ≤ 1 := by
    intro i
    fin_cases i <;> simp [tipU, d1]
  -- the support
  have a1 : globalForces meshS.nodes (run [] (movedP δ ++ [supportCall 1 .y])) = .ok ⟨[0, 0], [0, 0], [0, 0]⟩ := by
    unfold globalForces
    rw [C13_histories_never_raise, hrun]
    simp [meshS, applyBc, applyOne]
  have a2 : globalDisp meshS.nodes (run [] (movedP δ ++ [supportCall 1 .y])) = .ok ⟨[0, 0], [0, δ], [0, 0]⟩ := by
    unfold globalDisp
    rw [C13_histories_never_raise, hrun]
    simp [meshS, applyBc, applyOne, idx0, writeAxis, Val.truthy, storeFloat, d0]
  have a3 : globalRestrained meshS.nodes (run [] (movedP δ ++ [supportCall 1 .y]))
      = .ok ⟨[true, true], [true, false], [false, true]⟩ := by
    unfold globalRestrained
    rw [C13_histories_never_raise, hrun]
    simp [meshS, applyBc, applyOne, idx0, idx1, writeAxis, Val.truthy, storeBool]
  have a4 : asVec 1 ((dofList (⟨[0, 0], [0, 0], [0, 0]⟩ : Nodal ℤ)).map (fun i : ℤ => (i : ℝ))) = some 0 := by
    unfold asVec dofList
    rw [dif_pos (by simp)]
    congr 1
    funext i
    fin_cases i <;> simp
  have a6 : asVec 1 (dofList (⟨[true, true], [true, false], [false, true]⟩ : Nodal Bool))
      = some ![false, true, true, true, false, true] := by
    unfold asVec dofList
    rw [dif_pos (by simp)]
    congr 1
    funext i
    fin_cases i <;> simp
  have s1 := Solve.solve_eq_some matS 0 (tipU δ)
    (fun i => (![false, true, true, true, false, true] : Fin (3 * 1 + 3) → Bool) i || decide (tipU δ i ≠ 0))
    (heldU _ _ _ rfl rfl (by simp [tipU, d0]) rfl) (tipU δ) (by
      intro i hi
      fin_cases i
      · exact w0
      all_goals simp [tipU, d0] at hi) (fun _ _ => rfl)
  obtain ⟨t, ht, he, hs, td, tr⟩ := numbersS _ a1 a2 a3 a4 vU a6 s1 hu rfl (by
    rintro ⟨-, h⟩
    have := congrFun h 1
    simp [w1] at this)
  -- the load
  have b1 : globalForces meshS.nodes (run [] (movedP δ ++ [loadCall 1 .y ((1 : ℤ) : ℝ)])) = .ok ⟨[0, 0], [1, 0], [0, 0]⟩ := by
    unfold globalForces
    rw [C13_histories_never_raise, hrun']
    simp [meshS, applyBc, applyOne, idx1, writeAxis, Val.truthy, storeInt]
  have b2 : globalDisp meshS.nodes (run [] (movedP δ ++ [loadCall 1 .y ((1 : ℤ) : ℝ)])) = .ok ⟨[0, 0], [0, δ], [0, 0]⟩ := by
    unfold globalDisp
    rw [C13_histories_never_raise, hrun']
    simp [meshS, applyBc, applyOne, idx0, writeAxis, Val.truthy, storeFloat, d0]
  have b3 : globalRestrained meshS.nodes (run [] (movedP δ ++ [loadCall 1 .y ((1 : ℤ) : ℝ)]))
      = .ok ⟨[true, true], [false, false], [false, true]⟩ := by
    unfold globalRestrained
    rw [C13_histories_never_raise, hrun']
    simp [meshS, applyBc, applyOne, idx0, idx1, writeAxis, Val.truthy, storeBool]
  have b4 : asVec 1 ((dofList (⟨[0, 0], [1, 0], [0, 0]⟩ : Nodal ℤ)).map (fun i : ℤ => (i : ℝ))) = some ![0, 1, 0, 0, 0, 0] := by
    unfold asVec dofList
    rw [dif_pos (by simp)]
    congr 1
    funext i
    fin_cases i <;> simp
  have b6 : asVec 1 (dofList (⟨[true, true], [false, false], [false, true]⟩ : Nodal Bool))
      = some ![false, false, true, true, false, true] := by
    unfold asVec dofList
    rw [dif_pos (by simp)]
    congr 1
    funext i
    fin_cases i <;> simp
  have s2 := Solve.solve_eq_some matS ![0, 1, 0, 0, 0, 0] (tipU δ)
    (fun i => (![false, false, true, true, false, true] : Fin (3 * 1 + 3) → Bool) i || decide (tipU δ i ≠ 0))
    (heldU _ _ _ rfl rfl (by simp [tipU, d0]) rfl) (tipU δ) (by
      intro i hi
      fin_cases i
      · exact w0
      · exact w1
      all_goals simp [tipU, d0] at hi) (fun _ _ => rfl)
  obtain ⟨t', ht', -, -, -, -⟩ := numbersS _ b1 b2 b3 b4 vU b6 s2 hu rfl (by
    rintro ⟨h, -⟩
    have := congrFun h 1
    simp at this)
  have hcomp : comp (place .y).1 ((1 : ℝ), shown (fun i => (matS *ᵥ tipU δ) i - (0 : Fin (3 * 1 + 3) → ℝ) i) (0 : Fin 2)) = ((1 : ℤ) : ℝ) := by
    rw [comp_shown]
    show maskSmall ((matS *ᵥ tipU δ) 1 - 0) = _
    rw [w1]
    norm_num [maskSmall]
  have hmem : ((1 : ℝ), shown (fun i => (matS *ᵥ tipU δ) i - (0 : Fin (3 * 1 + 3) → ℝ) i) (0 : Fin 2)) ∈ t.reactions := by
    rw [tr, List.mem_filter]
    refine ⟨List.mem_ofFn.2 ⟨0, rfl⟩, ?_⟩
    rw [List.any_eq_true]
    refine ⟨maskSmall ((matS *ᵥ tipU δ) 1 - 0), by simp [shown, dof], ?_⟩
    rw [w1]
    norm_num [maskSmall]
  obtain ⟨-, hd, -⟩ := C104_soil_partial .eulerBernoulli pileS 1 0 stackS meshS meshOnS switchesS arraysS (movedP δ) 1 0 acts_head .y
    (silentU δ) t t' ht he ⟨tipU δ, by rw [td, List.map_ofFn]; rfl, hs⟩ 1 one_ne_zero _ hmem rfl hcomp ht'
  exact ⟨δ, t, t', _, ht, ht', d0, hmem, by rw [hcomp]; norm_num, hd⟩

end OpenPile.Props.ReleaseSoil

/-
C85 with soil: load control and displacement control agree.

`winkler.py` 502-637 (`winkler`), `kernel.py` 717-787 (stiffness) and 790-852 (`solve_equations`), from the tables of results.
While every spring stays on its first branch, the load at a node may be exchanged for the displacement it caused.
-/
import Verif.Props.Control
import Verif.Props.Towards

namespace OpenPile.Props.ControlSoil
open OpenPile.SoilAnalysis OpenPile.Analysis OpenPile.BC OpenPile.Mesh OpenPile.Kernel OpenPile.Winkler OpenPile.Spring
  OpenPile.Result OpenPile.Assemble OpenPile.Props.SoilAnalysis OpenPile.Props.Analysis OpenPile.Props.SoilTables
  OpenPile.Spec.Kernel OpenPile.Props.Beam OpenPile.Props.Balance OpenPile.Props.Element OpenPile.Props.LinearRange
open OpenPile.Props.Reported (shown tables_exact elementsOn_unique comp)
open OpenPile.Props.Solve (C15_solution C15_fails_iff solve_eq_some)
open OpenPile.Props.BC OpenPile.Spec.BC
open OpenPile.Props.Compliance (Accepted good_of_accepted)
open OpenPile.Props.Control (listed place axisOf_place place_axisOf Exchanged column loadCall dispCall Silent exchanged_calls)
open OpenPile.Props.SoilSupport (MomentRows springs_add)
open OpenPile.Props.Superpose (OnFirstBranch soil_read' rows_injective linear_of build_symmetric)
open OpenPile.Props.Towards (no_resistance)
open Matrix

/-- One more support keeps a matrix without negative energy solvable. -/
theorem more_support {n : ℕ} {B : Matrix (Fin n) (Fin n) ℝ} (hB : Bᵀ = B) (hpos : ∀ v, 0 ≤ energy B v) (F U F' U' : Fin n → ℝ)
    (S S' : Fin n → Bool) (hS : ∀ i, S i = true → S' i = true) (h : solveEquations B F U S ≠ none) :
    solveEquations B F' U' S' ≠ none := by
  intro h'
  obtain ⟨v, v0, v1, v2⟩ := (C15_fails_iff _ _ _ _).1 h'
  refine h ((C15_fails_iff _ _ _ _).2 ⟨v, v0, fun i hi => v1 i (hS i hi), fun i _ => ?_⟩)
  have h0 : energy B v = 0 := by
    unfold energy work
    rw [dotProduct]
    refine Finset.sum_eq_zero fun i _ => ?_
    rcases hi : S' i with _ | _
    · rw [v2 i hi, mul_zero]
    · rw [v1 i hi, zero_mul]
  rw [no_resistance hB hpos h0]
  rfl

/-- The exchange of a load for its displacement in the equations. -/
theorem exchange {n : ℕ} {B : Matrix (Fin n) (Fin n) ℝ} (hB : Bᵀ = B) (hpos : ∀ v, 0 ≤ energy B v)
    (F U F' U' : Fin n → ℝ) (S S' : Fin n → Bool) (k : Fin n) (u Q : Fin n → ℝ)
    (h : solveEquations B F U S = some (u, Q)) (hk : S k = false)
    (hF : ∀ i, i ≠ k → F' i = F i) (hF' : F' k = 0) (hU : ∀ i, i ≠ k → U' i = U i) (hU' : U' k = u k)
    (hS : ∀ i, i ≠ k → S' i = S i) (hS' : S' k = true) :
    ∃ Q', solveEquations B F' U' S' = some (u, Q') ∧ (∀ i, i ≠ k → Q' i = Q i) ∧ Q k = 0 ∧ Q' k = F k := by
  obtain ⟨a1, a2, a3, -⟩ := C15_solution _ _ _ _ _ _ h
  have hne : solveEquations B F' U' S' ≠ none := by
    refine more_support hB hpos F U F' U' S S' ?_ (by rw [h]; simp)
    intro i hi
    by_cases e : i = k
    · rw [e]
      exact hS'
    · rw [hS i e]
      exact hi
  refine ⟨_, solve_eq_some _ F' U' S' hne u ?_ ?_, ?_, (a1 k hk).2, ?_⟩
  · intro i hi
    have e : i ≠ k := by
      rintro rfl
      rw [hS'] at hi
      cases hi
    rw [hF i e]
    exact (a1 i (by rw [← hS i e]; exact hi)).1
  · intro i hi
    by_cases e : i = k
    · rw [e, hU']
    · rw [hU i e]
      exact a2 i (by rw [← hS i e]; exact hi)
  · intro i e
    rw [hF i e, ← a3]
    ring
  · rw [hF', sub_zero]
    exact (a1 k hk).1

/-- **C85, with soil.** An analysis with soil of an accepted pile ends without out-of-balance force at displacements where every spring
is on its first branch; it lists the displacement `w ≠ 0` at node `j` in direction `a`, where the load `q` acts.  In a second analysis
that load is taken away and `w` is prescribed.  The second analysis ends without out-of-balance force after two or three passes;
displacements, section forces and mobilised springs are the same; the reactions at the other nodes are the same; at node `j`
the load `q` is listed as the reaction in direction `a`, beside the reactions that were listed there in the other directions.  Partial:
only the first branches; rotational springs along the shaft only with Euler-Bernoulli elements. -/
theorem C85_soil_partial (ty : ElementType) (p : Pile.Pile ℝ) (top tip : ℝ) (hp : Accepted ty p top tip) (C : Coordinates ℝ)
    (h : MeshOn p top tip C) (w : Switches) (A : Arrays)
    (hty : w.distributedMoment = false ∨ (ty = .eulerBernoulli ∧ MomentRows A C.elements.length)) (bcs bcs' : List (Cond ℝ))
    (hv' : ∀ cls, validateBc bcs' cls = .ok ()) (t : SoilTables) (ht : solveSoilOn ty p C w A bcs 100 = some (.numbers t))
    (e0 : t.error = 0) (first : OnFirstBranch w A C.elements.length (t.disp.map (·.2)))
    (j : ℕ) (a : Axis) (q : ℤ) (row : ℝ × ℝ × ℝ × ℝ) (hrow : t.disp[j]? = some row) (hw : listed row a ≠ 0)
    (hex : Exchanged C.nodes bcs bcs' j a q (listed row a)) :
    ∃ t', solveSoilOn ty p C w A bcs' 100 = some (.numbers t') ∧ t'.error = 0 ∧ (t'.iterations = 2 ∨ t'.iterations = 3) ∧
      t'.disp = t.disp ∧ t'.forces = t.forces ∧ t'.mob = t.mob ∧ t'.hbMob = t.hbMob ∧ t'.mbMob = t.mbMob ∧
      (∀ r, r.1 ≠ row.1 → (r ∈ t'.reactions ↔ r ∈ t.reactions)) ∧
      (q = 0 → t'.reactions = t.reactions) ∧
      (q ≠ 0 → ∃ r' ∈ t'.reactions, r'.1 = row.1 ∧ comp (place a).1 r' = q ∧
        ∀ r ∈ t.reactions, r.1 = row.1 → ∀ b, b ≠ a → comp (place b).1 r' = comp (place b).1 r) := by
  obtain ⟨z, el, F, U, R, g, gU, gR, u, Q, tolSq, resSq, n1, hz, hanti, hel, hg, hgU, hgR, cF, cU, cR, hs, htab, er, p0⟩ :=
    soil_read' hp.stack h ht
  obtain ⟨-, -, -, el₂, u₂, Q₂, -, -, -, -, -, -, -, htab₂, mob, hb, mb, -, -⟩ := solveSoilOn_numbers (by norm_num) ht
  obtain ⟨z', el', F', U', R', -, hanti', -, -, -, hel', lF, lU, lR, hz', ⟨g', hg', vF⟩, ⟨gU', hgU', vU⟩, ⟨gR', hgR', vR⟩, hall⟩ :=
    read_eq Real.pi hp.stack h bcs' hv'
  obtain rfl : z = z' := List.ofFn_injective (hz ▸ hz')
  obtain rfl := elementsOn_unique hel hel'
  have hgood := good_of_accepted Real.pi_pos hp hanti hel
  obtain ⟨T, y, t2, t3, t4, t5⟩ := tables_exact ty n1 z el u Q
  obtain ⟨T₂, y₂, s2, -⟩ := tables_exact ty n1 z el₂ u₂ Q₂
  rw [hz] at htab htab₂
  obtain rfl : T = t.toTables := Option.some.inj (y.symm.trans htab)
  obtain rfl : T₂ = t.toTables := Option.some.inj (y₂.symm.trans htab₂)
  obtain rfl : u = u₂ := by
    have := congrArg (List.map (·.2)) (t2.symm.trans s2)
    rw [List.map_ofFn, List.map_ofFn] at this
    exact rows_injective this
  clear htab₂ y₂ s2
  obtain rfl : resSq = 0 := (Real.sqrt_eq_zero p0).1 (er ▸ e0)
  have small : SmallMotions (springsOf w A C.elements.length) u := by
    obtain ⟨d, hd, hs⟩ := first
    rw [t2, List.map_ofFn] at hd
    exact rows_injective hd ▸ hs
  obtain ⟨B, hB, hlin⟩ := linear_of hs small
  have hj : j < C.elements.length + 1 := by
    have := (List.getElem?_eq_some_iff.1 hrow).1
    rw [t2] at this
    simpa using this
  obtain ⟨k, rfl⟩ : ∃ k : Fin (C.elements.length + 1), k.1 = j := ⟨⟨j, hj⟩, rfl⟩
  have hrow' : row = (z k, u (dof k 0), u (dof k 1), u (dof k 2)) := by
    rw [t2, List.getElem?_ofFn, dif_pos k.2, Option.some.injEq] at hrow
    exact hrow.symm
  have hlist : listed row a = u (dof k (place a)) := by
    rw [hrow']
    cases a <;> rfl
  have hr1 : row.1 = z k := by rw [hrow']
  set d := place a with hd
  have had : axisOf d = a := axisOf_place a
  -- entries of the columns
  have hlen : ∀ i : Fin (C.elements.length + 1), i.1 < C.nodes.length := by
    intro i
    rw [hz, List.length_ofFn]
    exact i.2
  have eF : ∀ (c : Fin 3) (i : Fin (C.elements.length + 1)), ((g.get (axisOf c))[i.1]?).map (fun x : ℤ => (x : ℝ))
      = some (F (dof i c)) := by
    intro c i
    rw [← List.getElem?_map, cF, List.getElem?_ofFn, dif_pos i.2]
  have eF' : ∀ (c : Fin 3) (i : Fin (C.elements.length + 1)), ((g'.get (axisOf c))[i.1]?).map (fun x : ℤ => (x : ℝ))
      = some (F' (dof i c)) := by
    intro c i
    have hg := hg'
    unfold globalForces at hg
    rw [hv'] at hg
    cases hg
    rw [column, if_pos (hlen i), lF, hz]
    rfl
  have eU : ∀ (c : Fin 3) (i : Fin (C.elements.length + 1)), (gU.get (axisOf c))[i.1]? = some (U (dof i c)) := by
    intro c i
    rw [cU, List.getElem?_ofFn, dif_pos i.2]
  have eU' : ∀ (c : Fin 3) (i : Fin (C.elements.length + 1)), (gU'.get (axisOf c))[i.1]? = some (U' (dof i c)) := by
    intro c i
    have hg := hgU'
    unfold globalDisp at hg
    rw [hv'] at hg
    cases hg
    rw [column, if_pos (hlen i), lU, hz]
  have eR : ∀ (c : Fin 3) (i : Fin (C.elements.length + 1)), (gR.get (axisOf c))[i.1]? = some (R (dof i c)) := by
    intro c i
    rw [cR, List.getElem?_ofFn, dif_pos i.2]
  have eR' : ∀ (c : Fin 3) (i : Fin (C.elements.length + 1)), (gR'.get (axisOf c))[i.1]? = some (R' (dof i c)) := by
    intro c i
    have hg := hgR'
    unfold globalRestrained at hg
    rw [hv'] at hg
    cases hg
    rw [column, if_pos (hlen i), lR, hz]
  obtain ⟨l1, l2, l3⟩ := hex.loads g g' hg hg'
  obtain ⟨m1, m2, m3⟩ := hex.displacements gU gU' hgU hgU'
  obtain ⟨s1, s2⟩ := hex.supports gR gR' hgR hgR'
  subst s2
  have hFk : F (dof k d) = q := by
    have := eF d k
    rw [had, l1, Option.map_some, Option.some.injEq] at this
    exact this.symm
  have hFk' : F' (dof k d) = 0 := by
    have := eF' d k
    rw [had, l2, Option.map_some, Option.some.injEq, Int.cast_zero] at this
    exact this.symm
  have hUk : U (dof k d) = 0 := by
    have := eU d k
    rw [had, m1, Option.some.injEq] at this
    exact this.symm
  have hUk' : U' (dof k d) = u (dof k d) := by
    have := eU' d k
    rw [had, m2, Option.some.injEq] at this
    rw [← this, hlist]
  have hRk : R (dof k d) = false := by
    have := eR d k
    rw [had, s1, Option.some.injEq] at this
    exact this.symm
  have hother : ∀ (i : Fin (C.elements.length + 1)) (c : Fin 3), dof i c ≠ dof k d → ¬ (axisOf c = a ∧ i.1 = k.1) := by
    rintro i c hne ⟨h1, h2⟩
    apply hne
    rw [Fin.ext h2, hd, ← h1, place_axisOf]
  have hFo : ∀ i, i ≠ dof k d → F' i = F i := by
    intro i hi
    obtain ⟨i, c, rfl⟩ := dof_surjective i
    have e1 := eF c i
    have e2 := eF' c i
    rw [l3 _ _ (hother i c hi), e1, Option.some.injEq] at e2
    exact e2.symm
  have hUo : ∀ i, i ≠ dof k d → U' i = U i := by
    intro i hi
    obtain ⟨i, c, rfl⟩ := dof_surjective i
    have e1 := eU c i
    have e2 := eU' c i
    rw [m3 _ _ (hother i c hi), e1, Option.some.injEq] at e2
    exact e2.symm
  have hRo : R' = R := by
    funext i
    obtain ⟨i, c, rfl⟩ := dof_surjective i
    have e1 := eR c i
    rw [eR' c i, Option.some.injEq] at e1
    exact e1
  subst hRo
  have hpos : ∀ v, 0 ≤ energy B v := fun v => le_trans
    (C19_nonneg_partial ty el (fun _ => ⟨(0, 0), (0, 0), (0, 0)⟩) 0 0 0 hgood
      ⟨fun _ => ⟨⟨le_rfl, le_rfl⟩, ⟨le_rfl, le_rfl⟩, ⟨le_rfl, le_rfl⟩, fun _ => .inl ⟨rfl, rfl⟩⟩, le_rfl, le_rfl, le_rfl⟩ v).2
    (springs_add hgood hty hB v)
  obtain ⟨Q', hsol, q1, q2, q3⟩ := exchange (build_symmetric hB) hpos F U F' U' _ (fun i => R' i || decide (U' i ≠ 0)) (dof k d) u Q
    hlin (by simp [hRk, hUk]) hFo hFk' hUo hUk' (fun i hi => by simp only [hUo i hi])
    (by
      rw [hUk']
      rw [hlist] at hw
      simp [hw])
  have hne : ¬ (F' = 0 ∧ Q' = 0) := by
    rintro ⟨f0, q0⟩
    have hF0 : F = 0 := by
      funext i
      by_cases e : i = dof k d
      · rw [e, ← q3, q0]
      · rw [← hFo i e, f0]
    have hQ0 : Q = 0 := by
      funext i
      by_cases e : i = dof k d
      · rw [e, q2]
        rfl
      · rw [← q1 i e, q0]
    have := (NoModels.C60_linear_exactly ty el (springsOf w A C.elements.length) F U R' B u Q hB hlin small).1 ⟨hF0, hQ0⟩
    rw [this] at hs
    cases hs
  obtain ⟨it, tol, hit, hc⟩ := (NoModels.C60_linear_exactly ty el (springsOf w A C.elements.length) F' U' R' B u Q' hB hsol small).2 hne
  rw [hFk] at q3
  obtain ⟨T', y', t2', t3', t4', t5'⟩ := tables_exact ty n1 z el u Q'
  have hres : results ty C.nodes el (springsOf w A C.elements.length) u Q' it tol 0
      = some ⟨T', t.mob, t.hbMob, t.mbMob, it, Real.sqrt 0, Real.sqrt tol⟩ := by
    unfold results
    rw [hz, y']
    rw [hz] at mob
    simp only [Option.bind_eq_bind, Option.bind_some]
    erw [mob, hb, mb]
    rfl
  have hinj : Function.Injective z := hanti.injective
  have hshown : ∀ i, i ≠ k → shown Q' i = shown Q i := by
    intro i hi
    have : ∀ c, Q' (dof i c) = Q (dof i c) := fun c => q1 _ (fun e => hi (congrArg Prod.fst (dof_injective (a₁ := (i, c)) (a₂ := (k, d)) e)))
    unfold shown
    rw [this, this, this]
  refine ⟨_, solveSoilOn_of hg' hgU' hgR' vF vU vR hall hc hres, Real.sqrt_zero, hit, t2'.trans t2.symm, ?_, rfl, rfl, rfl, ?_, ?_, ?_⟩
  all_goals simp only
  · apply List.ext_getElem?
    intro i
    by_cases hi : i < 2 * C.elements.length
    · obtain ⟨m, hm⟩ : ∃ m, i = 2 * m ∨ i = 2 * m + 1 := ⟨i / 2, by omega⟩
      have hm' : m < C.elements.length := by omega
      obtain ⟨x1, x2⟩ := t4 ⟨m, hm'⟩
      obtain ⟨y1, y2⟩ := t4' ⟨m, hm'⟩
      rcases hm with rfl | rfl
      · rw [y1, x1]
      · rw [y2, x2]
    · rw [List.getElem?_eq_none (by omega), List.getElem?_eq_none (by omega)]
  · intro r hr
    rw [t5', t5, List.mem_filter, List.mem_filter]
    refine and_congr_left fun _ => ?_
    rw [List.mem_ofFn, List.mem_ofFn]
    constructor
    · rintro ⟨i, rfl⟩
      have hi : i ≠ k := by
        rintro rfl
        exact hr hr1.symm
      exact ⟨i, by simp only [hshown i hi]⟩
    · rintro ⟨i, rfl⟩
      have hi : i ≠ k := by
        rintro rfl
        exact hr hr1.symm
      exact ⟨i, by simp only [hshown i hi]⟩
  · intro hq
    have : Q' = Q := by
      funext i
      by_cases e : i = dof k d
      · rw [e, q3, q2, hq, Int.cast_zero]
      · exact q1 i e
    rw [t5', t5, this]
  · intro hq
    have hbig : 1 ≤ |(q : ℝ)| := by
      rw [← Int.cast_abs, ← Int.cast_one, Int.cast_le]
      exact Int.one_le_abs hq
    have hmask : maskSmall (q : ℝ) = q := by
      unfold maskSmall
      rw [if_neg]
      rw [not_lt]
      refine le_trans ?_ hbig
      norm_num
    have hcomp : ∀ (P : Fin (3 * C.elements.length + 3) → ℝ) (c : Fin 3), comp c.1 (z k, shown P k) = maskSmall (P (dof k c)) := by
      intro P c
      fin_cases c <;> rfl
    refine ⟨(z k, shown Q' k), ?_, hr1.symm, ?_, ?_⟩
    · rw [t5', List.mem_filter]
      refine ⟨List.mem_ofFn.2 ⟨k, rfl⟩, ?_⟩
      rw [List.any_eq_true]
      refine ⟨maskSmall (Q' (dof k d)), ?_, ?_⟩
      · generalize d = c
        fin_cases c <;> simp [shown]
      · rw [q3, hmask, decide_eq_true_eq]
        refine lt_of_lt_of_le ?_ hbig
        norm_num
    · rw [hcomp, q3, hmask]
    · intro r hr hrz b hba
      rw [t5, List.mem_filter, List.mem_ofFn] at hr
      obtain ⟨⟨i, rfl⟩, -⟩ := hr
      have hi : i = k := hinj (by rw [← hr1]; exact hrz)
      subst hi
      rw [hcomp, hcomp, q1]
      intro e
      have : place b = d := congrArg Prod.snd (dof_injective (a₁ := (i, place b)) (a₂ := (i, d)) e)
      rw [hd] at this
      apply hba
      rw [← axisOf_place a, ← axisOf_place b, this]

/-- **C85, with soil, from the public calls.** After any history of calls that says nothing about direction `a` at node `j`, the call
`set_pointload` with a load of `q` (a whole number) leads to the displacement `listed row a ≠ 0` at that node, without error and with
every spring on its first branch; the call `set_pointdisplacement` with that displacement instead leads to the same displacements,
section forces and mobilised springs, and to the reaction `q`.  Partial: as `C85_soil_partial`. -/
theorem C85_soil_calls_partial (ty : ElementType) (p : Pile.Pile ℝ) (top tip : ℝ) (hp : Accepted ty p top tip) (C : Coordinates ℝ)
    (hm : MeshOn p top tip C) (w : Switches) (A : Arrays)
    (hty : w.distributedMoment = false ∨ (ty = .eulerBernoulli ∧ MomentRows A C.elements.length)) (h : List (Call ℝ)) (e : ℝ) (j : ℕ)
    (hj : ActsAt C.nodes e j) (a : Axis) (q : ℤ) (hq : q ≠ 0) (hs : ∀ cls, Silent C.nodes h cls e j a) (t : SoilTables)
    (ht : solveSoilOn ty p C w A (run [] (h ++ [loadCall e a q])) 100 = some (.numbers t)) (e0 : t.error = 0)
    (first : OnFirstBranch w A C.elements.length (t.disp.map (·.2))) (row : ℝ × ℝ × ℝ × ℝ)
    (hrow : t.disp[j]? = some row) (hw : listed row a ≠ 0) :
    ∃ t', solveSoilOn ty p C w A (run [] (h ++ [dispCall e a (listed row a)])) 100 = some (.numbers t') ∧ t'.error = 0 ∧
      t'.disp = t.disp ∧ t'.forces = t.forces ∧ t'.mob = t.mob ∧ t'.hbMob = t.hbMob ∧ t'.mbMob = t.mbMob ∧
      (∀ r, r.1 ≠ row.1 → (r ∈ t'.reactions ↔ r ∈ t.reactions)) ∧
      ∃ r' ∈ t'.reactions, r'.1 = row.1 ∧ comp (place a).1 r' = q ∧
        ∀ r ∈ t.reactions, r.1 = row.1 → ∀ b, b ≠ a → comp (place b).1 r' = comp (place b).1 r := by
  obtain ⟨t', t1, t2, -, t3, t4, t5, t6, t7, t8, -, t9⟩ := C85_soil_partial ty p top tip hp C hm w A hty _ _
    (C13_histories_never_raise (h ++ [dispCall e a (listed row a)])) t ht e0 first j a q row hrow hw
    (exchanged_calls C.nodes h e j hj a q hq (listed row a) hw hs)
  exact ⟨t', t1, t2, t3, t4, t5, t6, t7, t8, t9 hq⟩

/-! ### an analysis that meets the hypotheses -/

open OpenPile.Props.SoilSupport (acceptedT headT headT_range idx0 idx1)
open OpenPile.Props.Superpose (caseP solvedP readP branchP)
open OpenPile.Props.Control (acts_head not_acts_head)

/-- Held at the tip and against rotation at the head. -/
noncomputable def heldP : List (Call ℝ) := [.support 1 none none (some true), .support 0 (some true) (some true) (some true)]

theorem silentP (cls : Cls) : Silent meshS.nodes heldP cls 1 0 .y := by
  intro k hk _ hact
  simp only [heldP, List.mem_cons, List.not_mem_nil, or_false] at hk
  rcases hk with rfl | rfl
  · exact ⟨rfl, rfl⟩
  · exact absurd hact not_acts_head

/-- A load at the head of a pile in soil, and the displacement it causes prescribed there instead: the reaction is the load. -/
example (P : ℤ) (h0 : 0 < P) (h1 : P ≤ 60) :
    ∃ t t' row, solveSoilOn .eulerBernoulli pileS meshS switchesS arraysS (run [] (heldP ++ [loadCall 1 .y (P : ℝ)])) 100
        = some (.numbers t) ∧ t.disp[0]? = some row ∧ listed row .y ≠ 0 ∧
      solveSoilOn .eulerBernoulli pileS meshS switchesS arraysS (run [] (heldP ++ [dispCall 1 .y (listed row .y)])) 100
        = some (.numbers t') ∧ t'.disp = t.disp ∧ ∃ r' ∈ t'.reactions, comp (place .y).1 r' = P := by
  obtain ⟨t, ht, hd, he⟩ := solvedP P h0 h1
  obtain ⟨g1, g2, g3⟩ := readP P h0.ne'
  obtain ⟨r0, r1⟩ := headT_range
  have hP0 : (0 : ℝ) < P := by exact_mod_cast h0
  have hP1 : (P : ℝ) ≤ 60 := by exact_mod_cast h1
  have hrun : run [] (heldP ++ [loadCall 1 .y (P : ℝ)]) = [⟨.fixation, 1, some (.flag true), none, none⟩,
      ⟨.fixation, 0, some (.flag true), some (.flag true), some (.flag true)⟩, ⟨.force, 1, none, some (.num P), none⟩] := by
    simp [run, heldP, loadCall, BC.step, setPointload, setSupport, updateBc, Cond.isAt]
  have e1 : globalForces meshS.nodes (run [] (heldP ++ [loadCall 1 .y (P : ℝ)])) = globalForces meshS.nodes (caseP P) := by
    rw [g1]
    unfold globalForces
    rw [C13_histories_never_raise, hrun]
    simp [meshS, applyBc, applyOne, idx1, writeAxis, Val.truthy, storeInt, h0.ne']
  have e2 : globalDisp meshS.nodes (run [] (heldP ++ [loadCall 1 .y (P : ℝ)])) = globalDisp meshS.nodes (caseP P) := by
    rw [g2]
    unfold globalDisp
    rw [C13_histories_never_raise, hrun]
    simp [meshS, applyBc, applyOne]
  have e3 : globalRestrained meshS.nodes (run [] (heldP ++ [loadCall 1 .y (P : ℝ)])) = globalRestrained meshS.nodes (caseP P) := by
    rw [g3]
    unfold globalRestrained
    rw [C13_histories_never_raise, hrun]
    simp [meshS, applyBc, applyOne, idx0, idx1, writeAxis, Val.truthy, storeBool]
  have hsame : solveSoilOn .eulerBernoulli pileS meshS switchesS arraysS (run [] (heldP ++ [loadCall 1 .y (P : ℝ)])) 100
      = some (.numbers t) := by
    rw [← ht]
    unfold solveSoilOn
    rw [e1, e2, e3]
  have hrow : t.disp[0]? = some (1, 0, P / 60 * headT, 0) := by rw [hd]; rfl
  have hne : listed ((1 : ℝ), (0 : ℝ), (P : ℝ) / 60 * headT, (0 : ℝ)) .y ≠ 0 := (mul_pos (by positivity) r0).ne'
  obtain ⟨t', k1, -, k2, -, -, -, -, -, r', k3, -, k4, -⟩ := C85_soil_calls_partial .eulerBernoulli pileS 1 0 acceptedT meshS meshOnS
    switchesS arraysS (.inl rfl) heldP 1 0 acts_head .y P h0.ne' silentP t hsame he (by
      rw [hd]
      exact branchP ((P : ℝ) / 60) (by positivity) (by rw [div_le_one (by norm_num)]; exact hP1)) _ hrow hne
  exact ⟨t, t', _, hsame, hrow, hne, k1, k2, r', k3, k4⟩

end OpenPile.Props.ControlSoil

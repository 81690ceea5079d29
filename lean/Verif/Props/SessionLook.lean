/-
Property C75: looking up the axial springs between two analyses changes the result of the second.
-/
import Verif.Props.Session
import Verif.Props.NoModels
import Verif.Props.Ultimate
import Mathlib.Tactic.NormNum

namespace OpenPile.Props.Session
open OpenPile.BC OpenPile.Mesh OpenPile.Kernel OpenPile.Assemble OpenPile.SoilAnalysis OpenPile.Session OpenPile.Analysis
  OpenPile.Spring OpenPile.Props.Winkler OpenPile.Winkler OpenPile.Props.SoilStiffness OpenPile.Spec.Kernel
  OpenPile.Props.NoModels OpenPile.Result Matrix
open OpenPile.Extract (influence)

/-! ### a pile of 5 m in elements of 1 m, every node held, the head lifted by 1 -/

/-- A support of all directions. -/
noncomputable def held (e : ℝ) : Cond ℝ := ⟨.fixation, e, some (.flag true), some (.flag true), some (.flag true)⟩

noncomputable def nodesW : List ℝ := [0, -1, -2, -3, -4, -5]

noncomputable def bcsW : List (Cond ℝ) := nodesW.map held ++ [⟨.displacement, 0, none, none, some (.num 1)⟩]

theorem forcesW : globalForces nodesW bcsW
    = .ok ⟨List.replicate 6 0, List.replicate 6 0, List.replicate 6 0⟩ := by
  simp [globalForces, validateBc, axisConflict, applyBc, bcsW, nodesW, held, applyOne, bind, Except.bind, pure, Except.pure]

theorem dispW : globalDisp nodesW bcsW = .ok ⟨List.replicate 6 0, List.replicate 6 0, 1 :: List.replicate 5 0⟩ := by
  simp [globalDisp, validateBc, axisConflict, applyBc, bcsW, nodesW, held, applyOne, nodeIdx, isClose, bind, Except.bind,
    pure, Except.pure, List.findIdx?_cons, Cond.get, writeAxis, Val.truthy, storeFloat]

theorem fixW : globalRestrained nodesW bcsW
    = .ok ⟨List.replicate 6 true, List.replicate 6 true, List.replicate 6 true⟩ := by
  have h2 : List.dedup nodesW = nodesW := by
    rw [List.dedup_eq_self]
    norm_num [nodesW]
  have hv : validateBc bcsW .fixation = .ok () := by
    have hf : bcsW.filter (fun c => decide (c.cls = .fixation)) = nodesW.map held := by
      simp [bcsW, nodesW, held]
    have hm : ∀ a, (nodesW.map held).map (fun c => (c.elevation, c.get a))
        = nodesW.map (fun e => (e, some (Val.flag true))) := by
      intro a
      cases a <;> simp [nodesW, held, Cond.get]
    have hd : (nodesW.map (fun e => (e, some (Val.flag (K := ℝ) true)))).dedup
        = nodesW.map (fun e => (e, some (Val.flag true))) := by
      rw [List.dedup_eq_self]
      norm_num [nodesW]
    have hp : (nodesW.map (fun e => (e, some (Val.flag (K := ℝ) true)))).map Prod.fst = nodesW := by
      simp [nodesW]
    have hc : ∀ a, axisConflict bcsW .fixation a = false := by
      intro a
      unfold axisConflict
      simp only [hf, hm, hd, hp, h2]
      simp
    simp [validateBc, hc]
  unfold globalRestrained
  rw [hv]
  norm_num [applyBc, bcsW, nodesW, held, applyOne, nodeIdx, isClose, bind, Except.bind, pure, Except.pure,
    List.findIdx?_cons, writeAxis, Val.truthy, storeBool]
  rfl

/-- A t-z curve of 15 points: friction of 1 from a displacement of 1 on. -/
noncomputable def tzW : Curve := [(7,1),(6,1),(5,1),(4,1),(3,1),(2,1),(1,1),(0,0),(-1,-1),(-2,-1),(-3,-1),(-4,-1),(-5,-1),(-6,-1),(-7,-1)]

theorem shape (c : ℝ) : (tzW.map (fun q => (q.1, q.2 * c))).length = 15 := by simp [tzW]
theorem zi : zeroIndex 15 = 7 := by decide
theorem unzero (c : ℝ) : ¬ ((tzW.map (fun q => (q.1, q.2 * c))).map (fun q => |q.1|)).sum = 0 := by
  simp [tzW]; norm_num

theorem k1 (c : ℝ) (hc : 0 < c) : tzStiffness (tzW.map (fun q => (q.1, q.2 * c))) .initial 0 = some c := by
  unfold tzStiffness
  rw [if_neg (unzero c)]
  unfold axialCurveStiffness
  rw [shape, zi]
  norm_num [tzW, absQuot, abs_of_pos hc]

theorem k2 (c : ℝ) (hc : 0 < c) : tzStiffness (tzW.map (fun q => (q.1, q.2 * c))) .secant 1 = some c := by
  unfold tzStiffness
  rw [if_neg (unzero c)]
  unfold axialCurveStiffness
  rw [shape, zi]
  norm_num [tzW, interp, absQuot, abs_of_pos hc]

theorem k3 (c : ℝ) (hc : 0 < c) : ∃ k, tzStiffness (tzW.map (fun q => (q.1, q.2 * c))) .tangent 1 = some k := by
  unfold tzStiffness
  rw [if_neg (unzero c)]
  unfold axialCurveStiffness
  rw [shape, zi]
  norm_num [tzW, interp, absQuot, abs_of_pos hc]
  exact ⟨_, rfl⟩

theorem k0 (c : ℝ) (hc : 0 < c) (kind : Kind) : tzStiffness (tzW.map (fun q => (q.1, q.2 * c))) kind 0 = some c := by
  unfold tzStiffness
  rw [if_neg (unzero c)]
  unfold axialCurveStiffness
  rw [shape, zi]
  norm_num [tzW, absQuot, abs_of_pos hc]

noncomputable def pileW : Pile.Pile ℝ := ⟨[⟨0, -5, 2, 1 / 20⟩], Pile.steel⟩
noncomputable def coordsW : Coordinates ℝ := ⟨nodesW, [(0, -1), (-1, -2), (-2, -3), (-3, -4), (-4, -5)]⟩
/-- Only shaft friction. -/
def switchesW : Switches := ⟨false, false, true, false, false, false⟩
/-- Friction of strength `f i b` at the top and bottom of the elements. -/
noncomputable def arraysW (f : ℕ → Bool → ℝ) : Arrays :=
  { Arrays.zero with tz := fun i b => tzW.map (fun q => (q.1, q.2 * f i b)) }

/-- The element of 1 m. -/
noncomputable def elW : Elem ℝ :=
  ⟨1, 210000000, Pile.Section.area Real.pi ⟨0, -5, 2, 1 / 20⟩, Pile.Section.inertia Real.pi ⟨0, -5, 2, 1 / 20⟩, 2, 1 / 20,
    3 / 10⟩

theorem elW_stiff : 1 < elW.E * elW.A := by
  have h := Real.two_le_pi
  norm_num [elW, Pile.Section.area]
  linarith

theorem elemW : ∀ e ∈ coordsW.elements, elemAt Real.pi pileW e = some elW := by
  intro e he
  simp only [coordsW, List.mem_cons, List.not_mem_nil, or_false] at he
  rcases he with rfl | rfl | rfl | rfl | rfl <;>
    norm_num [elemAt, parameterOf, pileW, Pile.steel, elW, Pile.Section.width]

noncomputable def pullW : Fin (3 * 5 + 3) → ℝ := fun r => if r.1 = 0 then 1 else 0

theorem pull_or (j : Fin 6) : pullW (dof j 0) = 0 ∨ pullW (dof j 0) = 1 := by
  unfold pullW
  split_ifs <;> simp

theorem buildW (el : Fin 5 → Elem ℝ) (f : ℕ → Bool → ℝ) (kind : Kind) (u : Fin (3 * 5 + 3) → ℝ) (k : Fin 5 → Bool → ℝ)
    (h : ∀ e b, tzStiffness (tzW.map (fun q => (q.1, q.2 * f e.1 b))) kind (u (dof (seenNode e b) 0)) = some (k e b)) :
    buildStiffness .eulerBernoulli el (springsOf switchesW (arraysW f) 5) kind u
      = some (soilStiffness .eulerBernoulli 5 el (fun e => ⟨(0, 0), (k e false, k e true), (0, 0)⟩) 0 0 0) := by
  have h1 : soilAt (springsOf switchesW (arraysW f) 5) kind u
      = fun e => some ⟨(0, 0), (k e false, k e true), (0, 0)⟩ := by
    funext e
    have hp : ∀ b, tzAt (springsOf switchesW (arraysW f) 5) kind u e b = some (k e b) := by
      intro b
      unfold tzAt
      rw [springDisp_seen]
      simpa [springsOf, switchesW, arraysW] using h e b
    unfold soilAt
    simp only [hp]
    simp [springsOf, switchesW, pyAt, mtAt]
  have h2 : allSome (soilAt (springsOf switchesW (arraysW f) 5) kind u)
      = some (fun e => ⟨(0, 0), (k e false, k e true), (0, 0)⟩) := by
    rw [h1]
    simp [allSome]
  unfold buildStiffness
  rw [h2]
  simp [springsOf, switchesW]

theorem topW (k : Fin 5 → Bool → ℝ) :
    (soilStiffness .eulerBernoulli 5 (fun _ => elW) (fun e => ⟨(0, 0), (k e false, k e true), (0, 0)⟩) 0 0 0 *ᵥ pullW)
      (dof 0 0) = elW.E * elW.A + (k 0 false / 4 + k 0 true / 12) := by
  have hL : elW.L = 1 := rfl
  simp [soilStiffness, assemble, place, baseMatrix, mulVec, dotProduct, Fin.sum_univ_succ, pullW, elemMatrix, dof,
    mechMatrix, beamMatrix, pyMatrix, tzMatrix, mtMatrix, mtPattern, mtCoeffs, hL]
  ring

theorem vecU : asVec 5 (dofList (⟨List.replicate 6 0, List.replicate 6 0, 1 :: List.replicate 5 0⟩ : Nodal ℝ))
    = some pullW := by
  unfold asVec
  rw [dif_pos (by rfl)]
  congr 1
  funext r
  fin_cases r <;> simp [dofList, pullW]

theorem vecF : asVec 5 ((dofList (⟨List.replicate 6 0, List.replicate 6 0, List.replicate 6 0⟩ : Nodal ℤ)).map
    (fun i : ℤ => (i : ℝ))) = some 0 := by
  unfold asVec
  rw [dif_pos (by rfl)]
  congr 1
  funext r
  fin_cases r <;> simp [dofList]

theorem vecR : asVec 5 (dofList (⟨List.replicate 6 true, List.replicate 6 true, List.replicate 6 true⟩ : Nodal Bool))
    = some (fun _ => true) := by
  unfold asVec
  rw [dif_pos (by rfl)]
  congr 1
  funext r
  fin_cases r <;> simp [dofList]

/-- An analysis from its parts. -/
theorem solve_parts (ty : ElementType) (p : Pile.Pile ℝ) (C : Coordinates ℝ) (w : Switches) (A : Arrays)
    (bcs : List (Cond ℝ)) {n : ℕ} (hn : C.elements.length = n) {gF : Nodal ℤ} {gU : Nodal ℝ} {gR : Nodal Bool}
    (hF : globalForces C.nodes bcs = .ok gF) (hU : globalDisp C.nodes bcs = .ok gU)
    (hR : globalRestrained C.nodes bcs = .ok gR) {F U : Fin (3 * n + 3) → ℝ} {R : Fin (3 * n + 3) → Bool}
    (vF : asVec n ((dofList gF).map (fun i : ℤ => (i : ℝ))) = some F) (vU : asVec n (dofList gU) = some U)
    (vR : asVec n (dofList gR) = some R) {el : Fin n → Elem ℝ}
    (hel : ∀ (i : ℕ) (h : i < n), (C.elements[i]?).bind (elemAt Real.pi p) = some (el ⟨i, h⟩))
    {d Q : Fin (3 * n + 3) → ℝ} {it : ℕ} {t r : ℝ}
    (ht : winkler (buildStiffness ty el (springsOf w A n)) F U R 100 = .converged d Q it t r) :
    solveSoilOn ty p C w A bcs 100
      = (SoilAnalysis.results ty C.nodes el (springsOf w A n) d Q it t r).map .numbers := by
  subst hn
  have ha : allSome (fun i : Fin C.elements.length => elemAt Real.pi p C.elements[i.1]) = some el := by
    rw [allSome_iff]
    intro i
    have := hel i.1 i.2
    rwa [List.getElem?_eq_getElem i.2, Option.bind_some] at this
  unfold solveSoilOn
  rw [hF, hU, hR]
  simp only [bind, Except.toOption, Option.bind_some]
  rw [vF, vU, vR]
  simp only [Option.bind_some]
  rw [ha]
  simp only [Option.bind_some]
  rw [ht]

theorem tablesW (Q : Fin (3 * 5 + 3) → ℝ) (h1 : 1 < Q (dof 0 0)) :
    ∃ T, tables .eulerBernoulli nodesW (fun _ : Fin 5 => elW) pullW Q = some T ∧
      ∃ V M, ∀ v, ((0 : ℝ), v) ∈ T.reactions ↔ v = [Q (dof 0 0), V, M] := by
  obtain ⟨T, hT, -, -, hr, -⟩ := Props.Analysis.tables_spec .eulerBernoulli (by norm_num)
    (fun j : Fin 6 => -(j.1 : ℝ)) (by
      intro a b hab
      have : (a.1 : ℝ) < b.1 := by exact_mod_cast hab
      simpa using this) (fun _ : Fin 5 => elW) pullW Q
  have hn : List.ofFn (fun j : Fin 6 => -(j.1 : ℝ)) = nodesW := by
    norm_num [nodesW, List.ofFn_succ]
  rw [hn] at hT
  have habs : |Q (dof 0 0)| = Q (dof 0 0) := abs_of_pos (by linarith)
  have hmask : maskSmall (Q (dof 0 0)) = Q (dof 0 0) := by
    unfold maskSmall
    rw [if_neg]
    rw [habs]
    linarith
  refine ⟨T, hT, maskSmall (Q (dof 0 1)), maskSmall (Q (dof 0 2)), fun v => ?_⟩
  rw [hr]
  constructor
  · rintro ⟨j, hj, -, rfl⟩
    have : j = 0 := by
      have : (j.1 : ℝ) = 0 := by linarith
      exact_mod_cast this
    subst this
    rw [hmask]
  · rintro rfl
    refine ⟨0, by simp, ⟨0, ?_⟩, by rw [hmask]⟩
    rw [habs]
    linarith

/-- The analysis with friction `f`. -/
theorem solveW (f : ℕ → Bool → ℝ) (hf : ∀ i b, i < 5 → 0 < f i b) : ∃ t : SoilTables,
    solveSoilOn .eulerBernoulli pileW coordsW switchesW (arraysW f) bcsW 100 = some (.numbers t) ∧
    ∃ V M, ∀ v, ((0 : ℝ), v) ∈ t.reactions ↔ v = [elW.E * elW.A + (f 0 false / 4 + f 0 true / 12), V, M] := by
  have b1 := buildW (fun _ => elW) f .initial 0 (fun e b => f e.1 b) (fun e b => by
    simpa using k1 (f e.1 b) (hf _ _ e.2))
  have b2 := buildW (fun _ => elW) f .secant pullW (fun e b => f e.1 b) (fun e b => by
    rcases pull_or (seenNode e b) with h | h
    · rw [h]; exact k0 _ (hf _ _ e.2) _
    · rw [h]; exact k2 _ (hf _ _ e.2))
  have hk : ∀ e b, ∃ k, tzStiffness (tzW.map (fun q => (q.1, q.2 * f e.1 b))) .tangent (pullW (dof (seenNode (n := 5) e b) 0))
      = some k := by
    intro e b
    rcases pull_or (seenNode e b) with h | h
    · rw [h]; exact ⟨_, k0 _ (hf _ _ e.2) _⟩
    · rw [h]; exact k3 _ (hf _ _ e.2)
  choose k hk using hk
  have b3 := buildW (fun _ => elW) f .tangent pullW k hk
  have hA := elW_stiff
  have p0 := hf 0 false (by norm_num)
  have p1 := hf 0 true (by norm_num)
  obtain ⟨t, ht⟩ := Props.Ultimate.prescribed (buildStiffness .eulerBernoulli (fun _ => elW)
    (springsOf switchesW (arraysW f) 5)) 0 pullW 100 (by norm_num) _ _ _ b1 b2 b3 (dof 0 0) (by
      rw [topW]
      simp
      nlinarith)
  set Q : Fin (3 * 5 + 3) → ℝ := (fun i => (soilStiffness .eulerBernoulli 5 (fun _ => elW)
    (fun e => ⟨(0, 0), (f e.1 false, f e.1 true), (0, 0)⟩) 0 0 0 *ᵥ pullW) i - (0 : Fin (3 * 5 + 3) → ℝ) i) with hQ
  have q0 : Q (dof 0 0) = elW.E * elW.A + (f 0 false / 4 + f 0 true / 12) := by
    have := topW (fun e b => f e.1 b)
    simp only [hQ, Pi.zero_apply, sub_zero]
    exact this
  obtain ⟨rows, r1, -, -⟩ := mob_zero switchesW 5 (by norm_num) nodesW (component pullW 1) (component pullW 2) rfl
    (by simp [component]) (by simp [component])
  obtain ⟨T, hT, V, M, hr⟩ := tablesW Q (by rw [q0]; linarith)
  refine ⟨⟨T, rows, (0, 0), (0, 0), 2, Real.sqrt 0, Real.sqrt t⟩, ?_, V, M, ?_⟩
  · rw [solve_parts .eulerBernoulli pileW coordsW switchesW (arraysW f) bcsW (n := 5) rfl forcesW dispW fixW vecF vecU vecR
      (el := fun _ => elW) (fun i h => by
        have hl : i < coordsW.elements.length := h
        rw [List.getElem?_eq_getElem hl, Option.bind_some]
        exact elemW _ (List.getElem_mem hl)) ht]
    have f0 : coordsW.nodes = nodesW := rfl
    rw [f0]
    have f1 : (springsOf switchesW (arraysW f) 5).hb = zeros := rfl
    have f2 : (springsOf switchesW (arraysW f) 5).mb = zeros := rfl
    have f3 : (springsOf switchesW (arraysW f) 5).ncol = 15 := rfl
    have f4 : (springsOf switchesW (arraysW f) 5).py = (springsOf switchesW Arrays.zero 5).py := rfl
    have f5 : (springsOf switchesW (arraysW f) 5).mt = (springsOf switchesW Arrays.zero 5).mt := rfl
    simp only [SoilAnalysis.results, hT, f3, f4, f5, r1, f1, f2, baseMob_zero, Option.bind_eq_bind, Option.bind_some]
    rfl
  · rw [← q0]
    exact hr

/-! ### the session -/

noncomputable def objW : Obj := ⟨.eulerBernoulli, pileW, coordsW, switchesW, arraysW (fun _ _ => 1), []⟩

noncomputable def worldW : World 1 := ⟨[], fun _ => objW⟩

/-- All nodes held, the head lifted by 1. -/
noncomputable def setW : List (Op 1) :=
  nodesW.map (fun e => .set 0 (.support e (some true) (some true) (some true))) ++
    [.set 0 (.pointdisplacement 0 none (some 1) none)]

theorem runW (h : List (Op 1)) : ownCalls 0 (setW ++ h) = ownCalls 0 setW ++ ownCalls 0 h := by
  simp [setW, nodesW, ownCalls]

theorem bcsRunW : BC.run (view worldW 0) (ownCalls 0 setW) = bcsW := by
  norm_num [setW, nodesW, ownCalls, BC.run, view, worldW, objW, BC.step, setSupport, setPointdisplacement, updateBc,
    Cond.isAt, bcsW, held]
  simp

theorem sepW : Separate worldW := by
  constructor
  · intro m r hr
    simp [worldW, objW] at hr
  · intro m m' _ r hr
    simp [worldW, objW] at hr

/-- The influence lengths of the nodes. -/
noncomputable def inflW (i : ℕ) (b : Bool) : ℝ :=
  influence (fun j : ℕ => coordsW.nodes.getD j 0) coordsW.elements.length (if b then i + 1 else i)

theorem arrays_after (j : ℕ) : after coordsW 0 j (arraysW (fun _ _ => 1)) = arraysW (fun i b => inflW i b ^ j) := by
  have : weighed coordsW j (arraysW (fun _ _ => 1)).tz = (arraysW (fun i b => inflW i b ^ j)).tz := by
    funext i b
    simp [weighed, arraysW, inflW]
  unfold after
  rw [weighed_zero, this]
  rfl

theorem infl_top : inflW 0 false = 1 / 2 := by
  norm_num [inflW, coordsW, nodesW, influence, Extract.gradient]

theorem infl_bottom : inflW 0 true = 1 := by
  norm_num [inflW, coordsW, nodesW, influence, Extract.gradient]

theorem infl_pos (i : ℕ) (b : Bool) (hi : i < 5) : 0 < inflW i b := by
  interval_cases i <;> cases b <;> norm_num [inflW, coordsW, nodesW, influence, Extract.gradient]

theorem looksW (kd : Extract.Kind) (j : ℕ) : ownCalls 0 (List.replicate j (.get (0 : Fin 1) (.axial kd))) = [] ∧
    lateralLooks 0 (List.replicate j (.get (0 : Fin 1) (.axial kd))) = 0 ∧
    axialLooks 0 (List.replicate j (.get (0 : Fin 1) (.axial kd))) = j := by
  induction j with
  | zero => exact ⟨rfl, rfl, rfl⟩
  | succ j ih =>
    obtain ⟨a, b, c⟩ := ih
    rw [List.replicate_succ]
    refine ⟨a, b, ?_⟩
    rw [axialLooks, c, if_pos rfl]
    omega

/-- **C75 is violated by looking.** A pile of 5 m in elements of 1 m, held at all nodes, the head lifted by 1, with shaft
friction only: every call of `get_distributed_axial_springs` lowers the vertical reaction at the head that the next
analysis reports (`N + 1/4` before the first call, `N + 1/8` after it, and so on). -/
theorem C75_violated_look (kd : Extract.Kind) :
    ∃ N > (0 : ℝ), ∀ j, ∃ t,
      Session.solve (Session.run worldW (setW ++ List.replicate j (.get 0 (.axial kd)))) 0 = some (.numbers t) ∧
      ∃ V M, ∀ v, ((0 : ℝ), v) ∈ t.reactions ↔ v = [N + (1 / 2) ^ j / 4, V, M] := by
  refine ⟨elW.E * elW.A + 1 / 12, by linarith [elW_stiff], fun j => ?_⟩
  obtain ⟨t, hs, V, M, hr⟩ := solveW (fun i b => inflW i b ^ j) (fun i b hi => pow_pos (infl_pos i b hi) j)
  refine ⟨t, ?_, V, M, fun v => ?_⟩
  · obtain ⟨l1, l2, l3⟩ := looksW kd j
    have o : ownCalls 0 (setW ++ List.replicate j (.get (0 : Fin 1) (.axial kd))) = ownCalls 0 setW := by
      rw [runW, l1, List.append_nil]
    have o2 : lateralLooks 0 (setW ++ List.replicate j (.get (0 : Fin 1) (.axial kd))) = 0 := l2
    have o3 : axialLooks 0 (setW ++ List.replicate j (.get (0 : Fin 1) (.axial kd))) = j := l3
    rw [solve_run sepW, o, o2, o3, bcsRunW, ← hs]
    show solveSoilOn _ _ _ _ (after coordsW 0 j (arraysW (fun _ _ => 1))) _ _ = _
    rw [arrays_after]
    rfl
  · have e : elW.E * elW.A + 1 / 12 + (1 / 2) ^ j / 4 = elW.E * elW.A + (inflW 0 false ^ j / 4 + inflW 0 true ^ j / 12) := by
      rw [infl_top, infl_bottom, one_pow]
      ring
    rw [hr, e]

end OpenPile.Props.Session

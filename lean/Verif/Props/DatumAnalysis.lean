/-
C66: the choice of the datum, boundary conditions and analyses.
-/
import Verif.Props.Datum
import Verif.Props.Result
import Verif.Model.SoilAnalysis
import Verif.Model.Capacity

namespace OpenPile.Props.Datum
open OpenPile OpenPile.Spec OpenPile.BC OpenPile.Spec.BC

section conditions
variable {K : Type} [Field K] [LinearOrder K] [FloorRing K]

omit [FloorRing K] in
theorem isAt_shift (δ : K) (c : Cond K) (cls : Cls) (e : K) : (Datum.cond δ c).isAt cls (e + δ) = c.isAt cls e := by
  unfold Cond.isAt Datum.cond
  simp

omit [FloorRing K] in
theorem updateBc_shift (δ : K) (bcs : List (Cond K)) (e : K) (x y z : Option (Val K)) (cls : Cls) :
    updateBc (bcs.map (Datum.cond δ)) (e + δ) x y z cls = (updateBc bcs e x y z cls).map (Datum.cond δ) := by
  unfold updateBc
  have h1 : ((bcs.map (Datum.cond δ)).filter (fun c => c.isAt cls (e + δ))).length =
      (bcs.filter (fun c => c.isAt cls e)).length := by
    rw [List.filter_map, List.length_map]
    congr 1
    apply List.filter_congr
    intro c _
    exact isAt_shift δ c cls e
  rw [h1]
  split
  · rw [List.map_map, List.map_map]
    apply List.map_congr_left
    intro c _
    simp only [Function.comp, isAt_shift]
    split <;> rfl
  · simp [Datum.cond]

omit [FloorRing K] in
/-- The conditions a Model holds after the calls made with the other datum. -/
theorem run_shift (δ : K) (calls : List (Call K)) : ∀ bcs : List (Cond K),
    run (bcs.map (Datum.cond δ)) (calls.map (Datum.call δ)) = (run bcs calls).map (Datum.cond δ) := by
  induction calls with
  | nil => intro bcs; rfl
  | cons k l ih =>
    intro bcs
    have hs : step (bcs.map (Datum.cond δ)) (Datum.call δ k) = (step bcs k).map (Datum.cond δ) := by
      cases k <;> exact updateBc_shift δ bcs _ _ _ _ _
    show run (step _ _) _ = _
    rw [hs, ih]
    rfl

omit [FloorRing K] in
theorem validateBc_shift (δ : K) (bcs : List (Cond K)) (cls : Cls) :
    validateBc (bcs.map (Datum.cond δ)) cls = validateBc bcs cls := by
  have hax : ∀ a, axisConflict (bcs.map (Datum.cond δ)) cls a = axisConflict bcs cls a := by
    intro a
    unfold axisConflict
    have e1 : ((bcs.map (Datum.cond δ)).filter (fun c => decide (c.cls = cls))).map (fun c => (c.elevation, c.get a)) =
        ((bcs.filter (fun c => decide (c.cls = cls))).map (fun c => (c.elevation, c.get a))).map (Prod.map (· + δ) id) := by
      rw [List.filter_map, List.map_map, List.map_map]
      have : ((fun c : Cond K => decide (c.cls = cls)) ∘ Datum.cond δ) = fun c => decide (c.cls = cls) := rfl
      rw [this]
      apply List.map_congr_left
      intro c _
      simp only [Function.comp, Datum.cond, Prod.map, id]
      cases a <;> rfl
    have hi : Function.Injective (Prod.map (· + δ) (id : Option (Val K) → _)) :=
      Function.Injective.prodMap (add_left_injective δ) Function.injective_id
    simp only [e1, List.dedup_map_of_injective hi, List.length_map]
    generalize (List.map (fun c : Cond K => (c.elevation, c.get a)) (bcs.filter (fun c => decide (c.cls = cls)))).dedup = l
    have e2 : (l.map (Prod.map (· + δ) (id : Option (Val K) → _))).map Prod.fst = (l.map Prod.fst).map (· + δ) := by
      rw [List.map_map, List.map_map]; rfl
    rw [e2, List.dedup_map_of_injective (add_left_injective δ), List.length_map]
  unfold validateBc
  simp only [hax]

/-- The same nodes are within the tolerance of the elevations of the calls, whatever the datum. -/
def SameNear (δ : K) (nodes : List K) (calls : List (Call K)) : Prop :=
  ∀ k ∈ calls, ∀ n ∈ nodes, Near (n + δ) (elev k + δ) ↔ Near n (elev k)

/-- The conditions are about the elevations of the calls. -/
theorem elev_of_cond (calls : List (Call K)) : ∀ (bcs : List (Cond K)) (c : Cond K), c ∈ run bcs calls →
    (∃ d ∈ bcs, d.elevation = c.elevation) ∨ ∃ k ∈ calls, elev k = c.elevation := by
  induction calls with
  | nil => intro bcs c hc; exact Or.inl ⟨c, hc, rfl⟩
  | cons k l ih =>
    intro bcs c hc
    have hstep : ∀ d ∈ step bcs k, (∃ d' ∈ bcs, d'.elevation = d.elevation) ∨ elev k = d.elevation := by
      have hup : ∀ (e : K) (x y z : Option (Val K)) (cls : Cls), ∀ d ∈ updateBc bcs e x y z cls,
          (∃ d' ∈ bcs, d'.elevation = d.elevation) ∨ e = d.elevation := by
        intro e x y z cls d hd
        unfold updateBc at hd
        split at hd
        · obtain ⟨d', hd', rfl⟩ := List.mem_map.1 hd
          refine Or.inl ⟨d', hd', ?_⟩
          split <;> rfl
        · rcases List.mem_append.1 hd with h | h
          · exact Or.inl ⟨d, h, rfl⟩
          · rw [List.mem_singleton] at h
            subst h
            exact Or.inr rfl
      cases k <;> exact hup _ _ _ _ _
    rcases ih (step bcs k) c hc with ⟨d, hd, he⟩ | ⟨k', hk', he⟩
    · rcases hstep d hd with ⟨d', hd', he'⟩ | he'
      · exact Or.inl ⟨d', hd', he'.trans he⟩
      · exact Or.inr ⟨k, List.mem_cons_self .., he'.trans he⟩
    · exact Or.inr ⟨k', List.mem_cons_of_mem _ hk', he⟩

theorem applyBc_shift {β : Type} (store : Val K → β) (δ : K) (nodes : List K) (cls : Cls) (bcs : List (Cond K))
    (h : ∀ c ∈ bcs, ∀ n ∈ nodes, Near (n + δ) (c.elevation + δ) ↔ Near n c.elevation) (g : Nodal β) :
    applyBc store (nodes.map (· + δ)) g (bcs.map (Datum.cond δ)) cls = applyBc store nodes g bcs cls := by
  unfold applyBc
  induction bcs generalizing g with
  | nil => rfl
  | cons c l ih =>
    rw [List.map_cons, List.foldl_cons, List.foldl_cons]
    have hidx : nodeIdx (nodes.map (· + δ)) (c.elevation + δ) = nodeIdx nodes c.elevation := by
      unfold nodeIdx
      rw [List.findIdx?_map]
      have hc := h c (List.mem_cons_self ..)
      clear ih h
      induction nodes with
      | nil => rfl
      | cons n ns ihn =>
        have e : isClose (n + δ) (c.elevation + δ) = isClose n c.elevation := by
          rw [Bool.eq_iff_iff, Props.BC.near_iff, Props.BC.near_iff]
          exact hc n (List.mem_cons_self ..)
        simp only [List.findIdx?_cons, Function.comp, e]
        rw [← ihn (fun n hn => hc n (List.mem_cons_of_mem _ hn))]
    have h1 : applyOne store (nodes.map (· + δ)) cls g (Datum.cond δ c) = applyOne store nodes cls g c := by
      unfold applyOne
      show (if c.cls = cls then (match nodeIdx (nodes.map (· + δ)) (c.elevation + δ) with | some i => _ | none => g) else g) = _
      rw [hidx]
      rfl
    rw [h1]
    exact ih (fun d hd => h d (List.mem_cons_of_mem _ hd)) _

/-- **C66, boundary conditions.** The loads, prescribed displacements and supports at the nodes. -/
theorem C66_loads (δ : K) (nodes : List K) {calls : List (Call K)} (h : SameNear δ nodes calls) :
    globalForces (nodes.map (· + δ)) (run [] (calls.map (Datum.call δ))) = globalForces nodes (run [] calls) ∧
    globalDisp (nodes.map (· + δ)) (run [] (calls.map (Datum.call δ))) = globalDisp nodes (run [] calls) ∧
    globalRestrained (nodes.map (· + δ)) (run [] (calls.map (Datum.call δ))) = globalRestrained nodes (run [] calls) := by
  have hr : run [] (calls.map (Datum.call δ)) = (run [] calls).map (Datum.cond δ) := run_shift δ calls []
  have hc : ∀ c ∈ run [] calls, ∀ n ∈ nodes, Near (n + δ) (c.elevation + δ) ↔ Near n c.elevation := by
    intro c hc n hn
    rcases elev_of_cond calls [] c hc with ⟨d, hd, -⟩ | ⟨k, hk, he⟩
    · cases hd
    · rw [← he]
      exact h k hk n hn
  have hm : ∀ {β : Type} (b : β), (nodes.map (· + δ)).map (fun _ => b) = nodes.map (fun _ => b) := by
    intro β b
    rw [List.map_map]; rfl
  unfold globalForces globalDisp globalRestrained
  simp only [hr, validateBc_shift, applyBc_shift _ δ nodes _ _ hc, hm]
  exact ⟨trivial, trivial, trivial⟩

end conditions

section near
variable {K : Type} [Field K] [LinearOrder K] [IsStrictOrderedRing K] [FloorRing K]

/-- Enough for `SameNear`: every node is at the elevation or further from it than the larger tolerance. -/
theorem sameNear_of_far {δ : K} {nodes : List K} {calls : List (Call K)}
    (h : ∀ k ∈ calls, ∀ n ∈ nodes, n = elev k ∨ (1 / 1000 + |elev k| / 100000 < |n - elev k| ∧
      1 / 1000 + |elev k + δ| / 100000 < |n - elev k|)) : SameNear δ nodes calls := by
  intro k hk n hn
  unfold Near
  rcases h k hk n hn with rfl | ⟨h1, h2⟩
  · simp only [sub_self, abs_zero]
    have := abs_nonneg (elev k)
    have := abs_nonneg (elev k + δ)
    constructor <;> intro _ <;> positivity
  · rw [add_sub_add_right_eq_sub]
    exact ⟨fun h => absurd h (not_le.2 h2), fun h => absurd h (not_le.2 h1)⟩

/-- Enough for `SameNear`: elevations that are multiples of 0.1 mm and within 10 m of both datums; the nodes of every mesh
are multiples of 0.1 mm. -/
theorem sameNear_of_grid {δ c : K} {p : Pile.Pile K} {sp : Option (Soil.Profile K)} {x2mesh : List K}
    {C : Mesh.Coordinates K} (hC : Mesh.getCoordinates p sp x2mesh c = some C) {calls : List (Call K)}
    (h : ∀ k ∈ calls, (∃ j : ℤ, elev k = j / 10000) ∧ |elev k| < 10 ∧ |elev k + δ| < 10) : SameNear δ C.nodes calls := by
  intro k hk n hn
  obtain ⟨⟨j, hj⟩, h1, h2⟩ := h k hk
  unfold Mesh.getCoordinates at hC
  simp only [Option.bind_eq_bind, Option.bind_eq_some_iff, Option.pure_def, Option.some.injEq] at hC
  obtain ⟨z, -, rfl⟩ := hC
  obtain ⟨x, -, rfl⟩ := List.mem_map.1 hn
  unfold Near
  rw [add_sub_add_right_eq_sub]
  have hd : ∃ i : ℤ, |Mesh.round4 x - elev k| = (i : K) / 10000 := by
    unfold Mesh.round4
    refine ⟨|Mesh.rint (x * 10000) - j|, ?_⟩
    rw [hj, ← sub_div, abs_div, abs_of_pos (show (0 : K) < 10000 by norm_num)]
    push_cast
    rfl
  obtain ⟨i, hi⟩ := hd
  rw [hi]
  have key : ∀ t : K, 0 ≤ t → t < 10 → ((i : K) / 10000 ≤ 1 / 1000 + t / 100000 ↔ i ≤ 10) := by
    intro t h0 h10
    constructor
    · intro hle
      have : (i : K) < 11 := by linarith
      have : i < 11 := by exact_mod_cast this
      omega
    · intro hle
      have : (i : K) ≤ 10 := by exact_mod_cast hle
      linarith
  rw [key _ (abs_nonneg _) h1, key _ (abs_nonneg _) h2]

end near

/-- **C66 is violated by the tolerance of the elevations.** Nodes 10 mm apart with a load at the lower one: the load acts
there, but at the upper one with a datum 1 km below.  (The tolerance is 1 mm and 1/100000 of the elevation.) -/
theorem C66_violated_near : EvenGrid (1000 : ℚ) ∧
    globalForces [(0 : ℚ), -1 / 100, -1] (run [] [.pointload (-1 / 100) (some 5) none none]) =
      .ok ⟨[0, 0, 0], [0, 5, 0], [0, 0, 0]⟩ ∧
    globalForces ([(0 : ℚ), -1 / 100, -1].map (· + 1000)) (run [] [Datum.call 1000 (.pointload (-1 / 100) (some 5) none none)]) =
      .ok ⟨[0, 0, 0], [5, 0, 0], [0, 0, 0]⟩ := by
  refine ⟨⟨5000000, by norm_num⟩, ?_, ?_⟩ <;> decide +kernel

section tables
variable {K : Type} [Field K] [LinearOrder K]
open OpenPile.Result OpenPile.Analysis OpenPile.Kernel OpenPile.Spring

omit [Field K] [LinearOrder K] in
theorem repeatInner_map {α β : Type} (f : α → β) (l : List α) :
    repeatInner (l.map f) = (repeatInner l).map (List.map f) := by
  unfold repeatInner
  rw [List.head?_map, List.getLast?_map]
  cases l.head? with
  | none => rfl
  | some a =>
    cases l.getLast? with
    | none => rfl
    | some b =>
      simp only [Option.map_some, Option.bind_eq_bind, Option.bind_some, Option.pure_def, List.map_cons, List.map_append,
        List.map_nil, ← List.map_drop, ← List.map_dropLast, List.flatMap_map, List.map_flatMap]

theorem dispRows_shift (δ : K) (z u : List K) :
    dispRows (z.map (· + δ)) u = (dispRows z u).map (List.map (fun r => (r.1 + δ, r.2))) := by
  unfold dispRows
  simp only [List.length_map]
  split
  · rw [List.zip_map_left]
    rfl
  · rfl

theorem forceRows_shift (δ : K) (z : List K) (q : List (List K)) (L : List K) :
    forceRows (z.map (· + δ)) q L = (forceRows z q L).map (List.map (fun r => (r.1 + δ, r.2))) := by
  unfold forceRows
  rw [repeatInner_map]
  cases repeatInner z with
  | none => rfl
  | some zz =>
    simp only [Option.map_some, Option.bind_eq_bind, Option.bind_some, Option.map_bind, List.length_map]
    congr 1
    funext rows
    simp only [Function.comp]
    split
    · rw [List.zip_map_left]
      rfl
    · rfl

theorem reactionRows_shift (δ : K) (z Q : List K) :
    reactionRows (z.map (· + δ)) Q = (reactionRows z Q).map (List.map (fun r => (r.1 + δ, r.2))) := by
  unfold reactionRows
  cases reshape 3 Q with
  | none => rfl
  | some rows =>
    simp only [Option.bind_eq_bind, Option.bind_some, List.length_map]
    split
    · rfl
    · rw [List.zip_map_left, List.filter_map]
      rfl

theorem tables_shift (δ : K) (ty : ElementType) (nodes : List K) {n : ℕ} (el : Fin n → Elem K) (u Q : Fin (3 * n + 3) → K) :
    tables ty (nodes.map (· + δ)) el u Q = (tables ty nodes el u Q).map (Datum.tables δ) := by
  unfold tables
  rw [dispRows_shift, forceRows_shift, reactionRows_shift]
  cases dispRows nodes (List.ofFn u) with
  | none => rfl
  | some d =>
    cases forceRows nodes (List.ofFn (fun i => List.ofFn (internalForces ty el u i))) (List.ofFn (fun i => (el i).L)) with
    | none => rfl
    | some f =>
      cases reactionRows nodes (List.ofFn Q) with
      | none => rfl
      | some r => rfl

omit [LinearOrder K] in
theorem doubleInner_shift (δ : K) (z : List K) : doubleInner (z.map (· + δ)) = (doubleInner z).map (List.map (· + δ)) := by
  match z with
  | [] => simp [doubleInner, doubleLoop]
  | [a] => simp [doubleInner, doubleLoop]
  | a :: b :: l =>
    obtain ⟨o, h1, h2, h3, h4, h5⟩ := Props.Result.C43_double_inner_partial (a :: b :: l) (l.length + 1) (by omega) (by simp)
    obtain ⟨o', h1', h2', h3', h4', h5'⟩ := Props.Result.C43_double_inner_partial ((a :: b :: l).map (· + δ)) (l.length + 1)
      (by omega) (by simp)
    rw [h1, h1', Option.map_some, Option.some.injEq]
    apply List.ext_getElem?
    intro i
    rw [List.getElem?_map]
    by_cases hi : i < 2 * (l.length + 1)
    · rcases Nat.even_or_odd' i with ⟨e, rfl | rfl⟩
      · rw [h3' e (by omega), h3 e (by omega), List.getElem?_map]
      · by_cases he : e + 1 < l.length + 1
        · rw [h4' e he, h4 e he, List.getElem?_map]
        · obtain rfl : e = l.length + 1 - 1 := by omega
          rw [h5', h5, List.getElem?_map]
    · rw [List.getElem?_eq_none (by omega), List.getElem?_eq_none (by omega)]
      rfl

theorem mobRow_shift (δ e u r : K) (tab : List (K × K)) (tbl : MtTable K) (ncol : ℕ) :
    mobRow (e + δ) u r tab tbl ncol = (mobRow e u r tab tbl ncol).map (fun r => { r with elevation := r.elevation + δ }) := by
  unfold mobRow
  simp only [Option.bind_eq_bind, Option.map_bind, Function.comp_def]
  rfl

omit [Field K] [LinearOrder K] in
theorem mapM_map_option {α β γ : Type} (f : α → Option β) (g : β → γ) (l : List α) :
    l.mapM (fun a => (f a).map g) = (l.mapM f).map (List.map g) := by
  induction l with
  | nil => rfl
  | cons a l ih =>
    rw [List.mapM_cons, List.mapM_cons, ih]
    cases f a with
    | none => rfl
    | some b =>
      cases l.mapM f with
      | none => rfl
      | some bs => rfl

theorem springsMob_shift (δ : K) (z uy ur : List K) (py : List (List (K × K))) (mt : List (MtTable K)) (ncol : ℕ) :
    springsMob (z.map (· + δ)) uy ur py mt ncol =
      (springsMob z uy ur py mt ncol).map (List.map (fun r => { r with elevation := r.elevation + δ })) := by
  unfold springsMob
  rw [doubleInner_shift]
  cases doubleInner z with
  | none => rfl
  | some x =>
    cases doubleInner uy with
    | none => rfl
    | some dy =>
      cases doubleInner ur with
      | none => rfl
      | some dr =>
        simp only [Option.map_some, Option.bind_eq_bind, Option.bind_some, List.length_map]
        rw [← mapM_map_option]
        congr 1
        funext i
        rw [List.getElem?_map]
        simp only [Option.map_bind]
        cases x[i]? with
        | none => rfl
        | some e =>
          simp only [Option.map_some, Option.bind_some, Function.comp_def, Option.map_bind, mobRow_shift]

end tables

section analysis
open OpenPile.Result OpenPile.Analysis OpenPile.Kernel OpenPile.Spring OpenPile.Winkler OpenPile.SoilAnalysis OpenPile.Assemble

theorem results_shift (δ : ℝ) (ty : ElementType) (nodes : List ℝ) {n : ℕ} (el : Fin n → Elem ℝ) (sp : Springs ℝ n)
    (d Q : Fin (3 * n + 3) → ℝ) (iters : ℕ) (tolSq resSq : ℝ) :
    (results ty (nodes.map (· + δ)) el sp d Q iters tolSq resSq).map SoilResult.numbers =
      ((results ty nodes el sp d Q iters tolSq resSq).map SoilResult.numbers).map (Datum.result δ) := by
  unfold results
  rw [tables_shift, springsMob_shift]
  cases tables ty nodes el d Q with
  | none => rfl
  | some t =>
    cases springsMob nodes (component d 1) (component d 2) (flat n sp.py) (flat n sp.mt) sp.ncol with
    | none => rfl
    | some mob =>
      cases baseMob sp.hb (d ⟨3 * n + 1, by omega⟩) with
      | none => rfl
      | some hb =>
        cases baseMob sp.mb (d ⟨3 * n + 2, by omega⟩) with
        | none => rfl
        | some mb => rfl

section
variable {K : Type} [Field K] [LinearOrder K] [IsStrictOrderedRing K]

theorem parameterOf_shift {β : Type} (δ : K) (key : Pile.Section K → β) (hkey : ∀ s, key (Datum.section' δ s) = key s)
    (l : List (Pile.Section K)) (e : K × K) :
    Mesh.parameterOf (·.top) (·.bottom) key (l.map (Datum.section' δ)) (e.1 + δ, e.2 + δ) =
      Mesh.parameterOf (·.top) (·.bottom) key l e := by
  unfold Mesh.parameterOf
  rw [List.foldl_map]
  congr 1
  funext acc s
  simp only [Datum.section', add_le_add_iff_right, ge_iff_le]
  rw [← hkey s]
  rfl

theorem elemAt_shift (pi δ : K) (p : Pile.Pile K) (e : K × K) :
    elemAt pi (Datum.pile δ p) (e.1 + δ, e.2 + δ) = elemAt pi p e := by
  unfold elemAt
  simp only [Datum.pile]
  rw [parameterOf_shift, parameterOf_shift, parameterOf_shift, parameterOf_shift]
  · simp only [add_sub_add_right_eq_sub]
  all_goals intro s; rfl
end

/-- `solveOn` for elements given by their data. -/
noncomputable def beamCore {K : Type} [Field K] [LinearOrder K] [FloorRing K] (ty : ElementType) (nodes : List K)
    (F : Except (List Axis) (Nodal ℤ)) (U : Except (List Axis) (Nodal K)) (R : Except (List Axis) (Nodal Bool))
    (n : ℕ) (E : Fin n → Option (Elem K)) : Option (Tables K) := do
  let F ← F.toOption
  let U ← U.toOption
  let R ← R.toOption
  let F ← asVec n ((dofList F).map (fun i : ℤ => (i : K)))
  let U ← asVec n (dofList U)
  let R ← asVec n (dofList R)
  let el ← allSome E
  let r ← beam ty el F U R
  tables ty nodes el r.1 r.2.1

/-- `solveSoilOn` for elements given by their data. -/
noncomputable def soilCore (ty : ElementType) (nodes : List ℝ) (w : Switches) (A : Arrays) (maxIter : ℕ)
    (F : Except (List Axis) (Nodal ℤ)) (U : Except (List Axis) (Nodal ℝ)) (R : Except (List Axis) (Nodal Bool))
    (n : ℕ) (E : Fin n → Option (Elem ℝ)) : Option SoilResult := do
  let F ← F.toOption
  let U ← U.toOption
  let R ← R.toOption
  let F ← asVec n ((dofList F).map (fun i : ℤ => (i : ℝ)))
  let U ← asVec n (dofList U)
  let R ← asVec n (dofList R)
  let el ← allSome E
  let sp := springsOf w A n
  match winkler (buildStiffness ty el sp) F U R maxIter with
  | .raised => none
  | .nan _ => some .nan
  | .converged d Q it tolSq resSq => (results ty nodes el sp d Q it tolSq resSq).map .numbers
  | .exhausted d Q it tolSq resSq => (results ty nodes el sp d Q it tolSq resSq).map .numbers

theorem solveOn_core {K : Type} [Field K] [LinearOrder K] [FloorRing K] (pi : K) (ty : ElementType) (p : Pile.Pile K)
    (C : Mesh.Coordinates K) (bcs : List (Cond K)) : solveOn pi ty p C bcs =
      beamCore ty C.nodes (globalForces C.nodes bcs) (globalDisp C.nodes bcs) (globalRestrained C.nodes bcs)
        C.elements.length (fun i => elemAt pi p C.elements[i.1]) := rfl

theorem solveSoilOn_core (ty : ElementType) (p : Pile.Pile ℝ) (C : Mesh.Coordinates ℝ) (w : Switches) (A : Arrays)
    (bcs : List (Cond ℝ)) (k : ℕ) : solveSoilOn ty p C w A bcs k =
      soilCore ty C.nodes w A k (globalForces C.nodes bcs) (globalDisp C.nodes bcs) (globalRestrained C.nodes bcs)
        C.elements.length (fun i => elemAt Real.pi p C.elements[i.1]) := by
  unfold solveSoilOn soilCore
  simp only [Option.bind_eq_bind]
  congr 1; funext F
  congr 1; funext U
  congr 1; funext R
  congr 1; funext F
  congr 1; funext U
  congr 1; funext R
  congr 1; funext el
  cases winkler (buildStiffness ty el (springsOf w A C.elements.length)) F U R k with
  | raised => rfl
  | nan _ => rfl
  | converged d Q it tolSq resSq => rfl
  | exhausted d Q it tolSq resSq => rfl

theorem beamCore_shift {K : Type} [Field K] [LinearOrder K] [FloorRing K] (δ : K) (ty : ElementType) (nodes : List K)
    (F : Except (List Axis) (Nodal ℤ)) (U : Except (List Axis) (Nodal K)) (R : Except (List Axis) (Nodal Bool))
    (n : ℕ) (E : Fin n → Option (Elem K)) :
    beamCore ty (nodes.map (· + δ)) F U R n E = (beamCore ty nodes F U R n E).map (Datum.tables δ) := by
  unfold beamCore
  simp only [Option.bind_eq_bind, Option.map_bind, Function.comp_def, tables_shift]

theorem soilCore_shift (δ : ℝ) (ty : ElementType) (nodes : List ℝ) (w : Switches) (A : Arrays) (maxIter : ℕ)
    (F : Except (List Axis) (Nodal ℤ)) (U : Except (List Axis) (Nodal ℝ)) (R : Except (List Axis) (Nodal Bool))
    (n : ℕ) (E : Fin n → Option (Elem ℝ)) :
    soilCore ty (nodes.map (· + δ)) w A maxIter F U R n E =
      (soilCore ty nodes w A maxIter F U R n E).map (Datum.result δ) := by
  unfold soilCore
  simp only [Option.bind_eq_bind, Option.map_bind, Function.comp_def]
  congr 1; funext F
  congr 1; funext U
  congr 1; funext R
  congr 1; funext F
  congr 1; funext U
  congr 1; funext R
  congr 1; funext el
  cases winkler (buildStiffness ty el (springsOf w A n)) F U R maxIter with
  | raised => rfl
  | nan _ => rfl
  | converged d Q it tolSq resSq => exact results_shift δ ty nodes el _ d Q it tolSq resSq
  | exhausted d Q it tolSq resSq => exact results_shift δ ty nodes el _ d Q it tolSq resSq

theorem beamCore_congr {K : Type} [Field K] [LinearOrder K] [FloorRing K] (ty : ElementType) (nodes : List K)
    (F : Except (List Axis) (Nodal ℤ)) (U : Except (List Axis) (Nodal K)) (R : Except (List Axis) (Nodal Bool))
    {n m : ℕ} (h : m = n) (E : Fin n → Option (Elem K)) (E' : Fin m → Option (Elem K)) (hE : ∀ i, E' i = E (Fin.cast h i)) :
    beamCore ty nodes F U R m E' = beamCore ty nodes F U R n E := by
  subst h
  congr 1
  exact funext hE

theorem soilCore_congr (ty : ElementType) (nodes : List ℝ) (w : Switches) (A : Arrays) (maxIter : ℕ)
    (F : Except (List Axis) (Nodal ℤ)) (U : Except (List Axis) (Nodal ℝ)) (R : Except (List Axis) (Nodal Bool))
    {n m : ℕ} (h : m = n) (E : Fin n → Option (Elem ℝ)) (E' : Fin m → Option (Elem ℝ)) (hE : ∀ i, E' i = E (Fin.cast h i)) :
    soilCore ty nodes w A maxIter F U R m E' = soilCore ty nodes w A maxIter F U R n E := by
  subst h
  congr 1
  exact funext hE

/-- **C66 without soil (partial).** Raise the pile, the extra elevations and the boundary conditions by `δ`: the analysis
gives the same tables, with the elevations raised by `δ`.
Missing: other `δ` than even multiples of 0.1 mm (`C66_violated_odd`) and boundary conditions near several nodes
(`C66_violated_near`). -/
theorem C66_beam_partial {K : Type} [Field K] [LinearOrder K] [IsStrictOrderedRing K] [FloorRing K] (pi : K) {δ : K}
    (hδ : EvenGrid δ) (ty : ElementType) (p : Pile.Pile K) (x2mesh : List K) (c : K) {calls : List (Call K)}
    (hn : ∀ C, Mesh.getCoordinates p none x2mesh c = some C → SameNear δ C.nodes calls) :
    solveModel pi ty (Datum.pile δ p) (x2mesh.map (· + δ)) c (run [] (calls.map (Datum.call δ))) =
      (solveModel pi ty p x2mesh c (run [] calls)).map (Datum.tables δ) := by
  unfold solveModel
  have hm := C66_mesh hδ c p none x2mesh
  rw [Option.map_none] at hm
  rw [hm]
  cases hC : Mesh.getCoordinates p none x2mesh c with
  | none => rfl
  | some C =>
    simp only [Option.map_some, Option.bind_eq_bind, Option.bind_some]
    obtain ⟨e1, e2, e3⟩ := C66_loads δ C.nodes (hn C hC)
    have en : (Datum.mesh δ C).nodes = C.nodes.map (· + δ) := rfl
    rw [solveOn_core, solveOn_core, en, e1, e2, e3, beamCore_shift]
    congr 1
    refine beamCore_congr _ _ _ _ _ (List.length_map ..) _ _ ?_
    intro i
    simp only [Datum.mesh, List.getElem_map]
    exact elemAt_shift pi δ p _

/-- **C66 (partial).** Raise the pile, the ground, the water table, the layers, the extra elevations and the boundary
conditions by `δ`: the analysis ends the same way, with the same tables, mobilisation, iterations and errors; only the
elevations in the tables are raised by `δ`.
Missing: as in `C66_beam_partial`. -/
theorem C66_analysis_partial {δ : ℝ} (hδ : EvenGrid δ) (ty : ElementType) (p : Pile.Pile ℝ) (sp : SoilProfile)
    (x2mesh : List ℝ) (c : ℝ) (w : Switches) (table : List (ℝ × Pile.Section ℝ)) (env : Draws) {calls : List (Call ℝ)}
    (hn : ∀ C, Mesh.getCoordinates p (some sp.geometry) x2mesh c = some C → SameNear δ C.nodes calls) :
    solveSoil ty (Datum.pile δ p) (Datum.soil δ sp) (x2mesh.map (· + δ)) c w (Datum.pileTable δ table) (Datum.draws δ env)
      (run [] (calls.map (Datum.call δ))) =
      (solveSoil ty p sp x2mesh c w table env (run [] calls)).map (Datum.result δ) := by
  unfold solveSoil
  have hm := C66_mesh hδ c p (some sp.geometry) x2mesh
  rw [Option.map_some] at hm
  rw [geometry_shift, hm, C66_springs hδ]
  cases hC : Mesh.getCoordinates p (some sp.geometry) x2mesh c with
  | none => rfl
  | some C =>
    simp only [Option.map_some, Option.bind_eq_bind, Option.bind_some, Option.map_bind]
    congr 1
    funext A
    obtain ⟨e1, e2, e3⟩ := C66_loads δ C.nodes (hn C hC)
    have en : (Datum.mesh δ C).nodes = C.nodes.map (· + δ) := rfl
    simp only [Function.comp]
    rw [solveSoilOn_core, solveSoilOn_core, en, e1, e2, e3, soilCore_shift]
    congr 1
    refine soilCore_congr _ _ _ _ _ _ _ _ (List.length_map ..) _ _ ?_
    intro i
    simp only [Datum.mesh, List.getElem_map]
    exact elemAt_shift Real.pi δ p _

/-- The summary of a result does not contain elevations. -/
theorem C66_details (δ : ℝ) (t t' : SoilTables) (h : Datum.result δ (.numbers t) = .numbers t') : details t' = details t := by
  simp only [Datum.result, SoilResult.numbers.injEq] at h
  subst h
  unfold details Datum.tables
  simp only [List.map_map, Function.comp_def]

theorem gradient_congr {K : Type} [Field K] [LinearOrder K] {z z' : ℕ → K} {δ : K} {n : ℕ} (hn : 1 ≤ n) (hz : ∀ i ≤ n, z' i = z i + δ) {i : ℕ} (hi : i ≤ n) :
    Extract.gradient z' n i = Extract.gradient z n i := by
  unfold Extract.gradient
  split
  · rw [hz 1 hn, hz 0 (by omega), add_sub_add_right_eq_sub]
  · split
    · rw [hz n le_rfl, hz (n - 1) (by omega), add_sub_add_right_eq_sub]
    · rw [hz (i + 1) (by omega), hz (i - 1) (by omega), add_sub_add_right_eq_sub]

theorem shaft_congr {K : Type} [Field K] [LinearOrder K] {z z' : ℕ → K} {δ : K} {n : ℕ} (hz : ∀ i ≤ n, z' i = z i + δ)
    (tz : Extract.Springs K) : Extract.shaftResistance z' n tz = Extract.shaftResistance z n tz := by
  have h : ∀ (f : List K → Option K) (m : ℕ), m ≤ n →
      Extract.sumTerms (Extract.shaftTerm f z' n tz) m = Extract.sumTerms (Extract.shaftTerm f z n tz) m := by
    intro f m
    induction m with
    | zero => intro _; rfl
    | succ m ih =>
      intro hm
      unfold Extract.sumTerms
      rw [ih (by omega)]
      unfold Extract.shaftTerm
      rw [gradient_congr (by omega) hz (by omega), gradient_congr (by omega) hz (by omega)]
  unfold Extract.shaftResistance
  rw [h _ n le_rfl, h _ n le_rfl]

/-- **C66, axial capacities.** -/
theorem C66_capacity {δ : ℝ} (hδ : EvenGrid δ) (p : Pile.Pile ℝ) (sp : SoilProfile)
    (x2mesh : List ℝ) (c : ℝ) (w : Switches) (table : List (ℝ × Pile.Section ℝ)) (env : Draws) :
    Capacity.shaft (Datum.pile δ p) (Datum.soil δ sp) (x2mesh.map (· + δ)) c w (Datum.pileTable δ table) (Datum.draws δ env) =
      Capacity.shaft p sp x2mesh c w table env ∧
    Capacity.tip (Datum.pile δ p) (Datum.soil δ sp) (x2mesh.map (· + δ)) c w (Datum.pileTable δ table) (Datum.draws δ env) =
      Capacity.tip p sp x2mesh c w table env := by
  unfold Capacity.shaft Capacity.tip
  have hm := C66_mesh hδ c p (some sp.geometry) x2mesh
  rw [Option.map_some] at hm
  rw [geometry_shift, hm, C66_springs hδ]
  refine ⟨?_, rfl⟩
  cases hC : Mesh.getCoordinates p (some sp.geometry) x2mesh c with
  | none => rfl
  | some C =>
    simp only [Option.map_some, Option.bind_eq_bind, Option.bind_some]
    congr 1
    funext A
    have hl : (Datum.mesh δ C).elements.length = C.elements.length := List.length_map ..
    rw [hl]
    by_cases h0 : C.elements.length = 0
    · rw [h0]; rfl
    · have hlen : C.nodes.length = C.elements.length + 1 := by
        unfold Mesh.getCoordinates at hC
        simp only [Option.bind_eq_bind, Option.bind_eq_some_iff, Option.pure_def, Option.some.injEq] at hC
        obtain ⟨z, -, rfl⟩ := hC
        simp only [List.length_map] at h0 ⊢
        clear hl hm
        unfold Mesh.pairs at h0 ⊢
        rw [List.length_zip, List.length_tail] at h0 ⊢
        omega
      refine shaft_congr (δ := δ) (fun i hi => ?_) _
      unfold Capacity.elevations Datum.mesh
      simp only [List.getD_eq_getElem?_getD, List.getElem?_map]
      rw [List.getElem?_eq_getElem (by omega)]
      rfl

end analysis

/-! ### creation and weights -/

section other
variable {K : Type} [Field K] [LinearOrder K] [IsStrictOrderedRing K]

/-- **C66, creation of piles.** -/
theorem C66_pile (δ : K) (l : List (Pile.Section K)) (m : Pile.Material K) :
    Pile.mkPile (l.map (Datum.section' δ)) m = (Pile.mkPile l m).map (Datum.pile δ) := by
  have hs : Pile.sortSections (l.map (Datum.section' δ)) = (Pile.sortSections l).map (Datum.section' δ) := by
    unfold Pile.sortSections
    exact sortedBy_map _ _ _ (fun a b => by simp only [Datum.section', neg_le_neg_iff, add_le_add_iff_right]) _
  have hc : ∀ l : List (Pile.Section K), Pile.connected (l.map (Datum.section' δ)) = Pile.connected l := by
    intro l
    induction l with
    | nil => rfl
    | cons a l ih =>
      cases l with
      | nil => rfl
      | cons b l =>
        simp only [List.map_cons, Pile.connected] at ih ⊢
        rw [ih]
        simp [Datum.section']
  unfold Pile.mkPile
  simp only [hs, hc, List.length_map]
  split
  · rfl
  · split <;> rfl

/-- Elevations for which the tolerance of 1 mm between layers is the larger one. -/
def Moderate (x : K) : Prop := |x| ≤ 1000000

theorem layersClose_shift {δ a b : K} (ha : Moderate a) (hb : Moderate b) (ha' : Moderate (a + δ)) (hb' : Moderate (b + δ)) :
    Soil.isClose (a + δ) (b + δ) = Soil.isClose a b := by
  have h : ∀ {x y : K}, Moderate x → Moderate y → max (1 / 1000000000 * max |x| |y|) (1 / 1000 : K) = 1 / 1000 := by
    intro x y hx hy
    apply max_eq_right
    have := max_le hx hy
    linarith
  unfold Soil.isClose
  rw [h ha hb, h ha' hb', add_sub_add_right_eq_sub]

/-- **C66, creation of soil profiles.** -/
theorem C66_profile (δ top water : K) (l : List (Soil.Layer K))
    (hm : ∀ x ∈ l, ∀ t, t = x.top ∨ t = x.bottom → Moderate t ∧ Moderate (t + δ)) :
    Soil.mkProfile (top + δ) (water + δ) (l.map (Datum.layer δ)) = (Soil.mkProfile top water l).map (Datum.profile δ) := by
  have hc : ∀ l : List (Soil.Layer K), (∀ x ∈ l, ∀ t, t = x.top ∨ t = x.bottom → Moderate t ∧ Moderate (t + δ)) →
      Soil.layersConnect (l.map (Datum.layer δ)) = Soil.layersConnect l := by
    intro l
    induction l with
    | nil => intro _; rfl
    | cons a l ih =>
      intro hm
      cases l with
      | nil => rfl
      | cons b l =>
        have h1 := hm a (List.mem_cons_self ..) _ (Or.inr rfl)
        have h2 := hm b (List.mem_cons_of_mem _ (List.mem_cons_self ..)) _ (Or.inl rfl)
        have := ih (fun x hx => hm x (List.mem_cons_of_mem _ hx))
        simp only [List.map_cons, Soil.layersConnect] at this ⊢
        rw [this]
        congr 1
        exact layersClose_shift h2.1 h1.1 h2.2 h1.2
  unfold Soil.mkProfile
  rw [sortLayers_shift]
  have hm' : ∀ x ∈ Soil.sortLayers l, ∀ t, t = x.top ∨ t = x.bottom → Moderate t ∧ Moderate (t + δ) := by
    intro x hx
    refine hm x ?_
    unfold Soil.sortLayers at hx
    exact (Py.sortedBy_perm _ _).mem_iff.1 (List.mem_reverse.1 hx)
  cases hsl : Soil.sortLayers l with
  | nil => rfl
  | cons a l' =>
    have e := hc (Soil.sortLayers l) hm'
    rw [hsl] at e
    simp only [List.map_cons] at e ⊢
    rw [e]
    simp only [Datum.layer, ne_eq, add_left_inj]
    split
    · rfl
    · split <;> rfl

theorem elementVolume_shift (δ : K) (key : Pile.Section K → K) (hkey : ∀ s, key (Datum.section' δ s) = key s) (p : Pile.Pile K)
    (e : K × K) : Weight.elementVolume key (Datum.pile δ p) (e.1 + δ, e.2 + δ) = Weight.elementVolume key p e := by
  unfold Weight.elementVolume
  simp only [Datum.pile]
  rw [parameterOf_shift δ key hkey]
  simp only [add_sub_add_right_eq_sub]

/-- **C66, weights** of the pile and of the soil inside it. -/
theorem C66_weights [FloorRing K] (pi : K) {δ : K} (hδ : EvenGrid δ) (c : K) (p : Pile.Pile K) (sp : Soil.Profile K)
    (x2mesh : List K) {C : Mesh.Coordinates K} (hC : Mesh.getCoordinates p (some sp) x2mesh c = some C) :
    ∃ C', Mesh.getCoordinates (Datum.pile δ p) (some (Datum.profile δ sp)) (x2mesh.map (· + δ)) c = some C' ∧
      Weight.effectivePileWeight pi (Datum.pile δ p) (Datum.profile δ sp) C'.elements =
        Weight.effectivePileWeight pi p sp C.elements ∧
      Weight.entrappedSoilWeight pi (Datum.pile δ p) (Datum.profile δ sp) C'.elements =
        Weight.entrappedSoilWeight pi p sp C.elements := by
  have hm := C66_mesh hδ c p (some sp) x2mesh
  rw [Option.map_some, hC] at hm
  refine ⟨_, hm, ?_, ?_⟩
  · unfold Weight.effectivePileWeight
    simp only [Datum.mesh, List.mapM_map]
    congr 2
    funext e
    simp only [Function.comp, Weight.effectiveWeight]
    rw [elementVolume_shift δ _ (fun _ => rfl)]
    simp only [Datum.profile, add_le_add_iff_right]
    rfl
  · unfold Weight.entrappedSoilWeight
    simp only [Datum.mesh, List.mapM_map]
    congr 2
    funext e
    simp only [Function.comp, Weight.soilWeight]
    rw [elementVolume_shift δ _ (fun _ => rfl)]
    simp only [Datum.profile, List.foldl_map, Datum.layer, add_le_add_iff_right, ge_iff_le, gt_iff_lt, add_lt_add_iff_right]

end other

/-! ## Cases -/

/-- A datum 2 m lower, with soil. -/
example (ty : Kernel.ElementType) (w : Assemble.Switches) (table : List (ℝ × Pile.Section ℝ)) (env : Assemble.Draws)
    (a b : SoilModel.Model) :
    SoilAnalysis.solveSoil ty ⟨[⟨3, -3, 2, 1 / 20⟩], Pile.steel⟩
      ⟨2, 1, [⟨⟨2, -2, 20⟩, some a, none⟩, ⟨⟨-2, -18, 18⟩, some b, none⟩]⟩ [] 1 w (Datum.pileTable 2 table)
      (Datum.draws 2 env) (run [] [.pointload 3 (some 50) none none, .support (-3) none (some true) none]) =
    (SoilAnalysis.solveSoil ty ⟨[⟨1, -5, 2, 1 / 20⟩], Pile.steel⟩
      ⟨0, -1, [⟨⟨0, -4, 20⟩, some a, none⟩, ⟨⟨-4, -20, 18⟩, some b, none⟩]⟩ [] 1 w table env
      (run [] [.pointload 1 (some 50) none none, .support (-5) none (some true) none])).map (Datum.result 2) := by
  have h := C66_analysis_partial (δ := 2) ⟨10000, by norm_num⟩ ty ⟨[⟨1, -5, 2, 1 / 20⟩], Pile.steel⟩
    ⟨0, -1, [⟨⟨0, -4, 20⟩, some a, none⟩, ⟨⟨-4, -20, 18⟩, some b, none⟩]⟩ [] 1 w table env
    (calls := [.pointload 1 (some 50) none none, .support (-5) none (some true) none]) ?_
  · rw [← h]
    norm_num [Datum.pile, Datum.section', Datum.soil, Datum.soilLayer, Datum.layer, Datum.call]
  · intro C hC
    refine sameNear_of_grid hC ?_
    intro k hk
    simp only [List.mem_cons, List.not_mem_nil, or_false] at hk
    rcases hk with rfl | rfl
    · exact ⟨⟨10000, by norm_num [elev]⟩, by norm_num [elev], by norm_num [elev]⟩
    · exact ⟨⟨-50000, by norm_num [elev]⟩, by norm_num [elev, abs_lt], by norm_num [elev, abs_lt]⟩

/-- A datum 100 m lower, without soil. -/
example (ty : Kernel.ElementType) :
    Analysis.solveModel (22 / 7 : ℚ) ty ⟨[⟨101, 98, 2, 1 / 20⟩], Pile.steel⟩ [100] 1
      (run [] [.pointload 101 (some 50) none none, .support 98 (some true) (some true) (some true)]) =
    (Analysis.solveModel (22 / 7 : ℚ) ty ⟨[⟨1, -2, 2, 1 / 20⟩], Pile.steel⟩ [0] 1
      (run [] [.pointload 1 (some 50) none none, .support (-2) (some true) (some true) (some true)])).map
      (Datum.tables 100) := by
  have h := C66_beam_partial (22 / 7 : ℚ) (δ := 100) ⟨500000, by norm_num⟩ ty ⟨[⟨1, -2, 2, 1 / 20⟩], Pile.steel⟩ [0] 1
    (calls := [.pointload 1 (some 50) none none, .support (-2) (some true) (some true) (some true)]) ?_
  · rw [← h]
    norm_num [Datum.pile, Datum.section', Datum.call]
  · intro C hC
    have hC' : C = ⟨[1, 0, -1, -2], [(1, 0), (0, -1), (-1, -2)]⟩ := by
      have : Mesh.getCoordinates (⟨[⟨1, -2, 2, 1 / 20⟩], Pile.steel⟩ : Pile.Pile ℚ) none [0] 1 =
        some ⟨[1, 0, -1, -2], [(1, 0), (0, -1), (-1, -2)]⟩ := by decide +kernel
      rw [this] at hC
      exact (Option.some.inj hC).symm
    subst hC'
    refine sameNear_of_far ?_
    intro k hk n hn
    simp only [List.mem_cons, List.not_mem_nil, or_false] at hk hn
    rcases hk with rfl | rfl <;> rcases hn with rfl | rfl | rfl | rfl <;> norm_num [elev]

end OpenPile.Props.Datum

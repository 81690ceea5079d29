/-
C94: what lies below the pile tip does not matter.

Two profiles with the same layers above the elevation of the pile tip give the same Model, springs, results, capacities and
weights.  The code violates this for custom PISA soils whose base springs are given as functions of depth.
-/
import Verif.Props.Water

namespace OpenPile.Props.BelowTip
open OpenPile.Pile (Pile Section)
open OpenPile.Assemble
open OpenPile.SoilAnalysis
open OpenPile.Props.Assemble (PlainBase base_depth)

/-- The layers that begin above the elevation `tip`, in the order of the user. -/
noncomputable def above (tip : ℝ) (L : List SoilLayer) : List SoilLayer := L.filter (fun l => decide (tip < l.top))

section generic
variable {K : Type} [Field K] [LinearOrder K] [IsStrictOrderedRing K] [FloorRing K]

variable {p : Pile K} {sp sp' : Soil.Profile K} {x2mesh : List K} {c top tip : K}

/-- Both profiles have the same layers above the tip. -/
def Same (tip : K) (sp sp' : Soil.Profile K) : Prop :=
  sp'.topElevation = sp.topElevation ∧ sp'.waterLine = sp.waterLine ∧
    sp'.layers.filter (fun l => decide (tip < l.top)) = sp.layers.filter (fun l => decide (tip < l.top))

omit [Field K] [IsStrictOrderedRing K] [FloorRing K] in
theorem Same.mem (h : Same tip sp sp') {l : Soil.Layer K} (hl : tip < l.top) : l ∈ sp'.layers ↔ l ∈ sp.layers := by
  have h1 : l ∈ sp'.layers.filter (fun l => decide (tip < l.top)) ↔ l ∈ sp.layers.filter (fun l => decide (tip < l.top)) := by
    rw [h.2.2]
  simpa [List.mem_filter, hl] using h1

omit [Field K] [IsStrictOrderedRing K] [FloorRing K] in
theorem Same.symm (h : Same tip sp sp') : Same tip sp' sp := ⟨h.1.symm, h.2.1.symm, h.2.2.symm⟩

omit [Field K] [FloorRing K] [IsStrictOrderedRing K] in
theorem required_one (h : Same tip sp sp') (hb : ∀ l ∈ sp'.layers, l.bottom < l.top) (htip : p.bottomElevation = some tip) (x : K)
    (hr : Spec.Mesh.Required p tip (some sp') x2mesh x) : Spec.Mesh.Required p tip (some sp) x2mesh x := by
  rcases hr with h1 | ⟨q, hq, l, hl, he, hx⟩ | h1
  · exact Or.inl h1
  · cases hq
    by_cases ht : tip < l.top
    · exact Or.inr (Or.inl ⟨sp, rfl, l, (h.mem ht).1 hl, he, hx⟩)
    · have hlt := hb l hl
      left
      have : x = tip := by
        rcases he with rfl | rfl
        · exact le_antisymm (not_lt.1 ht) hx
        · exact absurd (hx.trans_lt hlt) ht
      unfold Pile.bottomElevation at htip
      obtain ⟨s, hs, hs'⟩ := Option.map_eq_some_iff.1 htip
      exact ⟨s, List.mem_of_getLast? hs, Or.inr (this.trans hs'.symm)⟩
  · exact Or.inr (Or.inr h1)

/-- **C94, mesh.** -/
theorem C94_mesh (h : Same tip sp sp') (h1 : Weight.Setup p sp x2mesh c top tip) (h2 : Weight.Setup p sp' x2mesh c top tip) :
    Mesh.getCoordinates p (some sp') x2mesh c = Mesh.getCoordinates p (some sp) x2mesh c := by
  have hb : ∀ l ∈ sp.layers, l.bottom < l.top := fun x hx => ((Soil.built_iff x).1 (h1.built x hx)).1
  have hb' : ∀ l ∈ sp'.layers, l.bottom < l.top := fun x hx => ((Soil.built_iff x).1 (h2.built x hx)).1
  have hprim : Mesh.primary p tip (some sp') x2mesh = Mesh.primary p tip (some sp) x2mesh := by
    have hd := (Py.uniqueDesc_pairwise (Mesh.pileElevations p ++ Mesh.soilElevations tip (some sp') ++ x2mesh))
    have hd' := (Py.uniqueDesc_pairwise (Mesh.pileElevations p ++ Mesh.soilElevations tip (some sp) ++ x2mesh))
    have hm : ∀ x, x ∈ Mesh.primary p tip (some sp') x2mesh ↔ x ∈ Mesh.primary p tip (some sp) x2mesh := by
      intro x
      rw [Mesh.mem_primary p _ _ _ _ h1.tip_eq, Mesh.mem_primary p _ _ _ _ h1.tip_eq]
      exact ⟨required_one h hb' h1.tip_eq x, required_one h.symm hb h1.tip_eq x⟩
    have hperm : (Mesh.primary p tip (some sp') x2mesh).Perm (Mesh.primary p tip (some sp) x2mesh) :=
      (List.perm_ext_iff_of_nodup (hd.imp (fun h => h.ne')) (hd'.imp (fun h => h.ne'))).2 hm
    exact hperm.eq_of_pairwise (fun a b _ _ h3 h4 => absurd h3 (not_lt.2 h4.le)) hd hd'
  unfold Mesh.getCoordinates Mesh.exactNodes
  simp only [h1.tip_eq, Option.bind_eq_bind, Option.bind_some, hprim]

omit [FloorRing K] in
theorem tops_distinct (h : Weight.Setup p sp x2mesh c top tip) {l m : Soil.Layer K} (hl : l ∈ sp.layers) (hm : m ∈ sp.layers)
    (ht : l.top = m.top) : l = m := by
  have hs := Order.chain_strict (fun x hx => ((Soil.built_iff x).1 (h.built x ((Soil.sortLayers_perm _).mem_iff.1 hx))).1) h.exact
  have hl' := (Soil.sortLayers_perm sp.layers).mem_iff.2 hl
  have hm' := (Soil.sortLayers_perm sp.layers).mem_iff.2 hm
  obtain ⟨i, hi, rfl⟩ := List.getElem_of_mem hl'
  obtain ⟨j, hj, rfl⟩ := List.getElem_of_mem hm'
  rcases lt_trichotomy i j with h' | rfl | h'
  · exact absurd ht.symm (List.pairwise_iff_getElem.1 hs i j hi hj h').ne
  · rfl
  · exact absurd ht (List.pairwise_iff_getElem.1 hs j i hj hi h').ne

omit [FloorRing K] in
theorem weight_below (h : Same tip sp sp') (h1 : Weight.Setup p sp x2mesh c top tip) {e : K × K} (he : tip < e.1) :
    Model.elementWeight sp' e = Model.elementWeight sp e := by
  have hmem : ∀ (q : Soil.Profile K) l, l ∈ Model.soilTable q ↔ l ∈ q.layers := by
    intro q l
    unfold Model.soilTable
    rw [(Py.sortedBy_perm _ _).mem_iff, (Soil.sortLayers_perm _).mem_iff]
  have hs : ∀ q : Soil.Profile K, (Model.soilTable q).Pairwise (fun a b => a.top ≤ b.top) := fun q => Py.sortedBy_pairwise _ _
  have hmf : Model.mergeForward (·.top) (Model.soilTable sp') e.1 = Model.mergeForward (·.top) (Model.soilTable sp) e.1 := by
    cases hf : Model.mergeForward (·.top) (Model.soilTable sp) e.1 with
    | none =>
      cases hf' : Model.mergeForward (·.top) (Model.soilTable sp') e.1 with
      | none => rfl
      | some l =>
        obtain ⟨h3, h4, -⟩ := Model.mergeForward_some _ _ (hs sp') _ _ hf'
        have h5 := (hmem sp l).2 ((h.mem (he.trans_le h4)).1 ((hmem sp' l).1 h3))
        have := List.find?_eq_none.1 hf l h5
        simp [h4] at this
    | some m =>
      obtain ⟨h3, h4, h5⟩ := Model.mergeForward_some _ _ (hs sp) _ _ hf
      have h6 := (hmem sp' m).2 ((h.mem (he.trans_le h4)).2 ((hmem sp m).1 h3))
      cases hf' : Model.mergeForward (·.top) (Model.soilTable sp') e.1 with
      | none =>
        have := List.find?_eq_none.1 hf' m h6
        simp [h4] at this
      | some l =>
        obtain ⟨g3, g4, g5⟩ := Model.mergeForward_some _ _ (hs sp') _ _ hf'
        have g6 := (h.mem (he.trans_le g4)).1 ((hmem sp' l).1 g3)
        rw [tops_distinct h1 g6 ((hmem sp m).1 h3) (le_antisymm (g5 m h6 h4) (h5 l ((hmem sp l).2 g6) g4))]
  unfold Model.elementWeight
  rw [hmf, h.2.1]

/-- **C94, stresses.** -/
theorem C94_stresses (h : Same tip sp sp') (h1 : Weight.Setup p sp x2mesh c top tip) (h2 : Weight.Setup p sp' x2mesh c top tip) :
    Model.soilProperties p sp' x2mesh c = Model.soilProperties p sp x2mesh c := by
  obtain ⟨C, hC, hf⟩ := Weight.mesh_facts h1
  unfold Model.soilProperties
  rw [C94_mesh h h1 h2, hC]
  have he : ∀ e ∈ C.elements, Model.elementWeight sp' e = Model.elementWeight sp e :=
    fun e he => weight_below h h1 (lt_of_le_of_lt (hf.range e he).2 (hf.pos e he))
  have hs : Model.stressColumns sp' C.elements = Model.stressColumns sp C.elements := by
    unfold Model.stressColumns
    have : C.elements.map (fun e => (Model.elementWeight sp' e).map (fun v => (e.1 - e.2) * v)) =
        C.elements.map (fun e => (Model.elementWeight sp e).map (fun v => (e.1 - e.2) * v)) :=
      List.map_congr_left (fun e h' => by rw [he e h'])
    rw [this, h.1]
  simp only
  unfold Model.soilRows
  rw [hs]
  cases Model.stressColumns sp C.elements with
  | error _ => rfl
  | ok tb =>
    obtain ⟨t, b⟩ := tb
    have hz : ∀ (L : List (K × K)) (M : List (Option K × Option K)),
        (∀ e ∈ L, Model.elementWeight sp' e = Model.elementWeight sp e) →
        List.zipWith (fun e (t, b) => (⟨e, Model.elementWeight sp' e, t, b⟩ : Model.SoilRow K)) L M =
        List.zipWith (fun e (t, b) => (⟨e, Model.elementWeight sp e, t, b⟩ : Model.SoilRow K)) L M := by
      intro L
      induction L with
      | nil => intro M _; rfl
      | cons e L ih =>
        intro M hL
        cases M with
        | nil => rfl
        | cons m M =>
          simp only [List.zipWith_cons_cons, hL e (List.mem_cons_self ..)]
          rw [ih M (fun e h' => hL e (List.mem_cons_of_mem _ h'))]
    exact congrArg Except.ok (hz _ _ he)

/-- **C94, weights.** The weights of the pile and of the soil inside it. -/
theorem C94_weights (pi : K) (h : Same tip sp sp') (h1 : Weight.Setup p sp x2mesh c top tip) (h2 : Weight.Setup p sp' x2mesh c top tip) :
    ∃ C, Mesh.getCoordinates p (some sp) x2mesh c = some C ∧ Mesh.getCoordinates p (some sp') x2mesh c = some C ∧
      OpenPile.Weight.effectivePileWeight pi p sp' C.elements = OpenPile.Weight.effectivePileWeight pi p sp C.elements ∧
      OpenPile.Weight.entrappedSoilWeight pi p sp' C.elements = OpenPile.Weight.entrappedSoilWeight pi p sp C.elements := by
  obtain ⟨C, hC, hf⟩ := Weight.mesh_facts h1
  refine ⟨C, hC, by rw [C94_mesh h h1 h2, hC], ?_, ?_⟩
  · unfold OpenPile.Weight.effectivePileWeight
    rw [h.2.1]
  · unfold OpenPile.Weight.entrappedSoilWeight
    refine congrArg (Option.map List.sum) (Water.mapM_congr _ (fun e he => ?_))
    have hlt : tip < e.1 := lt_of_le_of_lt (hf.range e he).2 (hf.pos e he)
    unfold OpenPile.Weight.soilWeight
    rw [h.2.1]
    have hfil : ∀ (L : List (Soil.Layer K)) (a : Option K),
        L.foldl (fun acc l => if e.1 ≤ l.top ∧ e.2 ≥ l.bottom then
          (OpenPile.Weight.elementVolume (·.entrappedArea pi) p e).map (fun V => if e.1 > sp.waterLine then l.weight * V else (l.weight - 10) * V)
          else acc) a =
        (L.filter (fun l => decide (tip < l.top))).foldl (fun acc l => if e.1 ≤ l.top ∧ e.2 ≥ l.bottom then
          (OpenPile.Weight.elementVolume (·.entrappedArea pi) p e).map (fun V => if e.1 > sp.waterLine then l.weight * V else (l.weight - 10) * V)
          else acc) a := by
      intro L
      induction L with
      | nil => intro a; rfl
      | cons l L ih =>
        intro a
        by_cases hl : tip < l.top
        · rw [List.filter_cons_of_pos (by simpa using hl), List.foldl_cons, List.foldl_cons, ih]
        · rw [List.filter_cons_of_neg (by simpa using hl), List.foldl_cons, ih,
            if_neg (fun h3 : e.1 ≤ l.top ∧ e.2 ≥ l.bottom => hl (hlt.trans_le h3.1))]
    rw [hfil sp'.layers, hfil sp.layers, h.2.2]

end generic

/-! ## Springs -/

theorem foldlM_filter {σ κ : Type} {f : σ → κ → Option σ} {q : κ → Bool} (L : List κ)
    (h : ∀ x ∈ L, q x = false → ∀ s, f s x = some s) (s : σ) : L.foldlM f s = (L.filter q).foldlM f s := by
  induction L generalizing s with
  | nil => rfl
  | cons x L ih =>
    have ih' := fun s => ih (fun y hy => h y (List.mem_cons_of_mem _ hy)) s
    cases hq : q x with
    | true =>
      rw [List.filter_cons_of_pos hq, List.foldlM_cons, List.foldlM_cons]
      congr 1
      funext s
      exact ih' s
    | false =>
      rw [List.filter_cons_of_neg (by simp [hq]), List.foldlM_cons, h x (List.mem_cons_self ..) hq]
      exact ih' s

/-- The springs depend on the layers above the tip. -/
theorem create_below (S : Input) {L : List SoilLayer} {b : ℝ} (env : Draws) (hL : above S.tip L = above S.tip S.layers)
    (hr : ∀ r ∈ S.rows, S.tip < r.top)
    (hp : ∀ l ∈ S.layers, S.tip ≤ l.top → l.bottom ≤ S.tip → ∀ m, l.lateral = some m → PlainBase m) :
    createSprings { S with layers := L, profileBottom := b } env = createSprings S env := by
  have hnone : ∀ l : SoilLayer, ¬ S.tip < l.top → selected S l = [] := by
    intro l hl
    unfold selected
    rw [List.filter_eq_nil_iff]
    rintro ⟨r, i⟩ hx h
    have hr' : r ∈ S.rows := by
      have := List.mem_zipIdx hx
      rw [this.2.2]
      exact List.getElem_mem _
    exact hl ((hr r hr').trans_le (of_decide_eq_true h).1)
  have hfill : fillArrays { S with layers := L, profileBottom := b } env = fillArrays S env := by
    unfold fillArrays
    have hsel : ∀ l, selected { S with layers := L, profileBottom := b } l = selected S l := fun l => rfl
    simp only [hsel]
    rw [foldlM_filter (q := fun l => decide (S.tip < l.top)) L, foldlM_filter (q := fun l => decide (S.tip < l.top)) S.layers]
    · have hL' : L.filter (fun l => decide (S.tip < l.top)) = S.layers.filter (fun l => decide (S.tip < l.top)) := hL
      rw [hL']
      refine Water.foldlM_congr _ (fun l hl A => ?_) _
      refine Water.foldlM_congr _ (fun x hx A => ?_) _
      obtain ⟨r, i⟩ := x
      have hl' := List.mem_filter.1 hl
      have hT : tipIn { S with layers := L, profileBottom := b } l = tipIn S l := rfl
      have h3 : ∀ (m : SoilModel.Model) (A : Arrays), l.lateral = some m →
          hbStep { S with layers := L, profileBottom := b } l m r A = hbStep S l m r A := by
        intro m A hm
        unfold hbStep
        rw [hT]
        cases htip : tipIn S l with
        | false => rfl
        | true =>
          have ht := of_decide_eq_true htip
          have : hbTip { S with layers := L, profileBottom := b } l m r = hbTip S l m r := by
            unfold hbTip baseArgs
            have : sigTip { S with layers := L, profileBottom := b } = sigTip S := rfl
            rw [this]
            cases sigTip S with
            | none => rfl
            | some sig =>
              cases r.sec with
              | none => rfl
              | some s =>
                simp only [Option.bind_eq_bind, Option.bind_some, Option.pure_def]
                have := (base_depth (hp l hl'.1 ht.1 ht.2 m hm)
                  { sig := sig, X := S.ground - S.profileBottom, height := l.top - l.bottom, depth := l.top - S.tip, D := s.width, L := S.ground - S.tip, belowWater := decide (S.tip ≤ S.water), ymax := 0, len := 15 }
                  (S.ground - b)).1
                exact congrArg (fun o => Option.bind o store) this
          rw [this]
      have h4 : ∀ (m : SoilModel.Model) (A : Arrays), l.lateral = some m →
          mbStep { S with layers := L, profileBottom := b } l m r A = mbStep S l m r A := by
        intro m A hm
        unfold mbStep
        rw [hT]
        cases htip : tipIn S l with
        | false => rfl
        | true =>
          have ht := of_decide_eq_true htip
          have : mbTip { S with layers := L, profileBottom := b } l m r = mbTip S l m r := by
            unfold mbTip baseArgs
            have : sigTip { S with layers := L, profileBottom := b } = sigTip S := rfl
            rw [this]
            cases sigTip S with
            | none => rfl
            | some sig =>
              cases r.sec with
              | none => rfl
              | some s =>
                simp only [Option.bind_eq_bind, Option.bind_some, Option.pure_def]
                have := (base_depth (hp l hl'.1 ht.1 ht.2 m hm)
                  { sig := sig, X := S.ground - S.profileBottom, height := l.top - l.bottom, depth := l.top - S.tip, D := s.width, L := S.ground - S.tip, belowWater := decide (S.tip ≤ S.water), ymax := 0, len := 15 }
                  (S.ground - b)).2
                exact congrArg (fun o => Option.bind o store) this
          rw [this]
      have h5 : axialStep { S with layers := L, profileBottom := b } env l r i A = axialStep S env l r i A := rfl
      unfold step lateralStep
      rw [h5]
      congr 1
      funext A
      cases hm : l.lateral with
      | none => rfl
      | some m =>
        simp only [h3 m _ hm, h4 m _ hm]
        rfl
    · intro l _ hl A
      rw [hnone l (by simpa using hl)]
      rfl
    · intro l _ hl A
      rw [hnone l (by simpa using hl)]
      rfl
  unfold createSprings
  rw [hfill]

/-! ## The theorem -/

variable {p : Pile ℝ} {sp sp' : SoilProfile} {x2mesh : List ℝ} {c top tip : ℝ}

/-- The profiles agree above the elevation `tip`. -/
structure SameAbove (tip : ℝ) (sp sp' : SoilProfile) : Prop where
  ground : sp'.topElevation = sp.topElevation
  water : sp'.waterLine = sp.waterLine
  layers : above tip sp'.layers = above tip sp.layers

theorem SameAbove.geometry (h : SameAbove tip sp sp') : Same tip sp.geometry sp'.geometry := by
  refine ⟨h.ground, h.water, ?_⟩
  have := congrArg (List.map (·.toLayer)) h.layers
  simp only [above, SoilProfile.geometry, List.filter_map] at this ⊢
  exact this

/-- **C94.** The profiles agree above the pile tip; the base parameters of the layers that reach the tip are not functions of
depth.  Springs, analyses and capacities are the same. -/
theorem C94_results_partial (h : SameAbove tip sp sp') (h1 : Weight.Setup p sp.geometry x2mesh c top tip)
    (h2 : Weight.Setup p sp'.geometry x2mesh c top tip)
    (hp : ∀ l ∈ sp.layers, tip ≤ l.top → l.bottom ≤ tip → ∀ m, l.lateral = some m → PlainBase m)
    (w : Switches) (table : List (ℝ × Section ℝ)) (env : Draws) :
    modelSprings p sp' x2mesh c w table env = modelSprings p sp x2mesh c w table env ∧
    (∀ ty bcs, solveSoil ty p sp' x2mesh c w table env bcs = solveSoil ty p sp x2mesh c w table env bcs) ∧
    Capacity.shaft p sp' x2mesh c w table env = Capacity.shaft p sp x2mesh c w table env ∧
    Capacity.tip p sp' x2mesh c w table env = Capacity.tip p sp x2mesh c w table env := by
  have hmesh := C94_mesh h.geometry h1 h2
  have hprops := C94_stresses h.geometry h1 h2
  have hsprings : modelSprings p sp' x2mesh c w table env = modelSprings p sp x2mesh c w table env := by
    unfold modelSprings input
    rw [hprops, h.ground, h.water]
    cases hrows : (Model.soilProperties p sp.geometry x2mesh c).toOption with
    | none => rfl
    | some rows =>
      rw [h1.tip_eq]
      cases p.tipArea Real.pi with
      | none => rfl
      | some a =>
        cases p.tipFootprint Real.pi with
        | none => rfl
        | some f =>
          simp only [Option.bind_eq_bind, Option.bind_some, Option.pure_def]
          refine create_below { rows := rows.map (rowOf table), layers := sp.layers, tip := tip, .. } env h.layers ?_ hp
          intro r hr
          obtain ⟨x, hx, rfl⟩ := List.mem_map.1 hr
          obtain ⟨C, hC, hf⟩ := Weight.mesh_facts h1
          have hel : x.element ∈ C.elements := by
            rw [Model.soilProperties, hC] at hrows
            simp only [Model.soilRows] at hrows
            cases hs : Model.stressColumns sp.geometry C.elements with
            | error _ => rw [hs] at hrows; cases hrows
            | ok tb =>
              rw [hs] at hrows
              obtain ⟨t, b⟩ := tb
              simp only [bind, Except.bind, pure, Except.pure, Except.toOption, Option.some.injEq] at hrows
              subst hrows
              obtain ⟨i, hi, hxi⟩ := List.getElem_of_mem hx
              rw [List.getElem_zipWith] at hxi
              rw [← hxi]
              exact List.getElem_mem _
          exact lt_of_le_of_lt (hf.range _ hel).2 (hf.pos _ hel)
  refine ⟨hsprings, fun ty bcs => ?_, ?_, ?_⟩
  · unfold solveSoil
    rw [hmesh, hsprings]
  · unfold Capacity.shaft
    rw [hmesh, hsprings]
  · unfold Capacity.tip
    rw [hsprings]

/-- **C94 violated.** A custom PISA clay around the pile tip whose ultimate base shear is given as a function of depth: the
code evaluates it at the bottom of the profile, so that the base spring changes with the soil below the tip whenever the
function has different values at the two bottoms. -/
theorem C94_violated_base (h1 : Weight.Setup p sp.geometry x2mesh c top tip) (h2 : Weight.Setup p sp'.geometry x2mesh c top tip)
    (h : SameAbove tip sp sp') (w : Switches) (hw : w.baseShear = true) {table : List (ℝ × Section ℝ)} (htab : Model.SortedRows p table)
    (env : Draws) {s : SoilModel.Custom} (hm : ∀ l ∈ sp.layers, tip < l.top → l.bottom ≤ tip → l.lateral = some (.custom s))
    {f : ℝ → Option ℝ} {su G k n xu y y' : ℝ} (hSu : s.Su = some (.scalar su)) (hG : s.G0 = .scalar G)
    (hk : s.hbC.k = .scalar k) (hn : s.hbC.n = .scalar n) (hX : s.hbC.X = .scalar xu) (hY : s.hbC.Y = .func f)
    (hf : f (sp.topElevation - sp.geometry.bottomElevation) = some y) (hf' : f (sp.topElevation - sp'.geometry.bottomElevation) = some y')
    (hsu : 0 < su) (hx : 0 < xu) (hy : 0 < y) (hy' : 0 < y') (hn0 : 0 ≤ n) (hn1 : n < 1) (hne : y ≠ y') {A A' : Arrays}
    (hA : modelSprings p sp x2mesh c w table env = some A) (hA' : modelSprings p sp' x2mesh c w table env = some A') :
    A.hb ≠ A'.hb := by
  obtain ⟨C, S, water, hC, hS, -, -, hlay, hgr, -, htip, helts, hrows, r, hr, hrg⟩ := Props.Assemble.C54_mesh h1 w table
  obtain ⟨C', S', water', hC', hS', -, -, hlay', hgr', -, htip', -, hrows', r', hr', hrg'⟩ := Props.Assemble.C54_mesh h2 w table
  have hin := hS
  have hin' := hS'
  simp only [input, Option.bind_eq_bind, Option.bind_eq_some_iff, Option.pure_def, Option.some.injEq] at hin hin'
  obtain ⟨rows, hrw, t, ht, a, ha, fp, hfp, rfl⟩ := hin
  obtain ⟨rows', hrw', t', ht', a', ha', fp', hfp', rfl⟩ := hin'
  rw [C94_stresses h.geometry h1 h2, hrw, Option.some.injEq] at hrw'
  subst hrw'
  have hrr : r = r' := by
    have e1 := hr.last
    have e2 := hr'.last
    simp only at e1 e2
    exact Option.some.inj (e1.symm.trans e2)
  subst hrr
  rw [modelSprings, hS] at hA
  rw [modelSprings, hS'] at hA'
  have hmem := List.mem_of_getLast? hr.last
  have hmem' := List.mem_of_getLast? hr'.last
  obtain ⟨hpos, hsec, hone, -⟩ := hrows r hmem
  obtain ⟨-, -, hone', -⟩ := hrows' r hmem'
  obtain ⟨⟨l, hl⟩, -⟩ := hone hrg
  obtain ⟨⟨l', hl'⟩, -⟩ := hone' hrg'
  have hmeml := List.mem_filter.1 (show l ∈ Props.Assemble.owners _ r by rw [hl]; exact List.mem_singleton.2 rfl)
  have hmeml' := List.mem_filter.1 (show l' ∈ Props.Assemble.owners _ r by rw [hl']; exact List.mem_singleton.2 rfl)
  have hlin := of_decide_eq_true hmeml.2
  have hlin' := of_decide_eq_true hmeml'.2
  have hbt : r.bottom = tip := hr.tip.trans htip
  have e1 : tip < l.top := by rw [← hbt]; exact hpos.trans_le hlin.1
  have e1' : tip < l'.top := by rw [← hbt]; exact hpos.trans_le hlin'.1
  have hmemsp : l' ∈ sp.layers := by
    have : l' ∈ above tip sp'.layers := List.mem_filter.2 ⟨hmeml'.1, by simpa using e1'⟩
    rw [h.layers] at this
    exact (List.mem_filter.1 this).1
  have hlat := hm l hmeml.1 e1 (by rw [← hbt]; exact hlin.2)
  have hlat' := hm l' hmemsp e1' (by rw [← hbt]; exact hlin'.2)
  have hsect : ∃ x, r.sec = some x ∧ 0 < x.diameter := by
    obtain ⟨C₂, hC₂, hf2⟩ := Weight.mesh_facts h1
    rw [hC, Option.some.injEq] at hC₂
    subst hC₂
    obtain ⟨sections, mat, hmk, hb⟩ := h1.pile
    obtain ⟨-, hmemp⟩ := Mesh.mkPile_sections sections mat p hmk
    have he : (r.top, r.bottom) ∈ C.elements := by
      rw [← helts]
      exact List.mem_map.2 ⟨r, hmem, rfl⟩
    obtain ⟨g, hg⟩ := hf2.section_ _ he
    obtain ⟨hs1, hs2⟩ := List.mem_filter.1 (show g ∈ p.sections.filter (fun s => decide (r.top ≤ s.top ∧ r.bottom ≥ s.bottom)) by
      rw [hg]; exact List.mem_singleton.2 rfl)
    have hs2 : r.top ≤ g.top ∧ r.bottom ≥ g.bottom := of_decide_eq_true hs2
    obtain ⟨t, ht, ht'⟩ := Model.C09_own_or_above sections mat p hmk hb table htab g hs1 r.top (lt_of_le_of_lt hs2.2 hpos) hs2.1
    have htm : t ∈ p.sections := by
      rcases ht' with rfl | ht'
      · exact hs1
      · exact ht'.1
    exact ⟨t, by rw [hsec, ht], ((Pile.built_iff t).1 (hb t ((hmemp t).1 htm))).2.1⟩
  obtain ⟨x, hx1, hx2⟩ := hsect
  have k1 := (Props.Assemble.C47_violated_depth hA hr hpos.le hl (hlin.2.trans_lt (hpos.trans_le hlin.1)) hlat hw hSu hG hk hn hX hY hf
    hsu hx hy hn0 hn1 hx1 hx2).1
  have k2 := (Props.Assemble.C47_violated_depth hA' hr' hpos.le hl' (hlin'.2.trans_lt (hpos.trans_le hlin'.1)) hlat' hw hSu hG hk hn hX hY
    (by simp only [h.ground]; exact hf') hsu hx hy' hn0 hn1 hx1 hx2).1
  intro he
  rw [he, k2, Option.some.injEq] at k1
  have : su * x.diameter ^ 2 ≠ 0 := by positivity
  exact hne (mul_right_cancel₀ this k1).symm

/-! ## Cases -/

/-- The soil of the tube with a second layer from -20 m to -30 m. -/
noncomputable def deeper (m : SoilModel.Model) : SoilProfile :=
  ⟨0, -1, [⟨⟨0, -20, 18⟩, some m, some (.clay Props.Assemble.axialExample)⟩, ⟨⟨-20, -30, 20⟩, none, none⟩]⟩

theorem setup_deeper (m : SoilModel.Model) : Weight.Setup Creation.tube (deeper m).geometry [] 1 1 (-10) := by
  have h1 := Props.Assemble.setup_example (some m) (some (.clay Props.Assemble.axialExample))
  have hsort : Soil.sortLayers (deeper m).geometry.layers = [⟨0, -20, 18⟩, ⟨-20, -30, 20⟩] := by
    have hp : (deeper m).geometry.layers = [⟨0, -20, 18⟩, ⟨-20, -30, 20⟩] := rfl
    rw [hp]
    exact Split.sort_eq (List.Perm.refl _) (by simp)
  exact
  { coarse := h1.coarse
    tip_eq := h1.tip_eq
    built := by
      intro l hl
      simp only [deeper, SoilProfile.geometry, List.map_cons, List.map_nil, List.mem_cons, List.not_mem_nil, or_false] at hl
      rcases hl with rfl | rfl <;> exact (Soil.built_iff _).2 (by norm_num)
    exact := by rw [hsort]; simp
    first := ⟨⟨0, -20, 18⟩, by rw [hsort]; rfl, rfl⟩
    last := ⟨⟨-20, -30, 20⟩, by rw [hsort]; rfl, by norm_num⟩
    grid := by
      rintro r (h | ⟨q, hq, l, hl, he, hr⟩ | h)
      · exact h1.grid r (Or.inl h)
      · cases hq
        simp only [deeper, SoilProfile.geometry, List.map_cons, List.map_nil, List.mem_cons, List.not_mem_nil, or_false] at hl
        rcases hl with rfl | rfl <;> rcases he with rfl | rfl
        · exact ⟨0, by norm_num⟩
        · exact ⟨-200000, by norm_num⟩
        · exact ⟨-200000, by norm_num⟩
        · exact ⟨-300000, by norm_num⟩
      · cases h
    ground := h1.ground
    extra := h1.extra
    sections := h1.sections
    pile := h1.pile
    head := h1.head
    below := h1.below
    inside := h1.inside }

theorem same_deeper (m : SoilModel.Model) : SameAbove (-10) (Creation.soil m) (deeper m) where
  ground := rfl
  water := rfl
  layers := by norm_num [above, Creation.soil, deeper]

/-- The hypotheses of `C94_results_partial` are met. -/
example (w : Switches) : ∃ A, modelSprings Creation.tube (deeper (.matlock (Creation.clay true))) [] 1 w
    (Model.stableRows Creation.tube) Props.Assemble.drawsExample = some A := by
  obtain ⟨C, S, water, fc, ft, A, -, hS, -, -, -, -, -, -, -, -, hA⟩ := Creation.created (Creation.sound_clay true) w
  refine ⟨A, ?_⟩
  rw [(C94_results_partial (p := Creation.tube) (same_deeper _) (Props.Assemble.setup_example _ _) (setup_deeper _) (by
    intro l hl _ _ m hm
    simp only [Creation.soil, List.mem_singleton] at hl
    subst hl
    cases hm
    trivial) w _ _).1, modelSprings, hS]
  exact hA

/-- A custom clay whose ultimate base shear grows with depth. -/
noncomputable def growing : SoilModel.Custom :=
  { Props.Assemble.customExample with hbC := ⟨.scalar 1, .scalar (1 / 2), .scalar 1, .func (fun d => some (1 + |d|))⟩ }

theorem sound_custom : Spec.Sound.Lateral 2 10 (.custom growing) := by
  have hs : ∀ {x : ℝ} {P : ℝ → Prop}, P x → Spec.Sound.Custom (.scalar x) P := fun {x} {P} h => ⟨x, x, .scalar x, fun w _ _ => by simpa using h⟩
  have hmod : ∀ {a b c d : ℝ}, 0 < c → 0 ≤ b → b ≤ 1 / 2 → 0 < d → Spec.Sound.Moderate ⟨.scalar a, .scalar b, .scalar c, .scalar d⟩ :=
    fun h1 h2 h3 h4 => ⟨hs h1, hs ⟨h2, h3⟩, hs trivial, hs h4⟩
  refine ⟨fun p hp => ?_, hs (by norm_num), hmod (by norm_num) (by norm_num) (by norm_num) (by norm_num),
    hmod (by norm_num) (by norm_num) (by norm_num) (by norm_num), ⟨hs (by norm_num), hs (by norm_num), hs trivial, fun X _ => ⟨_, rfl, by positivity⟩⟩,
    hmod (by norm_num) (by norm_num) (by norm_num) (by norm_num), trivial, trivial, trivial, trivial⟩
  cases hp
  exact hs trivial

/-- The hypotheses of the violation are met by a function of depth: the two base springs exist and differ. -/
example : ∃ A A', modelSprings Creation.tube (Creation.soil (.custom growing)) [] 1
      ⟨true, true, true, true, true, true⟩ (Model.stableRows Creation.tube) Props.Assemble.drawsExample = some A ∧
    modelSprings Creation.tube (deeper (.custom growing)) [] 1
      ⟨true, true, true, true, true, true⟩ (Model.stableRows Creation.tube) Props.Assemble.drawsExample = some A' ∧ A.hb ≠ A'.hb := by
  have hSu : ∀ d, Params.layered Props.Assemble.axialExample.Su d (0 - -20) = some 50 := by
    intro d
    norm_num [Props.Assemble.axialExample, Params.layered, Params.topBottom]
  obtain ⟨C, S, water, fc, ft, A, -, hS, -, -, -, -, -, -, -, -, hA⟩ := Creation.created sound_custom ⟨true, true, true, true, true, true⟩
  obtain ⟨C', S', water', fc', ft', A', -, hS', -, -, -, -, -, -, -, -, hA'⟩ := Props.Capacity.C64_setup (p := Creation.tube)
    (sp := deeper (.custom growing))
    (setup_deeper _) ⟨true, true, true, true, true, true⟩
    (table := Model.stableRows Creation.tube) ⟨Py.sortedBy_perm _ _, Py.sortedBy_pairwise _ _⟩ Props.Capacity.good_draws.1
    Props.Capacity.good_draws.2 Props.Capacity.good_lateral (by
      intro l hl m hm
      simp only [List.mem_cons, List.not_mem_nil, or_false, deeper] at hl
      rcases hl with rfl | rfl
      · cases hm
        refine ⟨fun d _ _ => ⟨50, hSu d, by norm_num⟩, ?_, ?_, ?_, ?_, ?_⟩ <;> norm_num [Props.Assemble.axialExample]
      · cases hm) (by
      intro l hl m' hm' s hs
      simp only [List.mem_cons, List.not_mem_nil, or_false, deeper, Creation.tube] at hl hs
      subst hs
      rcases hl with rfl | rfl
      · cases hm'
        norm_num [deeper]
        exact sound_custom
      · cases hm')
  have h1 : modelSprings Creation.tube (Creation.soil (.custom growing)) [] 1
      ⟨true, true, true, true, true, true⟩ (Model.stableRows Creation.tube) Props.Assemble.drawsExample = some A := by
    rw [modelSprings, hS]
    exact hA
  have h2 : modelSprings Creation.tube (deeper (.custom growing)) [] 1
      ⟨true, true, true, true, true, true⟩ (Model.stableRows Creation.tube) Props.Assemble.drawsExample = some A' := by
    rw [modelSprings, hS']
    exact hA'
  refine ⟨A, A', h1, h2, ?_⟩
  refine C94_violated_base (Props.Assemble.setup_example _ _) (setup_deeper _) (same_deeper _) _ rfl
    ⟨Py.sortedBy_perm _ _, Py.sortedBy_pairwise _ _⟩ _ (s := growing) ?_ (f := fun d => some (1 + |d|)) (su := 50) (G := 5000) (k := 1) (n := 1 / 2)
    (xu := 1) (y := 21) (y' := 31) rfl rfl rfl rfl rfl rfl ?_ ?_ (by norm_num) (by norm_num) (by norm_num) (by norm_num)
    (by norm_num) (by norm_num) (by norm_num) h1 h2
  · intro l hl _ _
    simp only [List.mem_singleton] at hl
    subst hl
    rfl
  · norm_num [Creation.soil, SoilProfile.geometry, Soil.Profile.bottomElevation]
  · norm_num [Creation.soil, deeper, SoilProfile.geometry, Soil.Profile.bottomElevation]

end OpenPile.Props.BelowTip

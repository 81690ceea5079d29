/-
C93: how much water stands above the ground does not matter.

Two profiles that differ in the water line only, both at or above every layer top, give the same Model, springs, results,
capacities and soil plug weight.  More generally nothing changes as long as no node in the soil lies between the two water
lines.
-/
import Verif.Props.SplitPile
import Verif.Props.Creation

namespace OpenPile.Props.Water
open OpenPile.Pile (Pile Section)
open OpenPile.Assemble
open OpenPile.SoilAnalysis

/-- The same profile with another water line. -/
def withWater (sp : SoilProfile) (w : ℝ) : SoilProfile := { sp with waterLine := w }

/-- No layer reaches `x`, or `x` is on the same side of both water lines. -/
def SameSide (sp : SoilProfile) (w x : ℝ) : Prop := ∀ l ∈ sp.layers, x ≤ l.top → (x ≤ sp.waterLine ↔ x ≤ w)

section generic
variable {K : Type} [Field K] [LinearOrder K] [IsStrictOrderedRing K] [FloorRing K]

omit [IsStrictOrderedRing K] [FloorRing K] in
theorem weight_water (sp : Soil.Profile K) (w : K) (e : K × K)
    (h : ∀ l ∈ sp.layers, e.1 ≤ l.top → (e.1 ≤ sp.waterLine ↔ e.1 ≤ w)) :
    Model.elementWeight { sp with waterLine := w } e = Model.elementWeight sp e := by
  unfold Model.elementWeight Model.soilTable
  cases hf : Model.mergeForward (·.top) (Py.sortedBy (·.top) (Soil.sortLayers sp.layers)) e.1 with
  | none => rfl
  | some l =>
    have hm : l ∈ sp.layers := by
      have := List.mem_of_find?_eq_some hf
      rw [(Py.sortedBy_perm _ _).mem_iff] at this
      unfold Soil.sortLayers at this
      rwa [List.mem_reverse, (Py.sortedBy_perm _ _).mem_iff] at this
    have ht : e.1 ≤ l.top := by simpa using List.find?_some hf
    simp only [Option.map_some]
    by_cases hw : e.1 ≤ sp.waterLine
    · rw [if_pos hw, if_pos ((h l hm ht).1 hw)]
    · rw [if_neg hw, if_neg (fun h' => hw ((h l hm ht).2 h'))]

omit [IsStrictOrderedRing K] in
/-- The table of `get_soil_properties`. -/
theorem properties_water (p : Pile K) (sp : Soil.Profile K) (w : K) (x2mesh : List K) (c : K)
    (h : ∀ C, Mesh.getCoordinates p (some sp) x2mesh c = some C → ∀ e ∈ C.elements, ∀ l ∈ sp.layers, e.1 ≤ l.top →
      (e.1 ≤ sp.waterLine ↔ e.1 ≤ w)) :
    Model.soilProperties p { sp with waterLine := w } x2mesh c = Model.soilProperties p sp x2mesh c := by
  have hc : Mesh.getCoordinates p (some { sp with waterLine := w }) x2mesh c = Mesh.getCoordinates p (some sp) x2mesh c := rfl
  unfold Model.soilProperties
  rw [hc]
  cases hC : Mesh.getCoordinates p (some sp) x2mesh c with
  | none => rfl
  | some C =>
    have he : ∀ e ∈ C.elements, Model.elementWeight { sp with waterLine := w } e = Model.elementWeight sp e :=
      fun e he => weight_water sp w e (h C hC e he)
    have hs : Model.stressColumns { sp with waterLine := w } C.elements = Model.stressColumns sp C.elements := by
      unfold Model.stressColumns
      have : C.elements.map (fun e => (Model.elementWeight { sp with waterLine := w } e).map (fun v => (e.1 - e.2) * v)) =
          C.elements.map (fun e => (Model.elementWeight sp e).map (fun v => (e.1 - e.2) * v)) :=
        List.map_congr_left (fun e h' => by rw [he e h'])
      rw [this]
    simp only
    unfold Model.soilRows
    rw [hs]
    cases Model.stressColumns sp C.elements with
    | error _ => rfl
    | ok tb =>
      obtain ⟨top, bottom⟩ := tb
      have hz : ∀ (L : List (K × K)) (M : List (Option K × Option K)),
          (∀ e ∈ L, Model.elementWeight { sp with waterLine := w } e = Model.elementWeight sp e) →
          List.zipWith (fun e (t, b) => (⟨e, Model.elementWeight { sp with waterLine := w } e, t, b⟩ : Model.SoilRow K)) L M =
          List.zipWith (fun e (t, b) => (⟨e, Model.elementWeight sp e, t, b⟩ : Model.SoilRow K)) L M := by
        intro L
        induction L with
        | nil => intro M _; rfl
        | cons e L ih =>
          intro M hL
          cases M with
          | nil => rfl
          | cons m M =>
            simp only [List.zipWith_cons_cons, hL e (List.mem_cons_self ..)]
            rw [ih M (fun e h' => hL e (List.mem_cons_of_mem _ h'))]
      exact congrArg Except.ok (hz _ _ he)

/-- Elements of the published mesh have their top above their bottom. -/
theorem element_order {p : Pile K} {soil : Option (Soil.Profile K)} {x2mesh : List K} {c : K} (hc : 0 < c)
    {C : Mesh.Coordinates K} (hC : Mesh.getCoordinates p soil x2mesh c = some C) {e : K × K} (he : e ∈ C.elements) : e.2 ≤ e.1 := by
  cases hb : p.bottomElevation with
  | none =>
    simp only [Mesh.getCoordinates, Mesh.exactNodes, hb] at hC
    cases hC
  | some tip =>
    obtain ⟨z, hz, hdec, -⟩ := Props.Mesh.C05_exact_nodes p soil x2mesh c tip hc hb
    simp only [Mesh.getCoordinates, hz] at hC
    cases hC
    obtain ⟨f, hf, rfl⟩ := List.mem_map.1 he
    refine Mesh.round4_mono _ _ ?_
    unfold Mesh.pairs at hf
    obtain ⟨i, hi, hfi⟩ := List.getElem_of_mem hf
    rw [List.getElem_zip] at hfi
    rw [← hfi]
    rw [List.length_zip, List.length_tail] at hi
    have hi' : i + 1 < z.length := by omega
    rw [List.getElem_tail]
    exact (List.pairwise_iff_getElem.1 hdec i (i + 1) (by omega) hi' (by omega)).le

end generic

/-! ## Springs -/

theorem foldlM_congr {σ κ : Type} {f g : σ → κ → Option σ} (L : List κ) (h : ∀ x ∈ L, ∀ s, f s x = g s x) (s : σ) :
    L.foldlM f s = L.foldlM g s := by
  induction L generalizing s with
  | nil => rfl
  | cons x L ih =>
    rw [List.foldlM_cons, List.foldlM_cons, h x (List.mem_cons_self ..)]
    congr 1
    funext s
    exact ih (fun y hy => h y (List.mem_cons_of_mem _ hy)) s

/-- The springs depend on the water line through the side on which the nodes in soil lie. -/
theorem create_water (S : Input) (w : ℝ) (env : Draws)
    (hn : ∀ l ∈ S.layers, ∀ r ∈ S.rows, r.top ≤ l.top → ∀ b, (r.z b ≤ S.water ↔ r.z b ≤ w))
    (ht : ∀ l ∈ S.layers, S.tip ≤ l.top → (S.tip ≤ S.water ↔ S.tip ≤ w)) :
    createSprings { S with water := w } env = createSprings S env := by
  have hfill : fillArrays { S with water := w } env = fillArrays S env := by
    unfold fillArrays
    refine foldlM_congr _ (fun l hl A => ?_) _
    have hsel : selected { S with water := w } l = selected S l := rfl
    rw [hsel]
    refine foldlM_congr _ (fun x hx A => ?_) _
    obtain ⟨r, i⟩ := x
    have hx' := List.mem_filter.1 hx
    have hr : r ∈ S.rows := by
      have := List.mem_zipIdx hx'.1
      rw [this.2.2]
      exact List.getElem_mem _
    have hrl : r.top ≤ l.top := (of_decide_eq_true hx'.2).1
    have hargs : ∀ b, nodeArgs { S with water := w } l r b = nodeArgs S l r b := by
      intro b
      unfold nodeArgs
      have : decide (r.z b ≤ w) = decide (r.z b ≤ S.water) := by simp only [hn l hl r hr hrl b]
      simp only [this]
    have hbase : tipIn S l = true → baseArgs { S with water := w } l r = baseArgs S l r := by
      intro htip
      have h1 : S.tip ≤ l.top := (of_decide_eq_true htip).1
      unfold baseArgs
      have : decide (S.tip ≤ w) = decide (S.tip ≤ S.water) := by simp only [ht l hl h1]
      simp only [this]
      rfl
    have h1 : ∀ (b : Bool) (m : SoilModel.Model) (e : SoilModel.Env), pyNode { S with water := w } l m r b e = pyNode S l m r b e := fun b m e => by
      unfold pyNode
      rw [hargs]
    have h2 : ∀ (b : Bool) (m : SoilModel.Model) (e : SoilModel.Env), mtNode { S with water := w } l m r b e = mtNode S l m r b e := fun b m e => by
      unfold mtNode
      rw [hargs]
    have h3 : ∀ (m : SoilModel.Model) (A : Arrays), hbStep { S with water := w } l m r A = hbStep S l m r A := by
      intro m A
      unfold hbStep
      have hT : tipIn { S with water := w } l = tipIn S l := rfl
      rw [hT]
      cases htip : tipIn S l with
      | false => rfl
      | true => simp only [hbTip, hbase htip]
    have h4 : ∀ (m : SoilModel.Model) (A : Arrays), mbStep { S with water := w } l m r A = mbStep S l m r A := by
      intro m A
      unfold mbStep
      have hT : tipIn { S with water := w } l = tipIn S l := rfl
      rw [hT]
      cases htip : tipIn S l with
      | false => rfl
      | true => simp only [mbTip, hbase htip]
    have h5 : axialStep { S with water := w } env l r i A = axialStep S env l r i A := rfl
    unfold step lateralStep pyStep mtStep
    simp only [h1, h2, h3, h4, h5]
  unfold createSprings
  rw [hfill]

/-! ## The theorem -/

section theorems
variable {p : Pile ℝ} {sp : SoilProfile} {w' : ℝ} {x2mesh : List ℝ} {c : ℝ}

/-- **C93, general form.** No node in the soil lies between the two water lines: same mesh, stresses, springs, results of
analyses and capacities. -/
theorem C93_same_side (hc : 0 < c)
    (h : ∀ C, Mesh.getCoordinates p (some sp.geometry) x2mesh c = some C → ∀ e ∈ C.elements, SameSide sp w' e.1 ∧ SameSide sp w' e.2)
    (ht : ∀ tip, p.bottomElevation = some tip → SameSide sp w' tip) (w : Switches) (table : List (ℝ × Section ℝ)) (env : Draws) :
    Mesh.getCoordinates p (some (withWater sp w').geometry) x2mesh c = Mesh.getCoordinates p (some sp.geometry) x2mesh c ∧
    Model.soilProperties p (withWater sp w').geometry x2mesh c = Model.soilProperties p sp.geometry x2mesh c ∧
    modelSprings p (withWater sp w') x2mesh c w table env = modelSprings p sp x2mesh c w table env ∧
    (∀ ty bcs, solveSoil ty p (withWater sp w') x2mesh c w table env bcs = solveSoil ty p sp x2mesh c w table env bcs) ∧
    Capacity.shaft p (withWater sp w') x2mesh c w table env = Capacity.shaft p sp x2mesh c w table env ∧
    Capacity.tip p (withWater sp w') x2mesh c w table env = Capacity.tip p sp x2mesh c w table env := by
  have hmesh : Mesh.getCoordinates p (some (withWater sp w').geometry) x2mesh c = Mesh.getCoordinates p (some sp.geometry) x2mesh c := rfl
  have hprops : Model.soilProperties p (withWater sp w').geometry x2mesh c = Model.soilProperties p sp.geometry x2mesh c := by
    refine properties_water p sp.geometry w' x2mesh c (fun C hC e he l hl hle => ?_)
    obtain ⟨m, hm, rfl⟩ := List.mem_map.1 hl
    exact (h C hC e he).1 m hm hle
  have hsprings : modelSprings p (withWater sp w') x2mesh c w table env = modelSprings p sp x2mesh c w table env := by
    unfold modelSprings input
    rw [hprops]
    cases hrows : (Model.soilProperties p sp.geometry x2mesh c).toOption with
    | none => rfl
    | some rows =>
      cases htip : p.bottomElevation with
      | none => rfl
      | some tip =>
        cases p.tipArea Real.pi with
        | none => rfl
        | some a =>
          cases p.tipFootprint Real.pi with
          | none => rfl
          | some f =>
            simp only [Option.bind_eq_bind, Option.bind_some, Option.pure_def]
            refine create_water { rows := rows.map (rowOf table), layers := sp.layers, water := sp.waterLine, tip := tip, .. } w' env ?_ ?_
            · intro l hl r hr hrl b
              obtain ⟨x, hx, rfl⟩ := List.mem_map.1 hr
              obtain ⟨C, hC, hel⟩ : ∃ C, Mesh.getCoordinates p (some sp.geometry) x2mesh c = some C ∧ x.element ∈ C.elements := by
                cases hC : Mesh.getCoordinates p (some sp.geometry) x2mesh c with
                | none =>
                  rw [Model.soilProperties, hC] at hrows
                  cases hrows
                | some C =>
                  refine ⟨C, rfl, ?_⟩
                  rw [Model.soilProperties, hC] at hrows
                  simp only [Model.soilRows] at hrows
                  cases hs : Model.stressColumns sp.geometry C.elements with
                  | error _ => rw [hs] at hrows; cases hrows
                  | ok tb =>
                    rw [hs] at hrows
                    obtain ⟨t, b⟩ := tb
                    simp only [bind, Except.bind, pure, Except.pure, Except.toOption, Option.some.injEq] at hrows
                    subst hrows
                    obtain ⟨i, hi, hxi⟩ := List.getElem_of_mem hx
                    rw [List.getElem_zipWith] at hxi
                    rw [← hxi]
                    exact List.getElem_mem _
              have ho := element_order hc hC hel
              have hse := h C hC x.element hel
              cases b with
              | false => exact hse.1 l hl hrl
              | true => exact hse.2 l hl (ho.trans hrl)
            · intro l hl hle
              exact ht tip htip l hl hle
  refine ⟨hmesh, hprops, hsprings, fun ty bcs => ?_, ?_, ?_⟩
  · unfold solveSoil
    rw [hmesh, hsprings]
  · unfold Capacity.shaft
    rw [hmesh, hsprings]
  · unfold Capacity.tip
    rw [hsprings]

/-- **C93.** Both water lines are at or above the ground. -/
theorem C93_submerged (hc : 0 < c) (h1 : ∀ l ∈ sp.layers, l.top ≤ sp.waterLine) (h2 : ∀ l ∈ sp.layers, l.top ≤ w')
    (w : Switches) (table : List (ℝ × Section ℝ)) (env : Draws) :
    Mesh.getCoordinates p (some (withWater sp w').geometry) x2mesh c = Mesh.getCoordinates p (some sp.geometry) x2mesh c ∧
    Model.soilProperties p (withWater sp w').geometry x2mesh c = Model.soilProperties p sp.geometry x2mesh c ∧
    modelSprings p (withWater sp w') x2mesh c w table env = modelSprings p sp x2mesh c w table env ∧
    (∀ ty bcs, solveSoil ty p (withWater sp w') x2mesh c w table env bcs = solveSoil ty p sp x2mesh c w table env bcs) ∧
    Capacity.shaft p (withWater sp w') x2mesh c w table env = Capacity.shaft p sp x2mesh c w table env ∧
    Capacity.tip p (withWater sp w') x2mesh c w table env = Capacity.tip p sp x2mesh c w table env := by
  have hs : ∀ x, SameSide sp w' x := fun x l hl hle => ⟨fun _ => hle.trans (h2 l hl), fun _ => hle.trans (h1 l hl)⟩
  exact C93_same_side hc (fun C _ e _ => ⟨hs _, hs _⟩) (fun _ _ => hs _) w table env

/-- **C93, dry.** Both water lines are below the lowest node and the pile tip. -/
theorem C93_dry (hc : 0 < c)
    (h : ∀ C, Mesh.getCoordinates p (some sp.geometry) x2mesh c = some C → ∀ e ∈ C.elements, max sp.waterLine w' < e.2)
    (ht : ∀ tip, p.bottomElevation = some tip → max sp.waterLine w' < tip)
    (w : Switches) (table : List (ℝ × Section ℝ)) (env : Draws) :
    modelSprings p (withWater sp w') x2mesh c w table env = modelSprings p sp x2mesh c w table env ∧
    (∀ ty bcs, solveSoil ty p (withWater sp w') x2mesh c w table env bcs = solveSoil ty p sp x2mesh c w table env bcs) ∧
    Capacity.shaft p (withWater sp w') x2mesh c w table env = Capacity.shaft p sp x2mesh c w table env ∧
    Capacity.tip p (withWater sp w') x2mesh c w table env = Capacity.tip p sp x2mesh c w table env := by
  have hs : ∀ x, max sp.waterLine w' < x → SameSide sp w' x := fun x hx l _ _ =>
    ⟨fun h => absurd hx (not_lt.2 (h.trans (le_max_left ..))), fun h => absurd hx (not_lt.2 (h.trans (le_max_right ..)))⟩
  exact (C93_same_side hc (fun C hC e he => ⟨hs _ ((h C hC e he).trans_le (element_order hc hC he)), hs _ (h C hC e he)⟩)
    (fun _ h' => hs _ (ht _ h')) w table env).2.2

end theorems

section weights

theorem mapM_congr {α β : Type} {f f' : α → Option β} (L : List α) (h : ∀ x ∈ L, f x = f' x) : L.mapM f = L.mapM f' := by
  induction L with
  | nil => rfl
  | cons x L ih =>
    rw [List.mapM_cons, List.mapM_cons, h x (List.mem_cons_self ..), ih (fun y hy => h y (List.mem_cons_of_mem _ hy))]

variable {K : Type} [Field K] [LinearOrder K] [IsStrictOrderedRing K] [FloorRing K]

omit [IsStrictOrderedRing K] [FloorRing K] in
/-- **C93, weights.** The weight of the soil plug does not depend on the height of the water above ground, the buoyant
weight of the pile does not as long as the pile is submerged. -/
theorem C93_weights (pi : K) (p : Pile K) (sp : Soil.Profile K) {w : K} (h1 : ∀ l ∈ sp.layers, l.top ≤ sp.waterLine)
    (h2 : ∀ l ∈ sp.layers, l.top ≤ w) (els : List (K × K)) :
    OpenPile.Weight.entrappedSoilWeight pi p { sp with waterLine := w } els = OpenPile.Weight.entrappedSoilWeight pi p sp els ∧
    ((∀ e ∈ els, e.1 ≤ sp.waterLine ∧ e.1 ≤ w) →
      OpenPile.Weight.effectivePileWeight pi p { sp with waterLine := w } els = OpenPile.Weight.effectivePileWeight pi p sp els) := by
  constructor
  · unfold OpenPile.Weight.entrappedSoilWeight
    congr 2
    funext e
    unfold OpenPile.Weight.soilWeight
    have : ∀ (L : List (Soil.Layer K)) (a : Option K), (∀ l ∈ L, l.top ≤ sp.waterLine ∧ l.top ≤ w) →
        L.foldl (fun acc l => if e.1 ≤ l.top ∧ e.2 ≥ l.bottom then
          (OpenPile.Weight.elementVolume (·.entrappedArea pi) p e).map (fun V => if e.1 > w then l.weight * V else (l.weight - 10) * V)
          else acc) a =
        L.foldl (fun acc l => if e.1 ≤ l.top ∧ e.2 ≥ l.bottom then
          (OpenPile.Weight.elementVolume (·.entrappedArea pi) p e).map (fun V => if e.1 > sp.waterLine then l.weight * V else (l.weight - 10) * V)
          else acc) a := by
      intro L
      induction L with
      | nil => intro a _; rfl
      | cons l L ih =>
        intro a hL
        have hl := hL l (List.mem_cons_self ..)
        simp only [List.foldl_cons]
        rw [ih _ (fun x hx => hL x (List.mem_cons_of_mem _ hx))]
        congr 1
        by_cases he : e.1 ≤ l.top ∧ e.2 ≥ l.bottom
        · rw [if_pos he, if_pos he]
          have h3 : ¬ e.1 > w := not_lt.2 (he.1.trans hl.2)
          have h4 : ¬ e.1 > sp.waterLine := not_lt.2 (he.1.trans hl.1)
          simp only [h3, h4, if_false]
        · rw [if_neg he, if_neg he]
    exact this sp.layers _ (fun l hl => ⟨h1 l hl, h2 l hl⟩)
  · intro he
    unfold OpenPile.Weight.effectivePileWeight
    refine congrArg (Option.map List.sum) (mapM_congr els (fun e h => ?_))
    unfold OpenPile.Weight.effectiveWeight
    simp only [he e h, if_true]

end weights

/-! ## Cases -/

/-- Other water lines do not matter for the restrictions under which Models are created. -/
theorem setup_water {K : Type} [Field K] [LinearOrder K] [IsStrictOrderedRing K] [FloorRing K] {p : Pile K} {sp : Soil.Profile K}
    {x2mesh : List K} {c top tip : K} (h : Weight.Setup p sp x2mesh c top tip) (w : K) :
    Weight.Setup p { sp with waterLine := w } x2mesh c top tip :=
  { coarse := h.coarse, tip_eq := h.tip_eq, built := h.built, exact := h.exact, first := h.first, last := h.last, 
    grid := fun r hr => h.grid r (hr.imp_right (Or.imp_left (fun ⟨_, hs, l, hl, hr⟩ => ⟨sp, rfl, l, by cases hs; exact hl, hr⟩))),
    ground := h.ground, extra := h.extra, sections := h.sections, pile := h.pile, head := h.head, below := h.below,
    inside := h.inside }

/-- The tube under 5 m and under 20 m of water: same springs, which exist, and same results. -/
example (w : Switches) : (∃ A, modelSprings Creation.tube (withWater (Creation.soil (.matlock (Creation.clay true))) 5) [] 1 w
      (Model.stableRows Creation.tube) Props.Assemble.drawsExample = some A ∧
    modelSprings Creation.tube (withWater (Creation.soil (.matlock (Creation.clay true))) 20) [] 1 w
      (Model.stableRows Creation.tube) Props.Assemble.drawsExample = some A) ∧
    ∀ ty bcs, solveSoil ty Creation.tube (withWater (Creation.soil (.matlock (Creation.clay true))) 20) [] 1 w
      (Model.stableRows Creation.tube) Props.Assemble.drawsExample bcs =
      solveSoil ty Creation.tube (withWater (Creation.soil (.matlock (Creation.clay true))) 5) [] 1 w
      (Model.stableRows Creation.tube) Props.Assemble.drawsExample bcs := by
  have h := C93_submerged (p := Creation.tube) (sp := withWater (Creation.soil (.matlock (Creation.clay true))) 5) (w' := 20)
    (x2mesh := []) (c := 1) (by norm_num) (by simp [withWater, Creation.soil]) (by simp [withWater, Creation.soil]) w
    (Model.stableRows Creation.tube) Props.Assemble.drawsExample
  refine ⟨?_, h.2.2.2.1⟩
  have hSu : ∀ d, Params.layered Props.Assemble.axialExample.Su d (0 - -20) = some 50 := by
    intro d
    norm_num [Props.Assemble.axialExample, Params.layered, Params.topBottom]
  obtain ⟨C, S, water, fc, ft, A, -, hS, -, -, -, -, -, -, -, -, hA⟩ := Props.Capacity.C64_setup (p := Creation.tube)
    (sp := withWater (Creation.soil (.matlock (Creation.clay true))) 5)
    (setup_water (Props.Assemble.setup_example (some (.matlock (Creation.clay true))) (some (.clay Props.Assemble.axialExample))) 5) w
    (table := Model.stableRows Creation.tube) ⟨Py.sortedBy_perm _ _, Py.sortedBy_pairwise _ _⟩ Props.Capacity.good_draws.1
    Props.Capacity.good_draws.2 Props.Capacity.good_lateral (by
      intro l hl m hm
      simp only [List.mem_singleton, withWater, Creation.soil] at hl
      subst hl
      cases hm
      refine ⟨fun d _ _ => ⟨50, hSu d, by norm_num⟩, ?_, ?_, ?_, ?_, ?_⟩ <;> norm_num [Props.Assemble.axialExample]) (by
      intro l hl m' hm' s hs
      simp only [List.mem_singleton, withWater, Creation.soil, Creation.tube] at hl hs
      subst hl hs
      cases hm'
      norm_num [withWater, Creation.soil]
      exact Creation.sound_clay true)
  have h5 : modelSprings Creation.tube (withWater (Creation.soil (.matlock (Creation.clay true))) 5) [] 1 w
      (Model.stableRows Creation.tube) Props.Assemble.drawsExample = some A := by
    rw [modelSprings, hS]
    exact hA
  exact ⟨A, h5, h.2.2.1.trans h5⟩

end OpenPile.Props.Water

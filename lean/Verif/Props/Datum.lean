/-
C66: the choice of the datum.
-/
import Verif.Spec.Datum
import Verif.Props.BC
import Verif.Props.Mesh
import Verif.Props.Assemble

namespace OpenPile.Props.Datum
open OpenPile OpenPile.Spec

section mesh
variable {K : Type} [Field K] [LinearOrder K] [IsStrictOrderedRing K] [FloorRing K]

omit [FloorRing K] in
theorem uniqueDesc_shift (δ : K) (l : List K) : Py.uniqueDesc (l.map (· + δ)) = (Py.uniqueDesc l).map (· + δ) := by
  have h1 := Py.uniqueDesc_pairwise (l.map (· + δ))
  have h2 : ((Py.uniqueDesc l).map (· + δ)).Pairwise (· > ·) := by
    rw [List.pairwise_map]
    exact (Py.uniqueDesc_pairwise l).imp (fun h => by simpa using h)
  have hp : (Py.uniqueDesc (l.map (· + δ))).Perm ((Py.uniqueDesc l).map (· + δ)) := by
    rw [List.perm_ext_iff_of_nodup (h1.imp (fun h => ne_of_gt h)) (h2.imp (fun h => ne_of_gt h))]
    intro x
    simp only [Py.mem_uniqueDesc, List.mem_map]
  exact hp.eq_of_pairwise (fun a b _ _ hab hba => absurd hab (not_lt.2 (le_of_lt hba))) h1 h2

omit [FloorRing K] [LinearOrder K] [IsStrictOrderedRing K] in
theorem innerPoints_shift (δ a s : K) (d : ℕ) :
    Mesh.innerPoints (a + δ) s d = (Mesh.innerPoints a s d).map (· + δ) := by
  unfold Mesh.innerPoints
  rw [List.map_map]
  apply List.map_congr_left
  intro j _
  simp only [Function.comp]
  ring

theorem secondary_shift (δ c : K) : ∀ l : List K,
    Mesh.secondary c (l.map (· + δ)) = (Mesh.secondary c l).map (List.map (· + δ))
  | [] => rfl
  | [_] => rfl
  | a :: b :: l => by
    have ih := secondary_shift δ c (b :: l)
    simp only [List.map_cons] at ih
    simp only [List.map_cons, Mesh.secondary, add_sub_add_right_eq_sub, ih, innerPoints_shift]
    cases Mesh.divLoop (a - b) c (Mesh.fuelFor (a - b) c) 1 with
    | none => rfl
    | some d =>
      simp only [Option.bind_eq_bind, Option.bind_some]
      cases Mesh.secondary c (b :: l) with
      | none => rfl
      | some r => simp

omit [FloorRing K] [LinearOrder K] [IsStrictOrderedRing K] in
theorem bottom_shift (δ : K) (p : Pile.Pile K) : (Datum.pile δ p).bottomElevation = p.bottomElevation.map (· + δ) := by
  unfold Pile.Pile.bottomElevation Datum.pile
  rw [List.getLast?_map]
  cases p.sections.getLast? <;> rfl

omit [FloorRing K] in
theorem soilElevations_shift (δ pb : K) (sp : Soil.Profile K) :
    Mesh.soilElevations (pb + δ) (some (Datum.profile δ sp)) = (Mesh.soilElevations pb (some sp)).map (· + δ) := by
  unfold Mesh.soilElevations Datum.profile
  have e : (sp.layers.map (Datum.layer δ)).map (·.top) ++ (sp.layers.map (Datum.layer δ)).map (·.bottom) =
      (sp.layers.map (·.top) ++ sp.layers.map (·.bottom)).map (· + δ) := by
    simp [List.map_map, Function.comp_def, Datum.layer]
  simp only [e]
  have hany : ((sp.layers.map (·.top) ++ sp.layers.map (·.bottom)).map (· + δ)).any (fun x => decide (x < pb + δ)) =
      (sp.layers.map (·.top) ++ sp.layers.map (·.bottom)).any (fun x => decide (x < pb)) := by
    rw [List.any_map]
    congr 1
    funext x
    simp
  rw [hany]
  split
  · rw [← List.map_cons (f := (· + δ)), List.filter_map]
    congr 1
    apply List.filter_congr
    intro x _
    simp [Function.comp]
  · rfl

omit [FloorRing K] in
theorem primary_shift (δ pb : K) (p : Pile.Pile K) (sp : Option (Soil.Profile K)) (x2mesh : List K) :
    Mesh.primary (Datum.pile δ p) (pb + δ) (sp.map (Datum.profile δ)) (x2mesh.map (· + δ)) =
      (Mesh.primary p pb sp x2mesh).map (· + δ) := by
  unfold Mesh.primary
  rw [← uniqueDesc_shift]
  congr 1
  have h1 : Mesh.pileElevations (Datum.pile δ p) = (Mesh.pileElevations p).map (· + δ) := by
    unfold Mesh.pileElevations Datum.pile
    simp [List.flatMap_map, List.map_flatMap, Datum.section']
  have h2 : Mesh.soilElevations (pb + δ) (sp.map (Datum.profile δ)) = (Mesh.soilElevations pb sp).map (· + δ) := by
    cases sp with
    | none => rfl
    | some sp => exact soilElevations_shift δ pb sp
  rw [h1, h2]
  simp

theorem exactNodes_shift (δ c : K) (p : Pile.Pile K) (sp : Option (Soil.Profile K)) (x2mesh : List K) :
    Mesh.exactNodes (Datum.pile δ p) (sp.map (Datum.profile δ)) (x2mesh.map (· + δ)) c =
      (Mesh.exactNodes p sp x2mesh c).map (List.map (· + δ)) := by
  unfold Mesh.exactNodes
  rw [bottom_shift]
  cases p.bottomElevation with
  | none => rfl
  | some pb =>
    simp only [Option.map_some, Option.bind_eq_bind, Option.bind_some, primary_shift, secondary_shift]
    cases Mesh.secondary c (Mesh.primary p pb sp x2mesh) with
    | none => rfl
    | some s =>
      simp only [Option.map_some, Option.bind_some, Option.pure_def, ← List.map_append, uniqueDesc_shift]

/-- Rounding to an even number of integers away. -/
theorem rint_shift (x : K) (k : ℤ) : Mesh.rint (x + 2 * k) = Mesh.rint x + 2 * k := by
  have hf : ⌊x + 2 * (k : K)⌋ = ⌊x⌋ + 2 * k := by
    have : (2 * (k : K)) = ((2 * k : ℤ) : K) := by push_cast; ring
    rw [this, Int.floor_add_intCast]
  have hd : x + 2 * (k : K) - ((⌊x⌋ + 2 * k : ℤ) : K) = x - (⌊x⌋ : K) := by push_cast; ring
  have hm : (⌊x⌋ + 2 * k) % 2 = ⌊x⌋ % 2 := by omega
  unfold Mesh.rint
  rw [hf, hd, hm]
  split_ifs <;> ring

/-- The datum is moved by a multiple of 0.2 mm. -/
def EvenGrid (δ : K) : Prop := ∃ k : ℤ, δ = 2 * k / 10000

theorem round4_shift {δ : K} (hδ : EvenGrid δ) (x : K) : Mesh.round4 (x + δ) = Mesh.round4 x + δ := by
  obtain ⟨k, rfl⟩ := hδ
  unfold Mesh.round4
  have : (x + 2 * (k : K) / 10000) * 10000 = x * 10000 + 2 * k := by ring
  rw [this, rint_shift]
  push_cast
  ring

/-- **C66, mesh.** Raising all elevations by a multiple of 0.2 mm raises the nodes and elements by it. -/
theorem C66_mesh {δ : K} (hδ : EvenGrid δ) (c : K) (p : Pile.Pile K) (sp : Option (Soil.Profile K)) (x2mesh : List K) :
    Mesh.getCoordinates (Datum.pile δ p) (sp.map (Datum.profile δ)) (x2mesh.map (· + δ)) c =
      (Mesh.getCoordinates p sp x2mesh c).map (Datum.mesh δ) := by
  unfold Mesh.getCoordinates
  rw [exactNodes_shift]
  cases Mesh.exactNodes p sp x2mesh c with
  | none => rfl
  | some z =>
    simp only [Option.map_some, Option.bind_eq_bind, Option.bind_some, Option.pure_def, Datum.mesh, List.map_map,
      Mesh.pairs]
    congr 1
    congr 1
    · apply List.map_congr_left
      intro x _
      exact round4_shift hδ x
    · rw [← List.map_tail, List.zip_map, List.map_map]
      apply List.map_congr_left
      intro x _
      simp only [Function.comp, Prod.map, round4_shift hδ]

/-- The condition on the shift is needed: halves of 0.1 mm are rounded to even multiples. -/
theorem C66_violated_odd : Mesh.round4 (-(101 / 20000) : ℚ) = -(50 / 10000) ∧
    Mesh.round4 (-(101 / 20000) + 1 / 10000 : ℚ) = -(50 / 10000) := by
  constructor <;> decide +kernel

/-! ### sections and stresses of the elements -/

omit [FloorRing K] [Field K] [IsStrictOrderedRing K] in
theorem sortedBy_map {α β K' : Type} [LinearOrder K'] (key : α → K) (key' : β → K') (f : α → β)
    (hf : ∀ a b, key a ≤ key b ↔ key' (f a) ≤ key' (f b)) (l : List α) :
    Py.sortedBy key' (l.map f) = (Py.sortedBy key l).map f := by
  unfold Py.sortedBy
  exact (List.map_insertionSort _ _ f l (fun a _ b _ => hf a b)).symm

omit [FloorRing K] in
theorem sortLayers_shift (δ : K) (L : List (Soil.Layer K)) :
    Soil.sortLayers (L.map (Datum.layer δ)) = (Soil.sortLayers L).map (Datum.layer δ) := by
  unfold Soil.sortLayers
  rw [sortedBy_map (·.top) (·.top) (Datum.layer δ) (fun a b => by simp [Datum.layer]), List.map_reverse]

omit [FloorRing K] in
theorem soilTable_shift (δ : K) (sp : Soil.Profile K) :
    Model.soilTable (Datum.profile δ sp) = (Model.soilTable sp).map (Datum.layer δ) := by
  unfold Model.soilTable Datum.profile
  rw [sortLayers_shift, sortedBy_map (·.top) (·.top) (Datum.layer δ) (fun a b => by simp [Datum.layer])]

omit [FloorRing K] in
theorem elementWeight_shift (δ : K) (sp : Soil.Profile K) (e : K × K) :
    Model.elementWeight (Datum.profile δ sp) (e.1 + δ, e.2 + δ) = Model.elementWeight sp e := by
  unfold Model.elementWeight Model.mergeForward
  rw [soilTable_shift, List.find?_map]
  simp only [Datum.profile, Option.map_map, add_le_add_iff_right]
  have : ((fun r : Soil.Layer K => decide (e.1 + δ ≤ r.top)) ∘ Datum.layer δ) = fun r => decide (e.1 ≤ r.top) := by
    funext r
    simp [Datum.layer]
  rw [this]
  rfl

omit [FloorRing K] in
theorem whereTop_shift (δ t : K) : ∀ (i : ℕ) (l : List (K × K)),
    Model.whereTop (t + δ) i (l.map (fun e => (e.1 + δ, e.2 + δ))) = Model.whereTop t i l
  | _, [] => rfl
  | i, e :: l => by
    simp only [List.map_cons, Model.whereTop, add_left_inj, whereTop_shift δ t (i + 1) l]

/-- A row of the soil table, raised. -/
def soilRow (δ : K) (r : Model.SoilRow K) : Model.SoilRow K := { r with element := (r.element.1 + δ, r.element.2 + δ) }

omit [FloorRing K] in
theorem soilRows_shift (δ : K) (sp : Soil.Profile K) (els : List (K × K)) :
    Model.soilRows (Datum.profile δ sp) (els.map (fun e => (e.1 + δ, e.2 + δ))) =
      (Model.soilRows sp els).map (List.map (soilRow δ)) := by
  unfold Model.soilRows
  have hst : Model.stressColumns (Datum.profile δ sp) (els.map (fun e => (e.1 + δ, e.2 + δ))) =
      Model.stressColumns sp els := by
    unfold Model.stressColumns
    have h1 : (els.map (fun e => (e.1 + δ, e.2 + δ))).map
        (fun e => (Model.elementWeight (Datum.profile δ sp) e).map (fun w => (e.1 - e.2) * w)) =
        els.map (fun e => (Model.elementWeight sp e).map (fun w => (e.1 - e.2) * w)) := by
      rw [List.map_map]
      apply List.map_congr_left
      intro e _
      simp only [Function.comp, elementWeight_shift, add_sub_add_right_eq_sub]
    rw [h1]
    show (match Model.whereTop (sp.topElevation + δ) 0 _ with | [i] => _ | _ => _) = _
    rw [whereTop_shift]
    cases Model.whereTop sp.topElevation 0 els with
    | nil => rfl
    | cons a l => cases l <;> rfl
  rw [hst]
  cases Model.stressColumns sp els with
  | error e => rfl
  | ok r =>
    obtain ⟨t, b⟩ := r
    show Except.ok _ = Except.ok _
    congr 1
    rw [List.zipWith_map_left, List.map_zipWith]
    simp only [elementWeight_shift, soilRow]

theorem soilProperties_shift {δ : K} (hδ : EvenGrid δ) (c : K) (p : Pile.Pile K) (sp : Soil.Profile K) (x2mesh : List K) :
    Model.soilProperties (Datum.pile δ p) (Datum.profile δ sp) (x2mesh.map (· + δ)) c =
      (Model.soilProperties p sp x2mesh c).map (List.map (soilRow δ)) := by
  unfold Model.soilProperties
  have := C66_mesh hδ c p (some sp) x2mesh
  rw [Option.map_some] at this
  rw [this]
  cases Mesh.getCoordinates p (some sp) x2mesh c with
  | none => rfl
  | some C =>
    rw [Option.map_some]
    exact soilRows_shift δ sp C.elements

end mesh

/-! ## springs -/

open OpenPile.Assemble

/-- A row of `create_springs`, raised. -/
noncomputable def row (δ : ℝ) (r : Row) : Row :=
  ⟨r.top + δ, r.bottom + δ, r.sigTop, r.sigBottom, r.sec.map (Datum.section' δ)⟩

/-- What `create_springs` reads, raised. -/
noncomputable def input' (δ : ℝ) (S : Input) : Input :=
  { S with rows := S.rows.map (row δ), layers := S.layers.map (Datum.soilLayer δ), ground := S.ground + δ,
           profileBottom := S.profileBottom + δ, water := S.water + δ, tip := S.tip + δ }

theorem elementSection_shift (δ : ℝ) (table : List (ℝ × Pile.Section ℝ)) (z : ℝ) :
    Model.elementSection (Datum.pileTable δ table) (z + δ) = (Model.elementSection table z).map (Datum.section' δ) := by
  unfold Model.elementSection Model.mergeForward Datum.pileTable
  rw [List.find?_map]
  have : ((fun r : ℝ × Pile.Section ℝ => decide (z + δ ≤ r.1)) ∘ fun r : ℝ × Pile.Section ℝ => (r.1 + δ, Datum.section' δ r.2)) =
      fun r : ℝ × Pile.Section ℝ => decide (z ≤ r.1) := by
    funext r
    simp
  simp only [this]
  cases List.find? (fun r : ℝ × Pile.Section ℝ => decide (z ≤ r.1)) table <;> rfl

theorem geometry_shift (δ : ℝ) (sp : SoilProfile) : (Datum.soil δ sp).geometry = Datum.profile δ sp.geometry := by
  unfold Datum.soil SoilProfile.geometry Datum.profile
  simp [List.map_map, Function.comp_def, Datum.soilLayer]

theorem input_shift {δ : ℝ} (hδ : EvenGrid δ) (p : Pile.Pile ℝ) (sp : SoilProfile) (x2mesh : List ℝ) (c : ℝ)
    (w : Switches) (table : List (ℝ × Pile.Section ℝ)) :
    input (Datum.pile δ p) (Datum.soil δ sp) (x2mesh.map (· + δ)) c w (Datum.pileTable δ table) =
      (input p sp x2mesh c w table).map (input' δ) := by
  unfold input
  rw [geometry_shift, soilProperties_shift hδ, bottom_shift]
  have hA : (Datum.pile δ p).tipArea Real.pi = p.tipArea Real.pi := by
    unfold Pile.Pile.tipArea Datum.pile
    rw [List.getLast?_map]
    cases p.sections.getLast? <;> rfl
  have hF : (Datum.pile δ p).tipFootprint Real.pi = p.tipFootprint Real.pi := by
    unfold Pile.Pile.tipFootprint Datum.pile
    rw [List.getLast?_map]
    cases p.sections.getLast? <;> rfl
  rw [hA, hF]
  cases Model.soilProperties p sp.geometry x2mesh c with
  | error e => rfl
  | ok rows =>
    simp only [Except.map, Except.toOption, Option.bind_eq_bind, Option.bind_some]
    cases p.bottomElevation with
    | none => rfl
    | some tip =>
      cases p.tipArea Real.pi with
      | none => rfl
      | some area =>
        cases p.tipFootprint Real.pi with
        | none => rfl
        | some fp =>
          simp only [Option.map_some, Option.bind_some, Option.pure_def, input']
          congr 1
          congr 1
          · rw [List.map_map, List.map_map]
            apply List.map_congr_left
            intro r _
            simp only [Function.comp, rowOf, soilRow, row, elementSection_shift]
          · unfold Soil.Profile.bottomElevation Datum.profile
            simp only [List.map_map, Function.comp_def, Datum.layer, add_sub_add_right_eq_sub]
            ring

theorem nodeArgs_shift (δ : ℝ) (S : Input) (l : SoilLayer) (r : Row) (b : Bool) :
    nodeArgs (input' δ S) (Datum.soilLayer δ l) (row δ r) b = nodeArgs S l r b := by
  unfold nodeArgs
  have hs : (row δ r).sig b = r.sig b := by cases b <;> rfl
  have hz : (row δ r).z b = r.z b + δ := by cases b <;> rfl
  rw [hs, hz]
  cases r.sig b with
  | none => rfl
  | some sig =>
    show (r.sec.map (Datum.section' δ)).bind _ = r.sec.bind _
    cases r.sec with
    | none => rfl
    | some s =>
      simp only [Option.map_some, Option.bind_some, input', Datum.soilLayer, Datum.layer, add_sub_add_right_eq_sub,
        add_le_add_iff_right, Datum.section', Pile.Section.width]

theorem sigTip_shift (δ : ℝ) (S : Input) : sigTip (input' δ S) = sigTip S := by
  unfold sigTip input'
  rw [List.getLast?_map]
  cases S.rows.getLast? <;> rfl

theorem baseArgs_shift (δ : ℝ) (S : Input) (l : SoilLayer) (r : Row) :
    baseArgs (input' δ S) (Datum.soilLayer δ l) (row δ r) = baseArgs S l r := by
  unfold baseArgs
  rw [sigTip_shift]
  cases sigTip S with
  | none => rfl
  | some sig =>
    show (r.sec.map (Datum.section' δ)).bind _ = r.sec.bind _
    cases r.sec with
    | none => rfl
    | some s =>
      simp only [Option.map_some, Option.bind_some, input', Datum.soilLayer, Datum.layer, add_sub_add_right_eq_sub,
        add_le_add_iff_right, Datum.section', Pile.Section.width]

theorem tipIn_shift (δ : ℝ) (S : Input) (l : SoilLayer) : tipIn (input' δ S) (Datum.soilLayer δ l) = tipIn S l := by
  unfold tipIn input' Datum.soilLayer Datum.layer
  simp

theorem tzNode_shift (δ : ℝ) (S : Input) (l : SoilLayer) (m : AxialModel) (r : Row) (b : Bool) (e : SoilModel.Env) :
    tzNode (input' δ S) (Datum.soilLayer δ l) m (row δ r) b e = tzNode S l m r b e := by
  unfold tzNode
  have hs : (row δ r).sig b = r.sig b := by cases b <;> rfl
  have hz : (row δ r).z b = r.z b + δ := by cases b <;> rfl
  rw [hs, hz]
  cases r.sig b with
  | none => rfl
  | some sig =>
    show (r.sec.map (Datum.section' δ)).bind _ = r.sec.bind _
    cases r.sec with
    | none => rfl
    | some s =>
      simp only [Option.map_some, Option.bind_some, Datum.soilLayer, Datum.layer, add_sub_add_right_eq_sub,
        Datum.section', Pile.Section.width, Pile.Section.outerPerimeter]

theorem qzTip_shift (δ : ℝ) (S : Input) (l : SoilLayer) (m : AxialModel) (r : Row) (e : SoilModel.Env) :
    qzTip (input' δ S) (Datum.soilLayer δ l) m (row δ r) e = qzTip S l m r e := by
  unfold qzTip
  rw [sigTip_shift]
  cases sigTip S with
  | none => rfl
  | some sig =>
    show (r.sec.map (Datum.section' δ)).bind _ = r.sec.bind _
    cases r.sec with
    | none => rfl
    | some s =>
      simp only [Option.map_some, Option.bind_some, input', Datum.soilLayer, Datum.layer, add_sub_add_right_eq_sub,
        Datum.section', Pile.Section.width]

theorem step_shift (δ : ℝ) (S : Input) (env : Draws) (l : SoilLayer) (A : Arrays) (r : Row) (i : ℕ) :
    Assemble.step (input' δ S) (Datum.draws δ env) (Datum.soilLayer δ l) A (row δ r, i) = Assemble.step S env l A (r, i) := by
  have htop : (Datum.soilLayer δ l).top = l.top + δ := rfl
  have hax : axialStep (input' δ S) (Datum.draws δ env) (Datum.soilLayer δ l) (row δ r) i A = axialStep S env l r i A := by
    unfold axialStep
    show (match l.axial with | none => _ | some m => _) = _
    cases l.axial with
    | none => rfl
    | some m =>
      simp only [tzNode_shift, qzTip_shift, tipIn_shift, Datum.draws, htop, add_sub_cancel_right]
      rfl
  have hlat : ∀ A, lateralStep (input' δ S) (Datum.draws δ env) (Datum.soilLayer δ l) (row δ r) i A =
      lateralStep S env l r i A := by
    intro A
    unfold lateralStep
    show (match l.lateral with | none => _ | some m => _) = _
    cases l.lateral with
    | none => rfl
    | some m =>
      simp only [pyStep, mtStep, hbStep, mbStep, pyNode, mtNode, hbTip, mbTip, nodeArgs_shift, baseArgs_shift, tipIn_shift,
        Datum.draws, htop, add_sub_cancel_right]
      rfl
  unfold Assemble.step
  simp only [hax, hlat]

theorem selected_shift (δ : ℝ) (S : Input) (l : SoilLayer) :
    selected (input' δ S) (Datum.soilLayer δ l) = (selected S l).map (fun x => (row δ x.1, x.2)) := by
  unfold selected input'
  simp only
  rw [List.zipIdx_map, List.filter_map]
  have : ((fun x : Row × ℕ => decide (x.1.top ≤ (Datum.soilLayer δ l).top ∧ x.1.bottom ≥ (Datum.soilLayer δ l).bottom)) ∘
      Prod.map (row δ) id) = fun x => decide (x.1.top ≤ l.top ∧ x.1.bottom ≥ l.bottom) := by
    funext x
    simp [row, Datum.soilLayer, Datum.layer]
  rw [this]
  rfl

/-- **C66, springs of given elements.** -/
theorem createSprings_shift (δ : ℝ) (S : Input) (env : Draws) :
    createSprings (input' δ S) (Datum.draws δ env) = createSprings S env := by
  have hfill : fillArrays (input' δ S) (Datum.draws δ env) = fillArrays S env := by
    unfold fillArrays
    show (S.layers.map (Datum.soilLayer δ)).foldlM _ _ = _
    rw [List.foldlM_map]
    congr 1
    funext A l
    rw [selected_shift, List.foldlM_map]
    congr 1
    funext A x
    exact step_shift δ S env l A x.1 x.2
  unfold createSprings
  rw [hfill]

/-- **C66, springs.** -/
theorem C66_springs {δ : ℝ} (hδ : EvenGrid δ) (p : Pile.Pile ℝ) (sp : SoilProfile) (x2mesh : List ℝ) (c : ℝ)
    (w : Switches) (table : List (ℝ × Pile.Section ℝ)) (env : Draws) :
    modelSprings (Datum.pile δ p) (Datum.soil δ sp) (x2mesh.map (· + δ)) c w (Datum.pileTable δ table) (Datum.draws δ env) =
      modelSprings p sp x2mesh c w table env := by
  unfold modelSprings
  rw [input_shift hδ]
  cases input p sp x2mesh c w table with
  | none => rfl
  | some S => exact createSprings_shift δ S env

end OpenPile.Props.Datum

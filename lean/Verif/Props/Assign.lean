/-
C78: assigning attributes of a Model after it was created.
-/
import Verif.Model.Assign
import Verif.Props.NoModels
import Verif.Props.Creation
import Verif.Props.Mesh

namespace OpenPile.Props.Assign
open OpenPile.Assign OpenPile.SoilAnalysis OpenPile.Analysis OpenPile.BC OpenPile.Mesh OpenPile.Kernel
  OpenPile.Winkler OpenPile.Assemble OpenPile.Spring OpenPile.Props.Winkler OpenPile.Props.SoilStiffness
  OpenPile.Props.NoModels

/-! ### What assignment should do -/

/-- What a user expects after an assignment: the result of a Model created with the new attributes. -/
noncomputable def fresh (a : Attrs) (table : List (ℝ × Pile.Section ℝ)) (env : Draws) (bcs : List (Cond ℝ)) :
    Option Answer := (create a table env).bind (fun i => i.solve bcs)

/-! ### Without soil -/

/-- **C78, no soil.** As long as a Model without soil has not been solved, plotted or looked at, every attribute
except the soil can be assigned: the object is the one a creation with the new attributes gives. -/
theorem C78_beam_partial (a a' : Attrs) (h : a.soil = none) (h' : a'.soil = none) (table : List (ℝ × Pile.Section ℝ))
    (env : Draws) (i : Inst) (hi : create a table env = some i) : create a' table env = some (i.assign a') := by
  unfold create at hi ⊢
  rw [h] at hi
  rw [h']
  cases hi
  rfl

/-- **C78 violated by a soil profile given later.** A Model created without soil raises in every analysis after a soil
profile was assigned to it, whatever the profile, the other attributes and the boundary conditions. -/
theorem C78_violated_soil (a a' : Attrs) (h : a.soil = none) (sp : SoilProfile) (h' : a'.soil = some sp)
    (table : List (ℝ × Pile.Section ℝ)) (env : Draws) (i : Inst) (hi : create a table env = some i)
    (bcs : List (Cond ℝ)) : (i.assign a').solve bcs = none ∧ (i.touched.assign a').solve bcs = none := by
  unfold create at hi
  rw [h] at hi
  cases hi
  have key : ∀ j : Inst, j.arrays = none → j.attrs.soil = some sp → j.solve bcs = none := by
    intro j h1 h2
    unfold Inst.solve
    cases hr : j.read with
    | none => rfl
    | some r =>
      simp only [Option.bind_eq_bind, Option.bind_some, h2, h1, Option.bind_none]
  refine ⟨key _ rfl h', key _ ?_ h'⟩
  unfold Inst.touched
  cases hr : (⟨a, none, none, none⟩ : Inst).read with
  | none => rfl
  | some r =>
    unfold Inst.read at hr
    simp only [Option.bind_eq_bind, Option.bind_eq_some_iff] at hr
    obtain ⟨n, -, e, -, hr⟩ := hr
    cases hr
    rfl

/-! ### With soil -/

/-- A created Model with soil. -/
theorem create_soil {a : Attrs} {sp : SoilProfile} (h : a.soil = some sp) {table : List (ℝ × Pile.Section ℝ)}
    {env : Draws} {i : Inst} (hi : create a table env = some i) :
    ∃ C A, a.coordinates = some C ∧ modelSprings a.pile sp a.x2mesh a.coarseness a.switches table env = some A ∧
      i = ⟨a, none, some C.elements, some A⟩ := by
  unfold create at hi
  rw [h] at hi
  simp only [Option.bind_eq_bind, Option.bind_eq_some_iff] at hi
  obtain ⟨C, hC, A, hA, hi⟩ := hi
  cases hi
  exact ⟨C, A, hC, hA, rfl⟩

theorem create_some {a : Attrs} {sp : SoilProfile} (h : a.soil = some sp) {table : List (ℝ × Pile.Section ℝ)}
    {env : Draws} {C : Coordinates ℝ} {A : Arrays} (hC : a.coordinates = some C)
    (hA : modelSprings a.pile sp a.x2mesh a.coarseness a.switches table env = some A) :
    create a table env = some ⟨a, none, some C.elements, some A⟩ := by
  unfold create
  rw [h]
  simp only [Option.bind_eq_bind, hC, Option.bind_some, hA]
  rfl

/-- An analysis of the created Model. -/
theorem solve_soil {a : Attrs} {sp : SoilProfile} (h : a.soil = some sp) {C : Coordinates ℝ} {A : Arrays}
    (hC : a.coordinates = some C) (bcs : List (Cond ℝ)) :
    (⟨a, none, some C.elements, some A⟩ : Inst).solve bcs =
      (solveSoilOn a.ty a.pile C a.switches A bcs 100).map .soil := by
  unfold Inst.solve Inst.read
  simp only [Option.none_or, hC, Option.map_some, Option.some_or, Option.bind_eq_bind, Option.bind_some, h]
  rfl

/-- The material is read by no function that places nodes or computes springs. -/
theorem springs_material (p : Pile.Pile ℝ) (mat : Pile.Material ℝ) (sp : SoilProfile) (x : List ℝ) (c : ℝ)
    (w : Switches) (table : List (ℝ × Pile.Section ℝ)) (env : Draws) :
    modelSprings { p with material := mat } sp x c w table env = modelSprings p sp x c w table env := rfl

theorem coordinates_material (p : Pile.Pile ℝ) (mat : Pile.Material ℝ) (soil : Option (Soil.Profile ℝ)) (x : List ℝ)
    (c : ℝ) : getCoordinates { p with material := mat } soil x c = getCoordinates p soil x c := rfl

/-- **C78, element type and material.** They can be assigned at any time: the object is the one a creation with the
new attributes gives. -/
theorem C78_structure_partial (a : Attrs) (ty : ElementType) (mat : Pile.Material ℝ) (table : List (ℝ × Pile.Section ℝ))
    (env : Draws) (i : Inst) (hi : create a table env = some i) (bcs : List (Cond ℝ)) :
    let a' : Attrs := { a with ty := ty, pile := { a.pile with material := mat } }
    create a' table env = some (i.assign a') ∧
    (i.touched.assign a').solve bcs = fresh a' table env bcs := by
  intro a'
  have h1 : create a' table env = some (i.assign a') := by
    cases hs : a.soil with
    | none => exact C78_beam_partial a a' hs hs table env i hi
    | some sp =>
      obtain ⟨C, A, hC, hA, rfl⟩ := create_soil hs hi
      exact create_some (a := a') hs hC hA
  refine ⟨h1, ?_⟩
  unfold fresh
  rw [h1, Option.bind_some]
  -- reading the coordinates first gives the same coordinates, as they do not depend on what was assigned
  have hc : ∀ j : Inst, j.attrs = a → (j.touched.assign a').solve bcs = (j.assign a').solve bcs := by
    intro j hj
    have hco : a'.coordinates = j.attrs.coordinates := by rw [hj]; rfl
    unfold Inst.touched
    cases hr : j.read with
    | none => rfl
    | some r =>
      unfold Inst.read at hr
      simp only [Option.bind_eq_bind, Option.bind_eq_some_iff] at hr
      obtain ⟨n, hn, e, he, hr⟩ := hr
      cases hr
      have r1 : (({ j with nodes := some n, elements := some e } : Inst).assign a').read =
          some (⟨n, e⟩, ⟨a', some n, some e, j.arrays⟩) := rfl
      have r2 : (j.assign a').read = some (⟨n, e⟩, ⟨a', some n, some e, j.arrays⟩) := by
        unfold Inst.read Inst.assign
        simp only [hco, hn, he, Option.bind_eq_bind, Option.bind_some]
        rfl
      unfold Inst.solve
      rw [r1, r2]
      rfl
  apply hc
  cases hs : a.soil with
  | none =>
    unfold create at hi
    rw [hs] at hi
    cases hi
    rfl
  | some sp =>
    obtain ⟨C, A, hC, hA, rfl⟩ := create_soil hs hi
    rfl

/-- **C78 violated by a new mesh or soil after an analysis.** Once a Model with soil was solved, plotted or looked at,
assigning another soil profile, other mesh elevations or another coarseness changes no result. -/
theorem C78_violated_ignored (a : Attrs) (sp : SoilProfile) (h : a.soil = some sp) (table : List (ℝ × Pile.Section ℝ))
    (env : Draws) (i : Inst) (hi : create a table env = some i) (bcs : List (Cond ℝ)) (sp' : SoilProfile)
    (x2mesh : List ℝ) (coarseness : ℝ) :
    (i.touched.assign { a with soil := some sp', x2mesh := x2mesh, coarseness := coarseness }).solve bcs =
      i.solve bcs := by
  obtain ⟨C, A, hC, hA, rfl⟩ := create_soil h hi
  rw [solve_soil h hC]
  have ht : (⟨a, none, some C.elements, some A⟩ : Inst).touched = ⟨a, some C.nodes, some C.elements, some A⟩ := by
    unfold Inst.touched Inst.read
    simp only [Option.none_or, hC, Option.map_some, Option.some_or, Option.bind_eq_bind, Option.bind_some]
    rfl
  rw [ht]
  unfold Inst.solve Inst.read Inst.assign
  simp only [Option.some_or, Option.bind_eq_bind, Option.bind_some]
  rfl

/-- Published coordinates: one node more than elements. -/
theorem coordinates_length {p : Pile.Pile ℝ} {soil : Option (Soil.Profile ℝ)} {x : List ℝ} {c : ℝ} {C : Coordinates ℝ}
    (hC : getCoordinates p soil x c = some C) : C.elements.length = C.nodes.length - 1 := by
  unfold getCoordinates at hC
  simp only [Option.bind_eq_bind, Option.bind_eq_some_iff] at hC
  obtain ⟨z, -, hC⟩ := hC
  cases hC
  simp [pairs]

/-- **C78 violated by a new mesh before the first analysis.** The elements were cached when the Model was created, the
nodes were not: if the new attributes ask for another number of nodes, every analysis raises. -/
theorem C78_violated_mesh (a : Attrs) (sp : SoilProfile) (h : a.soil = some sp) (table : List (ℝ × Pile.Section ℝ))
    (env : Draws) (i : Inst) (hi : create a table env = some i) (bcs : List (Cond ℝ)) (a' : Attrs)
    (C C' : Coordinates ℝ) (hC : a.coordinates = some C) (hC' : a'.coordinates = some C')
    (hn : C.nodes ≠ []) (hne : C'.nodes.length ≠ C.nodes.length) :
    (i.assign a').solve bcs = none := by
  obtain ⟨C₀, A, hC₀, hA, rfl⟩ := create_soil h hi
  rw [hC] at hC₀
  cases hC₀
  have hlen := coordinates_length hC
  have hpos : 0 < C.nodes.length := List.length_pos_iff.2 hn
  have hdof : ∀ {β : Type} (g : Nodal β), g.x.length = C'.nodes.length → g.y.length = C'.nodes.length →
      g.z.length = C'.nodes.length → (dofList g).length = 3 * C'.nodes.length := by
    intro β g h1 h2 h3
    unfold dofList
    rw [List.length_flatMap]
    simp [h1, h2, h3]
    ring
  have hnone : ∀ {γ : Type} (l : List γ), l.length = 3 * C'.nodes.length → asVec C.elements.length l = none := by
    intro γ l hl
    unfold asVec
    rw [dif_neg]
    omega
  have hf : ∀ F, globalForces C'.nodes bcs = .ok F →
      asVec C.elements.length ((dofList F).map (fun i : ℤ => (i : ℝ))) = none := by
    intro F hF
    apply hnone
    rw [List.length_map]
    unfold globalForces at hF
    cases hv : validateBc bcs .force with
    | error e => rw [hv] at hF; cases hF
    | ok u =>
      rw [hv] at hF
      cases hF
      have := fun ax => applyBc_length storeInt C'.nodes .force ⟨C'.nodes.map (fun _ => (0 : ℤ)),
        C'.nodes.map (fun _ => (0 : ℤ)), C'.nodes.map (fun _ => (0 : ℤ))⟩ bcs ax
      apply hdof
      · simpa [Nodal.get] using this .x
      · simpa [Nodal.get] using this .y
      · simpa [Nodal.get] using this .z
  have hbeam : ∀ ty p, solveOn Real.pi ty p ⟨C'.nodes, C.elements⟩ bcs = none := by
    intro ty p
    unfold solveOn
    simp only [Option.bind_eq_bind]
    cases hF : globalForces C'.nodes bcs with
    | error e => rfl
    | ok F =>
      simp only [Except.toOption, Option.bind_some]
      cases globalDisp C'.nodes bcs with
      | error e => rfl
      | ok U =>
        cases globalRestrained C'.nodes bcs with
        | error e => rfl
        | ok R => simp only [Option.bind_some, hf F hF, Option.bind_none]
  have hsoil : ∀ ty p w, solveSoilOn ty p ⟨C'.nodes, C.elements⟩ w A bcs 100 = none := by
    intro ty p w
    unfold solveSoilOn
    simp only [Option.bind_eq_bind]
    cases hF : globalForces C'.nodes bcs with
    | error e => rfl
    | ok F =>
      simp only [Except.toOption, Option.bind_some]
      cases globalDisp C'.nodes bcs with
      | error e => rfl
      | ok U =>
        cases globalRestrained C'.nodes bcs with
        | error e => rfl
        | ok R => simp only [Option.bind_some, hf F hF, Option.bind_none]
  unfold Inst.solve Inst.read Inst.assign
  simp only [Option.none_or, hC', Option.map_some, Option.some_or, Option.bind_eq_bind, Option.bind_some]
  cases a'.soil with
  | none =>
    show Option.map _ (solveOn Real.pi a'.ty a'.pile ⟨C'.nodes, C.elements⟩ bcs) = none
    rw [hbeam]
    rfl
  | some sp' =>
    show Option.map _ (solveSoilOn a'.ty a'.pile ⟨C'.nodes, C.elements⟩ a'.switches A bcs 100) = none
    rw [hsoil]
    rfl

/-- A decreasing list with steps of at most `c` spans at most that many steps. -/
theorem span_le (c : ℝ) (x : ℝ) (l : List ℝ) (hp : (x :: l).Pairwise (· > ·))
    (hs : ∀ e ∈ (x :: l).zip l, e.1 - e.2 ≤ c) (y : ℝ) (hy : y ∈ x :: l) (hc : 0 ≤ c) : x - y ≤ l.length * c := by
  induction l generalizing x with
  | nil =>
    simp only [List.mem_singleton] at hy
    subst hy
    simp
  | cons a l ih =>
    have h1 : x - a ≤ c := hs (x, a) (by simp)
    have h2 : (0 : ℝ) ≤ (l.length : ℝ) * c := by positivity
    push_cast [List.length_cons]
    rcases List.mem_cons.1 hy with rfl | hy
    · rw [sub_self]
      nlinarith
    · have := ih a (List.pairwise_cons.1 hp).2 (fun e he => hs e (by simp [List.zip_cons_cons, he])) hy
      nlinarith

/-- **C78 violated by a finer mesh before the first analysis.** Every Model with soil raises in every analysis if its
coarseness is made small enough after it was created, although a Model created with this coarseness has a mesh. -/
theorem C78_violated_coarseness (a : Attrs) (sp : SoilProfile) (h : a.soil = some sp)
    (table : List (ℝ × Pile.Section ℝ)) (env : Draws) (i : Inst) (hi : create a table env = some i) (tip : ℝ)
    (htip : a.pile.bottomElevation = some tip) (hc : 0 < a.coarseness) (x y : ℝ)
    (hx : Spec.Mesh.Required a.pile tip (some sp.geometry) a.x2mesh x)
    (hy : Spec.Mesh.Required a.pile tip (some sp.geometry) a.x2mesh y) (hxy : y < x) :
    ∃ c₀ > 0, ∀ c, 0 < c → c ≤ c₀ →
      (∃ C, ({ a with coarseness := c } : Attrs).coordinates = some C) ∧
      ∀ bcs, (i.assign { a with coarseness := c }).solve bcs = none := by
  have hco : ∀ c, ({ a with coarseness := c } : Attrs).coordinates = getCoordinates a.pile (some sp.geometry) a.x2mesh c := by
    intro c
    unfold Attrs.coordinates
    simp only [h, Option.map_some]
  obtain ⟨C, hC, -, hnear, -⟩ := Props.Mesh.C05_published_nodes a.pile (some sp.geometry) a.x2mesh a.coarseness tip hc htip
  have hCa : a.coordinates = some C := by
    rw [← hC]
    exact hco a.coarseness
  have hne : C.nodes ≠ [] := by
    intro h0
    obtain ⟨n, hn, -⟩ := hnear x hx
    rw [h0] at hn
    cases hn
  have hpos : (0 : ℝ) < C.nodes.length := by exact_mod_cast List.length_pos_iff.2 hne
  refine ⟨(x - y) / (C.nodes.length + 1), by have := sub_pos.2 hxy; positivity, ?_⟩
  intro c hc0 hcc
  obtain ⟨z, hz, hdec, hreq, -⟩ := Props.Mesh.C05_exact_nodes a.pile (some sp.geometry) a.x2mesh c tip hc0 htip
  obtain ⟨z', hz', hstep⟩ := Props.Mesh.C06_element_lengths a.pile (some sp.geometry) a.x2mesh c tip hc0 htip
  rw [hz] at hz'
  cases hz'
  have hlen : C.nodes.length < z.length := by
    have hx' := hreq x hx
    have hy' := hreq y hy
    cases z with
    | nil => cases hx'
    | cons u l =>
      have hu : x ≤ u := by
        rcases List.mem_cons.1 hx' with rfl | hx'
        · exact le_rfl
        · exact ((List.pairwise_cons.1 hdec).1 x hx').le
      have := span_le c u l hdec (fun e he => (hstep e he).2.1) y hy' hc0.le
      have h2 : c * (C.nodes.length + 1) ≤ x - y := by
        rwa [le_div_iff₀ (by positivity)] at hcc
      have h3 : ((C.nodes.length : ℝ) + 1) * c ≤ l.length * c := by linarith
      have h4 : ((C.nodes.length : ℝ) + 1) ≤ l.length := le_of_mul_le_mul_right h3 hc0
      have h5 : C.nodes.length + 1 ≤ l.length := by exact_mod_cast h4
      rw [List.length_cons]
      omega
  have hCc : ({ a with coarseness := c } : Attrs).coordinates =
      some ⟨z.map round4, (pairs z).map (fun e => (round4 e.1, round4 e.2))⟩ := by
    rw [hco]
    simp only [getCoordinates, hz]
    rfl
  refine ⟨⟨_, hCc⟩, fun bcs => ?_⟩
  refine C78_violated_mesh a sp h table env i hi bcs { a with coarseness := c } C _ hCa hCc hne ?_
  rw [List.length_map]
  omega

/-! ### Switches -/

/-- The springs agree where the switches are on. -/
structure Agree (w : Switches) (A B : Arrays) : Prop where
  py : w.distributedLateral = true → A.py = B.py
  mt : w.distributedMoment = true → A.mt = B.mt
  tz : w.distributedAxial = true → A.tz = B.tz
  hb : w.baseShear = true → A.hb = B.hb
  mb : w.baseMoment = true → A.mb = B.mb
  qz : w.baseAxial = true → A.qz = B.qz

/-- A spring that may be switched off. -/
def sel (b : Bool) (x : Option ℝ) : Option ℝ := if b then x else some 0

theorem sel_congr {b : Bool} {x y : Option ℝ} (h : b = true → x = y) : sel b x = sel b y := by
  cases b with
  | false => rfl
  | true => exact h rfl

theorem sel_on {b b' : Bool} {x : Option ℝ} (h : b = true → b' = true) (h0 : b = false → x = some 0) :
    sel b' x = sel b x := by
  cases b with
  | true => rw [h rfl]
  | false =>
    rw [h0 rfl]
    cases b' <;> rfl

/-- The stiffness as a function of that of the parts. -/
theorem build_eq (ty : ElementType) {n : ℕ} (el : Fin n → Elem ℝ) (s : Springs ℝ n) (kind : Kind)
    (u : Fin (3 * n + 3) → ℝ) : buildStiffness ty el s kind u =
      (allSome (soilAt s kind u)).bind fun x =>
        (sel s.baseShear (baseStiffness s.hb kind (u ⟨3 * n + 1, by omega⟩))).bind fun h =>
        (sel s.baseMoment (baseStiffness s.mb kind (u ⟨3 * n + 2, by omega⟩))).bind fun m =>
        (sel s.baseAxial (baseAxialStiffness s.qz kind (u ⟨3 * n, by omega⟩))).bind fun q =>
        some (soilStiffness ty n el x h m q) := by
  unfold buildStiffness sel
  cases s.baseShear <;> cases s.baseMoment <;> cases s.baseAxial <;> rfl

theorem build_congr (ty : ElementType) {n : ℕ} (el : Fin n → Elem ℝ) (s t : Springs ℝ n) (kind : Kind)
    (u : Fin (3 * n + 3) → ℝ) (h0 : soilAt s kind u = soilAt t kind u)
    (h1 : ∀ x, sel s.baseShear (baseStiffness s.hb kind x) = sel t.baseShear (baseStiffness t.hb kind x))
    (h2 : ∀ x, sel s.baseMoment (baseStiffness s.mb kind x) = sel t.baseMoment (baseStiffness t.mb kind x))
    (h3 : ∀ x, sel s.baseAxial (baseAxialStiffness s.qz kind x) = sel t.baseAxial (baseAxialStiffness t.qz kind x)) :
    buildStiffness ty el s kind u = buildStiffness ty el t kind u := by
  rw [build_eq, build_eq, h0, h1, h2, h3]

/-- The stiffness reads only springs whose switch is on. -/
theorem build_agree (ty : ElementType) {n : ℕ} (el : Fin n → Elem ℝ) (w : Switches) (A B : Arrays)
    (h : Agree w A B) : buildStiffness ty el (springsOf w A n) = buildStiffness ty el (springsOf w B n) := by
  funext kind u
  have h1 : ∀ e b, pyAt (springsOf w A n) kind u e b = pyAt (springsOf w B n) kind u e b := by
    intro e b
    unfold pyAt springsOf
    cases hl : w.distributedLateral with
    | false => simp only [Bool.false_eq_true, if_false]
    | true => simp only [h.py hl]
  have h2 : ∀ e b, tzAt (springsOf w A n) kind u e b = tzAt (springsOf w B n) kind u e b := by
    intro e b
    unfold tzAt springsOf
    cases hl : w.distributedAxial with
    | false => simp only [Bool.false_eq_true, if_false]
    | true => simp only [h.tz hl]
  have h3 : ∀ e b, mtAt (springsOf w A n) kind u e b = mtAt (springsOf w B n) kind u e b := by
    intro e b
    unfold mtAt springsOf
    cases hm : w.distributedMoment with
    | false => simp only [Bool.false_eq_true, if_false]
    | true =>
      cases hl : w.distributedLateral with
      | false => simp only [Bool.false_eq_true, if_false]
      | true => simp only [h.py hl, h.mt hm]
  have h4 : soilAt (springsOf w A n) kind u = soilAt (springsOf w B n) kind u := by
    funext e
    unfold soilAt
    simp only [h1, h2, h3]
  refine build_congr ty el _ _ kind u h4 (fun x => ?_) (fun x => ?_) (fun x => ?_)
  · exact sel_congr (b := w.baseShear) fun q => by show baseStiffness A.hb kind x = _; rw [h.hb q]; rfl
  · exact sel_congr (b := w.baseMoment) fun q => by show baseStiffness A.mb kind x = _; rw [h.mb q]; rfl
  · exact sel_congr (b := w.baseAxial) fun q => by show baseAxialStiffness A.qz kind x = _; rw [h.qz q]; rfl

/-- Switches turned off, none turned on. -/
structure Off (w w' : Switches) : Prop where
  py : w'.distributedLateral = true → w.distributedLateral = true
  mt : w'.distributedMoment = true → w.distributedMoment = true
  tz : w'.distributedAxial = true → w.distributedAxial = true
  hb : w'.baseShear = true → w.baseShear = true
  mb : w'.baseMoment = true → w.baseMoment = true
  qz : w'.baseAxial = true → w.baseAxial = true

/-- The input of `create_springs` with other switches. -/
def switched (S : Input) (w : Switches) : Input :=
  { S with distributedLateral := w.distributedLateral, distributedMoment := w.distributedMoment,
           distributedAxial := w.distributedAxial, baseShear := w.baseShear, baseMoment := w.baseMoment,
           baseAxial := w.baseAxial }

/-- The switches of an input. -/
def switchesOf (S : Input) : Switches :=
  ⟨S.distributedLateral, S.distributedMoment, S.distributedAxial, S.baseShear, S.baseMoment, S.baseAxial⟩

/-- The axial part of the work on an element, shaft and then tip. -/
theorem axialStep_eq (S : Input) (env : Draws) (l : SoilLayer) (m : AxialModel) (h : l.axial = some m) (r : Row)
    (i : ℕ) (A : Arrays) : axialStep S env l r i A =
      (if S.distributedAxial then
        (tzNode S l m r false (env.tz l.top i false)).bind fun t =>
        (tzNode S l m r true (env.tz l.top i true)).bind fun b =>
        some { A with tz := setBoth A.tz i t b }
       else some A).bind fun A =>
      if tipIn S l && S.baseAxial then (qzTip S l m r (env.qz l.top i)).bind fun q => some { A with qz := q } else some A := by
  unfold axialStep
  rw [h]
  cases S.distributedAxial with
  | false => rfl
  | true =>
    simp only [Option.bind_eq_bind, Option.pure_def, Option.bind_assoc, if_true]

theorem axial_agree {S : Input} {w : Switches} (ho : Off (switchesOf S) w) {env : Draws} {l : SoilLayer} {r : Row}
    {i : ℕ} {A A' B : Arrays} (h : Agree w A A') (hs : axialStep S env l r i A = some B) :
    ∃ B', axialStep (switched S w) env l r i A' = some B' ∧ Agree w B B' := by
  cases hm : l.axial with
  | none =>
    unfold axialStep at hs ⊢
    rw [hm] at hs ⊢
    cases hs
    exact ⟨A', rfl, h⟩
  | some m =>
    rw [axialStep_eq _ _ _ m hm] at hs ⊢
    simp only [Option.bind_eq_some_iff] at hs ⊢
    obtain ⟨A1, h1, h2⟩ := hs
    have k1 : ∃ A1', (if (switched S w).distributedAxial = true then
          (tzNode (switched S w) l m r false (env.tz l.top i false)).bind fun t =>
          (tzNode (switched S w) l m r true (env.tz l.top i true)).bind fun b =>
          some { A' with tz := setBoth A'.tz i t b }
        else some A') = some A1' ∧ Agree w A1 A1' := by
      by_cases hw : w.distributedAxial = true
      · have hS : S.distributedAxial = true := ho.tz hw
        rw [if_pos hS] at h1
        rw [if_pos (show (switched S w).distributedAxial = true from hw)]
        simp only [Option.bind_eq_some_iff] at h1 ⊢
        obtain ⟨t, ht, b, hb, h1⟩ := h1
        cases h1
        exact ⟨_, ⟨t, ht, b, hb, rfl⟩, ⟨h.py, h.mt, fun q => by simp only [h.tz q], h.hb, h.mb, h.qz⟩⟩
      · rw [if_neg (show ¬ (switched S w).distributedAxial = true from hw)]
        refine ⟨A', rfl, ?_⟩
        have hf : w.distributedAxial = true → False := hw
        by_cases hS : S.distributedAxial = true
        · rw [if_pos hS] at h1
          simp only [Option.bind_eq_some_iff] at h1
          obtain ⟨t, ht, b, hb, h1⟩ := h1
          cases h1
          exact ⟨h.py, h.mt, fun q => (hf q).elim, h.hb, h.mb, h.qz⟩
        · rw [if_neg hS] at h1
          cases h1
          exact h
    obtain ⟨A1', k1, k2⟩ := k1
    have key : ∃ B', (if (tipIn (switched S w) l && (switched S w).baseAxial) = true then
        (qzTip (switched S w) l m r (env.qz l.top i)).bind fun q => some { A1' with qz := q }
        else some A1') = some B' ∧ Agree w B B' := by
      by_cases hw : (tipIn S l && w.baseAxial) = true
      · obtain ⟨t1, t2⟩ := Bool.and_eq_true_iff.1 hw
        have hS : (tipIn S l && S.baseAxial) = true := by rw [t1]; exact ho.qz t2
        rw [if_pos hS] at h2
        rw [if_pos (show (tipIn (switched S w) l && (switched S w).baseAxial) = true from hw)]
        simp only [Option.bind_eq_some_iff] at h2 ⊢
        obtain ⟨q, hq, h2⟩ := h2
        cases h2
        exact ⟨_, ⟨q, hq, rfl⟩, ⟨k2.py, k2.mt, k2.tz, k2.hb, k2.mb, fun _ => rfl⟩⟩
      · rw [if_neg (show ¬ (tipIn (switched S w) l && (switched S w).baseAxial) = true from hw)]
        refine ⟨A1', rfl, ?_⟩
        by_cases hS : (tipIn S l && S.baseAxial) = true
        · rw [if_pos hS] at h2
          simp only [Option.bind_eq_some_iff] at h2
          obtain ⟨q, hq, h2⟩ := h2
          cases h2
          have hf : w.baseAxial = true → False := by
            intro q
            apply hw
            rw [(Bool.and_eq_true_iff.1 hS).1, q]
            rfl
          exact ⟨k2.py, k2.mt, k2.tz, k2.hb, k2.mb, fun q => (hf q).elim⟩
        · rw [if_neg hS] at h2
          cases h2
          exact k2
    obtain ⟨B', q1, q2⟩ := key
    exact ⟨B', ⟨A1', k1, q1⟩, q2⟩

theorem py_agree {S : Input} {w : Switches} (ho : Off (switchesOf S) w) {env : Draws} {l : SoilLayer}
    {m : SoilModel.Model} {r : Row} {i : ℕ} {A A' B : Arrays} (h : Agree w A A') (hs : pyStep S env l m r i A = some B) :
    ∃ B', pyStep (switched S w) env l m r i A' = some B' ∧ Agree w B B' := by
  unfold pyStep at hs ⊢
  by_cases hw : (m.signature.1 && w.distributedLateral) = true
  · obtain ⟨t1, t2⟩ := Bool.and_eq_true_iff.1 hw
    have hS : (m.signature.1 && S.distributedLateral) = true := by rw [t1]; exact ho.py t2
    rw [if_pos hS] at hs
    rw [if_pos (show (m.signature.1 && (switched S w).distributedLateral) = true from hw)]
    simp only [Option.bind_eq_bind, Option.bind_eq_some_iff] at hs ⊢
    obtain ⟨t, ht, b, hb, hs⟩ := hs
    cases hs
    exact ⟨_, ⟨t, ht, b, hb, rfl⟩, ⟨fun q => by simp only [h.py q], h.mt, h.tz, h.hb, h.mb, h.qz⟩⟩
  · rw [if_neg (show ¬ (m.signature.1 && (switched S w).distributedLateral) = true from hw)]
    refine ⟨A', rfl, ?_⟩
    by_cases hS : (m.signature.1 && S.distributedLateral) = true
    · rw [if_pos hS] at hs
      simp only [Option.bind_eq_bind, Option.bind_eq_some_iff] at hs
      obtain ⟨t, ht, b, hb, hs⟩ := hs
      cases hs
      have hf : w.distributedLateral = true → False := by
        intro q
        apply hw
        rw [(Bool.and_eq_true_iff.1 hS).1, q]
        rfl
      exact ⟨fun q => (hf q).elim, h.mt, h.tz, h.hb, h.mb, h.qz⟩
    · rw [if_neg hS] at hs
      cases hs
      exact h

theorem mt_agree {S : Input} {w : Switches} (ho : Off (switchesOf S) w) {env : Draws} {l : SoilLayer}
    {m : SoilModel.Model} {r : Row} {i : ℕ} {A A' B : Arrays} (h : Agree w A A') (hs : mtStep S env l m r i A = some B) :
    ∃ B', mtStep (switched S w) env l m r i A' = some B' ∧ Agree w B B' := by
  unfold mtStep at hs ⊢
  by_cases hw : (m.signature.2.2.1 && w.distributedMoment) = true
  · obtain ⟨t1, t2⟩ := Bool.and_eq_true_iff.1 hw
    have hS : (m.signature.2.2.1 && S.distributedMoment) = true := by rw [t1]; exact ho.mt t2
    rw [if_pos hS] at hs
    rw [if_pos (show (m.signature.2.2.1 && (switched S w).distributedMoment) = true from hw)]
    simp only [Option.bind_eq_bind, Option.bind_eq_some_iff] at hs ⊢
    obtain ⟨t, ht, b, hb, hs⟩ := hs
    cases hs
    exact ⟨_, ⟨t, ht, b, hb, rfl⟩, ⟨h.py, fun q => by simp only [h.mt q], h.tz, h.hb, h.mb, h.qz⟩⟩
  · rw [if_neg (show ¬ (m.signature.2.2.1 && (switched S w).distributedMoment) = true from hw)]
    refine ⟨A', rfl, ?_⟩
    by_cases hS : (m.signature.2.2.1 && S.distributedMoment) = true
    · rw [if_pos hS] at hs
      simp only [Option.bind_eq_bind, Option.bind_eq_some_iff] at hs
      obtain ⟨t, ht, b, hb, hs⟩ := hs
      cases hs
      have hf : w.distributedMoment = true → False := by
        intro q
        apply hw
        rw [(Bool.and_eq_true_iff.1 hS).1, q]
        rfl
      exact ⟨h.py, fun q => (hf q).elim, h.tz, h.hb, h.mb, h.qz⟩
    · rw [if_neg hS] at hs
      cases hs
      exact h

theorem hb_agree {S : Input} {w : Switches} (ho : Off (switchesOf S) w) {l : SoilLayer}
    {m : SoilModel.Model} {r : Row} {A A' B : Arrays} (h : Agree w A A') (hs : hbStep S l m r A = some B) :
    ∃ B', hbStep (switched S w) l m r A' = some B' ∧ Agree w B B' := by
  unfold hbStep at hs ⊢
  by_cases hw : (tipIn S l && (m.signature.2.1 && w.baseShear)) = true
  · obtain ⟨t0, t1⟩ := Bool.and_eq_true_iff.1 hw
    obtain ⟨t1, t2⟩ := Bool.and_eq_true_iff.1 t1
    have hS : (tipIn S l && (m.signature.2.1 && S.baseShear)) = true := by rw [t0, t1]; exact ho.hb t2
    rw [if_pos hS] at hs
    rw [if_pos (show (tipIn (switched S w) l && (m.signature.2.1 && (switched S w).baseShear)) = true from hw)]
    simp only [Option.bind_eq_bind, Option.bind_eq_some_iff] at hs ⊢
    obtain ⟨c, hc, hs⟩ := hs
    cases hs
    exact ⟨_, ⟨c, hc, rfl⟩, ⟨h.py, h.mt, h.tz, fun _ => rfl, h.mb, h.qz⟩⟩
  · rw [if_neg (show ¬ (tipIn (switched S w) l && (m.signature.2.1 && (switched S w).baseShear)) = true from hw)]
    refine ⟨A', rfl, ?_⟩
    by_cases hS : (tipIn S l && (m.signature.2.1 && S.baseShear)) = true
    · rw [if_pos hS] at hs
      simp only [Option.bind_eq_bind, Option.bind_eq_some_iff] at hs
      obtain ⟨c, hc, hs⟩ := hs
      cases hs
      have hf : w.baseShear = true → False := by
        intro q
        apply hw
        obtain ⟨t0, t1⟩ := Bool.and_eq_true_iff.1 hS
        rw [t0, (Bool.and_eq_true_iff.1 t1).1, q]
        rfl
      exact ⟨h.py, h.mt, h.tz, fun q => (hf q).elim, h.mb, h.qz⟩
    · rw [if_neg hS] at hs
      cases hs
      exact h

theorem mb_agree {S : Input} {w : Switches} (ho : Off (switchesOf S) w) {l : SoilLayer}
    {m : SoilModel.Model} {r : Row} {A A' B : Arrays} (h : Agree w A A') (hs : mbStep S l m r A = some B) :
    ∃ B', mbStep (switched S w) l m r A' = some B' ∧ Agree w B B' := by
  unfold mbStep at hs ⊢
  by_cases hw : (tipIn S l && (m.signature.2.2.2 && w.baseMoment)) = true
  · obtain ⟨t0, t1⟩ := Bool.and_eq_true_iff.1 hw
    obtain ⟨t1, t2⟩ := Bool.and_eq_true_iff.1 t1
    have hS : (tipIn S l && (m.signature.2.2.2 && S.baseMoment)) = true := by rw [t0, t1]; exact ho.mb t2
    rw [if_pos hS] at hs
    rw [if_pos (show (tipIn (switched S w) l && (m.signature.2.2.2 && (switched S w).baseMoment)) = true from hw)]
    simp only [Option.bind_eq_bind, Option.bind_eq_some_iff] at hs ⊢
    obtain ⟨c, hc, hs⟩ := hs
    cases hs
    exact ⟨_, ⟨c, hc, rfl⟩, ⟨h.py, h.mt, h.tz, h.hb, fun _ => rfl, h.qz⟩⟩
  · rw [if_neg (show ¬ (tipIn (switched S w) l && (m.signature.2.2.2 && (switched S w).baseMoment)) = true from hw)]
    refine ⟨A', rfl, ?_⟩
    by_cases hS : (tipIn S l && (m.signature.2.2.2 && S.baseMoment)) = true
    · rw [if_pos hS] at hs
      simp only [Option.bind_eq_bind, Option.bind_eq_some_iff] at hs
      obtain ⟨c, hc, hs⟩ := hs
      cases hs
      have hf : w.baseMoment = true → False := by
        intro q
        apply hw
        obtain ⟨t0, t1⟩ := Bool.and_eq_true_iff.1 hS
        rw [t0, (Bool.and_eq_true_iff.1 t1).1, q]
        rfl
      exact ⟨h.py, h.mt, h.tz, h.hb, fun q => (hf q).elim, h.qz⟩
    · rw [if_neg hS] at hs
      cases hs
      exact h

theorem step_agree {S : Input} {w : Switches} (ho : Off (switchesOf S) w) {env : Draws} {l : SoilLayer}
    {A A' B : Arrays} {x : Row × ℕ} (h : Agree w A A') (hs : Assemble.step S env l A x = some B) :
    ∃ B', Assemble.step (switched S w) env l A' x = some B' ∧ Agree w B B' := by
  unfold Assemble.step at hs ⊢
  simp only [Option.bind_eq_bind, Option.bind_eq_some_iff] at hs
  obtain ⟨A1, h1, h2⟩ := hs
  obtain ⟨A1', k1, k2⟩ := axial_agree ho h h1
  rw [k1]
  simp only [Option.bind_eq_bind, Option.bind_some]
  unfold lateralStep at h2 ⊢
  cases hm : l.lateral with
  | none =>
    rw [hm] at h2
    cases h2
    exact ⟨A1', rfl, k2⟩
  | some m =>
    rw [hm] at h2
    simp only [Option.bind_eq_bind, Option.bind_eq_some_iff] at h2
    obtain ⟨A2, p1, A3, p2, A4, p3, p4⟩ := h2
    obtain ⟨A2', e1, g1⟩ := py_agree ho k2 p1
    obtain ⟨A3', e2, g2⟩ := mt_agree ho g1 p2
    obtain ⟨A4', e3, g3⟩ := hb_agree ho g2 p3
    obtain ⟨B', e4, g4⟩ := mb_agree ho g3 p4
    refine ⟨B', ?_, g4⟩
    simp only [Option.bind_eq_bind, e1, e2, e3, e4, Option.bind_some]

theorem fold_agree {α : Type} {w : Switches} (f g : Arrays → α → Option Arrays) (l : List α)
    (hfg : ∀ x ∈ l, ∀ A A' B, Agree w A A' → f A x = some B → ∃ B', g A' x = some B' ∧ Agree w B B') (A A' B : Arrays)
    (h : Agree w A A') (hf : l.foldlM f A = some B) : ∃ B', l.foldlM g A' = some B' ∧ Agree w B B' := by
  induction l generalizing A A' with
  | nil => cases hf; exact ⟨A', rfl, h⟩
  | cons x l ih =>
    rw [List.foldlM_cons] at hf
    simp only [Option.bind_eq_bind, Option.bind_eq_some_iff] at hf
    obtain ⟨A1, h1, h2⟩ := hf
    obtain ⟨A1', k1, k2⟩ := hfg x (by simp) A A' A1 h h1
    obtain ⟨B', k3, k4⟩ := ih (fun y hy => hfg y (by simp [hy])) A1 A1' k2 h2
    exact ⟨B', by rw [List.foldlM_cons, k1]; exact k3, k4⟩

theorem input_off {p : Pile.Pile ℝ} {sp : SoilProfile} {x : List ℝ} {c : ℝ} {w w' : Switches}
    {table : List (ℝ × Pile.Section ℝ)} {S : Input} (hS : input p sp x c w table = some S) :
    input p sp x c w' table = some (switched S w') ∧ switchesOf S = w := by
  unfold input at hS ⊢
  simp only [Option.bind_eq_bind, Option.bind_eq_some_iff] at hS ⊢
  obtain ⟨rows, h1, tip, h2, area, h3, fp, h4, hS⟩ := hS
  cases hS
  exact ⟨⟨rows, h1, tip, h2, area, h3, fp, h4, rfl⟩, rfl⟩

theorem fill_agree {S : Input} {w : Switches} (ho : Off (switchesOf S) w) {env : Draws} {B : Arrays}
    (hB : fillArrays S env = some B) : ∃ B', fillArrays (switched S w) env = some B' ∧ Agree w B B' := by
  have hz : Agree w Arrays.zero Arrays.zero :=
    ⟨fun _ => rfl, fun _ => rfl, fun _ => rfl, fun _ => rfl, fun _ => rfl, fun _ => rfl⟩
  have h1 : (switched S w).layers = S.layers := rfl
  have h2 : ∀ l, selected (switched S w) l = selected S l := fun l => rfl
  unfold fillArrays at hB ⊢
  simp only [h1, h2]
  refine fold_agree (fun A l => (selected S l).foldlM (Assemble.step S env l) A)
    (fun A l => (selected S l).foldlM (Assemble.step (switched S w) env l) A) S.layers (fun l _ A A' B hA hf => ?_) _ _ B hz hB
  exact fold_agree (Assemble.step S env l) (Assemble.step (switched S w) env l) (selected S l)
    (fun y _ A A' B hA hf => step_agree ho hA hf) A A' B hA hf

/-- Springs exist after turning switches off, and those left on are the same. -/
theorem springs_off {p : Pile.Pile ℝ} {sp : SoilProfile} {x : List ℝ} {c : ℝ} {w w' : Switches}
    {table : List (ℝ × Pile.Section ℝ)} {env : Draws} {A : Arrays} (ho : Off w w')
    (h : modelSprings p sp x c w table env = some A) :
    ∃ A', modelSprings p sp x c w' table env = some A' ∧ Agree w' A A' := by
  unfold modelSprings at h ⊢
  simp only [Option.bind_eq_bind, Option.bind_eq_some_iff] at h ⊢
  obtain ⟨S, hS, h⟩ := h
  obtain ⟨hS', hw⟩ := input_off (w' := w') hS
  subst hw
  unfold createSprings at h ⊢
  simp only [Option.bind_eq_bind, Option.bind_eq_some_iff] at h ⊢
  obtain ⟨B, hB, h⟩ := h
  have h := Option.some.inj h
  subst h
  obtain ⟨B', k1, k2⟩ := fill_agree ho hB
  refine ⟨_, ⟨switched S w', hS', B', k1, rfl⟩, ⟨k2.py, k2.mt, ?_, k2.hb, k2.mb, ?_⟩⟩
  · intro q
    simp only [k2.tz q]
  · intro q
    simp only [k2.qz q]

/-- The mobilisation tables of the springs `A` cannot be computed for some displacements of the nodes. -/
def MobFails (w : Switches) (C : Coordinates ℝ) (A : Arrays) : Prop :=
  ∃ d : Fin (3 * C.elements.length + 3) → ℝ,
    Result.springsMob C.nodes (component d 1) (component d 2) (flat _ (springsOf w A C.elements.length).py)
      (flat _ (springsOf w A C.elements.length).mt) (springsOf w A C.elements.length).ncol = none ∨
    Result.baseMob A.hb (d ⟨3 * C.elements.length + 1, by omega⟩) = none ∨
    Result.baseMob A.mb (d ⟨3 * C.elements.length + 2, by omega⟩) = none

/-- Two analyses give the same tables of displacements, section forces and reactions, the same number of iterations
and the same error, or NaN both, or raise both; except that the first may raise if `P` and the second if `P'`. -/
def SameNumbers (P P' : Prop) : Option SoilResult → Option SoilResult → Prop
  | some (.numbers t), some (.numbers t') =>
    t.toTables = t'.toTables ∧ t.iterations = t'.iterations ∧ t.error = t'.error ∧ t.tolerance = t'.tolerance
  | some .nan, some .nan => True
  | none, none => True
  | none, some (.numbers _) => P
  | some (.numbers _), none => P'
  | _, _ => False

theorem results_same (ty : ElementType) (C : Coordinates ℝ) (el : Fin C.elements.length → Elem ℝ) (w : Switches)
    (A B : Arrays) (d Q : Fin (3 * C.elements.length + 3) → ℝ) (it : ℕ) (a b : ℝ) :
    SameNumbers (MobFails w C A) (MobFails w C B)
      ((results ty C.nodes el (springsOf w A C.elements.length) d Q it a b).map .numbers)
      ((results ty C.nodes el (springsOf w B C.elements.length) d Q it a b).map .numbers) := by
  have key : ∀ A t, results ty C.nodes el (springsOf w A C.elements.length) d Q it a b = some t →
      tables ty C.nodes el d Q = some t.toTables ∧ t.iterations = it ∧ t.error = Real.sqrt b ∧ t.tolerance = Real.sqrt a := by
    intro A t h
    unfold results at h
    simp only [Option.bind_eq_bind, Option.bind_eq_some_iff] at h
    obtain ⟨T, h1, mob, -, hb, -, mb, -, h⟩ := h
    cases h
    exact ⟨h1, rfl, rfl, rfl⟩
  have fail : ∀ A T, results ty C.nodes el (springsOf w A C.elements.length) d Q it a b = none →
      tables ty C.nodes el d Q = some T → MobFails w C A := by
    intro A T h hT
    by_contra hno
    unfold MobFails at hno
    push Not at hno
    obtain ⟨n1, n2, n3⟩ := hno d
    obtain ⟨m1, hm1⟩ := Option.ne_none_iff_exists'.1 n1
    obtain ⟨m2, hm2⟩ := Option.ne_none_iff_exists'.1 n2
    obtain ⟨m3, hm3⟩ := Option.ne_none_iff_exists'.1 n3
    unfold results at h
    rw [hT, hm1] at h
    have e2 : Result.baseMob (springsOf w A C.elements.length).hb (d ⟨3 * C.elements.length + 1, by omega⟩) = some m2 := hm2
    have e3 : Result.baseMob (springsOf w A C.elements.length).mb (d ⟨3 * C.elements.length + 2, by omega⟩) = some m3 := hm3
    rw [e2, e3] at h
    cases h
  cases h1 : results ty C.nodes el (springsOf w A C.elements.length) d Q it a b with
  | none =>
    cases h2 : results ty C.nodes el (springsOf w B C.elements.length) d Q it a b with
    | none => trivial
    | some t' => exact fail A _ h1 (key B t' h2).1
  | some t =>
    cases h2 : results ty C.nodes el (springsOf w B C.elements.length) d Q it a b with
    | none => exact fail B _ h2 (key A t h1).1
    | some t' =>
      obtain ⟨a1, a2, a3, a4⟩ := key A t h1
      obtain ⟨b1, b2, b3, b4⟩ := key B t' h2
      rw [a1] at b1
      exact ⟨Option.some.inj b1, by rw [a2, b2], by rw [a3, b3], by rw [a4, b4]⟩

theorem solveSoilOn_agree (ty : ElementType) (p : Pile.Pile ℝ) (C : Coordinates ℝ) (w : Switches) (A B : Arrays)
    (h : Agree w A B) (bcs : List (Cond ℝ)) (k : ℕ) :
    SameNumbers (MobFails w C A) (MobFails w C B) (solveSoilOn ty p C w A bcs k) (solveSoilOn ty p C w B bcs k) := by
  unfold solveSoilOn
  simp only [Option.bind_eq_bind]
  cases (globalForces C.nodes bcs).toOption with
  | none => trivial
  | some F =>
  cases (globalDisp C.nodes bcs).toOption with
  | none => trivial
  | some U =>
  cases (globalRestrained C.nodes bcs).toOption with
  | none => trivial
  | some R =>
  simp only [Option.bind_some]
  cases asVec C.elements.length ((dofList F).map (fun i : ℤ => (i : ℝ))) with
  | none => trivial
  | some F =>
  cases asVec C.elements.length (dofList U) with
  | none => trivial
  | some U =>
  cases asVec C.elements.length (dofList R) with
  | none => trivial
  | some R =>
  cases allSome (fun i : Fin C.elements.length => elemAt Real.pi p C.elements[i.1]) with
  | none => trivial
  | some el =>
  simp only [Option.bind_some]
  rw [build_agree ty el w A B h]
  cases winkler (buildStiffness ty el (springsOf w B C.elements.length)) F U R k with
  | raised => trivial
  | nan => trivial
  | converged d Q it a b => exact results_same ty C el w A B d Q it a b
  | exhausted d Q it a b => exact results_same ty C el w A B d Q it a b

/-- **C78, switches turned off.** Turning off any springs of a created Model gives displacements, section forces,
reactions and details of a Model created without them, if the mobilisation tables can be computed.  (These go on
listing the springs of the creation.) -/
theorem C78_off_partial (a : Attrs) (sp : SoilProfile) (h : a.soil = some sp) (table : List (ℝ × Pile.Section ℝ))
    (env : Draws) (i : Inst) (hi : create a table env = some i) (w : Switches) (ho : Off a.switches w)
    (bcs : List (Cond ℝ)) :
    ∃ C A A' r r', a.coordinates = some C ∧ modelSprings a.pile sp a.x2mesh a.coarseness a.switches table env = some A ∧
      modelSprings a.pile sp a.x2mesh a.coarseness w table env = some A' ∧
      (i.assign { a with switches := w }).solve bcs = r.map .soil ∧
      fresh { a with switches := w } table env bcs = r'.map .soil ∧
      SameNumbers (MobFails w C A) (MobFails w C A') r r' := by
  obtain ⟨C, A, hC, hA, rfl⟩ := create_soil h hi
  obtain ⟨A', hA', hag⟩ := springs_off ho hA
  refine ⟨C, A, A', _, _, hC, hA, hA', solve_soil (a := { a with switches := w }) h hC bcs, ?_,
    solveSoilOn_agree a.ty a.pile C w A A' hag bcs 100⟩
  unfold fresh
  rw [create_some (a := { a with switches := w }) h hC hA', Option.bind_some, solve_soil (a := { a with switches := w }) h hC]

/-- A step leaves the springs whose switch is off as they are. -/
structure Blank (w : Switches) (A : Arrays) : Prop where
  py : w.distributedLateral = false → A.py = fun _ _ => zeros
  tz : w.distributedAxial = false → A.tz = fun _ _ => zeros
  hb : w.baseShear = false → A.hb = zeros
  mb : w.baseMoment = false → A.mb = zeros
  qz : w.baseAxial = false → A.qz = zeros

theorem step_blank {S : Input} {env : Draws} {l : SoilLayer} {A B : Arrays} {x : Row × ℕ}
    (h : Blank (switchesOf S) A) (hs : Assemble.step S env l A x = some B) : Blank (switchesOf S) B := by
  unfold Assemble.step at hs
  simp only [Option.bind_eq_bind, Option.bind_eq_some_iff] at hs
  obtain ⟨A1, h1, h2⟩ := hs
  have k1 : Blank (switchesOf S) A1 := by
    cases hm : l.axial with
    | none =>
      unfold axialStep at h1
      rw [hm] at h1
      cases h1
      exact h
    | some m =>
      rw [axialStep_eq _ _ _ m hm] at h1
      simp only [Option.bind_eq_some_iff] at h1
      obtain ⟨A0, q1, q2⟩ := h1
      have k0 : Blank (switchesOf S) A0 := by
        by_cases hw : S.distributedAxial = true
        · rw [if_pos hw] at q1
          simp only [Option.bind_eq_some_iff] at q1
          obtain ⟨t, -, b, -, q1⟩ := q1
          cases q1
          refine ⟨h.py, fun q => ?_, h.hb, h.mb, h.qz⟩
          have : S.distributedAxial = false := q
          rw [hw] at this
          exact absurd this (by decide)
        · rw [if_neg hw] at q1
          cases q1
          exact h
      by_cases hw : (tipIn S l && S.baseAxial) = true
      · rw [if_pos hw] at q2
        simp only [Option.bind_eq_some_iff] at q2
        obtain ⟨q, -, q2⟩ := q2
        cases q2
        exact ⟨k0.py, k0.tz, k0.hb, k0.mb, fun q => by
          have h1 : S.baseAxial = false := q
          rw [h1] at hw
          simp at hw⟩
      · rw [if_neg hw] at q2
        cases q2
        exact k0
  unfold lateralStep at h2
  cases hm : l.lateral with
  | none => rw [hm] at h2; cases h2; exact k1
  | some m =>
    rw [hm] at h2
    simp only [Option.bind_eq_bind, Option.bind_eq_some_iff] at h2
    obtain ⟨A2, p1, A3, p2, A4, p3, p4⟩ := h2
    have k2 : Blank (switchesOf S) A2 := by
      unfold pyStep at p1
      by_cases hw : (m.signature.1 && S.distributedLateral) = true
      · rw [if_pos hw] at p1
        simp only [Option.bind_eq_bind, Option.bind_eq_some_iff] at p1
        obtain ⟨t, -, b, -, p1⟩ := p1
        cases p1
        exact ⟨fun q => by
          have h1 : S.distributedLateral = false := q
          rw [h1] at hw
          simp at hw, k1.tz, k1.hb, k1.mb, k1.qz⟩
      · rw [if_neg hw] at p1
        cases p1
        exact k1
    have k3 : Blank (switchesOf S) A3 := by
      unfold mtStep at p2
      by_cases hw : (m.signature.2.2.1 && S.distributedMoment) = true
      · rw [if_pos hw] at p2
        simp only [Option.bind_eq_bind, Option.bind_eq_some_iff] at p2
        obtain ⟨t, -, b, -, p2⟩ := p2
        cases p2
        exact ⟨k2.py, k2.tz, k2.hb, k2.mb, k2.qz⟩
      · rw [if_neg hw] at p2
        cases p2
        exact k2
    have k4 : Blank (switchesOf S) A4 := by
      unfold hbStep at p3
      by_cases hw : (tipIn S l && (m.signature.2.1 && S.baseShear)) = true
      · rw [if_pos hw] at p3
        simp only [Option.bind_eq_bind, Option.bind_eq_some_iff] at p3
        obtain ⟨c, -, p3⟩ := p3
        cases p3
        exact ⟨k3.py, k3.tz, fun q => by
          have h1 : S.baseShear = false := q
          rw [h1] at hw
          simp at hw, k3.mb, k3.qz⟩
      · rw [if_neg hw] at p3
        cases p3
        exact k3
    unfold mbStep at p4
    by_cases hw : (tipIn S l && (m.signature.2.2.2 && S.baseMoment)) = true
    · rw [if_pos hw] at p4
      simp only [Option.bind_eq_bind, Option.bind_eq_some_iff] at p4
      obtain ⟨c, -, p4⟩ := p4
      cases p4
      exact ⟨k4.py, k4.tz, k4.hb, fun q => by
        have h1 : S.baseMoment = false := q
        rw [h1] at hw
        simp at hw, k4.qz⟩
    · rw [if_neg hw] at p4
      cases p4
      exact k4

theorem fold_blank {α : Type} {w : Switches} (f : Arrays → α → Option Arrays) (l : List α)
    (hf : ∀ x ∈ l, ∀ A B, Blank w A → f A x = some B → Blank w B) (A B : Arrays) (h : Blank w A)
    (hl : l.foldlM f A = some B) : Blank w B := by
  induction l generalizing A with
  | nil => cases hl; exact h
  | cons x l ih =>
    rw [List.foldlM_cons] at hl
    simp only [Option.bind_eq_bind, Option.bind_eq_some_iff] at hl
    obtain ⟨A1, h1, h2⟩ := hl
    exact ih (fun y hy => hf y (by simp [hy])) A1 (hf x (by simp) A A1 h h1) h2

theorem springs_blank {p : Pile.Pile ℝ} {sp : SoilProfile} {x : List ℝ} {c : ℝ} {w : Switches}
    {table : List (ℝ × Pile.Section ℝ)} {env : Draws} {A : Arrays} (h : modelSprings p sp x c w table env = some A) :
    Blank w A := by
  unfold modelSprings at h
  simp only [Option.bind_eq_bind, Option.bind_eq_some_iff] at h
  obtain ⟨S, hS, h⟩ := h
  have hw : switchesOf S = w := by
    unfold input at hS
    simp only [Option.bind_eq_bind, Option.bind_eq_some_iff] at hS
    obtain ⟨rows, h1, tip, h2, area, h3, fp, h4, hS⟩ := hS
    cases hS
    rfl
  subst hw
  unfold createSprings at h
  simp only [Option.bind_eq_bind, Option.bind_eq_some_iff] at h
  obtain ⟨B, hB, h⟩ := h
  cases h
  have hz : Blank (switchesOf S) Arrays.zero := ⟨fun _ => rfl, fun _ => rfl, fun _ => rfl, fun _ => rfl, fun _ => rfl⟩
  have k := fold_blank _ S.layers
    (fun l _ A B hA hf => fold_blank _ _ (fun y _ A B hA hf => step_blank hA hf) A B hA hf) Arrays.zero B hz hB
  refine ⟨k.py, fun q => ?_, k.hb, k.mb, fun q => ?_⟩
  · simp only [k.tz q, negate_zeros]
  · simp only [k.qz q, negate_zeros]

/-- Switches turned on, none turned off, the one for moments along the shaft left alone. -/
structure On (w w' : Switches) : Prop where
  py : w.distributedLateral = true → w'.distributedLateral = true
  mt : w'.distributedMoment = w.distributedMoment
  tz : w.distributedAxial = true → w'.distributedAxial = true
  hb : w.baseShear = true → w'.baseShear = true
  mb : w.baseMoment = true → w'.baseMoment = true
  qz : w.baseAxial = true → w'.baseAxial = true

/-- Springs that were never filled have no stiffness. -/
theorem build_on (ty : ElementType) {n : ℕ} (el : Fin n → Elem ℝ) (w w' : Switches) (A : Arrays) (hb : Blank w A)
    (ho : On w w') (hm : w.distributedMoment = true → w.distributedLateral = true) :
    buildStiffness ty el (springsOf w' A n) = buildStiffness ty el (springsOf w A n) := by
  funext kind u
  obtain ⟨z1, z2, z3, z4⟩ := zeros_sums
  have hpy : ∀ x, pyStiffness zeros kind x = some 0 := fun x => by unfold pyStiffness; rw [if_pos z1]
  have htz : ∀ x, tzStiffness zeros kind x = some 0 := fun x => by unfold tzStiffness; rw [if_pos z3]
  have hbs : ∀ x, baseStiffness zeros kind x = some 0 := fun x => by unfold baseStiffness; rw [if_pos z2]
  have hqs : ∀ x, baseAxialStiffness zeros kind x = some 0 := fun x => by unfold baseAxialStiffness; rw [if_pos z4]
  have h1 : ∀ e b, pyAt (springsOf w' A n) kind u e b = pyAt (springsOf w A n) kind u e b := by
    intro e b
    unfold pyAt springsOf
    rw [springDisp_seen]
    cases hl : w.distributedLateral with
    | true => simp only [ho.py hl]
    | false =>
      simp only [hb.py hl, Option.bind_eq_bind, Option.bind_some, hpy]
      split <;> rfl
  have h2 : ∀ e b, tzAt (springsOf w' A n) kind u e b = tzAt (springsOf w A n) kind u e b := by
    intro e b
    unfold tzAt springsOf
    rw [springDisp_seen]
    cases hl : w.distributedAxial with
    | true => simp only [ho.tz hl]
    | false =>
      simp only [hb.tz hl, Option.bind_eq_bind, Option.bind_some, htz]
      split <;> rfl
  have h3 : ∀ e b, mtAt (springsOf w' A n) kind u e b = mtAt (springsOf w A n) kind u e b := by
    intro e b
    unfold mtAt springsOf
    simp only [ho.mt]
    cases hl : w.distributedMoment with
    | false => rfl
    | true => simp only [hm hl, ho.py (hm hl)]
  have h4 : soilAt (springsOf w' A n) kind u = soilAt (springsOf w A n) kind u := by
    funext e
    unfold soilAt
    simp only [h1, h2, h3]
  refine build_congr ty el _ _ kind u h4 (fun x => ?_) (fun x => ?_) (fun x => ?_)
  · exact sel_on (b := w.baseShear) (b' := w'.baseShear) (x := baseStiffness A.hb kind x) ho.hb
      fun q => by rw [hb.hb q, hbs]
  · exact sel_on (b := w.baseMoment) (b' := w'.baseMoment) (x := baseStiffness A.mb kind x) ho.mb
      fun q => by rw [hb.mb q, hbs]
  · exact sel_on (b := w.baseAxial) (b' := w'.baseAxial) (x := baseAxialStiffness A.qz kind x) ho.qz
      fun q => by rw [hb.qz q, hqs]

/-- An analysis reads the switches only for the stiffness. -/
theorem solveSoilOn_congr (ty : ElementType) (p : Pile.Pile ℝ) (C : Coordinates ℝ) (w w' : Switches) (A : Arrays)
    (h : ∀ el, buildStiffness ty el (springsOf w A C.elements.length) =
      buildStiffness ty el (springsOf w' A C.elements.length)) (bcs : List (Cond ℝ)) (k : ℕ) :
    solveSoilOn ty p C w A bcs k = solveSoilOn ty p C w' A bcs k := by
  have hres : ∀ (el : Fin C.elements.length → Elem ℝ) d Q it x y,
      results ty C.nodes el (springsOf w A C.elements.length) d Q it x y =
        results ty C.nodes el (springsOf w' A C.elements.length) d Q it x y := fun _ _ _ _ _ _ => rfl
  unfold solveSoilOn
  simp only [Option.bind_eq_bind]
  refine Option.bind_congr fun F _ => Option.bind_congr fun U _ => Option.bind_congr fun R _ =>
    Option.bind_congr fun F _ => Option.bind_congr fun U _ => Option.bind_congr fun R _ =>
    Option.bind_congr fun el _ => ?_
  rw [h el]
  cases winkler (buildStiffness ty el (springsOf w' A C.elements.length)) F U R k with
  | raised => rfl
  | nan => rfl
  | converged d Q it a b => exact congrArg (Option.map SoilResult.numbers) (hres el d Q it a b)
  | exhausted d Q it a b => exact congrArg (Option.map SoilResult.numbers) (hres el d Q it a b)

/-- **C78 violated by switches turned on.** Turning on lateral, axial or base springs of a Model created without them
changes nothing at all. -/
theorem C78_violated_on (a : Attrs) (sp : SoilProfile) (h : a.soil = some sp) (table : List (ℝ × Pile.Section ℝ))
    (env : Draws) (i : Inst) (hi : create a table env = some i) (w : Switches) (ho : On a.switches w)
    (hm : a.switches.distributedMoment = true → a.switches.distributedLateral = true) (bcs : List (Cond ℝ)) :
    (i.assign { a with switches := w }).solve bcs = i.solve bcs := by
  obtain ⟨C, A, hC, hA, rfl⟩ := create_soil h hi
  rw [solve_soil h hC]
  rw [show (⟨a, none, some C.elements, some A⟩ : Inst).assign { a with switches := w } =
    ⟨{ a with switches := w }, none, some C.elements, some A⟩ from rfl, solve_soil (a := { a with switches := w }) h hC]
  exact congrArg (Option.map Answer.soil) (solveSoilOn_congr a.ty a.pile C w a.switches A
    (fun el => build_on a.ty el a.switches w A (springs_blank hA) ho hm) bcs 100)

/-! ### Cases that meet the hypotheses -/

/-- A tube in soft clay. -/
noncomputable def tubeIn (w : Switches) : Attrs :=
  ⟨.timoshenko, Creation.tube, some (Creation.soil (.matlock (Creation.clay false))), [], 1, w⟩

/-- It can be created, whatever the switches. -/
theorem tube_created (w : Switches) : ∃ i, create (tubeIn w) (OpenPile.Model.stableRows Creation.tube) Props.Assemble.drawsExample = some i := by
  obtain ⟨C, S, water, fc, ft, A, hC, hS, -, -, -, -, -, -, -, -, hA⟩ := Creation.created (Creation.sound_clay false) w
  have hm : modelSprings Creation.tube (Creation.soil (.matlock (Creation.clay false))) [] 1 w
      (OpenPile.Model.stableRows Creation.tube) Props.Assemble.drawsExample = some A := by
    rw [modelSprings, hS]
    exact hA
  have hs : (tubeIn w).soil = some (Creation.soil (.matlock (Creation.clay false))) := rfl
  have hc : (tubeIn w).coordinates = some C := by
    rw [← hC]
    rfl
  exact ⟨_, create_some (sp := Creation.soil (.matlock (Creation.clay false))) hs hc hm⟩

/-- Lateral springs, then none; no springs, then lateral springs. -/
example : Off ⟨true, true, true, true, true, true⟩ ⟨false, false, true, false, false, true⟩ ∧
    On ⟨false, false, false, false, false, false⟩ ⟨true, false, true, true, true, true⟩ := by
  constructor <;> constructor <;> simp

/-- The tube, created with a mesh of 1 m, then asked for a much finer one. -/
example (w : Switches) : ∃ i, create (tubeIn w) (OpenPile.Model.stableRows Creation.tube) Props.Assemble.drawsExample = some i ∧
    ∃ c₀ > 0, ∀ c, 0 < c → c ≤ c₀ → ∀ bcs, (i.assign { tubeIn w with coarseness := c }).solve bcs = none := by
  obtain ⟨i, hi⟩ := tube_created w
  obtain ⟨c₀, h0, h⟩ := C78_violated_coarseness (tubeIn w) _ rfl _ _ i hi (-10) rfl (by norm_num [tubeIn]) 1 (-10)
    (Or.inl ⟨_, List.mem_singleton.2 rfl, Or.inl rfl⟩) (Or.inl ⟨_, List.mem_singleton.2 rfl, Or.inr rfl⟩) (by norm_num)
  exact ⟨i, hi, c₀, h0, fun c h1 h2 => (h c h1 h2).2⟩

end OpenPile.Props.Assign

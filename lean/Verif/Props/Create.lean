/-
Property C73: `Model.create` makes the model that `Model` makes.
-/
import Verif.Model.Create
import Verif.Props.HeldModel

namespace OpenPile.Props.Create
open OpenPile.Create OpenPile.Kernel OpenPile.Winkler OpenPile.Assemble OpenPile.SoilAnalysis OpenPile.Mesh OpenPile.BC
open OpenPile.Props.Held OpenPile.Props.NoModels OpenPile.Props.Beam OpenPile.Spec.Kernel

/-- **C73.** `Model.create` makes the model of the class exactly if `x2mesh` is given and each of the two axial switches
is given. -/
theorem C73_same_iff_partial (g : Given) :
    byCreate g = some (byClass g) ↔ g.x2mesh ≠ none ∧ g.distributedAxial ≠ none ∧ g.baseAxial ≠ none := by
  obtain ⟨ty, x2, c, dl, dm, da, bs, bm, ba⟩ := g
  cases x2 <;> cases da <;> cases ba <;> simp [byCreate, byClass]

/-- **C73 violated, `x2mesh`.** Without `x2mesh` the method raises, whatever the other arguments; the class takes an
empty list. -/
theorem C73_violated_x2mesh (g : Given) (h : g.x2mesh = none) : byCreate g = none ∧ (byClass g).x2mesh = [] := by
  simp [byCreate, byClass, h]

/-- **C73 violated, axial springs.** With the axial switches omitted, a model of `Model.create` whose pile is not held
axially by a boundary condition never returns numbers from `solve()`, whatever the pile, the soil, the other arguments
and the loads. -/
theorem C73_violated_axial (g : Given) (s : Settings) (hs : byCreate g = some s) (ha : g.distributedAxial = none)
    (hb : g.baseAxial = none) {p : Pile.Pile ℝ} {sp : SoilProfile} {top tip : ℝ}
    (h : Weight.Setup p sp.geometry s.x2mesh s.coarseness top tip) (table : List (ℝ × Pile.Section ℝ)) (env : Draws)
    (bcs : List (Cond ℝ)) (C : Coordinates ℝ) (hC : getCoordinates p (some sp.geometry) s.x2mesh s.coarseness = some C)
    (hno : ∀ i, ¬ HeldAt C bcs .z i) (r : SoilResult) (hr : solveWith s p sp table env bcs = some r) : r = .nan := by
  have hw : s.switches.distributedAxial = false ∧ s.switches.baseAxial = false := by
    unfold byCreate at hs
    simp only [Option.bind_eq_bind, Option.bind_eq_some_iff, Option.pure_def, Option.some.injEq] at hs
    obtain ⟨x, -, rfl⟩ := hs
    simp [byClass, ha, hb]
  exact C72_solve_unheld s.elementType h s.switches table env bcs C hC (Or.inl ⟨hw.1, hw.2, hno⟩) r hr

/-- **C73 violated, same springs.** Take any arrays of springs in which some shaft or tip spring and some lateral spring
act, no rotational springs along the shaft, and a pile without supports.  With all switches omitted the model of the
class gets through the first pass whatever the loads; that of `Model.create` ends there with NaN. -/
theorem C73_violated_springs (ty : ElementType) {n : ℕ} (el : Fin n → Elem ℝ) (hel : GoodElems ty el) (A : Arrays)
    (x2mesh : List ℝ) (hrot : NoRot (springsOf ⟨true, true, true, true, true, true⟩ A n))
    (hax : (∃ e b, TzActs (springsOf ⟨true, true, true, true, true, true⟩ A n) e b) ∨
      QzActs (springsOf ⟨true, true, true, true, true, true⟩ A n))
    (hlat : ∃ e b, PyActs (springsOf ⟨true, true, true, true, true, true⟩ A n) e b)
    (M : Matrix (Fin (3 * n + 3)) (Fin (3 * n + 3)) ℝ)
    (hM : buildStiffness ty el (springsOf ⟨true, true, true, true, true, true⟩ A n) .initial 0 = some M)
    (F : Fin (3 * n + 3) → ℝ) (maxIter : ℕ) :
    let g : Given := ⟨some ty, some x2mesh, none, none, none, none, none, none, none⟩
    winkler (buildStiffness ty el (springsOf (byClass g).switches A n)) F 0 (fun _ => false) maxIter ≠ .nan 0 ∧
    ∃ s, byCreate g = some s ∧
      (winkler (buildStiffness ty el (springsOf s.switches A n)) F 0 (fun _ => false) maxIter = .nan 0 ∨
        winkler (buildStiffness ty el (springsOf s.switches A n)) F 0 (fun _ => false) maxIter = .raised) := by
  intro g
  have e1 : (byClass g).switches = ⟨true, true, true, true, true, true⟩ := rfl
  rw [e1]
  constructor
  · exact (C72_first_partial ty el hel _ hrot M hM F 0 (fun _ => false) maxIter).not.2
      (not_not.2 ⟨Or.inr hax, Or.inl hlat⟩)
  · refine ⟨_, rfl, ?_⟩
    have := C72_unheld ty el (springsOf (⟨true, true, false, true, true, false⟩ : Switches) A n) F 0
      (fun _ => false) maxIter (Or.inl ⟨rfl, rfl, fun j => ⟨rfl, rfl⟩⟩)
    exact this.imp_right (fun h => h.2)

/-- The hypotheses of `C73_violated_axial` are met: a pile through one layer, fixed sideways at its tip and loaded at
its head.  `solve()` of the model made by `Model.create` returns NaN. -/
example (table : List (ℝ × Pile.Section ℝ)) (env : Draws) : ∃ s C,
    byCreate ⟨none, some [], some 1, none, none, none, none, none, none⟩ = some s ∧
    Weight.Setup pileN soilN.geometry s.x2mesh s.coarseness 1 (-10) ∧
    getCoordinates pileN (some soilN.geometry) s.x2mesh s.coarseness = some C ∧
    (∀ i, ¬ HeldAt C [⟨.force, 1, none, some (.num 100), none⟩,
      ⟨.fixation, -10, some (.flag true), some (.flag true), none⟩] .z i) ∧
    solveWith s pileN soilN table env [⟨.force, 1, none, some (.num 100), none⟩,
      ⟨.fixation, -10, some (.flag true), some (.flag true), none⟩] = some .nan := by
  have hset : Weight.Setup pileN soilN.geometry [] 1 1 (-10) := Assemble.setup_example none none
  obtain ⟨C, hC, hm⟩ := meshOn_setup hset
  have hheld : ∀ i, ¬ HeldAt C [⟨.force, 1, none, some (.num 100), none⟩,
      ⟨.fixation, -10, some (.flag true), some (.flag true), none⟩] .z i := by
    intro i
    have h1 : ∀ cls, cls ≠ Cls.force → OpenPile.BC.writeTo C.nodes cls i .z ⟨.force, 1, none, some (.num 100), none⟩ = none := by
      intro cls hc
      unfold OpenPile.BC.writeTo
      rw [if_neg (by simp [hc.symm])]
    have h2 : ∀ cls, OpenPile.BC.writeTo C.nodes cls i .z
        ⟨.fixation, -10, some (.flag true), some (.flag true), none⟩ = none := by
      intro cls
      cases hw : OpenPile.BC.writeTo C.nodes cls i .z
          ⟨.fixation, -10, some (.flag true), some (.flag true), none⟩ with
      | none => rfl
      | some v =>
        obtain ⟨-, -, h, -⟩ := (Props.BC.writeTo_eq_some _ _ _ _ _ _).1 hw
        cases h
    unfold HeldAt Analysis.left
    rw [List.map_cons, List.map_cons, List.map_nil, h1 _ (by simp), h2, List.map_cons, List.map_cons, List.map_nil,
      h1 _ (by simp), h2]
    simp [OpenPile.Spec.BC.lastWrite]
  refine ⟨_, C, rfl, hset, hC, hheld, ?_⟩
  obtain ⟨C', hC', k1, k2, k3⟩ := C62_same_mesh_partial .timoshenko hset (by simp [soilN])
    ⟨true, true, false, true, true, false⟩ (fun _ => rfl) table env [⟨.force, 1, none, some (.num 100), none⟩,
      ⟨.fixation, -10, some (.flag true), some (.flag true), none⟩]
  rw [hC] at hC'
  cases hC'
  refine k2 (fun cls => by cases cls <;> simp [validateBc, axisConflict]) ?_
  have hmat : Pile.mkMaterial (78 : ℝ) 210000000 (3 / 10) = some pileN.material := by
    unfold Pile.mkMaterial
    norm_num [pileN, Pile.steel]
  have := (Analysis.C20_tables Real.pi Real.pi_pos .timoshenko 78 210000000 (3 / 10) pileN hmat (fun _ => by norm_num)
    1 (-10) (stack_setup hset) (by
      intro s hs
      simp only [pileN, List.mem_cons, List.not_mem_nil, or_false] at hs
      subst hs
      rw [Pile.built_iff]
      norm_num) C hm [⟨.force, 1, none, some (.num 100), none⟩,
      ⟨.fixation, -10, some (.flag true), some (.flag true), none⟩]).1
  by_contra hne
  obtain ⟨-, ⟨i, -, hi⟩, -⟩ := this hne
  exact hheld i hi

end OpenPile.Props.Create

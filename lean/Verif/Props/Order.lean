/-
C65: the order in which layers, elevations and boundary conditions are given.
-/
import Verif.Props.BC
import Verif.Props.Assemble
import Verif.Model.SoilAnalysis
import Verif.Model.Capacity

namespace OpenPile.Props.Order
open OpenPile OpenPile.BC OpenPile.Spec.BC OpenPile.Props.BC OpenPile.Assemble OpenPile.Props.Assemble
open OpenPile.Analysis OpenPile.SoilAnalysis

section conditions
variable {K : Type} [Field K] [LinearOrder K] [FloorRing K]

/-- Two histories of calls that leave the same expectations: they concern the same kinds and elevations, and the
last values given for every axis agree. -/
def SameWrites (h h' : List (Call K)) : Prop :=
  ∀ cls e, (about h cls e = [] ↔ about h' cls e = []) ∧ ∀ a, expected h cls e a = expected h' cls e a

theorem SameWrites.symm {h h' : List (Call K)} (hs : SameWrites h h') : SameWrites h' h :=
  fun cls e => ⟨(hs cls e).1.symm, fun a => ((hs cls e).2 a).symm⟩

theorem cond_ext {c d : Cond K} (h1 : c.cls = d.cls) (h2 : c.elevation = d.elevation) (h3 : ∀ a, c.get a = d.get a) :
    c = d := by
  have hx := h3 .x
  have hy := h3 .y
  have hz := h3 .z
  cases c; cases d
  simp only [Cond.get] at *
  simp [h1, h2, hx, hy, hz]

theorem mem_of_same {h h' : List (Call K)} (hs : SameWrites h h') {c : Cond K} (hc : c ∈ run [] h) : c ∈ run [] h' := by
  have hf : c ∈ (run [] h).filter (fun x => decide (x.cls = c.cls) && decide (x.elevation = c.elevation)) :=
    List.mem_filter.2 ⟨hc, by simp⟩
  have hne : about h c.cls c.elevation ≠ [] := by
    intro h0
    rw [(C12_last_write_wins h c.cls c.elevation).1 h0] at hf
    cases hf
  obtain ⟨x, hx, hx'⟩ := (C12_last_write_wins h c.cls c.elevation).2 hne
  rw [hx, List.mem_singleton] at hf
  subst hf
  obtain ⟨d, hd, hd'⟩ := (C12_last_write_wins h' c.cls c.elevation).2 (fun h0 => hne ((hs _ _).1.2 h0))
  have hm : d ∈ (run [] h').filter (fun x => decide (x.cls = c.cls) && decide (x.elevation = c.elevation)) := by
    rw [hd]; exact List.mem_singleton.2 rfl
  obtain ⟨h1, h2⟩ := List.mem_filter.1 hm
  simp only [Bool.and_eq_true, decide_eq_true_eq] at h2
  rw [cond_ext h2.1.symm h2.2.symm (fun a => (hx' a).trans (((hs _ _).2 a).trans (hd' a).symm))]
  exact h1

/-- The conditions a model holds after two such histories are the same, up to their order. -/
theorem C65_conditions {h h' : List (Call K)} (hs : SameWrites h h') : (run [] h).Perm (run [] h') := by
  have nd : ∀ g : List (Call K), (run [] g).Nodup := fun g =>
    (C12_at_most_one g).imp (fun hn he => hn ⟨by rw [he], by rw [he]⟩)
  rw [List.perm_ext_iff_of_nodup (nd h) (nd h')]
  exact fun c => ⟨mem_of_same hs, mem_of_same hs.symm⟩

/-- Different elevations act at different nodes. -/
def Separate (nodes : List K) (h : List (Call K)) : Prop :=
  ∀ k ∈ h, ∀ k' ∈ h, kind k = kind k' → ∀ i, ActsAt nodes (elev k) i → ActsAt nodes (elev k') i → elev k = elev k'

theorem writeAxis_comm {β : Type} (store : Val K → β) (arr : List β) {i j : ℕ} (hij : i ≠ j) (v w : Option (Val K)) :
    writeAxis store (writeAxis store arr i v) j w = writeAxis store (writeAxis store arr j w) i v := by
  cases v with
  | none => simp [writeAxis]
  | some v =>
    cases w with
    | none => simp [writeAxis]
    | some w =>
      by_cases h1 : v.truthy = true <;> by_cases h2 : w.truthy = true <;> simp [writeAxis, h1, h2]
      exact List.set_comm _ _ hij

theorem applyOne_comm {β : Type} (store : Val K → β) (nodes : List K) (cls : Cls) (g : Nodal β) {c d : Cond K}
    (h : c.cls = d.cls → ∀ i j, nodeIdx nodes c.elevation = some i → nodeIdx nodes d.elevation = some j → i ≠ j) :
    applyOne store nodes cls (applyOne store nodes cls g c) d = applyOne store nodes cls (applyOne store nodes cls g d) c := by
  unfold applyOne
  by_cases hc : c.cls = cls
  · by_cases hd : d.cls = cls
    · simp only [hc, hd, if_true]
      cases h1 : nodeIdx nodes c.elevation with
      | none => simp
      | some i =>
        cases h2 : nodeIdx nodes d.elevation with
        | none => simp
        | some j =>
          have hij := h (hc.trans hd.symm) i j h1 h2
          simp only [writeAxis_comm store _ hij]
    · simp [hc, hd]
  · simp [hc]

theorem applyBc_perm {β : Type} (store : Val K → β) (nodes : List K) (cls : Cls) (g : Nodal β) {l l' : List (Cond K)}
    (hp : l.Perm l') (h : ∀ c ∈ l, ∀ d ∈ l, c ≠ d → c.cls = d.cls → ∀ i j, nodeIdx nodes c.elevation = some i →
      nodeIdx nodes d.elevation = some j → i ≠ j) :
    applyBc store nodes g l cls = applyBc store nodes g l' cls := by
  unfold applyBc
  refine hp.foldl_eq' (fun c hc d hd g => ?_) g
  by_cases hcd : c = d
  · rw [hcd]
  · exact applyOne_comm store nodes cls g (h c hc d hd hcd)

theorem call_of {h : List (Call K)} {c : Cond K} (hc : c ∈ run [] h) :
    ∃ k ∈ h, kind k = c.cls ∧ elev k = c.elevation := by
  have hf : c ∈ (run [] h).filter (fun x => decide (x.cls = c.cls) && decide (x.elevation = c.elevation)) :=
    List.mem_filter.2 ⟨hc, by simp⟩
  have hne : about h c.cls c.elevation ≠ [] := by
    intro h0
    rw [(C12_last_write_wins h c.cls c.elevation).1 h0] at hf
    cases hf
  obtain ⟨k, hk⟩ := List.exists_mem_of_ne_nil _ hne
  rw [about, List.mem_filter] at hk
  simp only [Bool.and_eq_true, decide_eq_true_eq] at hk
  exact ⟨k, hk.1, hk.2⟩

theorem apply_same {β : Type} (store : Val K → β) (nodes : List K) (cls : Cls) (g : Nodal β) {h h' : List (Call K)}
    (hs : SameWrites h h') (hsep : Separate nodes h) :
    applyBc store nodes g (run [] h) cls = applyBc store nodes g (run [] h') cls := by
  refine applyBc_perm store nodes cls g (C65_conditions hs) ?_
  intro c hc d hd hcd hcls i j hi hj hij
  subst hij
  obtain ⟨k, hk, k1, k2⟩ := call_of hc
  obtain ⟨k', hk', k3, k4⟩ := call_of hd
  have he := hsep k hk k' hk' (by rw [k1, k3, hcls]) i (by rw [k2]; exact ((C14_node_choice nodes _).1 i).1 hi)
    (by rw [k4]; exact ((C14_node_choice nodes _).1 i).1 hj)
  have hpw := C12_at_most_one h
  have : Std.Symm (fun c d : Cond K => ¬ (c.cls = d.cls ∧ c.elevation = d.elevation)) :=
    ⟨fun _ _ hn he => hn ⟨he.1.symm, he.2.symm⟩⟩
  exact hpw.forall hc hd hcd ⟨hcls, by rw [← k2, ← k4, he]⟩

/-- **C65, boundary conditions.** Histories of calls with the same last values give the same loads, prescribed
displacements and supports, in whatever order the calls were made, provided that different elevations act at
different nodes. -/
theorem C65_loads (nodes : List K) {h h' : List (Call K)} (hs : SameWrites h h') (hsep : Separate nodes h) :
    globalForces nodes (run [] h) = globalForces nodes (run [] h') ∧
    globalDisp nodes (run [] h) = globalDisp nodes (run [] h') ∧
    globalRestrained nodes (run [] h) = globalRestrained nodes (run [] h') := by
  unfold globalForces globalDisp globalRestrained
  simp only [C13_histories_never_raise]
  refine ⟨?_, ?_, ?_⟩ <;> rw [apply_same _ nodes _ _ hs hsep]

/-- Calls about different kinds or elevations can be made in any order. -/
theorem same_of_perm {h h' : List (Call K)} (hp : h.Perm h')
    (hd : h.Pairwise (fun k k' => ¬ (kind k = kind k' ∧ elev k = elev k'))) : SameWrites h h' := by
  intro cls e
  have hab : about h cls e = about h' cls e := by
    have hperm : (about h cls e).Perm (about h' cls e) := hp.filter _
    have hle : (about h cls e).length ≤ 1 := by
      have hpw : (about h cls e).Pairwise (fun k k' => ¬ (kind k = kind k' ∧ elev k = elev k')) := hd.filter _
      match hl : about h cls e with
      | [] => simp
      | [_] => simp
      | k :: k' :: l =>
        exfalso
        rw [hl] at hpw
        have hk : k ∈ about h cls e := by rw [hl]; simp
        have hk' : k' ∈ about h cls e := by rw [hl]; simp
        rw [about, List.mem_filter] at hk hk'
        simp only [Bool.and_eq_true, decide_eq_true_eq] at hk hk'
        exact (List.pairwise_cons.1 hpw).1 k' (by simp) ⟨hk.2.1.trans hk'.2.1.symm, hk.2.2.trans hk'.2.2.symm⟩
    match hl : about h cls e with
    | [] => rw [hl] at hperm; exact hperm.symm.eq_nil.symm
    | [k] => rw [hl] at hperm; exact (hperm.symm.eq_singleton).symm
    | _ :: _ :: _ => rw [hl] at hle; simp at hle
  exact ⟨by rw [hab], fun a => by unfold expected; rw [hab]⟩

/-- **C65 is violated by close elevations.** Two loads at different elevations that act at the same node: the second
call replaces the first one, so exchanging the calls changes the load. -/
theorem C65_violated_near (nodes : List K) {e e' q q' : K} {i : ℕ} (he : e ≠ e') (h1 : ActsAt nodes e i)
    (h2 : ActsAt nodes e' i) (hq : q ≠ 0) (hq' : q' ≠ 0) :
    ∃ g g', globalForces nodes (run [] [.pointload e (some q) none none, .pointload e' (some q') none none]) = .ok g ∧
      globalForces nodes (run [] [.pointload e' (some q') none none, .pointload e (some q) none none]) = .ok g' ∧
      g.y[i]? = some (storeInt (.num q')) ∧ g'.y[i]? = some (storeInt (.num q)) := by
  have key : ∀ {e e' q q' : K}, e ≠ e' → ActsAt nodes e i → ActsAt nodes e' i → q ≠ 0 → q' ≠ 0 →
      ∃ g, globalForces nodes (run [] [.pointload e (some q) none none, .pointload e' (some q') none none]) = .ok g ∧
        g.y[i]? = some (storeInt (.num q')) := by
    intro e e' q q' he h1 h2 hq hq'
    unfold globalForces
    rw [C13_histories_never_raise]
    refine ⟨_, rfl, ?_⟩
    have hrun : run ([] : List (Cond K)) [.pointload e (some q) none none, .pointload e' (some q') none none] =
        [{ cls := .force, elevation := e, y := some (.num q) }] ++
          { cls := .force, elevation := e', y := some (.num q') } :: [] := by
      simp [run, BC.step, setPointload, updateBc, Cond.isAt, he]
    rw [hrun]
    have hi : i < nodes.length := by
      obtain ⟨⟨n, hn, -⟩, -⟩ := h1
      exact (List.getElem?_eq_some_iff.1 hn).1
    exact (C14_nodal_value storeInt nodes _ _ .force .y i (by simpa [Nodal.get] using hi)).1 _ _ _ _ rfl rfl h2 rfl hq'
      (fun d hd => by cases hd)
  obtain ⟨g, hg, hgy⟩ := key he h1 h2 hq hq'
  obtain ⟨g', hg', hgy'⟩ := key he.symm h2 h1 hq' hq
  exact ⟨g, g', hg, hg', hgy, hgy'⟩

/-- Two loads half a millimetre apart at the head of a pile. -/
example : ((globalForces ([0, -1] : List ℚ) (run [] [.pointload 0 (some 5) none none,
      .pointload (-1/2000) (some 7) none none])).toOption.map (·.y) = some [7, 0]) ∧
    ((globalForces ([0, -1] : List ℚ) (run [] [.pointload (-1/2000) (some 7) none none,
      .pointload 0 (some 5) none none])).toOption.map (·.y) = some [5, 0]) := by
  constructor <;> decide +kernel

end conditions

/-! ## layers and extra elevations -/

section mesh
variable {K : Type} [Field K] [LinearOrder K] [FloorRing K]

omit [FloorRing K] in
theorem soilElevations_perm (pb : K) {sp sp' : Soil.Profile K} (hp : sp'.layers.Perm sp.layers) (x : K) :
    x ∈ Mesh.soilElevations pb (some sp') ↔ x ∈ Mesh.soilElevations pb (some sp) := by
  have hE : (sp'.layers.map (·.top) ++ sp'.layers.map (·.bottom)).Perm
      (sp.layers.map (·.top) ++ sp.layers.map (·.bottom)) := (hp.map _).append (hp.map _)
  simp only [Mesh.soilElevations]
  have hany : (sp'.layers.map (·.top) ++ sp'.layers.map (·.bottom)).any (fun x => decide (x < pb)) =
      (sp.layers.map (·.top) ++ sp.layers.map (·.bottom)).any (fun x => decide (x < pb)) := by
    rw [Bool.eq_iff_iff, List.any_eq_true, List.any_eq_true]
    exact ⟨fun ⟨y, h1, h2⟩ => ⟨y, hE.mem_iff.1 h1, h2⟩, fun ⟨y, h1, h2⟩ => ⟨y, hE.mem_iff.2 h1, h2⟩⟩
  rw [hany]
  split
  · rw [List.mem_filter, List.mem_filter, List.mem_cons, List.mem_cons, hE.mem_iff]
  · exact hE.mem_iff

/-- The mesh depends on neither the order of the layers nor order and repetition of the extra elevations. -/
theorem C65_mesh (p : Pile.Pile K) {sp sp' : Soil.Profile K} (hp : sp'.layers.Perm sp.layers) {x2mesh x2mesh' : List K}
    (hx : ∀ x, x ∈ x2mesh' ↔ x ∈ x2mesh) (c : K) :
    Mesh.getCoordinates p (some sp') x2mesh' c = Mesh.getCoordinates p (some sp) x2mesh c := by
  have hprim : ∀ pb, Mesh.primary p pb (some sp') x2mesh' = Mesh.primary p pb (some sp) x2mesh := by
    intro pb
    refine Py.uniqueDesc_congr _ _ (fun x => ?_)
    simp only [List.mem_append, soilElevations_perm pb hp, hx]
  unfold Mesh.getCoordinates Mesh.exactNodes
  simp only [hprim]

/-- Likewise without soil. -/
theorem C65_mesh_free (p : Pile.Pile K) {x2mesh x2mesh' : List K} (hx : ∀ x, x ∈ x2mesh' ↔ x ∈ x2mesh) (c : K) :
    Mesh.getCoordinates p none x2mesh' c = Mesh.getCoordinates p none x2mesh c := by
  have hprim : ∀ pb, Mesh.primary p pb none x2mesh' = Mesh.primary p pb none x2mesh := by
    intro pb
    refine Py.uniqueDesc_congr _ _ (fun x => ?_)
    simp only [List.mem_append, hx]
  unfold Mesh.getCoordinates Mesh.exactNodes
  simp only [hprim]

omit [Field K] [FloorRing K] in
theorem sortLayers_eq {L L' : List (Soil.Layer K)} (hp : L'.Perm L)
    (hs : (Soil.sortLayers L).Pairwise (fun a b => b.top < a.top)) : Soil.sortLayers L' = Soil.sortLayers L := by
  unfold Soil.sortLayers at *
  rw [List.pairwise_reverse] at hs
  rw [Py.sortedBy_eq_of_strict (·.top) L' _ (hp.trans (Py.sortedBy_perm (·.top) L).symm) hs]

/-- **C65, profiles.** A list of layers is accepted in one order if and only if it is accepted in any other. -/
theorem C65_profile {te wl : K} {L L' : List (Soil.Layer K)} (hp : L'.Perm L)
    (hs : (Soil.sortLayers L).Pairwise (fun a b => b.top < a.top)) :
    (∃ sp, Soil.mkProfile te wl L' = .ok sp) ↔ ∃ sp, Soil.mkProfile te wl L = .ok sp := by
  unfold Soil.mkProfile
  rw [sortLayers_eq hp hs]
  split
  · simp
  · split_ifs <;> simp

variable [IsStrictOrderedRing K]

omit [FloorRing K] [IsStrictOrderedRing K] in
theorem chain_strict {L : List (Soil.Layer K)} (hb : ∀ l ∈ L, l.bottom < l.top)
    (hc : L.IsChain (fun u l => l.top = u.bottom)) : L.Pairwise (fun a b => b.top < a.top) := by
  have : IsTrans (Soil.Layer K) (fun a b => b.top < a.top) := ⟨fun _ _ _ h1 h2 => h2.trans h1⟩
  apply List.IsChain.pairwise
  induction L with
  | nil => exact List.isChain_nil
  | cons a L ih =>
    cases L with
    | nil => exact List.isChain_singleton _
    | cons b L =>
      rw [List.isChain_cons_cons] at hc ⊢
      refine ⟨?_, ih (fun l hl => hb l (List.mem_cons_of_mem _ hl)) hc.2⟩
      rw [hc.1]
      exact hb a (List.mem_cons_self ..)

theorem soilProperties_perm {p : Pile.Pile K} {sp sp' : Soil.Profile K} {x2mesh x2mesh' : List K} {c : K}
    (hp : sp'.layers.Perm sp.layers) (h1 : sp'.topElevation = sp.topElevation) (h2 : sp'.waterLine = sp.waterLine)
    (hx : ∀ x, x ∈ x2mesh' ↔ x ∈ x2mesh) (hs : (Soil.sortLayers sp.layers).Pairwise (fun a b => b.top < a.top)) :
    Model.soilProperties p sp' x2mesh' c = Model.soilProperties p sp x2mesh c := by
  have ht : Model.soilTable sp' = Model.soilTable sp := by
    unfold Model.soilTable
    rw [sortLayers_eq hp hs]
  have hw : ∀ e, Model.elementWeight sp' e = Model.elementWeight sp e := by
    intro e
    unfold Model.elementWeight
    rw [ht, h2]
  unfold Model.soilProperties
  rw [C65_mesh p hp hx]
  cases Mesh.getCoordinates p (some sp) x2mesh c with
  | none => rfl
  | some C => simp only [Model.soilRows, Model.stressColumns, hw, h1]

end mesh

/-- **C65, springs.** The springs of a Model do not depend on the order in which the layers are listed, nor on order and
repetition of the extra elevations. -/
theorem C65_springs {p : Pile.Pile ℝ} {sp : SoilProfile} {x2mesh : List ℝ} {c top tip : ℝ}
    (h : Weight.Setup p sp.geometry x2mesh c top tip) (w : Switches) (table : List (ℝ × Pile.Section ℝ)) (env : Draws)
    {L : List SoilLayer} (hL : L.Perm sp.layers) {x2mesh' : List ℝ} (hx : ∀ x, x ∈ x2mesh' ↔ x ∈ x2mesh) :
    modelSprings p { sp with layers := L } x2mesh' c w table env = modelSprings p sp x2mesh c w table env := by
  obtain ⟨C, S, water, hC, hS, -, -, hlay, -, -, -, -, hrows, r, hr, -⟩ := C54_mesh h w table
  have hgeo : (SoilProfile.geometry { sp with layers := L }).layers.Perm sp.geometry.layers := hL.map _
  have hstrict : (Soil.sortLayers sp.geometry.layers).Pairwise (fun a b => b.top < a.top) :=
    chain_strict (fun l hl => ((Soil.built_iff l).1 (h.built l ((Soil.sortLayers_perm _).mem_iff.1 hl))).1) h.exact
  have hprop := soilProperties_perm (p := p) (c := c) hgeo rfl rfl hx hstrict
  have hbot : (SoilProfile.geometry { sp with layers := L }).bottomElevation = sp.geometry.bottomElevation := by
    unfold Soil.Profile.bottomElevation
    rw [(hgeo.map _).sum_eq]
    rfl
  have hin : input p { sp with layers := L } x2mesh' c w table = some { S with layers := L } := by
    have hS' := hS
    simp only [input, Option.bind_eq_bind, Option.bind_eq_some_iff, Option.pure_def, Option.some.injEq] at hS' ⊢
    obtain ⟨rows, e1, t, e2, a, e3, f, e4, rfl⟩ := hS'
    exact ⟨rows, by rw [hprop]; exact e1, t, e2, a, e3, f, e4, by simp only [hbot]⟩
  unfold modelSprings
  rw [hin, hS]
  refine C54_order L (by rw [hlay]; exact hL) hr ?_
  intro q hq
  obtain ⟨-, -, h3, h4⟩ := hrows q hq
  rcases le_or_gt q.top sp.topElevation with hle | hlt
  · obtain ⟨⟨l, hl⟩, -⟩ := h3 hle
    rw [hl]; simp
  · rw [h4 hlt]; simp

/-- **C65.** The analysis of a Model gives the same result in whatever order the layers, the extra elevations (with any
repetitions) and the boundary conditions are given. -/
theorem C65_analysis_partial (ty : Kernel.ElementType) {p : Pile.Pile ℝ} {sp : SoilProfile} {x2mesh : List ℝ} {c top tip : ℝ}
    (h : Weight.Setup p sp.geometry x2mesh c top tip) (w : Switches) (table : List (ℝ × Pile.Section ℝ)) (env : Draws)
    {L : List SoilLayer} (hL : L.Perm sp.layers) {x2mesh' : List ℝ} (hx : ∀ x, x ∈ x2mesh' ↔ x ∈ x2mesh)
    {calls calls' : List (Call ℝ)} (hs : SameWrites calls calls')
    (hsep : ∀ C, Mesh.getCoordinates p (some sp.geometry) x2mesh c = some C → Separate C.nodes calls) :
    solveSoil ty p { sp with layers := L } x2mesh' c w table env (run [] calls') =
      solveSoil ty p sp x2mesh c w table env (run [] calls) := by
  unfold solveSoil
  rw [C65_mesh p (sp := sp.geometry) (hL.map _) hx, C65_springs h w table env hL hx]
  cases hC : Mesh.getCoordinates p (some sp.geometry) x2mesh c with
  | none => rfl
  | some C =>
    simp only [Option.bind_eq_bind, Option.bind_some]
    obtain ⟨e1, e2, e3⟩ := C65_loads C.nodes hs (hsep C hC)
    congr 1
    funext A
    simp only [solveSoilOn, e1, e2, e3]

/-- **C65 without soil.** -/
theorem C65_beam {K : Type} [Field K] [LinearOrder K] [FloorRing K] (pi : K) (ty : Kernel.ElementType) (p : Pile.Pile K)
    {x2mesh x2mesh' : List K} (c : K) (hx : ∀ x, x ∈ x2mesh' ↔ x ∈ x2mesh)
    {calls calls' : List (Call K)} (hs : SameWrites calls calls')
    (hsep : ∀ C, Mesh.getCoordinates p none x2mesh c = some C → Separate C.nodes calls) :
    solveModel pi ty p x2mesh' c (run [] calls') = solveModel pi ty p x2mesh c (run [] calls) := by
  unfold solveModel
  rw [C65_mesh_free p hx]
  cases hC : Mesh.getCoordinates p none x2mesh c with
  | none => rfl
  | some C =>
    simp only [Option.bind_eq_bind, Option.bind_some]
    obtain ⟨e1, e2, e3⟩ := C65_loads C.nodes hs (hsep C hC)
    simp only [solveOn, e1, e2, e3]

/-- **C65, axial capacities.** -/
theorem C65_capacity {p : Pile.Pile ℝ} {sp : SoilProfile} {x2mesh : List ℝ} {c top tip : ℝ}
    (h : Weight.Setup p sp.geometry x2mesh c top tip) (w : Switches) (table : List (ℝ × Pile.Section ℝ)) (env : Draws)
    {L : List SoilLayer} (hL : L.Perm sp.layers) {x2mesh' : List ℝ} (hx : ∀ x, x ∈ x2mesh' ↔ x ∈ x2mesh) :
    Capacity.shaft p { sp with layers := L } x2mesh' c w table env = Capacity.shaft p sp x2mesh c w table env ∧
    Capacity.tip p { sp with layers := L } x2mesh' c w table env = Capacity.tip p sp x2mesh c w table env := by
  unfold Capacity.shaft Capacity.tip
  rw [C65_mesh p (sp := sp.geometry) (hL.map _) hx, C65_springs h w table env hL hx]
  exact ⟨rfl, rfl⟩

/-- **C65, weights.** The weight of the pile and of the soil inside it on the mesh of the Model. -/
theorem C65_weights {K : Type} [Field K] [LinearOrder K] [IsStrictOrderedRing K] [FloorRing K] (pi : K)
    {p : Pile.Pile K} {sp sp' : Soil.Profile K} {x2mesh x2mesh' : List K} {c top tip : K}
    (h : Weight.Setup p sp x2mesh c top tip) (hp : sp'.layers.Perm sp.layers)
    (h2 : sp'.waterLine = sp.waterLine) (hx : ∀ x, x ∈ x2mesh' ↔ x ∈ x2mesh) :
    ∃ C, Mesh.getCoordinates p (some sp) x2mesh c = some C ∧ Mesh.getCoordinates p (some sp') x2mesh' c = some C ∧
      OpenPile.Weight.effectivePileWeight pi p sp' C.elements = OpenPile.Weight.effectivePileWeight pi p sp C.elements ∧
      OpenPile.Weight.entrappedSoilWeight pi p sp' C.elements = OpenPile.Weight.entrappedSoilWeight pi p sp C.elements := by
  obtain ⟨C, hC, hm⟩ := Weight.mesh_facts h
  refine ⟨C, hC, by rw [C65_mesh p hp hx, hC], by unfold OpenPile.Weight.effectivePileWeight; rw [h2], ?_⟩
  unfold OpenPile.Weight.entrappedSoilWeight
  congr 1
  have hcongr : ∀ e ∈ C.elements, OpenPile.Weight.soilWeight pi p sp' e = OpenPile.Weight.soilWeight pi p sp e := by
    intro e he
    unfold OpenPile.Weight.soilWeight
    rw [h2]
    refine hp.foldl_eq' (fun l hl l' hl' z => ?_) _
    by_cases h1 : e.1 ≤ l.top ∧ e.2 ≥ l.bottom
    · by_cases h1' : e.1 ≤ l'.top ∧ e.2 ≥ l'.bottom
      · have hm1 := hp.mem_iff.1 hl
        have hm2 := hp.mem_iff.1 hl'
        obtain ⟨l0, hl0⟩ := hm.layer e he (h1.1.trans (hm.lays l hm1).2.2)
        have a1 : l ∈ [l0] := hl0 ▸ List.mem_filter.2 ⟨hm1, decide_eq_true h1⟩
        have a2 : l' ∈ [l0] := hl0 ▸ List.mem_filter.2 ⟨hm2, decide_eq_true h1'⟩
        rw [List.mem_singleton] at a1 a2
        rw [a1, a2]
      · simp only [if_neg h1']
    · simp only [if_neg h1]
  clear hm hC
  revert hcongr
  generalize C.elements = els
  intro hcongr
  induction els with
  | nil => rfl
  | cons e l ih =>
    rw [List.mapM_cons, List.mapM_cons, hcongr e (List.mem_cons_self ..),
      ih (fun e he => hcongr e (List.mem_cons_of_mem _ he))]

/-- Elevations further apart than their tolerances act at different nodes. -/
theorem separate_of_far {K : Type} [Field K] [LinearOrder K] [IsStrictOrderedRing K] [FloorRing K] (nodes : List K)
    (h : List (Call K)) (hf : ∀ k ∈ h, ∀ k' ∈ h, elev k ≠ elev k' →
      2 / 1000 + |elev k| / 100000 + |elev k'| / 100000 < |elev k - elev k'|) : Separate nodes h := by
  intro k hk k' hk' _ i h1 h2
  by_contra hne
  obtain ⟨⟨n, hn, hn1⟩, -⟩ := h1
  obtain ⟨⟨n', hn', hn2⟩, -⟩ := h2
  rw [hn, Option.some.injEq] at hn'
  subst hn'
  have := hf k hk k' hk' hne
  unfold Near at hn1 hn2
  have h3 := abs_sub_le (elev k) n (elev k')
  rw [abs_sub_comm (elev k) n] at h3
  linarith

/-! ## A case -/

/-- Sand over clay, the clay listed first. -/
theorem setup_two (lat lat' : Option SoilModel.Model) (ax ax' : Option AxialModel) :
    Weight.Setup (⟨[⟨1, -10, 2, 1 / 20⟩], Pile.steel⟩ : Pile.Pile ℝ)
    (SoilProfile.geometry ⟨0, -1, [⟨⟨-4, -20, 18⟩, lat, ax⟩, ⟨⟨0, -4, 20⟩, lat', ax'⟩]⟩) [-2, -3] 1 1 (-10) where
  coarse := by norm_num
  tip_eq := rfl
  built := by
    intro l hl
    simp only [SoilProfile.geometry, List.map_cons, List.map_nil, List.mem_cons, List.not_mem_nil,
      or_false] at hl
    rw [Soil.built_iff]
    rcases hl with rfl | rfl <;> norm_num
  exact := by
    simp [SoilProfile.geometry, Soil.sortLayers, Py.sortedBy]
  first := ⟨⟨0, -4, 20⟩, by simp [SoilProfile.geometry, Soil.sortLayers, Py.sortedBy], rfl⟩
  last := ⟨⟨-4, -20, 18⟩, by simp [SoilProfile.geometry, Soil.sortLayers, Py.sortedBy], by norm_num⟩
  grid := by
    rintro r (⟨s, hs, h⟩ | ⟨sp', hsp, l, hl, h, h'⟩ | h)
    · simp only [List.mem_cons, List.not_mem_nil, or_false] at hs
      subst hs
      rcases h with rfl | rfl
      · exact ⟨10000, by norm_num⟩
      · exact ⟨-100000, by norm_num⟩
    · cases hsp
      simp only [SoilProfile.geometry, List.map_cons, List.map_nil, List.mem_cons, List.not_mem_nil,
        or_false] at hl
      rcases hl with rfl | rfl
      · rcases h with rfl | rfl
        · exact ⟨-40000, by norm_num⟩
        · exact ⟨-200000, by norm_num⟩
      · rcases h with rfl | rfl
        · exact ⟨0, by norm_num⟩
        · exact ⟨-40000, by norm_num⟩
    · simp only [List.mem_cons, List.not_mem_nil, or_false] at h
      rcases h with rfl | rfl
      · exact ⟨-20000, by norm_num⟩
      · exact ⟨-30000, by norm_num⟩
  ground := by norm_num [SoilProfile.geometry]
  extra := by norm_num
  sections := by
    intro s hs
    simp only [List.mem_cons, List.not_mem_nil, or_false] at hs
    subst hs
    norm_num
  pile := ⟨[⟨1, -10, 2, 1 / 20⟩], Pile.steel, rfl, by
    intro s hs
    simp only [List.mem_cons, List.not_mem_nil, or_false] at hs
    subst hs
    rw [Pile.built_iff]
    norm_num⟩
  head := rfl
  below := by norm_num [SoilProfile.geometry]
  inside := by norm_num

/-- The layers exchanged, an extra elevation repeated, the calls exchanged. -/
example (ty : Kernel.ElementType) (w : Switches) (table : List (ℝ × Pile.Section ℝ)) (env : Draws)
    (a b : SoilModel.Model) :
    solveSoil ty ⟨[⟨1, -10, 2, 1 / 20⟩], Pile.steel⟩ ⟨0, -1, [⟨⟨0, -4, 20⟩, some a, none⟩, ⟨⟨-4, -20, 18⟩, some b, none⟩]⟩
      [-3, -2, -3] 1 w table env (run [] [.support (-10) none (some true) none, .pointload 1 (some 50) none none]) =
    solveSoil ty ⟨[⟨1, -10, 2, 1 / 20⟩], Pile.steel⟩ ⟨0, -1, [⟨⟨-4, -20, 18⟩, some b, none⟩, ⟨⟨0, -4, 20⟩, some a, none⟩]⟩
      [-2, -3] 1 w table env (run [] [.pointload 1 (some 50) none none, .support (-10) none (some true) none]) := by
  refine C65_analysis_partial ty (setup_two (some b) (some a) none none) w table env (List.Perm.swap _ _ _)
    (by simp) (same_of_perm (List.Perm.swap _ _ _) (by simp [kind])) (fun C _ => separate_of_far _ _ ?_)
  intro k hk k' hk'
  simp only [List.mem_cons, List.not_mem_nil, or_false] at hk hk'
  rcases hk with rfl | rfl <;> rcases hk' with rfl | rfl <;> norm_num [elev]

end OpenPile.Props.Order

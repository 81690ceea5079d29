/-
C113: a result shows what was set.

`winkler.py` 449-637 (`beam`, `winkler`), `construct.py` 1522-1623 (boundary conditions).  With and without soil, the displacement
table lists the prescribed displacements and zero at supports, and reactions are listed only where something was set.
-/
import Verif.Props.Release
import Verif.Props.SoilSupport
import Verif.Props.StubSoil

namespace OpenPile.Props.Shown
open Matrix
open OpenPile.Kernel OpenPile.Spec.Kernel OpenPile.Props.Solve OpenPile.Props.Beam
open OpenPile.Winkler OpenPile.Analysis OpenPile.Props.Analysis OpenPile.Props.Reported OpenPile.Result
open OpenPile.Mesh OpenPile.BC OpenPile.Props.BC OpenPile.Spec.BC OpenPile.Props.Control OpenPile.Props.Release
open OpenPile.SoilAnalysis OpenPile.Assemble

variable {K : Type} [Field K] [LinearOrder K] [IsStrictOrderedRing K] [FloorRing K]

/-- After the calls `h`, the value `v` is in force in direction `a` at node `i`: it was given last for an elevation that goes to
this node, it has an effect, and no call of the same kind names another elevation that goes to this node. -/
def InForce (nodes : List K) (h : List (Call K)) (cls : Cls) (i : ℕ) (a : Axis) (v : Val K) : Prop :=
  ∃ e, ActsAt nodes e i ∧ expected h cls e a = some v ∧ Effective v ∧
    ∀ k ∈ h, kind k = cls → ActsAt nodes (elev k) i → elev k = e

/-- After the calls `h`, nothing with an effect is in force in direction `a` at node `i`. -/
def NothingInForce (nodes : List K) (h : List (Call K)) (cls : Cls) (i : ℕ) (a : Axis) : Prop :=
  ∀ e v, ActsAt nodes e i → expected h cls e a = some v → ¬ Effective v

/-- What a table of displacements and a table of reactions show of the calls `h`. -/
structure Shows (nodes : List K) (h : List (Call K)) (disp : List (K × K × K × K)) (reactions : List (K × List K)) : Prop where
  /-- one row per node, with its elevation -/
  rows : disp.map (·.1) = nodes
  /-- a prescribed displacement is listed as given -/
  prescribed : ∀ i a q, InForce nodes h .displacement i a (.num q) → ∃ row, disp[i]? = some row ∧ Control.listed row a = q
  /-- a supported direction without a prescribed displacement does not move -/
  supported : ∀ i a, InForce nodes h .fixation i a (.flag true) → NothingInForce nodes h .displacement i a →
    ∃ row, disp[i]? = some row ∧ Control.listed row a = 0
  /-- without support and prescribed displacement there is no reaction -/
  free : ∀ i a z, nodes[i]? = some z → NothingInForce nodes h .fixation i a → NothingInForce nodes h .displacement i a →
    ∀ r ∈ reactions, r.1 = z → comp (place a).1 r = 0

theorem left_inForce {β : Type} (store : Val K → β) (init : β) (nodes : List K) (h : List (Call K)) (cls : Cls) (i : ℕ) (a : Axis)
    (v : Val K) (hv : InForce nodes h cls i a v) : left store init nodes (run [] h) cls a i = store v := by
  obtain ⟨e, hj, he, heff, honly⟩ := hv
  have hjl : i < nodes.length := by
    obtain ⟨⟨n, hn, -⟩, -⟩ := hj
    exact (List.getElem?_eq_some_iff.1 hn).1
  have h1 := applyBc_left store init nodes (run [] h) cls a i hjl
  have h2 := C14_history_value store nodes h ⟨nodes.map (fun _ => init), nodes.map (fun _ => init), nodes.map (fun _ => init)⟩
    cls e v i a (by cases a <;> simp [Nodal.get]) hj heff he honly
  rw [h1, Option.some.injEq] at h2
  exact h2

theorem left_nothing {β : Type} (store : Val K → β) (init : β) (nodes : List K) (h : List (Call K)) (cls : Cls) (i : ℕ)
    (hi : i < nodes.length) (a : Axis) (hn : NothingInForce nodes h cls i a) : left store init nodes (run [] h) cls a i = init := by
  have h1 := applyBc_left store init nodes (run [] h) cls a i hi
  have h2 := (C14_nodal_value store nodes ⟨nodes.map (fun _ => init), nodes.map (fun _ => init), nodes.map (fun _ => init)⟩
    (run [] h) cls a i (by cases a <;> simpa [Nodal.get] using hi)).2 (by
      intro c hc hcls hact w hw
      have hne : about h cls c.elevation ≠ [] := by
        intro h0
        have h3 := (C12_last_write_wins h cls c.elevation).1 h0
        have h4 : c ∈ (run [] h).filter (fun d => decide (d.cls = cls) && decide (d.elevation = c.elevation)) := by
          rw [List.mem_filter]
          exact ⟨hc, by simp [hcls]⟩
        rw [h3] at h4
        cases h4
      obtain ⟨c', h3, h4⟩ := (C12_last_write_wins h cls c.elevation).2 hne
      have h5 : c ∈ (run [] h).filter (fun d => decide (d.cls = cls) && decide (d.elevation = c.elevation)) := by
        rw [List.mem_filter]
        exact ⟨hc, by simp [hcls]⟩
      rw [h3, List.mem_singleton] at h5
      rw [h5, h4 a] at hw
      exact hn _ w hact (h5 ▸ hw))
  rw [h1] at h2
  have h6 : ((⟨nodes.map (fun _ => init), nodes.map (fun _ => init), nodes.map (fun _ => init)⟩ : Nodal β).get a)[i]? = some init := by
    cases a <;> simp [Nodal.get, hi]
  rw [h6, Option.some.injEq] at h2
  exact h2

/-- The tables of displacements that are as prescribed where `R` or `U` say so, with reactions only there. -/
theorem shows_of {nodes : List K} {h : List (Call K)} {n : ℕ} {z : Fin (n + 1) → K} (hz : nodes = List.ofFn z)
    (hinj : Function.Injective z) {U u Q : Fin (3 * n + 3) → K} {R : Fin (3 * n + 3) → Bool}
    (hU : ∀ k c, U (dof k c) = left storeFloat 0 nodes (run [] h) .displacement (axisOf c) k.1)
    (hR : ∀ k c, R (dof k c) = left storeBool false nodes (run [] h) .fixation (axisOf c) k.1)
    (hu : ∀ i, R i = true ∨ U i ≠ 0 → u i = U i) (hQ : ∀ i, R i = false → U i = 0 → Q i = 0) :
    Shows nodes h (List.ofFn (fun j => (z j, u (dof j 0), u (dof j 1), u (dof j 2))))
      ((List.ofFn (fun j => (z j, shown Q j))).filter (fun r => r.2.any (fun q => decide (1 / 1000 < |q|)))) := by
  have hrow : ∀ (k : Fin (n + 1)) (a : Axis), ∃ row, (List.ofFn (fun j => (z j, u (dof j 0), u (dof j 1), u (dof j 2))))[k.1]? = some row ∧
      Control.listed row a = u (dof k (place a)) := by
    intro k a
    refine ⟨_, by rw [List.getElem?_ofFn, dif_pos k.2], ?_⟩
    cases a <;> rfl
  have hlt : ∀ i, i < nodes.length → i < n + 1 := by
    intro i hi
    rw [hz] at hi
    simpa using hi
  have hin : ∀ {cls i a v}, InForce nodes h cls i a v → i < nodes.length := by
    rintro cls i a v ⟨e, ⟨⟨m, hm, -⟩, -⟩, -⟩
    exact (List.getElem?_eq_some_iff.1 hm).1
  refine ⟨?_, ?_, ?_, ?_⟩
  · rw [hz, List.map_ofFn]
    rfl
  · intro i a q hv
    obtain ⟨k, rfl⟩ : ∃ k : Fin (n + 1), k.1 = i := ⟨⟨i, hlt i (hin hv)⟩, rfl⟩
    obtain ⟨row, r1, r2⟩ := hrow k a
    refine ⟨row, r1, ?_⟩
    have hq : U (dof k (place a)) = q := by
      rw [hU, axisOf_place, left_inForce storeFloat 0 nodes h .displacement k.1 a _ hv]
      rfl
    have hq0 : q ≠ 0 := by
      obtain ⟨e, -, -, heff, -⟩ := hv
      exact heff
    rw [r2, hu _ (Or.inr (by rw [hq]; exact hq0)), hq]
  · intro i a hv hn
    have hi := hin hv
    obtain ⟨k, rfl⟩ : ∃ k : Fin (n + 1), k.1 = i := ⟨⟨i, hlt i hi⟩, rfl⟩
    obtain ⟨row, r1, r2⟩ := hrow k a
    refine ⟨row, r1, ?_⟩
    rw [r2, hu _ (Or.inl (by rw [hR, axisOf_place, left_inForce storeBool false nodes h .fixation k.1 a _ hv]; rfl)), hU,
      axisOf_place, left_nothing storeFloat 0 nodes h .displacement k.1 hi a hn]
  · intro i a w hw hnf hnd r hr hrw
    have hi : i < nodes.length := (List.getElem?_eq_some_iff.1 hw).1
    obtain ⟨k, rfl⟩ : ∃ k : Fin (n + 1), k.1 = i := ⟨⟨i, hlt i hi⟩, rfl⟩
    rw [List.mem_filter, List.mem_ofFn] at hr
    obtain ⟨⟨k', rfl⟩, -⟩ := hr
    have hk : k' = k := by
      rw [hz, List.getElem?_ofFn, dif_pos k.2, Option.some.injEq] at hw
      exact hinj (hrw.trans hw.symm)
    rw [hk, comp_shown, hQ]
    · simp [maskSmall]
    · rw [hR, axisOf_place, left_nothing storeBool false nodes h .fixation k.1 hi a hnf]
    · rw [hU, axisOf_place, left_nothing storeFloat 0 nodes h .displacement k.1 hi a hnd]

/-- **C113, without soil.** -/
theorem C113_beam (pi : K) (ty : ElementType) (p : Pile.Pile K) (top tip : K) (hp : Stack p top tip)
    (C : Coordinates K) (hm : MeshOn p top tip C) (h : List (Call K)) (T : Tables K) (hT : solveOn pi ty p C (run [] h) = some T) :
    Shows C.nodes h T.disp T.reactions := by
  obtain ⟨z, el, F, U, R, n1, hz, hanti, hel, hF, hU, hR, hss⟩ := read_left pi ty hp hm h
  rw [hss] at hT
  obtain ⟨u, Q, f, hb, t2, -, -, t5⟩ := tables_of_beam ty n1 z el F U R T hT
  rw [t2, t5]
  unfold beam at hb
  rw [Option.map_eq_some_iff] at hb
  obtain ⟨⟨u', Q'⟩, hs, he⟩ := hb
  cases he
  obtain ⟨a1, a2, -, -⟩ := C15_solution _ _ _ _ _ _ hs
  refine shows_of hz hanti.injective hU hR (fun i hi => a2 i (by simpa using hi)) (fun i h1 h2 => (a1 i (by simp [h1, h2])).2)

/-- **C113, with soil.** Every analysis in soil that gives numbers, whatever the springs. -/
theorem C113_soil (ty : ElementType) (p : Pile.Pile ℝ) (top tip : ℝ) (hp : Stack p top tip) (C : Coordinates ℝ)
    (hm : MeshOn p top tip C) (w : Switches) (A : Arrays) (h : List (Call ℝ)) (t : SoilTables)
    (ht : solveSoilOn ty p C w A (run [] h) 100 = some (.numbers t)) : Shows C.nodes h t.disp t.reactions := by
  obtain ⟨n, z, el, F, U, R, g, gU, gR, d, Q, tolSq, resSq, n1, hz, hanti, hel, hg, hgU, hgR, cF, cU, cR, hw, htab, -, -, -⟩ :=
    SoilTables.soil_read hp hm ht
  have hlen : ∀ k : Fin (n + 1), k.1 < C.nodes.length := by
    intro k
    rw [hz]
    simp [k.2]
  have hU : ∀ k c, U (dof k c) = left storeFloat 0 C.nodes (run [] h) .displacement (axisOf c) k.1 := by
    intro k c
    have h1 := congrArg (fun l => l[k.1]?) (cU c)
    simp only [List.getElem?_ofFn, dif_pos k.2] at h1
    rw [disp_left hgU, if_pos (hlen k)] at h1
    simpa using h1.symm
  have hR : ∀ k c, R (dof k c) = left storeBool false C.nodes (run [] h) .fixation (axisOf c) k.1 := by
    intro k c
    have h1 := congrArg (fun l => l[k.1]?) (cR c)
    simp only [List.getElem?_ofFn, dif_pos k.2] at h1
    rw [held_left hgR, if_pos (hlen k)] at h1
    simpa using h1.symm
  obtain ⟨T, e1, t2, -, -, t5⟩ := tables_exact ty n1 z el d Q
  rw [hz, e1, Option.some.injEq] at htab
  rw [← htab, t2, t5]
  unfold winkler at hw
  rcases hb : buildStiffness ty el (springsOf w A n) .initial 0 with _ | B
  · simp [hb] at hw
  · simp only [hb] at hw
    obtain ⟨-, -, -, e⟩ := Winkler.loop_converged _ F U _ _ 0 0 B U F 0 0 0 d Q _ tolSq resSq (fun i _ => by simp) (by omega) hw
    obtain ⟨Ks, -, -, -, u', hs⟩ := e.residual
    obtain ⟨a1, -, -, -⟩ := C15_solution _ _ _ _ _ _ hs
    refine shows_of hz hanti.injective hU hR (fun i hi => e.prescribed i (by simpa using hi))
      (fun i h1 h2 => (a1 i (by simp [h1, h2])).2)

/-- **C113, violated by a displacement of zero.** Prescribing a displacement of zero where none was prescribed changes nothing, with or
without soil: the node moves as if the call had not been made. -/
theorem C113_violated_zero (ty : ElementType) (p : Pile.Pile ℝ) (C : Coordinates ℝ) (w : Switches) (A : Arrays) (h : List (Call ℝ)) (e : ℝ)
    (j : ℕ) (hj : ActsAt C.nodes e j) (a : Axis) (hs : Silent C.nodes h .displacement e j a) (m : ℕ) :
    solveSoilOn ty p C w A (run [] (h ++ [dispCall e a 0])) m = solveSoilOn ty p C w A (run [] h) m ∧
    solveOn Real.pi ty p C (run [] (h ++ [dispCall e a 0])) = solveOn Real.pi ty p C (run [] h) := by
  obtain ⟨d1, d2, d3, d4⟩ := disp_call e a (0 : ℝ)
  have hj2 : ActsAt C.nodes (elev (dispCall e a (0 : ℝ))) j := by rw [d2]; exact hj
  have ext : ∀ {β : Type} (g g' : Nodal β), (∀ (b : Axis) (i : ℕ), (g.get b)[i]? = (g'.get b)[i]?) → g = g' := by
    intro β g g' hg
    have ex := List.ext_getElem? (hg .x)
    have ey := List.ext_getElem? (hg .y)
    have ez := List.ext_getElem? (hg .z)
    rcases g with ⟨x, y, z⟩
    rcases g' with ⟨x', y', z'⟩
    simp only [Nodal.get] at ex ey ez
    rw [ex, ey, ez]
  have e1 : globalForces C.nodes (run [] (h ++ [dispCall e a 0])) = globalForces C.nodes (run [] h) := by
    unfold globalForces
    rw [C13_histories_never_raise, C13_histories_never_raise]
    refine congrArg Except.ok (ext _ _ fun b i => ?_)
    rw [column, column, run_last, left_other storeInt 0 C.nodes _ _ a d4 j hj2 .force b i (by rw [d1]; simp)]
  have e2 : globalDisp C.nodes (run [] (h ++ [dispCall e a 0])) = globalDisp C.nodes (run [] h) := by
    unfold globalDisp
    rw [C13_histories_never_raise, C13_histories_never_raise]
    refine congrArg Except.ok (ext _ _ fun b i => ?_)
    rw [column, column]
    by_cases hb : b = a ∧ i = j
    · rw [hb.1, hb.2, left_zero storeFloat 0 C.nodes h .displacement e j hj a hs _ d2 d3,
        left_silent storeFloat 0 C.nodes h .displacement e j hj a hs]
    · rw [run_last, left_other storeFloat 0 C.nodes _ _ a d4 j hj2 .displacement b i (fun hh => hb hh.2)]
  have e3 : globalRestrained C.nodes (run [] (h ++ [dispCall e a 0])) = globalRestrained C.nodes (run [] h) := by
    unfold globalRestrained
    rw [C13_histories_never_raise, C13_histories_never_raise]
    refine congrArg Except.ok (ext _ _ fun b i => ?_)
    rw [column, column, run_last, left_other storeBool false C.nodes _ _ a d4 j hj2 .fixation b i (by rw [d1]; simp)]
  unfold solveSoilOn solveOn
  rw [e1, e2, e3]
  exact ⟨rfl, rfl⟩

section witness
open OpenPile.Props.SoilSupport OpenPile.Props.SoilTables

theorem actsTip : ActsAt meshS.nodes 0 1 := ((C14_node_choice meshS.nodes (0 : ℝ)).1 1).1 SoilSupport.idx0

/-- A pile in soil whose tip is supported: the support is in force and the table lists zero. -/
example : ∃ t, solveSoilOn .eulerBernoulli pileS meshS switchesS arraysS (run [] callsT) 100 = some (.numbers t) ∧
    Shows meshS.nodes callsT t.disp t.reactions ∧ InForce meshS.nodes callsT .fixation 1 .y (.flag true) ∧
    NothingInForce meshS.nodes callsT .displacement 1 .y := by
  obtain ⟨t, ht, -⟩ := solvedT
  refine ⟨t, ht, C113_soil _ _ 1 0 stackS _ meshOnS _ _ _ _ ht, ⟨0, actsTip, ?_, rfl, ?_⟩, ?_⟩
  · simp [expected, about, callsT, lastWrite, kind, elev, arg]
  · intro k hk hkind hact
    simp only [callsT, List.mem_cons, List.not_mem_nil, or_false] at hk
    rcases hk with rfl | rfl | rfl
    · simp [kind] at hkind
    · exfalso
      have h1 := ((C14_node_choice meshS.nodes (1 : ℝ)).1 1).2 hact
      have h2 : nodeIdx meshS.nodes (1 : ℝ) = some 0 := SoilSupport.idx1
      rw [h2] at h1
      cases h1
    · rfl
  · intro e v _ hv
    simp [expected, about, callsT, lastWrite, kind] at hv

/-- A beam held at its tip whose head is displaced. -/
example : ∃ (q : ℝ) (T : Tables ℝ), solveOn Real.pi .eulerBernoulli pileS meshS (run [] (tipC ++ [dispCall 1 .y q])) = some T ∧
    Shows meshS.nodes (tipC ++ [dispCall 1 .y q]) T.disp T.reactions ∧
    InForce meshS.nodes (tipC ++ [dispCall 1 .y q]) .displacement 0 .y (.num q) := by
  have hEI := stiffT
  obtain ⟨h1, h2, h3⟩ := readC (tipC ++ [loadCall 1 .y ((12 : ℤ) : ℝ)]) 0 12 (by
    simp [run, tipC, loadCall, BC.step, setPointload, setSupport, updateBc])
  obtain ⟨T, hT, hd⟩ := solvedC _ 12 0 (4 / ((elS 0).E * (elS 0).I)) (-6 / ((elS 0).E * (elS 0).I)) (by
    rw [flexC]
    norm_num) (by
    rw [flexC]
    norm_num) h1 h2 h3
  have hq : 4 / ((elS 0).E * (elS 0).I) ≠ 0 := by positivity
  obtain ⟨T', hT', -⟩ := C85_calls_partial Real.pi Real.pi_pos .eulerBernoulli pileS 1 0 acceptedT meshS meshOnS tipC 1 0 acts_head .y 12
    (by norm_num) silentC T hT (1, 0, 4 / ((elS 0).E * (elS 0).I), -6 / ((elS 0).E * (elS 0).I)) (by rw [hd]; rfl) hq
  refine ⟨_, T', hT', C113_beam _ _ _ 1 0 stackS _ meshOnS _ _ hT', 1, acts_head, ?_, hq, ?_⟩
  · simp [expected, about, tipC, dispCall, lastWrite, kind, elev, arg]
  · intro k hk hkind _
    simp only [tipC, List.mem_append, List.mem_cons, List.not_mem_nil, or_false] at hk
    rcases hk with rfl | rfl
    · simp [kind] at hkind
    · rfl

/-- A pile in soil whose head shall not move sideways and does. -/
example : ∃ t, solveSoilOn .eulerBernoulli pileS meshS switchesS arraysS (run [] (callsT ++ [dispCall 1 .y 0])) 100 = some (.numbers t) ∧
    ∃ row, t.disp[0]? = some row ∧ 0 < Control.listed row Axis.y := by
  obtain ⟨t, ht, hd, -⟩ := solvedT
  refine ⟨t, ?_, (1, 0, headT, 0), by rw [hd]; rfl, headT_range.1⟩
  rw [(C113_violated_zero _ _ _ _ _ callsT 1 0 acts_head .y (by
    intro k hk hkind
    simp only [callsT, List.mem_cons, List.not_mem_nil, or_false] at hk
    rcases hk with rfl | rfl | rfl <;> simp [kind] at hkind) 100).1]
  exact ht

end witness

end OpenPile.Props.Shown

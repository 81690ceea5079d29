/- Sessions with several Models (C75). -/
import Verif.Model.Session
import Verif.Lemmas.BC
import Verif.Props.Extract

namespace OpenPile.Props.Session
open OpenPile.BC OpenPile.Mesh OpenPile.Kernel OpenPile.Assemble OpenPile.SoilAnalysis OpenPile.Session
open OpenPile.Extract (Query influence)

variable {k : ℕ}

/-! ### what a program says about one Model -/

/-- The calls that set boundary conditions of `m`, oldest first. -/
def ownCalls (m : Fin k) : List (Op k) → List (Call ℝ)
  | [] => []
  | .set m' c :: h => if m' = m then c :: ownCalls m h else ownCalls m h
  | _ :: h => ownCalls m h

/-- The number of lateral spring tables of `m` that were looked up. -/
def lateralLooks (m : Fin k) : List (Op k) → ℕ
  | [] => 0
  | .get m' (.lateral _) :: h => (if m' = m then 1 else 0) + lateralLooks m h
  | _ :: h => lateralLooks m h

/-- The number of axial spring tables of `m` that were looked up. -/
def axialLooks (m : Fin k) : List (Op k) → ℕ
  | [] => 0
  | .get m' (.axial _) :: h => (if m' = m then 1 else 0) + axialLooks m h
  | _ :: h => axialLooks m h

/-- No boundary condition object is used by two Models, and every reference leads to an object. -/
def Separate (w : World k) : Prop :=
  (∀ m, ∀ r ∈ (w.objs m).refs, r < w.heap.length) ∧
  ∀ m m', m ≠ m' → ∀ r ∈ (w.objs m).refs, r ∉ (w.objs m').refs

/-- The Model `m` is in the state of a Model of its own: boundary conditions `bcs`, springs `A`. -/
structure Alone (w : World k) (m : Fin k) (o : Obj) (bcs : List (Cond ℝ)) (A : Arrays) : Prop where
  ty : (w.objs m).ty = o.ty
  pile : (w.objs m).pile = o.pile
  coords : (w.objs m).coords = o.coords
  switches : (w.objs m).switches = o.switches
  arrays : (w.objs m).arrays = A
  bcs : view w m = bcs

/-! ### one call -/

theorem filterMap_congr' {α β : Type} {f g : α → Option β} {l : List α} (h : ∀ a ∈ l, f a = g a) :
    l.filterMap f = l.filterMap g := by
  induction l with
  | nil => rfl
  | cons a l ih =>
    have ha := h a (by simp)
    have hl := ih (fun b hb => h b (by simp [hb]))
    simp only [List.filterMap_cons, ha, hl]

/-- The objects found are those that match. -/
theorem existing_view (w : World k) (m : Fin k) (e : ℝ) (cls : Cls) :
    (existing w m e cls).filterMap (fun r => w.heap[r]?) = (view w m).filter (fun c => c.isAt cls e) := by
  unfold existing view
  induction (w.objs m).refs with
  | nil => rfl
  | cons r l ih =>
    cases hr : w.heap[r]? with
    | none => simpa [List.filter_cons, hr] using ih
    | some c =>
      by_cases hc : c.isAt cls e = true
      · simpa [List.filter_cons, hr, hc] using ih
      · simpa [List.filter_cons, hr, hc] using ih

theorem existing_length (w : World k) (m : Fin k) (e : ℝ) (cls : Cls) :
    (existing w m e cls).length = ((view w m).filter (fun c => c.isAt cls e)).length := by
  rw [← existing_view]
  unfold existing
  induction (w.objs m).refs with
  | nil => rfl
  | cons r l ih =>
    cases hr : w.heap[r]? with
    | none => simpa [List.filter_cons, hr] using ih
    | some c =>
      by_cases hc : c.isAt cls e = true
      · simpa [List.filter_cons, hr, hc] using ih
      · simpa [List.filter_cons, hr, hc] using ih

theorem mem_existing {w : World k} {m : Fin k} {e : ℝ} {cls : Cls} {r : ℕ} :
    r ∈ existing w m e cls ↔ r ∈ (w.objs m).refs ∧ ∃ c, w.heap[r]? = some c ∧ c.isAt cls e = true := by
  unfold existing
  rw [List.mem_filter]
  cases h : w.heap[r]? <;> simp

/-- `update` when exactly one object is found. -/
theorem update_one {w : World k} {m : Fin k} {e : ℝ} {cls : Cls} {r : ℕ} {c : Cond ℝ}
    (h : existing w m e cls = [r]) (hc : w.heap[r]? = some c) (x y z : Option (Val ℝ)) :
    update w m e x y z cls = { w with heap := w.heap.set r (c.overwrite x y z) } := by
  unfold update
  rw [h]
  simp only [hc]

/-- `update` otherwise. -/
theorem update_new {w : World k} {m : Fin k} {e : ℝ} {cls : Cls} (h : (existing w m e cls).length ≠ 1)
    (x y z : Option (Val ℝ)) :
    update w m e x y z cls =
      { (w.put m { (w.objs m) with refs := (w.objs m).refs ++ [w.heap.length] }) with
        heap := w.heap ++ [{ cls := cls, elevation := e, x := x, y := y, z := z }] } := by
  unfold update
  match hx : existing w m e cls with
  | [] => rfl
  | [r] => rw [hx] at h; simp at h
  | _ :: _ :: _ => rfl

/-- What the Model itself reads after `_update_bc`: always the list of C12. -/
theorem view_update_same (w : World k) (m : Fin k) (e : ℝ) (x y z : Option (Val ℝ)) (cls : Cls)
    (hw : ∀ r ∈ (w.objs m).refs, r < w.heap.length) :
    view (update w m e x y z cls) m = updateBc (view w m) e x y z cls := by
  unfold updateBc
  by_cases h1 : (existing w m e cls).length = 1
  · rw [if_pos (by rw [← existing_length]; exact h1)]
    obtain ⟨r, hr⟩ := List.length_eq_one_iff.1 h1
    obtain ⟨hm, c, hc, hat⟩ := mem_existing.1 (hr ▸ List.mem_singleton.2 rfl : r ∈ existing w m e cls)
    rw [update_one hr hc]
    unfold view
    rw [List.map_filterMap]
    refine filterMap_congr' (fun a ha => ?_)
    simp only []
    by_cases har : a = r
    · subst har
      have hlt := hw a ha
      rw [List.getElem?_set_self hlt, hc]
      simp [-isAt_iff, hat]
    · rw [List.getElem?_set_ne (fun h => har h.symm)]
      cases hx : w.heap[a]? with
      | none => rfl
      | some d =>
        have : d.isAt cls e = false := by
          by_contra hd
          have : a ∈ existing w m e cls := mem_existing.2 ⟨ha, d, hx, by simpa using hd⟩
          rw [hr] at this
          exact har (List.mem_singleton.1 this)
        simp [-isAt_iff, this]
  · rw [if_neg (by rw [← existing_length]; exact h1), update_new h1]
    unfold view World.put
    simp only [Function.update_self, List.filterMap_append]
    congr 1
    · refine filterMap_congr' (fun a ha => ?_)
      exact List.getElem?_append_left (hw a ha)
    · simp

/-- What another Model reads, if the two use different objects. -/
theorem view_update_other (w : World k) (m m' : Fin k) (e : ℝ) (x y z : Option (Val ℝ)) (cls : Cls) (hm : m ≠ m')
    (hw : ∀ r ∈ (w.objs m').refs, r < w.heap.length) (hd : ∀ r ∈ (w.objs m).refs, r ∉ (w.objs m').refs) :
    view (update w m e x y z cls) m' = view w m' := by
  by_cases h1 : (existing w m e cls).length = 1
  · obtain ⟨r, hr⟩ := List.length_eq_one_iff.1 h1
    obtain ⟨hmem, c, hc, hat⟩ := mem_existing.1 (hr ▸ List.mem_singleton.2 rfl : r ∈ existing w m e cls)
    rw [update_one hr hc]
    unfold view
    refine filterMap_congr' (fun a ha => ?_)
    refine List.getElem?_set_ne (fun h => hd r hmem ?_)
    rw [h]
    exact ha
  · rw [update_new h1]
    unfold view World.put
    simp only [Function.update_of_ne hm.symm]
    refine filterMap_congr' (fun a ha => ?_)
    exact List.getElem?_append_left (hw a ha)

theorem refs_update_other (w : World k) (m m' : Fin k) (e : ℝ) (x y z : Option (Val ℝ)) (cls : Cls) (hm : m ≠ m') :
    (update w m e x y z cls).objs m' = w.objs m' := by
  unfold update
  split
  · split <;> rfl
  · simp [World.put, Function.update_of_ne hm.symm]

/-- Only the list of references of the Model itself changes. -/
theorem obj_update (w : World k) (m m' : Fin k) (e : ℝ) (x y z : Option (Val ℝ)) (cls : Cls) :
    ∃ l, (update w m e x y z cls).objs m' = { (w.objs m') with refs := l } := by
  by_cases hm : m = m'
  · subst hm
    unfold update
    split
    · split <;> exact ⟨_, rfl⟩
    · exact ⟨_, by simp [World.put]; rfl⟩
  · exact ⟨(w.objs m').refs, by rw [refs_update_other _ _ _ _ _ _ _ _ hm]⟩

/-- The Models stay separate. -/
theorem separate_update {w : World k} (hw : Separate w) (m : Fin k) (e : ℝ) (x y z : Option (Val ℝ)) (cls : Cls) :
    Separate (update w m e x y z cls) := by
  by_cases h1 : (existing w m e cls).length = 1
  · obtain ⟨r, hr⟩ := List.length_eq_one_iff.1 h1
    obtain ⟨hmem, c, hc, hat⟩ := mem_existing.1 (hr ▸ List.mem_singleton.2 rfl : r ∈ existing w m e cls)
    rw [update_one hr hc]
    exact ⟨fun m r hr => by simpa using hw.1 m r hr, hw.2⟩
  · rw [update_new h1]
    have key : ∀ m', ∀ r ∈ ((w.put m { (w.objs m) with refs := (w.objs m).refs ++ [w.heap.length] }).objs m').refs,
        (m' = m ∧ r = w.heap.length) ∨ r ∈ (w.objs m').refs := by
      intro m' r hr
      by_cases hm : m' = m
      · subst hm
        simp only [World.put, Function.update_self, List.mem_append, List.mem_singleton] at hr
        tauto
      · simp only [World.put, Function.update_of_ne hm] at hr
        exact Or.inr hr
    refine ⟨fun m' r hr => ?_, fun m₁ m₂ hne r h₁ h₂ => ?_⟩
    · rcases key m' r hr with ⟨-, rfl⟩ | h
      · simp
      · have := hw.1 m' r h
        simp only [List.length_append, List.length_singleton]
        omega
    · rcases key m₁ r h₁ with ⟨e1, er⟩ | h
      · rcases key m₂ r h₂ with ⟨e2, -⟩ | h'
        · exact hne (e1.trans e2.symm)
        · have := hw.1 m₂ r h'
          omega
      · rcases key m₂ r h₂ with ⟨-, er⟩ | h'
        · have := hw.1 m₁ r h
          omega
        · exact hw.2 m₁ m₂ hne r h h'

theorem call_eq (w : World k) (m : Fin k) (c : Call ℝ) : ∃ e x y z cls,
    call w m c = update w m e x y z cls ∧ ∀ bcs : List (Cond ℝ), BC.step bcs c = updateBc bcs e x y z cls := by
  cases c <;> exact ⟨_, _, _, _, _, rfl, fun _ => rfl⟩

/-! ### springs -/

/-- The resistances multiplied `j` times by the influence length of their node. -/
noncomputable def weighed (C : Coordinates ℝ) (j : ℕ) (s : ℕ → Bool → Curve) : ℕ → Bool → Curve :=
  fun i b => (s i b).map (fun q =>
    (q.1, q.2 * influence (fun j : ℕ => C.nodes.getD j 0) C.elements.length (if b then i + 1 else i) ^ j))

theorem weighed_zero (C : Coordinates ℝ) (s : ℕ → Bool → Curve) : weighed C 0 s = s := by
  funext i b
  simp [weighed]

theorem weighed_weigh (C : Coordinates ℝ) (j : ℕ) (s : ℕ → Bool → Curve) :
    weighed C j (weigh C s) = weighed C (1 + j) s := by
  funext i b
  simp only [weighed, weigh, List.map_map, Function.comp_def]
  refine List.map_congr_left fun x _ => ?_
  simp only [Prod.mk.injEq, true_and]
  ring

/-- As two rows. -/
def rows (s : ℕ → Bool → Curve) : Extract.Springs ℝ := fun i b => ⟨(s i b).map (·.2), (s i b).map (·.1)⟩

/-- `weigh` is the change made by `Extract.query`. -/
theorem rows_weigh (C : Coordinates ℝ) (s : ℕ → Bool → Curve) :
    rows (weigh C s) = Extract.weighted (fun j : ℕ => C.nodes.getD j 0) C.elements.length (rows s) := by
  funext i b
  simp [rows, weigh, Extract.weighted, Function.comp_def]

/-- The springs of a Model with looks. -/
noncomputable def after (C : Coordinates ℝ) (lat ax : ℕ) (A : Arrays) : Arrays :=
  { A with py := weighed C lat A.py, tz := weighed C ax A.tz }

theorem after_zero (C : Coordinates ℝ) (A : Arrays) : after C 0 0 A = A := by
  simp [after, weighed_zero]

/-! ### programs -/

theorem separate_step {w : World k} (hw : Separate w) (op : Op k) : Separate (step w op) := by
  cases op with
  | set m c =>
    obtain ⟨e, x, y, z, cls, h, -⟩ := call_eq w m c
    simp only [Session.step, h]
    exact separate_update hw ..
  | get m q =>
    have hr : ∀ m', ((step w (.get m q)).objs m').refs = (w.objs m').refs := by
      intro m'
      simp only [Session.step, World.put]
      by_cases hm : m' = m
      · subst hm
        rw [Function.update_self]
        cases q <;> rfl
      · rw [Function.update_of_ne hm]
    exact ⟨fun m' r h => hw.1 m' r (by rwa [hr] at h), fun m₁ m₂ hne r h₁ h₂ =>
      hw.2 m₁ m₂ hne r (by rwa [hr] at h₁) (by rwa [hr] at h₂)⟩
  | solve m => exact hw

theorem separate_run {w : World k} (hw : Separate w) (h : List (Op k)) : Separate (Session.run w h) := by
  induction h generalizing w with
  | nil => exact hw
  | cons op h ih => exact ih (separate_step hw op)

/-- The state of every Model after a program, in terms of what the program says about this Model. -/
theorem run_alone {w : World k} (hw : Separate w) (h : List (Op k)) (m : Fin k) :
    Alone (Session.run w h) m (w.objs m) (BC.run (view w m) (ownCalls m h))
      (after (w.objs m).coords (lateralLooks m h) (axialLooks m h) (w.objs m).arrays) := by
  induction h generalizing w with
  | nil => exact ⟨rfl, rfl, rfl, rfl, (after_zero _ _).symm, rfl⟩
  | cons op h ih =>
    have hrun : Session.run w (op :: h) = Session.run (step w op) h := rfl
    rw [hrun]
    have := ih (separate_step hw op)
    cases op with
    | set m' c =>
      obtain ⟨e, x, y, z, cls, hc, hs⟩ := call_eq w m' c
      have hst : step w (.set m' c) = update w m' e x y z cls := hc
      obtain ⟨l, hl⟩ := obj_update w m' m e x y z cls
      have hv : BC.run (view (step w (.set m' c)) m) (ownCalls m h)
          = BC.run (view w m) (ownCalls m (.set m' c :: h)) := by
        rw [hst]
        by_cases hm : m' = m
        · subst hm
          rw [ownCalls, if_pos rfl, view_update_same _ _ _ _ _ _ _ (hw.1 m'), ← hs]
          rfl
        · rw [ownCalls, if_neg hm, view_update_other _ _ _ _ _ _ _ _ hm (hw.1 m) (hw.2 m' m hm)]
      rw [hv] at this
      obtain ⟨a1, a2, a3, a4, a5, a6⟩ := this
      rw [hst] at a1 a2 a3 a4 a5 a6 ⊢
      rw [hl] at a1 a2 a3 a4 a5
      exact ⟨a1, a2, a3, a4, a5, a6⟩
    | get m' q =>
      have hv : view (step w (.get m' q)) m = view w m := by
        unfold view
        simp only [Session.step, World.put]
        by_cases hm : m = m'
        · subst hm
          rw [Function.update_self]
          cases q <;> rfl
        · rw [Function.update_of_ne hm]
      rw [hv] at this
      by_cases hm : m' = m
      · subst hm
        have ho : (step w (.get m' q)).objs m' = look (w.objs m') q := by
          simp [Session.step, World.put]
        rw [ho] at this
        obtain ⟨a1, a2, a3, a4, a5, a6⟩ := this
        cases q <;>
          simp only [look, ownCalls, lateralLooks, axialLooks, if_true, after, weighed_weigh] at a1 a2 a3 a4 a5 a6 ⊢ <;>
          exact ⟨a1, a2, a3, a4, a5, a6⟩
      · have ho : (step w (.get m' q)).objs m = w.objs m := by
          simp [Session.step, World.put, Function.update_of_ne (Ne.symm hm)]
        rw [ho] at this
        obtain ⟨a1, a2, a3, a4, a5, a6⟩ := this
        cases q <;>
          simp only [ownCalls, lateralLooks, axialLooks, if_neg hm, zero_add] at a1 a2 a3 a4 a5 a6 ⊢ <;>
          exact ⟨a1, a2, a3, a4, a5, a6⟩
    | solve m' => exact this

/-- The result of solving a Model of its own. -/
noncomputable def solveAlone (o : Obj) (A : Arrays) (bcs : List (Cond ℝ)) : Option SoilResult :=
  solveSoilOn o.ty o.pile o.coords o.switches A bcs 100

theorem solve_run {w : World k} (hw : Separate w) (h : List (Op k)) (m : Fin k) :
    Session.solve (Session.run w h) m = solveAlone (w.objs m)
      (after (w.objs m).coords (lateralLooks m h) (axialLooks m h) (w.objs m).arrays)
      (BC.run (view w m) (ownCalls m h)) := by
  obtain ⟨a1, a2, a3, a4, a5, a6⟩ := run_alone hw h m
  unfold Session.solve solveAlone
  rw [a1, a2, a3, a4, a5, a6]

theorem mem_results {w : World k} {h : List (Op k)} {m : Fin k} {res : Option SoilResult}
    (hres : (m, res) ∈ Session.results w h) :
    ∃ h₁ h₂, h = h₁ ++ .solve m :: h₂ ∧ res = Session.solve (Session.run w h₁) m := by
  induction h generalizing w with
  | nil => simp [Session.results] at hres
  | cons op h ih =>
    cases op with
    | solve m' =>
      simp only [Session.results, List.mem_cons, Prod.mk.injEq] at hres
      rcases hres with ⟨rfl, rfl⟩ | hres
      · exact ⟨[], h, rfl, rfl⟩
      · obtain ⟨h₁, h₂, rfl, e⟩ := ih hres
        exact ⟨.solve m' :: h₁, h₂, rfl, e⟩
    | set m' c =>
      obtain ⟨h₁, h₂, rfl, e⟩ := ih hres
      exact ⟨.set m' c :: h₁, h₂, rfl, e⟩
    | get m' q =>
      obtain ⟨h₁, h₂, rfl, e⟩ := ih hres
      exact ⟨.get m' q :: h₁, h₂, rfl, e⟩

/-- **C75.** If no boundary condition object is shared, every `solve` of a session returns what a Model of its own
would return on which only the boundary conditions set so far were set, as long as no lateral or axial spring table of
this Model has been looked up.  Earlier analyses, other tables and everything done with other Models do not matter. -/
theorem C75_solve_partial {w : World k} (hw : Separate w) {h : List (Op k)} {m : Fin k} {res : Option SoilResult}
    (hres : (m, res) ∈ Session.results w h) :
    ∃ h₁ h₂, h = h₁ ++ .solve m :: h₂ ∧
      (lateralLooks m h₁ = 0 → axialLooks m h₁ = 0 →
        res = solveAlone (w.objs m) (w.objs m).arrays (BC.run (view w m) (ownCalls m h₁))) := by
  obtain ⟨h₁, h₂, rfl, rfl⟩ := mem_results hres
  refine ⟨h₁, h₂, rfl, fun hl ha => ?_⟩
  rw [solve_run hw, hl, ha, after_zero]

/-- **C75, with looks.** In general the springs of the Model have been multiplied by the influence lengths once for every
table of their kind. -/
theorem C75_history_partial {w : World k} (hw : Separate w) (h : List (Op k)) (m : Fin k) :
    Session.solve (Session.run w h) m = solveAlone (w.objs m)
      { (w.objs m).arrays with
        py := weighed (w.objs m).coords (lateralLooks m h) (w.objs m).arrays.py
        tz := weighed (w.objs m).coords (axialLooks m h) (w.objs m).arrays.tz }
      (BC.run (view w m) (ownCalls m h)) :=
  solve_run hw h m

/-- **C75 for a Model as it is created.** If `m` was created without boundary conditions, the result is that of
`solveSoil`. -/
theorem C75_created_partial {w : World k} (hw : Separate w) {h : List (Op k)} {m : Fin k} {sp : SoilProfile}
    {x2mesh : List ℝ} {c : ℝ} {table : List (ℝ × Pile.Section ℝ)} {env : Draws}
    (hC : getCoordinates (w.objs m).pile (some sp.geometry) x2mesh c = some (w.objs m).coords)
    (hA : modelSprings (w.objs m).pile sp x2mesh c (w.objs m).switches table env = some (w.objs m).arrays)
    (hr : (w.objs m).refs = []) (hl : lateralLooks m h = 0) (ha : axialLooks m h = 0) :
    Session.solve (Session.run w h) m = solveSoil (w.objs m).ty (w.objs m).pile sp x2mesh c (w.objs m).switches table
      env (BC.run [] (ownCalls m h)) := by
  rw [solve_run hw, hl, ha, after_zero]
  have hv : view w m = [] := by simp [view, hr]
  unfold solveSoil solveAlone
  rw [hC, hA, hv]
  rfl

/-- **C75 is violated by shared objects.** If two Models were created with the same boundary condition object and it is
the only one of its kind and elevation in the first Model, then setting a lateral load (or another load at this
elevation) on the first Model sets it on the second. -/
theorem C75_violated_shared (w : World k) (m m' : Fin k) (hm : m ≠ m') (r : ℕ) (c : Cond ℝ)
    (h' : r ∈ (w.objs m').refs) (hc : w.heap[r]? = some c) (hf : c.cls = .force)
    (hone : existing w m c.elevation .force = [r]) (P : ℝ) :
    ∃ c' ∈ view (Session.run w [.set m (.pointload c.elevation (some P) none none)]) m',
      c'.cls = .force ∧ c'.elevation = c.elevation ∧ c'.y = some (.num P) := by
  have e : Session.run w [.set m (.pointload c.elevation (some P) none none)]
      = { w with heap := w.heap.set r (c.overwrite none (some (.num P)) none) } := by
    simp only [Session.run, List.foldl, Session.step, call, Option.map_some, Option.map_none]
    exact update_one hone hc _ _ _
  rw [e]
  refine ⟨c.overwrite none (some (.num P)) none, ?_, hf, rfl, rfl⟩
  unfold view
  rw [List.mem_filterMap]
  refine ⟨r, h', ?_⟩
  have hlt : r < w.heap.length := by
    by_contra hn
    rw [List.getElem?_eq_none (by omega)] at hc
    cases hc
  simp [hlt]

/-! ### examples -/

/-- Two Models, each created with a boundary condition object of its own. -/
example (o : Obj) : Separate (k := 2)
    ⟨[⟨.force, 0, none, some (.num 100), none⟩, ⟨.force, 0, none, some (.num 200), none⟩],
      fun m => { o with refs := [m.1] }⟩ := by
  constructor
  · intro m r hr
    simp only [List.mem_singleton] at hr
    simp only [List.length_cons, List.length_nil]
    omega
  · intro m m' hne r h h'
    simp only [List.mem_singleton] at h h'
    exact hne (Fin.ext (h.symm.trans h'))

/-- Two Models created with the same object: a load of 500 set on the first acts on the second. -/
example (o : Obj) : ∃ c' ∈ view (Session.run (k := 2) ⟨[⟨.force, 0, none, some (.num 100), none⟩],
      fun _ => { o with refs := [0] }⟩ [.set 0 (.pointload 0 (some 500) none none)]) 1, c'.y = some (.num 500) := by
  obtain ⟨c', h, -, -, hy⟩ := C75_violated_shared (k := 2) ⟨[⟨.force, 0, none, some (.num 100), none⟩],
    fun _ => { o with refs := [0] }⟩ 0 1 (by decide) 0 ⟨.force, 0, none, some (.num 100), none⟩ (by simp) rfl rfl
    (by simp [existing, Cond.isAt]) 500
  exact ⟨c', h, hy⟩

end OpenPile.Props.Session

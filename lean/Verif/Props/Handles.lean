/-
Property C108: editing a table that a Model or a result handed out.
-/
import Verif.Model.Handles
import Verif.Props.Beam
import Verif.Props.Reported
import Verif.Props.Creation

namespace OpenPile.Props.Handles
open OpenPile.BC OpenPile.Mesh OpenPile.Assign OpenPile.Analysis OpenPile.Handles OpenPile.Kernel OpenPile.Winkler OpenPile.Spec.Kernel
open OpenPile.Props.Analysis (left)

/-! ### specification -/

/-- The tables a user asks for during a session, in order. -/
def asked (ops : List Op) : List What := ops.filterMap (fun | .get w => some w | _ => none)

/-- The boundary conditions a user sets during a session, in order. -/
def calls (ops : List Op) : List (Call ℝ) := ops.filterMap (fun | .call c => some c | _ => none)

/-- Only tables from `get_structural_properties`, `get_soil_properties`, `global_forces` etc. are edited. -/
def Careful (ops : List Op) : Prop :=
  ∀ k f, .edit k f ∈ ops → ∀ w, (asked ops)[k]? = some w → w ≠ What.nodes ∧ w ≠ What.elements

/-! ### tables that are copies -/

/-- The caches hold what was computed, and no copy shares an address with them. -/
structure Kept (i : Inst) (w : List What) (s : State) : Prop where
  attrs : s.attrs = i.attrs
  arrays : s.arrays = i.arrays
  nodes : ∀ a, s.nodesAt = some a → ∃ C, i.attrs.coordinates = some C ∧ s.heap[a]? = some (.nodes C.nodes)
  elements : ∀ a, s.elementsAt = some a → ∃ C, i.attrs.coordinates = some C ∧ s.heap[a]? = some (.elements C.elements)
  length : s.handles.length = w.length
  apart : ∀ (k a : ℕ), s.handles[k]? = some (some a) → ∀ x : What, w[k]? = some x → x ≠ What.nodes ∧ x ≠ What.elements →
    s.nodesAt ≠ some a ∧ s.elementsAt ≠ some a ∧ a < s.heap.length

theorem get?_append_old {α : Type} {l : List α} {a : ℕ} {o : α} (h : l[a]? = some o) (x : α) : (l ++ [x])[a]? = some o := by
  rw [List.getElem?_append_left]
  · exact h
  · rw [List.getElem?_eq_some_iff] at h
    exact h.1

theorem alloc_inv {i : Inst} {w : List What} {s : State} (h : Kept i w s) (o : Obj) : Kept i w (s.alloc o).2 where
  attrs := h.attrs
  arrays := h.arrays
  nodes a ha := by
    obtain ⟨C, h1, h2⟩ := h.nodes a ha
    exact ⟨C, h1, get?_append_old h2 _⟩
  elements a ha := by
    obtain ⟨C, h1, h2⟩ := h.elements a ha
    exact ⟨C, h1, get?_append_old h2 _⟩
  length := h.length
  apart k a hk x hx hne := by
    obtain ⟨h1, h2, h3⟩ := h.apart k a hk x hx hne
    refine ⟨h1, h2, ?_⟩
    simp only [State.alloc, List.length_append, List.length_singleton]
    omega

theorem nodes_inv {i : Inst} {w : List What} {s s' : State} {a : ℕ} (h : Kept i w s) (hs : s.cachedNodes = some (a, s')) :
    Kept i w s' ∧ s'.handles = s.handles ∧ s'.bcs = s.bcs ∧ s'.nodesAt = some a := by
  unfold State.cachedNodes at hs
  cases hn : s.nodesAt with
  | some b =>
    rw [hn] at hs
    simp only [Option.some.injEq, Prod.mk.injEq] at hs
    obtain ⟨rfl, rfl⟩ := hs
    exact ⟨h, rfl, rfl, hn⟩
  | none =>
    rw [hn] at hs
    simp only [Option.bind_eq_bind, Option.pure_def, Option.bind_eq_some_iff, Option.some.injEq, Prod.mk.injEq] at hs
    obtain ⟨C, hC, rfl, rfl⟩ := hs
    have h' := alloc_inv h (.nodes C.nodes)
    refine ⟨⟨h'.attrs, h'.arrays, ?_, h'.elements, h'.length, ?_⟩, rfl, rfl, rfl⟩
    · intro a ha
      simp only [State.alloc, Option.some.injEq] at ha
      subst ha
      exact ⟨C, h.attrs ▸ hC, by simp [State.alloc]⟩
    · intro k a hk x hx hne
      obtain ⟨-, h2, h3⟩ := h.apart k a hk x hx hne
      refine ⟨?_, h2, ?_⟩
      · simp only [State.alloc, ne_eq, Option.some.injEq]
        omega
      · simp only [State.alloc, List.length_append, List.length_singleton]
        omega

theorem elements_inv {i : Inst} {w : List What} {s s' : State} {a : ℕ} (h : Kept i w s) (hs : s.cachedElements = some (a, s')) :
    Kept i w s' ∧ s'.handles = s.handles ∧ s'.bcs = s.bcs ∧ s'.elementsAt = some a := by
  unfold State.cachedElements at hs
  cases hn : s.elementsAt with
  | some b =>
    rw [hn] at hs
    simp only [Option.some.injEq, Prod.mk.injEq] at hs
    obtain ⟨rfl, rfl⟩ := hs
    exact ⟨h, rfl, rfl, hn⟩
  | none =>
    rw [hn] at hs
    simp only [Option.bind_eq_bind, Option.pure_def, Option.bind_eq_some_iff, Option.some.injEq, Prod.mk.injEq] at hs
    obtain ⟨C, hC, rfl, rfl⟩ := hs
    have h' := alloc_inv h (.elements C.elements)
    refine ⟨⟨h'.attrs, h'.arrays, h'.nodes, ?_, h'.length, ?_⟩, rfl, rfl, rfl⟩
    · intro a ha
      simp only [State.alloc, Option.some.injEq] at ha
      subst ha
      exact ⟨C, h.attrs ▸ hC, by simp [State.alloc]⟩
    · intro k a hk x hx hne
      obtain ⟨h2, -, h3⟩ := h.apart k a hk x hx hne
      refine ⟨h2, ?_, ?_⟩
      · simp only [State.alloc, ne_eq, Option.some.injEq]
        omega
      · simp only [State.alloc, List.length_append, List.length_singleton]
        omega

/-- A cached table lies within the heap. -/
theorem Kept.bound {i : Inst} {w : List What} {s : State} (h : Kept i w s) :
    (∀ a, s.nodesAt = some a → a < s.heap.length) ∧ ∀ a, s.elementsAt = some a → a < s.heap.length := by
  constructor
  · intro a ha
    obtain ⟨C, -, h2⟩ := h.nodes a ha
    exact (List.getElem?_eq_some_iff.1 h2).1
  · intro a ha
    obtain ⟨C, -, h2⟩ := h.elements a ha
    exact (List.getElem?_eq_some_iff.1 h2).1

/-- What the user gets is a copy, or asked for by the name of a cached table. -/
theorem get_inv {i : Inst} {w : List What} {s s' : State} {a : ℕ} (h : Kept i w s) (x : What) (hs : s.get x = some (a, s')) :
    Kept i w s' ∧ s'.handles = s.handles ∧ s'.bcs = s.bcs ∧
      (x ≠ What.nodes ∧ x ≠ What.elements → s'.nodesAt ≠ some a ∧ s'.elementsAt ≠ some a ∧ a < s'.heap.length) := by
  have fresh : ∀ (t : State) (o : Obj), Kept i w t → (t.alloc o).2.nodesAt ≠ some (t.alloc o).1 ∧
      (t.alloc o).2.elementsAt ≠ some (t.alloc o).1 ∧ (t.alloc o).1 < (t.alloc o).2.heap.length := by
    intro t o ht
    refine ⟨fun hc => ?_, fun hc => ?_, by simp [State.alloc]⟩
    · have := ht.bound.1 _ hc
      simp [State.alloc] at this
    · have := ht.bound.2 _ hc
      simp [State.alloc] at this
  cases x with
  | nodes =>
    obtain ⟨h1, h2, h3, -⟩ := nodes_inv h hs
    exact ⟨h1, h2, h3, fun hx => absurd rfl hx.1⟩
  | elements =>
    obtain ⟨h1, h2, h3, -⟩ := elements_inv h hs
    exact ⟨h1, h2, h3, fun hx => absurd rfl hx.2⟩
  | structural =>
    simp only [State.get, Option.bind_eq_bind, Option.pure_def, Option.bind_eq_some_iff, Option.some.injEq, Prod.exists] at hs
    obtain ⟨b, t, ht, o, -, l, -, he⟩ := hs
    obtain ⟨h1, h2, h3, -⟩ := elements_inv h ht
    have e1 : a = (t.alloc (.elements l)).1 := by rw [he]
    have e2 : s' = (t.alloc (.elements l)).2 := by rw [he]
    subst e1 e2
    exact ⟨alloc_inv h1 _, h2, h3, fun _ => fresh t _ h1⟩
  | soilTable =>
    simp only [State.get, Option.bind_eq_bind, Option.pure_def, Option.bind_eq_some_iff, Option.some.injEq] at hs
    obtain ⟨-, -, C, -, he⟩ := hs
    have e1 : a = (s.alloc (.elements C.elements)).1 := by rw [he]
    have e2 : s' = (s.alloc (.elements C.elements)).2 := by rw [he]
    subst e1 e2
    exact ⟨alloc_inv h _, rfl, rfl, fun _ => fresh s _ h⟩
  | loads =>
    simp only [State.get, Option.bind_eq_bind, Option.pure_def, Option.bind_eq_some_iff, Option.some.injEq, Prod.exists] at hs
    obtain ⟨b, t, ht, o, -, l, -, he⟩ := hs
    obtain ⟨h1, h2, h3, -⟩ := nodes_inv h ht
    have e1 : a = (t.alloc (.nodes l)).1 := by rw [he]
    have e2 : s' = (t.alloc (.nodes l)).2 := by rw [he]
    subst e1 e2
    exact ⟨alloc_inv h1 _, h2, h3, fun _ => fresh t _ h1⟩

theorem run_inv {i : Inst} (all : List What) (ops : List Op) : ∀ (w : List What) (s : State), Kept i w s →
    all = w ++ asked ops →
    (∀ k f, .edit k f ∈ ops → ∀ x, all[k]? = some x → x ≠ What.nodes ∧ x ≠ What.elements) →
    Kept i (w ++ asked ops) (Handles.run s ops) ∧ (Handles.run s ops).bcs = BC.run s.bcs (calls ops) := by
  induction ops with
  | nil =>
    intro w s h _ _
    exact ⟨by simpa [asked, Handles.run] using h, rfl⟩
  | cons op ops ih =>
    intro w s h hall hc
    have hc' : ∀ k f, .edit k f ∈ ops → ∀ x, all[k]? = some x → x ≠ What.nodes ∧ x ≠ What.elements :=
      fun k f hk => hc k f (List.mem_cons_of_mem _ hk)
    have hr : Handles.run s (op :: ops) = Handles.run (Handles.step s op) ops := rfl
    rw [hr]
    cases op with
    | get x =>
      have ha : asked (.get x :: ops) = x :: asked ops := rfl
      have hk : calls (.get x :: ops) = calls ops := rfl
      rw [ha] at hall ⊢
      rw [hk]
      rw [List.append_cons] at hall ⊢
      have key : Kept i (w ++ [x]) (Handles.step s (.get x)) ∧ (Handles.step s (.get x)).bcs = s.bcs := by
        simp only [Handles.step]
        cases hg : s.get x with
        | none =>
          refine ⟨⟨h.attrs, h.arrays, h.nodes, h.elements, by simp [h.length], ?_⟩, rfl⟩
          intro k a hk y hy hne
          simp only at hk ⊢
          rcases Nat.lt_trichotomy k s.handles.length with hlt | heq | hgt
          · rw [List.getElem?_append_left hlt] at hk
            rw [List.getElem?_append_left (by rw [← h.length]; exact hlt)] at hy
            exact h.apart k a hk y hy hne
          · subst heq
            simp at hk
          · rw [List.getElem?_eq_none (by simp; omega)] at hk
            cases hk
        | some r =>
          obtain ⟨a, s'⟩ := r
          obtain ⟨h1, h2, h3, h4⟩ := get_inv h x hg
          simp only
          refine ⟨⟨h1.attrs, h1.arrays, h1.nodes, h1.elements, by simp [h1.length], ?_⟩, h3⟩
          intro k b hk y hy hne
          simp only at hk ⊢
          have hlen := h1.length
          rcases Nat.lt_trichotomy k s'.handles.length with hlt | heq | hgt
          · rw [List.getElem?_append_left hlt] at hk
            rw [List.getElem?_append_left (by omega)] at hy
            exact h1.apart k b hk y hy hne
          · subst heq
            simp only [List.getElem?_concat_length, Option.some.injEq] at hk
            subst hk
            rw [hlen, List.getElem?_concat_length, Option.some.injEq] at hy
            subst hy
            exact h4 hne
          · rw [List.getElem?_eq_none (by simp; omega)] at hk
            cases hk
      obtain ⟨h1, h2⟩ := ih (w ++ [x]) _ key.1 hall hc'
      exact ⟨h1, by rw [h2, key.2]⟩
    | edit k f =>
      have ha : asked (.edit k f :: ops) = asked ops := rfl
      have hk : calls (.edit k f :: ops) = calls ops := rfl
      rw [ha] at hall ⊢
      rw [hk]
      have key : Kept i w (Handles.step s (.edit k f)) ∧ (Handles.step s (.edit k f)).bcs = s.bcs := by
        simp only [Handles.step]
        cases hh : s.handles[k]? with
        | none => exact ⟨h, rfl⟩
        | some o =>
          cases o with
          | none => exact ⟨h, rfl⟩
          | some a =>
            have hlt : k < w.length := by
              rw [← h.length]
              exact (List.getElem?_eq_some_iff.1 hh).1
            obtain ⟨x, hx⟩ : ∃ x, w[k]? = some x := ⟨_, List.getElem?_eq_getElem hlt⟩
            have hcopy := hc k f (by simp) x (by rw [hall, List.getElem?_append_left hlt]; exact hx)
            obtain ⟨hn, he, -⟩ := h.apart k a hh x hx hcopy
            refine ⟨⟨h.attrs, h.arrays, ?_, ?_, h.length, ?_⟩, rfl⟩
            · intro b hb
              obtain ⟨C, h1, h2⟩ := h.nodes b hb
              refine ⟨C, h1, ?_⟩
              have hab : a ≠ b := by
                rintro rfl
                exact hn hb
              simp only [List.getElem?_modify, hab, if_false]
              simpa using h2
            · intro b hb
              obtain ⟨C, h1, h2⟩ := h.elements b hb
              refine ⟨C, h1, ?_⟩
              have hab : a ≠ b := by
                rintro rfl
                exact he hb
              simp only [List.getElem?_modify, hab, if_false]
              simpa using h2
            · intro k' b hk' y hy hne
              simp only [List.length_modify]
              exact h.apart k' b hk' y hy hne
      obtain ⟨h1, h2⟩ := ih w _ key.1 hall hc'
      exact ⟨h1, by rw [h2, key.2]⟩
    | call c =>
      have ha : asked (.call c :: ops) = asked ops := rfl
      have hk : calls (.call c :: ops) = c :: calls ops := rfl
      rw [ha] at hall ⊢
      rw [hk]
      have key : Kept i w (Handles.step s (.call c)) := ⟨h.attrs, h.arrays, h.nodes, h.elements, h.length, h.apart⟩
      obtain ⟨h1, h2⟩ := ih w _ key hall hc'
      exact ⟨h1, h2⟩
    | solve =>
      have ha : asked (.solve :: ops) = asked ops := rfl
      have hk : calls (.solve :: ops) = calls ops := rfl
      rw [ha] at hall ⊢
      rw [hk]
      have key : Kept i w (Handles.step s .solve) ∧ (Handles.step s .solve).bcs = s.bcs := by
        simp only [Handles.step]
        cases hg : s.cachedNodes with
        | none => exact ⟨h, rfl⟩
        | some r =>
          obtain ⟨a, s'⟩ := r
          obtain ⟨h1, -, h3, -⟩ := nodes_inv h hg
          simp only
          cases hg' : s'.cachedElements with
          | none => exact ⟨h1, h3⟩
          | some r =>
            obtain ⟨b, s''⟩ := r
            obtain ⟨h4, -, h6, -⟩ := elements_inv h1 hg'
            exact ⟨h4, h6.trans h3⟩
      obtain ⟨h1, h2⟩ := ih w _ key.1 hall hc'
      exact ⟨h1, by rw [h2, key.2]⟩

/-- A created Model has cached at most its elements. -/
theorem create_cache {a : Attrs} {table : List (ℝ × Pile.Section ℝ)} {env : Assemble.Draws} {i : Inst}
    (h : create a table env = some i) : i.attrs = a ∧ i.nodes = none ∧
      ∀ e, i.elements = some e → ∃ C, a.coordinates = some C ∧ e = C.elements := by
  unfold create at h
  cases hs : a.soil with
  | none =>
    rw [hs] at h
    simp only [Option.some.injEq] at h
    subst h
    exact ⟨rfl, rfl, by simp⟩
  | some sp =>
    rw [hs] at h
    simp only [Option.bind_eq_bind, Option.pure_def, Option.bind_eq_some_iff, Option.some.injEq] at h
    obtain ⟨C, hC, A, -, rfl⟩ := h
    refine ⟨rfl, rfl, fun e he => ⟨C, hC, ?_⟩⟩
    simpa using he.symm

theorem start_inv {a : Attrs} {table : List (ℝ × Pile.Section ℝ)} {env : Assemble.Draws} {i : Inst}
    (h : create a table env = some i) : Kept i [] (start i) ∧ (start i).bcs = [] := by
  obtain ⟨h1, h2, h3⟩ := create_cache h
  unfold start
  cases he : i.elements with
  | none =>
    exact ⟨⟨rfl, rfl, by simp, by simp, rfl, by simp⟩, rfl⟩
  | some e =>
    obtain ⟨C, hC, rfl⟩ := h3 e he
    refine ⟨⟨rfl, rfl, by simp, ?_, rfl, by simp⟩, rfl⟩
    intro a ha
    simp only [Option.some.injEq] at ha
    subst ha
    exact ⟨C, h1 ▸ hC, rfl⟩

theorem answer_of_inv {i : Inst} {w : List What} {s : State} (h : Kept i w s) (hn : i.nodes = none)
    (he : ∀ e, i.elements = some e → ∃ C, i.attrs.coordinates = some C ∧ e = C.elements) : s.answer = i.solve s.bcs := by
  have e1 : s.nodes = i.attrs.coordinates.map (·.nodes) := by
    unfold State.nodes
    cases hs : s.nodesAt with
    | none => simp only [h.attrs]
    | some a =>
      obtain ⟨C, h1, h2⟩ := h.nodes a hs
      simp only [h1, h2, Option.map_some]
      rfl
  have e2 : s.elements = i.attrs.coordinates.map (·.elements) := by
    unfold State.elements
    cases hs : s.elementsAt with
    | none => simp only [h.attrs]
    | some a =>
      obtain ⟨C, h1, h2⟩ := h.elements a hs
      simp only [h1, h2, Option.map_some]
      rfl
  have e3 : i.elements.or (i.attrs.coordinates.map (·.elements)) = i.attrs.coordinates.map (·.elements) := by
    cases hi : i.elements with
    | none => rfl
    | some e =>
      obtain ⟨C, h1, h2⟩ := he e hi
      rw [h1, h2]
      rfl
  unfold State.answer Inst.solve Inst.read
  rw [e1, e2, hn, e3, h.attrs, h.arrays]
  cases i.attrs.coordinates with
  | none => rfl
  | some C => rfl

/-- **C108 (partial).** Whatever is done to tables from `get_structural_properties`, `get_soil_properties` and
`global_forces`, `global_disp`, `global_restrained`, and whatever is read, set and solved in between: `solve` returns what a
new Model with the same boundary conditions returns.
Missing: the tables of nodes and elements themselves (`C108_violated_nodes`). -/
theorem C108_copies_partial {a : Attrs} {table : List (ℝ × Pile.Section ℝ)} {env : Assemble.Draws} {i : Inst}
    (h : create a table env = some i) (ops : List Op) (hc : Careful ops) :
    (Handles.run (start i) ops).answer = i.solve (BC.run [] (calls ops)) := by
  obtain ⟨h0, hb⟩ := start_inv h
  obtain ⟨h1, h2, h3⟩ := create_cache h
  obtain ⟨h4, h5⟩ := run_inv (asked ops) ops [] _ h0 rfl hc
  rw [answer_of_inv h4 h2 (by rw [h1]; exact h3), h5, hb]

/-! ### tables that are not -/

section beam
variable {K : Type} [Field K] [LinearOrder K] [IsStrictOrderedRing K] [FloorRing K]

omit [LinearOrder K] [IsStrictOrderedRing K] [FloorRing K] in
/-- Moving the whole pile along its axis stresses no element, whatever its data. -/
theorem mech_axial (ty : ElementType) (e : Elem K) (t : Fin 6 → K) (ht : t = ![1, 0, 0, 1, 0, 0]) : Matrix.mulVec (mechMatrix ty e) t = 0 := by
  subst ht
  funext a
  fin_cases a <;> simp [mechMatrix, beamMatrix, Matrix.mulVec, dotProduct, Fin.sum_univ_six]

omit [LinearOrder K] [IsStrictOrderedRing K] [FloorRing K] in
/-- Without any support the equations of a beam have no solution. -/
theorem unsupported (ty : ElementType) {n : ℕ} (el : Fin n → Elem K) (F U : Fin (3 * n + 3) → K) (sup : Fin (3 * n + 3) → Bool)
    (hs : ∀ r, sup r = false) : solveEquations (beamStiffness ty n el) F U sup = none := by
  rw [OpenPile.Props.Solve.C15_fails_iff]
  refine ⟨fun r => if r.1 % 3 = 0 then 1 else 0, ?_, ?_, ?_⟩
  · intro h
    have := congrFun h ⟨0, by omega⟩
    simp at this
  · intro r hr
    rw [hs r] at hr
    cases hr
  · intro r _
    have h := assemble_work (fun i => mechMatrix ty (el i)) (Pi.single r 1)
      (fun r : Fin (3 * n + 3) => if r.1 % 3 = 0 then (1 : K) else 0)
    have hz : ∀ i : Fin n, work (mechMatrix ty (el i)) (stacked (Pi.single r 1) i)
        (stacked (fun r : Fin (3 * n + 3) => if r.1 % 3 = 0 then (1 : K) else 0) i) = 0 := by
      intro i
      unfold work
      rw [mech_axial ty (el i) _ (by
        funext a
        unfold stacked
        simp only [Nat.mul_add_mod]
        fin_cases a <;> simp), dotProduct_zero]
    rw [Finset.sum_eq_zero (fun i _ => hz i)] at h
    unfold work at h
    rw [single_dotProduct, one_mul] at h
    exact h

omit [IsStrictOrderedRing K] [FloorRing K] in
theorem apply_far {β : Type} (store : Val K → β) (nodes : List K) (cls : Cls) (bcs : List (Cond K))
    (h : ∀ c ∈ bcs, ∀ n ∈ nodes, isClose n c.elevation = false) (g : Nodal β) : applyBc store nodes g bcs cls = g := by
  unfold applyBc
  induction bcs generalizing g with
  | nil => rfl
  | cons c bcs ih =>
    have hi : nodeIdx nodes c.elevation = none := by
      unfold nodeIdx
      rw [List.findIdx?_eq_none_iff]
      exact fun n hn => h c (List.mem_cons_self ..) n hn
    rw [List.foldl_cons]
    have : applyOne store nodes cls g c = g := by
      unfold applyOne
      rw [hi]
      split <;> rfl
    rw [this]
    exact ih (fun c hc => h c (List.mem_cons_of_mem _ hc)) g

theorem asVec_all {β : Type} {n : ℕ} {l : List β} {v : Fin (3 * n + 3) → β} (h : asVec n l = some v) (x : β) (hx : ∀ y ∈ l, y = x) (r) :
    v r = x := by
  unfold asVec at h
  split at h
  · simp only [Option.some.injEq] at h
    subst h
    exact hx _ (List.getElem_mem ..)
  · cases h

omit [Field K] [LinearOrder K] [IsStrictOrderedRing K] [FloorRing K] in
theorem dofList_const {β : Type} (l : List K) (x : β) :
    ∀ y ∈ dofList (⟨l.map (fun _ => x), l.map (fun _ => x), l.map (fun _ => x)⟩ : Nodal β), y = x := by
  intro y hy
  unfold dofList at hy
  obtain ⟨r, hr, hy⟩ := List.mem_flatMap.1 hy
  have h1 := List.of_mem_zip hr
  have h2 := List.of_mem_zip h1.2
  have hm : ∀ z ∈ l.map (fun _ => x), z = x := by
    intro z hz
    obtain ⟨_, -, rfl⟩ := List.mem_map.1 hz
    rfl
  simp only [List.mem_cons, List.not_mem_nil, or_false] at hy
  rcases hy with rfl | rfl | rfl
  · exact hm _ h1.1
  · exact hm _ h2.1
  · exact hm _ h2.2

omit [IsStrictOrderedRing K] in
/-- No node is near a support: the analysis raises. -/
theorem solveOn_far (pi : K) (ty : ElementType) (p : Pile.Pile K) (C : Coordinates K) (bcs : List (Cond K))
    (h : ∀ c ∈ bcs, ∀ n ∈ C.nodes, isClose n c.elevation = false) : solveOn pi ty p C bcs = none := by
  by_contra hne
  obtain ⟨T, hT⟩ := Option.ne_none_iff_exists'.1 hne
  unfold solveOn at hT
  simp only [Option.bind_eq_bind, Option.bind_eq_some_iff] at hT
  obtain ⟨F, -, U, hU, R, hR, F', -, U', hU', R', hR', el, -, r, hr, -⟩ := hT
  have e1 : U = ⟨C.nodes.map (fun _ => 0), C.nodes.map (fun _ => 0), C.nodes.map (fun _ => 0)⟩ := by
    unfold globalDisp at hU
    cases hv : validateBc bcs .displacement with
    | error e => rw [hv] at hU; cases hU
    | ok u =>
      rw [hv] at hU
      have : applyBc storeFloat C.nodes ⟨C.nodes.map (fun _ => (0 : K)), C.nodes.map (fun _ => 0), C.nodes.map (fun _ => 0)⟩ bcs .displacement = U :=
        Option.some.inj hU
      rw [← this, apply_far _ _ _ _ h]
  have e2 : R = ⟨C.nodes.map (fun _ => false), C.nodes.map (fun _ => false), C.nodes.map (fun _ => false)⟩ := by
    unfold globalRestrained at hR
    cases hv : validateBc bcs .fixation with
    | error e => rw [hv] at hR; cases hR
    | ok u =>
      rw [hv] at hR
      have : applyBc storeBool C.nodes ⟨C.nodes.map (fun _ => false), C.nodes.map (fun _ => false), C.nodes.map (fun _ => false)⟩ bcs .fixation = R :=
        Option.some.inj hR
      rw [← this, apply_far _ _ _ _ h]
  subst e1 e2
  unfold beam at hr
  rw [unsupported ty el F' U' _ (by
    intro i
    rw [asVec_all hR' false (dofList_const _ _) i, asVec_all hU' 0 (dofList_const _ _) i]
    simp)] at hr
  cases hr

end beam

/-- Some elevation is far from all conditions. -/
theorem exists_far (bcs : List (Cond ℝ)) : ∃ z : ℝ, ∀ c ∈ bcs, isClose z c.elevation = false := by
  induction bcs with
  | nil => exact ⟨0, by simp⟩
  | cons c bcs ih =>
    have : ∃ M : ℝ, ∀ d ∈ c :: bcs, |d.elevation| ≤ M := by
      clear ih
      induction (c :: bcs) with
      | nil => exact ⟨0, by simp⟩
      | cons d l ih =>
        obtain ⟨M, hM⟩ := ih
        refine ⟨max |d.elevation| M, fun x hx => ?_⟩
        rcases List.mem_cons.1 hx with rfl | hx
        · exact le_max_left ..
        · exact (hM x hx).trans (le_max_right ..)
    obtain ⟨M, hM⟩ := this
    refine ⟨3 * M + 1, fun d hd => ?_⟩
    have h1 := hM d hd
    have h0 := abs_nonneg d.elevation
    unfold isClose
    rw [decide_eq_false_iff_not, not_le]
    have h2 : 3 * M + 1 - d.elevation ≤ |3 * M + 1 - d.elevation| := le_abs_self _
    have h3 := le_abs_self d.elevation
    linarith

/-- Writing one number into the column "z [m]". -/
def overwrite (z : ℝ) : Obj → Obj
  | .nodes l => .nodes (l.map (fun _ => z))
  | .elements l => .elements l

/-- **C108 is violated for `nodes_coordinates`.** For every Model without soil, however it is supported and loaded, there
is a change of the table of nodes after which `solve` raises. -/
theorem C108_violated_nodes (a : Attrs) (hs : a.soil = none) (h : List (Call ℝ)) : ∃ z : ℝ,
    (Handles.run (start ⟨a, none, none, none⟩) (h.map .call ++ [.get .nodes, .edit 0 (overwrite z)])).answer = none := by
  obtain ⟨z, hz⟩ := exists_far (BC.run [] h)
  refine ⟨z, ?_⟩
  have hcalls : ∀ (h : List (Call ℝ)) (s : State), Handles.run s (h.map .call) = { s with bcs := BC.run s.bcs h } := by
    intro h
    induction h with
    | nil => intro s; rfl
    | cons c h ih =>
      intro s
      have : Handles.run s ((c :: h).map .call) = Handles.run (Handles.step s (.call c)) (h.map .call) := rfl
      rw [this, ih]
      rfl
  have hrun : Handles.run (start ⟨a, none, none, none⟩) (h.map .call ++ [.get .nodes, .edit 0 (overwrite z)])
      = Handles.step (Handles.step { (start ⟨a, none, none, none⟩) with bcs := BC.run [] h } (.get .nodes)) (.edit 0 (overwrite z)) := by
    unfold Handles.run
    rw [List.foldl_append]
    have := hcalls h (start ⟨a, none, none, none⟩)
    unfold Handles.run at this
    rw [this]
    rfl
  rw [hrun]
  cases hC : a.coordinates with
  | none =>
    simp [start, Handles.step, State.get, State.cachedNodes, hC, State.answer, State.nodes]
  | some C =>
    have e : (Handles.step (Handles.step { (start ⟨a, none, none, none⟩) with bcs := BC.run [] h } (.get .nodes)) (.edit 0 (overwrite z))).answer
        = (solveOn Real.pi a.ty a.pile ⟨C.nodes.map (fun _ => z), C.elements⟩ (BC.run [] h)).map .beam := by
      simp [start, Handles.step, State.get, State.cachedNodes, hC, State.alloc, State.answer, State.nodes, State.elements, hs,
        List.modify, overwrite, Obj.asNodes]
    rw [e, solveOn_far _ _ _ _ _ (by
      intro c hc n hn
      obtain ⟨_, -, rfl⟩ := List.mem_map.1 hn
      exact hz c hc)]
    rfl

/-! ### results -/

/-- The tables a user asks a result for, in order. -/
def rasked (ops : List ROp) : List Part := ops.filterMap (fun | .get w => some w | _ => none)

/-- Only `settlement`, `deflection` and `rotation` are edited. -/
def RCareful (ops : List ROp) : Prop :=
  ∀ k f, .edit k f ∈ ops → ∀ w, (rasked ops)[k]? = some w → w = .settlement ∨ w = .deflection ∨ w = .rotation

/-- The tables of the result, and the copies behind them. -/
structure RKept (t : Tables ℝ) (w : List Part) (s : RState) : Prop where
  heap : ∃ l, s.heap = [.four t.disp, .four t.forces, .reactions t.reactions] ++ l
  length : s.handles.length = w.length
  apart : ∀ (k a : ℕ), s.handles[k]? = some (some a) → ∀ x : Part, w[k]? = some x →
    x = .settlement ∨ x = .deflection ∨ x = .rotation → 3 ≤ a

theorem rrun_inv {t : Tables ℝ} (all : List Part) (ops : List ROp) : ∀ (w : List Part) (s : RState), RKept t w s →
    all = w ++ rasked ops →
    (∀ k f, .edit k f ∈ ops → ∀ x, all[k]? = some x → x = Part.settlement ∨ x = Part.deflection ∨ x = Part.rotation) →
    RKept t (w ++ rasked ops) (rrun s ops) := by
  induction ops with
  | nil =>
    intro w s h _ _
    simpa [rasked, rrun] using h
  | cons op ops ih =>
    intro w s h hall hc
    have hc' : ∀ k f, .edit k f ∈ ops → ∀ x, all[k]? = some x → x = Part.settlement ∨ x = Part.deflection ∨ x = Part.rotation :=
      fun k f hk => hc k f (List.mem_cons_of_mem _ hk)
    have hr : rrun s (op :: ops) = rrun (rstep s op) ops := rfl
    rw [hr]
    cases op with
    | get x =>
      have ha : rasked (.get x :: ops) = x :: rasked ops := rfl
      rw [ha] at hall ⊢
      rw [List.append_cons] at hall ⊢
      obtain ⟨l, hl⟩ := h.heap
      have hd : s.heap[0]? = some (.four t.disp) := by rw [hl]; rfl
      have hcol : ∀ f, s.columns f = some (s.heap.length, { s with heap := s.heap ++ [.two (t.disp.map (fun r => (r.1, f r)))] }) := by
        intro f
        unfold RState.columns
        rw [hd]
      obtain ⟨a, s', hg, hh, ⟨l', hl'⟩, h3⟩ : ∃ a s', s.get x = some (a, s') ∧ s'.handles = s.handles ∧
          (∃ l, s'.heap = [.four t.disp, .four t.forces, .reactions t.reactions] ++ l) ∧
          (x = Part.settlement ∨ x = Part.deflection ∨ x = Part.rotation → 3 ≤ a) := by
        have hlen : 3 ≤ s.heap.length := by rw [hl]; simp
        have happ : ∀ c, ∃ l, s.heap ++ [c] = [Cell.four t.disp, .four t.forces, .reactions t.reactions] ++ l := by
          intro c
          exact ⟨l ++ [c], by rw [hl, List.append_assoc]⟩
        cases x with
        | displacements => exact ⟨0, s, rfl, rfl, h.heap, by simp⟩
        | forces => exact ⟨1, s, rfl, rfl, h.heap, by simp⟩
        | reactions => exact ⟨2, s, rfl, rfl, h.heap, by simp⟩
        | settlement => exact ⟨_, _, hcol _, rfl, happ _, fun _ => hlen⟩
        | deflection => exact ⟨_, _, hcol _, rfl, happ _, fun _ => hlen⟩
        | rotation => exact ⟨_, _, hcol _, rfl, happ _, fun _ => hlen⟩
      refine ih (w ++ [x]) _ ?_ hall hc'
      simp only [rstep, hg]
      refine ⟨⟨l', hl'⟩, by simp [hh, h.length], ?_⟩
      intro k b hk y hy hne
      simp only [hh] at hk
      have hlen := h.length
      rcases Nat.lt_trichotomy k s.handles.length with hlt | heq | hgt
      · rw [List.getElem?_append_left hlt] at hk
        rw [List.getElem?_append_left (by omega)] at hy
        exact h.apart k b hk y hy hne
      · subst heq
        simp only [List.getElem?_concat_length, Option.some.injEq] at hk
        subst hk
        rw [hlen, List.getElem?_concat_length, Option.some.injEq] at hy
        subst hy
        exact h3 hne
      · rw [List.getElem?_eq_none (by simp; omega)] at hk
        cases hk
    | edit k f =>
      have ha : rasked (.edit k f :: ops) = rasked ops := rfl
      rw [ha] at hall ⊢
      refine ih w _ ?_ hall hc'
      simp only [rstep]
      cases hh : s.handles[k]? with
      | none => exact h
      | some o =>
        cases o with
        | none => exact h
        | some a =>
          have hlt : k < w.length := by
            rw [← h.length]
            exact (List.getElem?_eq_some_iff.1 hh).1
          obtain ⟨x, hx⟩ : ∃ x, w[k]? = some x := ⟨_, List.getElem?_eq_getElem hlt⟩
          have hcopy := hc k f (by simp) x (by rw [hall, List.getElem?_append_left hlt]; exact hx)
          have h3 := h.apart k a hh x hx hcopy
          obtain ⟨l, hl⟩ := h.heap
          refine ⟨⟨l.modify (a - 3) f, ?_⟩, h.length, h.apart⟩
          obtain ⟨b, rfl⟩ : ∃ b, a = b + 3 := ⟨a - 3, by omega⟩
          simp only [hl, List.cons_append, List.nil_append, List.modify_succ_cons, Nat.add_sub_cancel]

/-- **C108, results (partial).** Whatever is done to the tables `settlement`, `deflection` and `rotation`, the result shows
what it showed before.
Missing: `displacements`, `forces`, `reactions` (`C108_violated_result`). -/
theorem C108_result_partial (t : Tables ℝ) (ops : List ROp) (hc : RCareful ops) : (rrun (rstart t) ops).tables = some t := by
  have h0 : RKept t [] (rstart t) := ⟨⟨[], rfl⟩, rfl, by simp [rstart]⟩
  obtain ⟨⟨l, hl⟩, -, -⟩ := rrun_inv (rasked ops) ops [] _ h0 rfl hc
  unfold RState.tables
  rw [hl]
  rfl

/-- **C108 is violated for `displacements`.** Whatever the user writes into it is what the result shows from then on, also
in `deflection` and in the summary. -/
theorem C108_violated_result (t : Tables ℝ) (f : List (ℝ × ℝ × ℝ × ℝ) → List (ℝ × ℝ × ℝ × ℝ)) :
    (rrun (rstart t) [.get .displacements, .edit 0 (fun | .four l => .four (f l) | c => c)]).tables
      = some ⟨f t.disp, t.forces, t.reactions⟩ := rfl

/-! ### cases that meet the hypotheses -/

/-- A tube of 10 m. -/
noncomputable def bare (ty : ElementType) : Attrs :=
  ⟨ty, ⟨[⟨0, -10, 1, 1 / 20⟩], Pile.steel⟩, none, [], 1, ⟨true, true, true, true, true, true⟩⟩

/-- Hung from its head the tube can be solved ... -/
theorem bare_answer (ty : ElementType) :
    (Handles.run (start ⟨bare ty, none, none, none⟩) ([Call.support 0 (some true) (some true) (some true)].map .call)).answer ≠ none := by
  have hg : ∀ r : ℝ, Spec.Mesh.Required (bare ty).pile (-10) none [] r → Spec.Mesh.OnGrid r := by
    intro r hr
    rcases hr with ⟨s, hs, hr⟩ | ⟨sp, h, -⟩ | h
    · simp only [bare, List.mem_singleton] at hs
      subst hs
      rcases hr with rfl | rfl
      · exact ⟨0, by norm_num⟩
      · exact ⟨-100000, by norm_num⟩
    · cases h
    · cases h
  obtain ⟨hst, -, C, hC, hm, -⟩ := Props.Reported.ready Real.pi Real.pi_pos ty 78 210000000 (3 / 10) Pile.steel
    (by unfold Pile.mkMaterial; norm_num [Pile.steel]) (fun _ => by norm_num) [⟨0, -10, 1, 1 / 20⟩]
    (by simp only [Pile.built_iff]; norm_num) (bare ty).pile (by simp [Pile.mkPile, bare, Pile.sortSections, Py.sortedBy, Pile.connected]) 0 (-10) rfl rfl [] 1 (by norm_num) hg (by simp)
  have hC' : (bare ty).coordinates = some C := hC
  have e : (Handles.run (start ⟨bare ty, none, none, none⟩) ([Call.support 0 (some true) (some true) (some true)].map .call)).answer
      = (solveOn Real.pi ty (bare ty).pile C [⟨.fixation, 0, some (.flag true), some (.flag true), some (.flag true)⟩]).map .beam := by
    simp [Handles.run, Handles.step, start, State.answer, State.nodes, State.elements, hC', BC.step, setSupport, updateBc, show (bare ty).soil = none from rfl, show (bare ty).ty = ty from rfl]
  rw [e, Ne, Option.map_eq_none_iff]
  have h0 : ∃ n l, C.nodes = n :: l ∧ n = 0 := by
    have := hm.first
    cases hn : C.nodes with
    | nil => rw [hn] at this; cases this
    | cons n l => rw [hn] at this; exact ⟨n, l, rfl, Option.some.inj this⟩
  obtain ⟨n, l, hn, rfl⟩ := h0
  have hfix : ∀ a, left storeBool false C.nodes [⟨.fixation, 0, some (.flag true), some (.flag true), some (.flag true)⟩] .fixation a 0 = true := by
    intro a
    have h2 : writeTo C.nodes .fixation 0 a
        ⟨.fixation, 0, some (.flag true), some (.flag true), some (.flag true)⟩ = some (.flag true) := by
      rw [Props.BC.writeTo_eq_some]
      refine ⟨rfl, ⟨⟨0, by rw [hn]; rfl, by unfold Spec.BC.Near; norm_num⟩, by omega⟩, by cases a <;> rfl, rfl⟩
    unfold left
    rw [List.map_cons, List.map_nil, h2]
    rfl
  refine (Props.Analysis.C20_tables Real.pi Real.pi_pos ty 78 210000000 (3 / 10) (bare ty).pile ?_ (fun _ => by norm_num) 0 (-10)
      hst ?_ C hm _).2 ⟨?_, ?_, ?_⟩
  · unfold Pile.mkMaterial
    norm_num [bare, Pile.steel]
  · intro s hs
    simp only [bare, List.mem_cons, List.not_mem_nil, or_false] at hs
    subst hs
    rw [Pile.built_iff]
    norm_num
  · intro cls
    cases cls <;> simp [validateBc, axisConflict]
  · exact ⟨0, by rw [hn]; simp, Or.inl (hfix _)⟩
  · exact ⟨0, by rw [hn]; simp, Or.inl (hfix _), Or.inl ⟨0, by rw [hn]; simp, Or.inl (hfix _)⟩⟩

/-- ... until its table of nodes is overwritten. -/
example (ty : ElementType) : ∃ z : ℝ, (Handles.run (start ⟨bare ty, none, none, none⟩)
    ([Call.support 0 (some true) (some true) (some true)].map .call ++ [.get .nodes, .edit 0 (overwrite z)])).answer = none :=
  C108_violated_nodes (bare ty) rfl _

/-- The table of loads may be emptied. -/
example (ty : ElementType) : Careful [.get .nodes, .get .loads, .edit 1 (fun _ => .nodes []), .solve,
      .call (Call.support 0 (some true) (some true) (some true))] ∧
    (Handles.run (start ⟨bare ty, none, none, none⟩) [.get .nodes, .get .loads, .edit 1 (fun _ => .nodes []), .solve,
      .call (Call.support 0 (some true) (some true) (some true))]).answer ≠ none := by
  have hc : Careful [.get .nodes, .get .loads, .edit 1 (fun _ => .nodes []), .solve,
      .call (Call.support 0 (some true) (some true) (some true))] := by
    intro k f hk w hw
    simp only [List.mem_cons, reduceCtorEq, Op.edit.injEq, List.not_mem_nil, or_false, false_or] at hk
    obtain ⟨rfl, -⟩ := hk
    simp only [asked, List.filterMap_cons, List.filterMap_nil, List.getElem?_cons_succ, List.getElem?_cons_zero,
      Option.some.injEq] at hw
    subst hw
    simp
  refine ⟨hc, ?_⟩
  have hcr : create (bare ty) [] Props.Assemble.drawsExample = some ⟨bare ty, none, none, none⟩ := rfl
  rw [C108_copies_partial hcr _ hc]
  have h := bare_answer ty
  rw [C108_copies_partial hcr _ (by intro k f hk; simp at hk)] at h
  exact h

/-- The column of `deflection` may be scaled to millimetres. -/
example (t : Tables ℝ) : (rrun (rstart t) [.get .displacements, .get .deflection,
    .edit 1 (fun | .two l => .two (l.map (fun r => (r.1, 1000 * r.2))) | c => c)]).tables = some t := by
  refine C108_result_partial t _ ?_
  intro k f hk w hw
  simp only [List.mem_cons, reduceCtorEq, ROp.edit.injEq, List.not_mem_nil, or_false, false_or] at hk
  obtain ⟨rfl, -⟩ := hk
  simp only [rasked, List.filterMap_cons, List.filterMap_nil, List.getElem?_cons_succ, List.getElem?_cons_zero,
    Option.some.injEq] at hw
  subst hw
  simp

end OpenPile.Props.Handles

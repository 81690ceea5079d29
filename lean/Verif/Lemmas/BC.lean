/- Helper lemmas for boundary conditions. -/
import Verif.Model.BC
import Verif.Spec.BC
import Mathlib.Tactic.Ring
import Mathlib.Tactic.NormNum

namespace OpenPile.BC
open OpenPile.Spec.BC

variable {K : Type} [Field K] [LinearOrder K] [FloorRing K]

@[simp] theorem isAt_iff (c : Cond K) (cls : Cls) (e : K) :
    c.isAt cls e = true ↔ c.elevation = e ∧ c.cls = cls := by
  simp [Cond.isAt]

@[simp] theorem overwrite_cls (c : Cond K) (x y z : Option (Val K)) : (c.overwrite x y z).cls = c.cls := rfl
@[simp] theorem overwrite_elev (c : Cond K) (x y z : Option (Val K)) :
    (c.overwrite x y z).elevation = c.elevation := rfl

@[simp] theorem overwrite_isAt (c : Cond K) (x y z : Option (Val K)) (cls : Cls) (e : K) :
    (c.overwrite x y z).isAt cls e = c.isAt cls e := rfl

/-- Elements of kind `cls` at elevation `e`. -/
abbrev at' (bcs : List (Cond K)) (cls : Cls) (e : K) : List (Cond K) :=
  bcs.filter (fun c => c.isAt cls e)

theorem at'_map_of_isAt_eq (bcs : List (Cond K)) (f : Cond K → (Cond K)) (cls : Cls) (e : K)
    (hf : ∀ c, (f c).isAt cls e = c.isAt cls e) :
    at' (bcs.map f) cls e = (at' bcs cls e).map f := by
  induction bcs with
  | nil => rfl
  | cons c bcs ih =>
    simp only [at', List.map_cons, List.filter_cons, hf] at *
    split <;> simp [ih]

theorem at'_update_same (bcs : List (Cond K)) (e : K) (x y z : Option (Val K)) (cls : Cls) :
    at' (updateBc bcs e x y z cls) cls e =
      if (at' bcs cls e).length = 1 then (at' bcs cls e).map (fun c => c.overwrite x y z)
      else at' bcs cls e ++ [{ cls := cls, elevation := e, x := x, y := y, z := z }] := by
  unfold updateBc
  split
  · rw [at'_map_of_isAt_eq]
    · apply List.map_congr_left
      intro c hc
      have := (List.mem_filter.1 hc).2
      simp [this]
    · intro c; split <;> simp_all
  · simp [at', List.filter_append, Cond.isAt]

theorem at'_update_other (bcs : List (Cond K)) (e e' : K) (x y z : Option (Val K)) (cls cls' : Cls)
    (h : ¬ (cls = cls' ∧ e = e')) :
    at' (updateBc bcs e x y z cls) cls' e' = at' bcs cls' e' := by
  unfold updateBc
  split
  · rw [at'_map_of_isAt_eq]
    · conv_rhs => rw [← List.map_id (at' bcs cls' e')]
      apply List.map_congr_left
      intro c hc
      have h1 := (List.mem_filter.1 hc).2
      rw [isAt_iff] at h1
      have : ¬ (c.isAt cls e = true) := by
        rw [isAt_iff]
        rintro ⟨h2, h3⟩
        exact h ⟨h3.symm.trans h1.2, h2.symm.trans h1.1⟩
      simp [this]
    · intro c; split <;> simp
  · have h1 : ({ cls := cls, elevation := e, x := x, y := y, z := z } : Cond K).isAt cls' e' = false := by
      rw [← Bool.not_eq_true, isAt_iff]
      rintro ⟨h2, h3⟩
      exact h ⟨h3, h2⟩
    simp [at', List.filter_append, h1]

theorem step_eq (bcs : List (Cond K)) (c : Call K) :
    step bcs c = updateBc bcs (elev c) (arg c .x) (arg c .y) (arg c .z) (kind c) := by
  cases c <;> rfl

theorem overwrite_get (c : Cond K) (k : Call K) (a : Axis) :
    (c.overwrite (arg k .x) (arg k .y) (arg k .z)).get a = lastWrite (c.get a) [arg k a] := by
  cases a
  · cases h : arg k .x <;> simp [Cond.overwrite, Cond.get, lastWrite]
  · cases h : arg k .y <;> simp [Cond.overwrite, Cond.get, lastWrite]
  · cases h : arg k .z <;> simp [Cond.overwrite, Cond.get, lastWrite]

theorem lastWrite_append {α : Type} (init : Option α) (l₁ l₂ : List (Option α)) :
    lastWrite init (l₁ ++ l₂) = lastWrite (lastWrite init l₁) l₂ := by
  induction l₁ generalizing init with
  | nil => rfl
  | cons w ws ih => cases w <;> simp [lastWrite, ih]

theorem about_cons (k : Call K) (h : List (Call K)) (cls : Cls) (e : K) :
    about (k :: h) cls e =
      if kind k = cls ∧ elev k = e then k :: about h cls e else about h cls e := by
  simp [about, List.filter_cons]

theorem about_append (h₁ h₂ : List (Call K)) (cls : Cls) (e : K) :
    about (h₁ ++ h₂) cls e = about h₁ cls e ++ about h₂ cls e := by
  simp [about]

/-- Main refinement lemma, from a model that already carries one condition at the place. -/
theorem run_at_one (h : List (Call K)) (bcs : List (Cond K)) (cls : Cls) (e : K) (c₀ : Cond K)
    (h0 : at' bcs cls e = [c₀]) :
    ∃ c, at' (run bcs h) cls e = [c] ∧ c.cls = cls ∧ c.elevation = e ∧
      ∀ a, c.get a = lastWrite (c₀.get a) ((about h cls e).map (fun k => arg k a)) := by
  induction h generalizing bcs c₀ with
  | nil =>
    refine ⟨c₀, h0, ?_, ?_, fun a => rfl⟩
    · have : c₀ ∈ at' bcs cls e := by rw [h0]; simp
      exact ((isAt_iff _ _ _).1 (List.mem_filter.1 this).2).2
    · have : c₀ ∈ at' bcs cls e := by rw [h0]; simp
      exact ((isAt_iff _ _ _).1 (List.mem_filter.1 this).2).1
  | cons k h ih =>
    have hrun : run bcs (k :: h) = run (step bcs k) h := rfl
    rw [hrun]
    by_cases hk : kind k = cls ∧ elev k = e
    · obtain ⟨hk1, hk2⟩ := hk
      have h1 : at' (step bcs k) cls e =
          [c₀.overwrite (arg k .x) (arg k .y) (arg k .z)] := by
        rw [step_eq, ← hk1, ← hk2, at'_update_same, hk1, hk2, h0]; simp
      obtain ⟨c, hc1, hc2, hc3, hc4⟩ := ih _ _ h1
      refine ⟨c, hc1, hc2, hc3, fun a => ?_⟩
      rw [hc4 a, about_cons, if_pos ⟨hk1, hk2⟩, overwrite_get]
      exact (lastWrite_append _ [arg k a] _).symm
    · have h1 : at' (step bcs k) cls e = [c₀] := by
        rw [step_eq, at'_update_other _ _ _ _ _ _ _ _ hk, h0]
      obtain ⟨c, hc1, hc2, hc3, hc4⟩ := ih _ _ h1
      refine ⟨c, hc1, hc2, hc3, fun a => ?_⟩
      rw [hc4 a, about_cons, if_neg hk]

/-- Main refinement lemma, from a model that carries no condition at the place. -/
theorem run_at_zero (h : List (Call K)) (bcs : List (Cond K)) (cls : Cls) (e : K)
    (h0 : at' bcs cls e = []) :
    (about h cls e = [] ∧ at' (run bcs h) cls e = []) ∨
    (about h cls e ≠ [] ∧ ∃ c, at' (run bcs h) cls e = [c] ∧ c.cls = cls ∧ c.elevation = e ∧
      ∀ a, c.get a = lastWrite none ((about h cls e).map (fun k => arg k a))) := by
  induction h generalizing bcs with
  | nil => exact Or.inl ⟨rfl, h0⟩
  | cons k h ih =>
    have hrun : run bcs (k :: h) = run (step bcs k) h := rfl
    rw [hrun]
    by_cases hk : kind k = cls ∧ elev k = e
    · obtain ⟨hk1, hk2⟩ := hk
      right
      have h1 : at' (step bcs k) cls e =
          [{ cls := cls, elevation := e, x := arg k .x, y := arg k .y, z := arg k .z }] := by
        rw [step_eq, ← hk1, ← hk2, at'_update_same, hk1, hk2, h0]; simp
      obtain ⟨c, hc1, hc2, hc3, hc4⟩ := run_at_one h _ _ _ _ h1
      refine ⟨by rw [about_cons, if_pos ⟨hk1, hk2⟩]; simp, c, hc1, hc2, hc3, fun a => ?_⟩
      rw [hc4 a, about_cons, if_pos ⟨hk1, hk2⟩, List.map_cons]
      cases a
      · cases hh : arg k .x <;> simp [Cond.get, lastWrite, hh]
      · cases hh : arg k .y <;> simp [Cond.get, lastWrite, hh]
      · cases hh : arg k .z <;> simp [Cond.get, lastWrite, hh]
    · rw [about_cons, if_neg hk]
      apply ih
      rw [step_eq, at'_update_other _ _ _ _ _ _ _ _ hk, h0]

theorem lastWrite_some {α : Type} (v : α) (l : List (Option α)) :
    ∃ w, lastWrite (some v) l = some w := by
  induction l generalizing v with
  | nil => exact ⟨v, rfl⟩
  | cons o l ih =>
    cases o with
    | none => exact ih v
    | some u => exact ih u

/-! ### `validate_bc` -/

theorem dedup_length_eq_iff {α : Type} [DecidableEq α] (l : List α) :
    l.dedup.length = l.length ↔ l.Nodup := by
  constructor
  · intro h
    have := (List.dedup_sublist l).eq_of_length h
    rw [← this]; exact List.nodup_dedup l
  · intro h; rw [h.dedup]

theorem axisConflict_iff (bcs : List (Cond K)) (cls : Cls) (a : Axis) :
    axisConflict bcs cls a = true ↔
      ∃ c ∈ bcs, ∃ d ∈ bcs, c.cls = cls ∧ d.cls = cls ∧ c.elevation = d.elevation ∧
        c.get a ≠ d.get a := by
  unfold axisConflict
  set cl := (bcs.filter (fun c => decide (c.cls = cls))).map (fun c => (c.elevation, c.get a)) with hcl
  have hmem : ∀ p, p ∈ cl.dedup ↔ ∃ c ∈ bcs, c.cls = cls ∧ (c.elevation, c.get a) = p := by
    intro p
    rw [List.mem_dedup, hcl]
    simp only [List.mem_map, List.mem_filter, decide_eq_true_eq]
    constructor
    · rintro ⟨c, ⟨h1, h2⟩, h3⟩; exact ⟨c, h1, h2, h3⟩
    · rintro ⟨c, h1, h2, h3⟩; exact ⟨c, ⟨h1, h2⟩, h3⟩
  have key : ((cl.dedup.map Prod.fst).Nodup) ↔
      ∀ p ∈ cl.dedup, ∀ q ∈ cl.dedup, p.1 = q.1 → p = q := by
    rw [List.nodup_map_iff_inj_on (List.nodup_dedup cl)]
  have key2 : (∃ c ∈ bcs, ∃ d ∈ bcs, c.cls = cls ∧ d.cls = cls ∧ c.elevation = d.elevation ∧
        c.get a ≠ d.get a) ↔ ¬ (cl.dedup.map Prod.fst).Nodup := by
    rw [key]
    constructor
    · rintro ⟨c, hc, d, hd, h1, h2, h3, h4⟩ hall
      have := hall _ ((hmem _).2 ⟨c, hc, h1, rfl⟩) _ ((hmem _).2 ⟨d, hd, h2, rfl⟩) h3
      exact h4 (Prod.ext_iff.1 this).2
    · intro hn
      by_contra hcon
      apply hn
      intro p hp q hq hpq
      obtain ⟨c, hc, h1, rfl⟩ := (hmem _).1 hp
      obtain ⟨d, hd, h2, rfl⟩ := (hmem _).1 hq
      by_contra hne
      apply hcon
      refine ⟨c, hc, d, hd, h1, h2, hpq, fun h => hne ?_⟩
      exact Prod.ext hpq h
  rw [key2, ← dedup_length_eq_iff]
  simp only [gt_iff_lt]
  split
  · simp
  · rename_i hlt
    simp only [Bool.false_eq_true, false_iff, not_not]
    have : cl.dedup.length ≤ 1 := not_lt.1 hlt
    rw [dedup_length_eq_iff]
    match hh : cl.dedup, this with
    | [], _ => simp
    | [p], _ => simp

/-! ### `apply_bc` -/

theorem writeAxis_length {β : Type} (store : Val K → β) (arr : List β) (i : ℕ) (v : Option (Val K)) :
    (writeAxis store arr i v).length = arr.length := by
  unfold writeAxis
  split
  · split <;> simp
  · rfl

theorem writeAxis_get_ne {β : Type} (store : Val K → β) (arr : List β) (i j : ℕ) (v : Option (Val K))
    (h : i ≠ j) : (writeAxis store arr i v)[j]? = arr[j]? := by
  unfold writeAxis
  split
  · split
    · rw [List.getElem?_set_ne h]
    · rfl
  · rfl

theorem applyOne_get {β : Type} (store : Val K → β) (nodes : List K) (cls : Cls) (g : Nodal β)
    (c : Cond K) (a : Axis) :
    (applyOne store nodes cls g c).get a =
      if c.cls = cls then
        match nodeIdx nodes c.elevation with
        | some i => writeAxis store (g.get a) i (c.get a)
        | none => g.get a
      else g.get a := by
  unfold applyOne
  split
  · cases hn : nodeIdx nodes c.elevation with
    | none => rfl
    | some i => cases a <;> rfl
  · rfl

/-- What a single condition writes to node `i` on axis `a` (nothing: `none`). -/
def writeTo (nodes : List K) (cls : Cls) (i : ℕ) (a : Axis) (c : Cond K) : Option (Val K) :=
  if c.cls = cls ∧ nodeIdx nodes c.elevation = some i then
    (c.get a).filter (fun v => v.truthy)
  else none

theorem applyOne_entry {β : Type} (store : Val K → β) (nodes : List K) (cls : Cls) (g : Nodal β)
    (c : Cond K) (a : Axis) (i : ℕ) (hi : i < (g.get a).length) :
    ((applyOne store nodes cls g c).get a)[i]? =
      match writeTo nodes cls i a c with
      | some v => some (store v)
      | none => (g.get a)[i]? := by
  rw [applyOne_get]
  unfold writeTo
  by_cases hc : c.cls = cls
  · rw [if_pos hc]
    cases hn : nodeIdx nodes c.elevation with
    | none => simp [hc]
    | some j =>
      by_cases hij : j = i
      · subst hij
        simp only [hc, true_and, if_true]
        cases hv : c.get a with
        | none => simp [writeAxis]
        | some v =>
          cases ht : v.truthy <;> simp [writeAxis, Option.filter, ht, hi]
      · simp only [hc, true_and, Option.some.injEq, hij, if_false]
        rw [writeAxis_get_ne _ _ _ _ _ hij]
  · simp [hc]

theorem applyOne_length {β : Type} (store : Val K → β) (nodes : List K) (cls : Cls) (g : Nodal β)
    (c : Cond K) (a : Axis) :
    ((applyOne store nodes cls g c).get a).length = (g.get a).length := by
  rw [applyOne_get]
  split
  · split
    · rw [writeAxis_length]
    · rfl
  · rfl

theorem applyBc_length {β : Type} (store : Val K → β) (nodes : List K) (cls : Cls) (g : Nodal β)
    (bcs : List (Cond K)) (a : Axis) :
    ((applyBc store nodes g bcs cls).get a).length = (g.get a).length := by
  unfold applyBc
  induction bcs generalizing g with
  | nil => rfl
  | cons c bcs ih => rw [List.foldl_cons, ih, applyOne_length]

/-- Entry `i` after `apply_bc`: the last truthy write to that node and axis, if any. -/
theorem applyBc_entry {β : Type} (store : Val K → β) (nodes : List K) (cls : Cls) (g : Nodal β)
    (bcs : List (Cond K)) (a : Axis) (i : ℕ) (hi : i < (g.get a).length) :
    ((applyBc store nodes g bcs cls).get a)[i]? =
      match lastWrite none (bcs.map (writeTo nodes cls i a)) with
      | some v => some (store v)
      | none => (g.get a)[i]? := by
  suffices H : ∀ (bcs : List (Cond K)) (g : Nodal β) (init : Option (Val K)), i < (g.get a).length →
      (∀ v, init = some v → (g.get a)[i]? = some (store v)) →
      ((applyBc store nodes g bcs cls).get a)[i]? =
        match lastWrite init (bcs.map (writeTo nodes cls i a)) with
        | some v => some (store v)
        | none => (g.get a)[i]? by
    exact H bcs g none hi (by simp)
  intro bcs
  induction bcs with
  | nil =>
    intro g init hi hinit
    cases init with
    | none => simp [applyBc, lastWrite]
    | some v => simpa [applyBc, lastWrite] using hinit v rfl
  | cons c bcs ih =>
    intro g init hi hinit
    have hstep : applyBc store nodes g (c :: bcs) cls =
        applyBc store nodes (applyOne store nodes cls g c) bcs cls := rfl
    have hlen : i < ((applyOne store nodes cls g c).get a).length := by
      rw [applyOne_length]; exact hi
    have hent := applyOne_entry store nodes cls g c a i hi
    rw [hstep, List.map_cons]
    cases hw : writeTo nodes cls i a c with
    | none =>
      rw [hw] at hent
      simp only [lastWrite]
      rw [ih _ init hlen (by intro v hv; rw [hent]; exact hinit v hv), hent]
    | some v =>
      rw [hw] at hent
      simp only [lastWrite]
      rw [ih _ (some v) hlen (by intro w hw'; cases hw'; exact hent)]
      obtain ⟨w, hw'⟩ := lastWrite_some v (bcs.map (writeTo nodes cls i a))
      rw [hw']

end OpenPile.BC
